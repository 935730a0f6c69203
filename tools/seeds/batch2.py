def M(file, definition, old, new, edit, claim, **k):
    return dict(file=file, definition=definition, old=old, new=new, edit=edit, claim=claim, **k)
MUTATIONS = [
# survivors of batch 1, after the theorems named were added
M('Model/Amount.lean','Amount.equal','a.num * b.den == b.num * a.den','a.num * a.den == b.num * b.den','cross multiplication swapped (again)','C53: equality of amounts',tightened=['C53_amount_equal']),
M('Model/Enum.lean','EnumTable.new','| (_, some err) => (0, some err)','| (_, some err) => (1, some err)','an error comes with a valid value (again)','C10: failing constructors return the invalid value',tightened=['C10_new_error']),
M('Codec/Encode.lean','trimV1','some (s.take (s.length - 2))','some (s.take (s.length - 1))','suffix cut wrongly (again)','C54: the outer element is named without V1',tightened=['C54_written']),
# command line
M('Model/Cli.lean','Printed.andThen','if a.panics then a else ⟨a.out ++ b.out, b.panics⟩','⟨a.out ++ b.out, b.panics⟩','panic forgotten','C52: crashes'),
M('Model/Cli.lean','transactionName','if blen tran.Name > 0 then tran.Name','if blen tran.Name > 32 then tran.Name','name ignored','C60: names are printed'),
M('Model/Cli.lean','transactionName','" - ".toList ++ tran.Memo','" - ".toList ++ tran.Name','memo not printed','C60: memos are printed'),
M('Model/Cli.lean','transactionCurrency','| some c => c.CurSym','| some _ => defCurrency','own currency of a transaction ignored','C60: currency of transactions'),
M('Model/Cli.lean','transactionLine','padRight 15','padRight 14','column too narrow','C60: layout'),
M('Model/Cli.lean','balanceLine','Amount.string amount ++','Amount.string (-amount) ++','sign of the balance swapped','C60: balance'),
M('Model/Cli.lean','printBank','| some l => forPrint (printTransaction stmt.CurDef) l.Transactions\n  | _ :: _ => say []\n\n/-- cctransactions.go 67','| some l => forPrint (printTransaction stmt.CurDef) l.Transactions.tail\n  | _ :: _ => say []\n\n/-- cctransactions.go 67','first transaction skipped','C60: all transactions'),
M('Model/Cli.lean','printBank','| none => nilDeref\n      | some l => forPrint (printTransaction','| none => say []\n      | some l => forPrint (printTransaction','crash repaired','C52: the theorem proving the crash must fail'),
M('Model/Cli.lean','printCCTransaction','| none => nilDeref\n    | some _ => printTransaction curDef tran','| none => printTransaction curDef tran\n    | some _ => printTransaction curDef tran','crash without payee repaired','C52: characterisation of crashes'),
M('Model/Cli.lean','invCurrency','| none => c.CurSym\n  | some _ => curDef','| none => curDef\n  | some _ => c.CurSym','currencies swapped','C60: currency of investment transactions'),
M('Model/Cli.lean','printInvSell','Amount.string s.Units ++','Amount.string s.UnitPrice ++','price printed instead of units','C60: units'),
M('Model/Cli.lean','invTransactionText','| .sellMF t => printInvSell curDef t.InvSell','| .sellMF _ => []','mutual fund sales not printed','C60: all kinds of transactions'),
M('Model/Cli.lean','invTransactionText','enumText enumSubAcctType t.SubAcctFrom ++ " -> ".toList ++ enumText enumSubAcctType t.SubAcctTo ++ ")\\n".toList\n  | .jrnlSec','enumText enumSubAcctType t.SubAcctTo ++ " -> ".toList ++ enumText enumSubAcctType t.SubAcctFrom ++ ")\\n".toList\n  | .jrnlSec','from and to swapped','C60: direction of journalled funds'),
M('Model/Cli.lean','InvTransaction.transactionType','| .sellOpt _ => "SELLOPT".toList','| .sellOpt _ => "BUYOPT".toList','wrong kind printed','C60: kind of transaction'),
M('Model/Cli.lean','printInv','bigInt64 bal.AvailCash.num ≠ 0','True','zero balances printed','C60: the balance line is left out for zero'),
M('Model/Cli.lean','printInv','(forPrint (printInvBankTransaction stmt.CurDef) l.BankTransactions).andThen <|\n','','bank transactions not printed','C60: bank transactions of investment accounts'),
M('Model/Cli.lean','accountText','++ b.BankAcctFrom.AcctID ++\n','++ b.BankAcctFrom.BankID ++\n','bank id printed twice','C60: account ids'),
M('Model/Cli.lean','checkSignon','if s.Code ≠ 0 then','if s.Code > 15500 then','most signon errors ignored','C59: failed signon gives exit status 1'),
M('Model/Cli.lean','showCommand','| ((_, some e), _, tr) => ⟨onError e, .exit 1, tr, []⟩\n      | ((none, none), _, tr) => ⟨[], .panic, tr, []⟩\n      | ((some resp, none), _, tr) =>\n        match checkSignon','| ((_, some e), _, tr) => ⟨onError e, .exit 0, tr, []⟩\n      | ((none, none), _, tr) => ⟨[], .panic, tr, []⟩\n      | ((some resp, none), _, tr) =>\n        match checkSignon','exit status 0 on errors','C59: exit status'),
M('Model/Cli.lean','saveCommand','if f.dryrun then ⟨printRequest w.net c r, .exit 0, [], []⟩\n    else\n      match c.requestNoParse','if false then ⟨printRequest w.net c r, .exit 0, [], []⟩\n    else\n      match c.requestNoParse','dry run flag ignored by downloads','C57: a dry run sends nothing'),
M('Model/Cli.lean','saveCommand','tr ++ [.closed resp.id], [(f.filename, written)]⟩','tr, [(f.filename, written)]⟩','body left open','C58/C46: bodies are closed'),
M('Model/Cli.lean','saveCommand','if (w.copies f.filename).isSome then','if false then','write errors ignored','C58: incomplete files give an error'),
M('Model/Cli.lean','copied','| none => body\n','| none => body.drop 1\n','first byte lost','C58: the whole body is saved'),
M('Model/Cli.lean','printRequest','(r.setClientFields net.now c.bc).marshal','r.marshal','client fields not set in dry runs','C57: the printed document is the one that would be sent'),
M('Model/Cli.lean','newRequest','⟨ver, f.appID, f.appVer, f.noIndentRequests, f.carriageReturn, f.userAgent, none⟩','⟨ver, f.appVer, f.appID, f.noIndentRequests, f.carriageReturn, f.userAgent, none⟩','application id and version swapped','C62: the document says what the flags say'),
M('Model/Cli.lean','newRequest','f.org, f.fid, [], [], f.clientUID⟩ })','f.fid, f.org, [], [], f.clientUID⟩ })','org and fid swapped','C62: the document says what the flags say'),
M('Model/Cli.lean','prepareBank','⟨[], f.bankID, [], f.acctID, t, []⟩','⟨[], f.acctID, [], f.bankID, t, []⟩','bank and account id swapped','C62: the document says what the flags say'),
M('Model/Cli.lean','prepareCC','none, none, true, false, false⟩)\n\n/-- invtr','none, none, false, false, false⟩)\n\n/-- invtr','transactions not asked for','C62: transactions are asked for'),
M('Model/Cli.lean','prepareInv','⟨[], f.brokerID, f.acctID⟩','⟨[], f.bankID, f.acctID⟩','bank id used as broker id','C62: the document says what the flags say'),
M('Model/Cli.lean','prepareAccounts','.acctInfoRequest ⟨uid, [], [], unixEpoch w⟩','.acctInfoRequest ⟨uid, [], [], GoTime.zero⟩','wrong date','C62: accounts changed since 1970'),
M('Model/Cli.lean','checkServerFlags','!(blen f.serverURL = 0) && !(blen f.username = 0)','!(blen f.username = 0)','missing URL accepted','C61: flags are checked'),
M('Model/Cli.lean','checkServerFlags','{ f with password := p }','f','prompted password dropped','C61: the prompted password is used'),
M('Model/Cli.lean','downloadCheckFlags','if blen f.filename = 0 then','if false then','missing file name accepted','C61: flags are checked'),
M('Model/Cli.lean','downloadProfileCheckFlags','{ f with username := anonymous, password := anonymous }','{ f with username := anonymous }','anonymous password missing','C61: anonymous profile download'),
M('Model/Cli.lean','runCmd','| (out, true, f) => { c.run w f with','| (out, true, _) => { c.run w f with','flags set by the check are lost','C61: flags after the check are used'),
M('Model/Cli.lean','Command.run','| .downloadCC => ccDownload w f','| .downloadCC => download w f','wrong command run','C62: commands ask for the right thing'),
M('Model/Cli.lean','Command.checkFlags','| .downloadBank | .downloadCC | .downloadInv => downloadCheckFlags w f\n','| .downloadBank | .downloadCC => downloadCheckFlags w f\n','file name not checked for investments','C61: flags are checked'),
M('Model/Cli.lean','detectStep','| .ok (true, tr) => .inl ⟨d.out ++ foundText s, .exit 0, tr, []⟩','| .ok (true, tr) => .inr ⟨d.attempts, d.out ++ foundText s, tr⟩','does not stop at the first success','C51: stops at the first success'),
M('Model/Cli.lean','versions','"102".toList, "151".toList, "160".toList','"102".toList, "160".toList','a version not tried','C51: all versions are tried'),
M('Model/Cli.lean','detectSettings','[false, true]) versions','[true]) versions','indentation not tried','C51: both kinds of indentation are tried'),
M('Model/Cli.lean','tryProfile','UserID := anonymous, UserPass := anonymous } } tr with','UserID := anonymous } } tr with','second attempt with the wrong password','C51: the second attempt is anonymous'),
M('Model/Cli.lean','foundText','"\\nOFX Version: ".toList ++ s.version','"\\nOFX Version: ".toList ++ s.appVer','wrong version reported','C51: the settings found are reported'),
# clients
M('Model/Client.lean','redirectBehavior','else if status = 307 ∨ status = 308 then some (method, true)','else if status = 307 then some (method, true)','308 not followed','C56: redirections'),
M('Model/Client.lean','BasicClient.ofxVersion','c.SpecVersion else 8','c.SpecVersion else 5','default version 200','C43: default version 203'),
M('Model/Client.lean','BasicClient.version','else "0001".toList','else []','no default application version','C43: defaults'),
M('Model/Client.lean','getClient','"https://ofx.discovercard.com".toList = trimC \'/\' url','"https://ofx.discovercard.com".toList = url','slashes not trimmed','C44: slashes are ignored'),
M('Model/Client.lean','getClient','then .vanguard bc','then .basic bc','Vanguard client never chosen','C44: special clients'),
M('Model/Client.lean','Request.setClientFields','DtClient := now, ','','client date not set','C43: client fields are set'),
M('Model/Client.lean','Request.setClientFields','indent := !c.NoIndent','indent := c.NoIndent','indentation flag inverted','C43: indentation'),
M('Model/Client.lean','checkStatus','RawResult :=\n  if resp.status ≠ 200 then','RawResult :=\n  if resp.status ≥ 400 then','3xx accepted','C47: any status but 200 is an error'),
M('Model/Client.lean','BasicClient.rawRequest','if !hasPrefix "https://".toList url then ((none, some (.plain refusal)), tr)\n  else\n    post net (c','if !hasPrefix "http".toList url then ((none, some (.plain refusal)), tr)\n  else\n    post net (c','plain http accepted','C42: only https'),
M('Model/Client.lean','BasicClient.rawRequest','post net (c.HTTPClient.getD defaultHttpClient) url','post net defaultHttpClient url','HTTPClient of the user ignored','C43: the HTTP client given is used'),
M('Model/Client.lean','discoverHeaders','natStr length','natStr (length + 1)','content length off by one','C48: framing'),
M('Model/Client.lean','discoverHeaders','Connection: Keep-Alive\\r\\n\\r\\n','Connection: Keep-Alive\\r\\n','empty line missing','C48: framing'),
M('Model/Client.lean','discoverPost',"if u.path = [] then ['/'] else u.path","u.path",'empty path','C48: request target'),
M('Model/Client.lean','discoverPost','if u.port = [] then u.host ++ ":443".toList else u.host','u.host','default port missing','C48: connects to port 443 by default'),
M('Model/Client.lean','discoverRawRequest','| (some resp, tr) =>\n      if resp.status ≠ 200 then','| (some resp, tr) =>\n      if resp.status = 403 then','other errors accepted','C47: any status but 200 is an error'),
M('Model/Client.lean','vanguardRetry','match post net defaultHttpClient url [contentType] cookies body tr with','match post net defaultHttpClient url [contentType] [] body tr with','cookies not sent back','C45: cookies'),
M('Model/Client.lean','Client.requestNoParse','if resp.contentLength ≤ 0 ∧ resp.cookies.length > 0 then','if resp.contentLength ≤ 0 then','retry without cookies','C45: condition for the retry'),
M('Model/Client.lean','Client.requestNoParse','if resp.contentLength ≤ 0 ∧','if resp.contentLength < 0 ∧','boundary','C45: condition for the retry'),
M('Model/Client.lean','Client.request','| (_, some e) => ((none, some e), r, tr ++ [.closed resp.id])','| (_, some e) => ((none, some e), r, tr)','body not closed on parse errors','C46: bodies are closed'),
M('Model/Client.lean','Client.request','| ((_, some e), r, tr) => ((none, some e), r, tr)\n  | ((none, none)','| ((_, some _), r, tr) => ((none, none), r, tr)\n  | ((none, none)','error swallowed','C47: errors are reported'),
# lexer, tree, documents
M('Codec/Lexer.lean','namedEntity','if n = "lt".toList then some \'<\'','if n = "lt".toList then some \'>\'','wrong entity','C37/C49: escaped texts'),
M('Codec/Lexer.lean','normLines',"| '\\r' :: r => '\\n' :: normLines r\n  | c","| '\\r' :: r => normLines r\n  | c",'carriage returns dropped','C37/C49: texts'),
M('Codec/Lexer.lean','textToken','if contains "]]>".toList raw then none','if contains "]]>".toList raw then some []','forbidden text becomes empty','C49/C35: texts'),
M('Codec/Lexer.lean','isXmlSpace',"c == ' ' || c == '\\t' || c == '\\n' || c == '\\r'","c == ' ' || c == '\\t' || c == '\\n'",'carriage return is not white space in tags','C49: white space in tags'),
M('Codec/Lexer.lean','lexStart','some ([.start n, .stop n], r\')','some ([.start n], r\')','empty elements not closed','C49: empty element tags'),
M('Codec/Lexer.lean','lexBang','| some ([], r\') =>\n        match cut "]]>".toList r\' with\n        | some (t, rest) =>\n          if (normLines t).all isXmlChar then some ([.text (normLines t)], rest) else none','| some ([], r\') =>\n        match cut "]]>".toList r\' with\n        | some (t, rest) =>\n          if (normLines t).all isXmlChar then some ([.misc], rest) else none','CDATA dropped','C49: CDATA sections are text'),
M('Codec/Lexer.lean','procOk','|| procParam "version".toList inst == "1.0".toList','','XML 1.0 refused','C37: written documents are read'),
M('Codec/Tree.lean','closes','| .stop n => n == name || !strict','| .stop n => n == name','mismatching end tags never accepted','C49/C34: SGML documents'),
M('Codec/Tree.lean','closes','| _ => !strict && leafElements.contains name','| _ => leafElements.contains name','leaf elements closed in XML too','C35/C49: XML documents'),
M('Codec/Tree.lean','build','| .text s => build strict (top.1, .text s :: top.2) parents rest','| .text _ => build strict (top.1, top.2) parents rest','texts dropped','C37/C49'),
M('Codec/Text.lean','escape',"'&'","'&'",'(placeholder)','-'),
M('Model/Decode.lean','decodeBody','decodeOfx env version root','decodeOfx env 1 root','version lost','C28/C37: version of the response'),
M('Model/Decode.lean','parseResponse','| .ok r => (some r, r.valid)','| .ok r => (some r, none)','no validation','C35: ParseResponse validates'),
M('Model/Decode.lean','decodeResponse','guessVersion (latin1 (bs.take 1024))','guessVersion (latin1 (bs.take 512))','smaller window','C29/C30: header within 1024 bytes'),
M('Model/Bufio.lean','Source.read','(c.drop n, e) :: rest','(c.drop n, none) :: rest','error lost with a split read','C63: errors are reported'),
M('Model/Bufio.lean','Bufio.tryRead','if r.1.1 = [] then tryRead i b\' else b\'','b\'','empty reads end filling','C32: schedules with empty reads'),
M('Model/Bufio.lean','Bufio.peek','(b.buf, { b with err := none })','(b.buf, b)','error kept after Peek','C63: the theorem proving that errors are dropped must fail'),
M('Model/Bufio.lean','Bufio.unreadByte','buf := c :: b.buf','buf := b.buf','byte not unread','C32'),
M('Model/Bufio.lean','decodeReader','b.peek 1024','b.peek 16','window of 16 bytes','C32'),
M('Model/Bufio.lean','Bufio.fill','Bufio.tryRead 100 { b with used := [] }','Bufio.tryRead 100 { b with used := [], buf := [] }','buffered bytes lost when filling','C32'),
]
MUTATIONS = [m for m in MUTATIONS if m['edit'] != '(placeholder)']
