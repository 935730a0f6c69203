def M(file, definition, old, new, edit, claim, **k):
    return dict(file=file, definition=definition, old=old, new=new, edit=edit, claim=claim, **k)
MUTATIONS = [
# posts
M('Model/Client.lean','contentType','"application/x-ofx".toList)\n','"text/plain".toList)\n','posts are declared plain text','C79: content type of posts'),
M('Model/Client.lean','BasicClient.userAgentHeader','if c.UserAgent ≠ [] then [("User-Agent", c.UserAgent)] else []','if c.UserAgent ≠ [] then [("User-Agent", c.AppID)] else []','the application is sent as the user agent','C79: the user agent set is named'),
M('Model/Client.lean','BasicClient.userAgentHeader','if c.UserAgent ≠ [] then [("User-Agent", c.UserAgent)] else []','[("User-Agent", c.UserAgent)]','an empty user agent is sent','C79: no user agent unless one is set'),
M('Model/Client.lean','BasicClient.rawRequest','post net (c.HTTPClient.getD defaultHttpClient) url','post net defaultHttpClient url','the HTTP client set is ignored','C79: the HTTP client set decides about redirections'),
M('Model/Client.lean','httpLoop','            | .useLast => (some resp, tr)','            | .useLast => (none, tr ++ [.closed resp.id])','ErrUseLastResponse treated as an error','C79: a client may use the last response'),
M('Model/Client.lean','post','httpDo net hc ⟨"POST", url, headers, cookies, body, 0⟩ tr','httpDo net hc ⟨"PUT", url, headers, cookies, body, 0⟩ tr','documents are put, not posted','C79: the method is POST'),
M('Model/Client.lean','vanguardRetry','[contentType] cookies body tr','[contentType] [] body tr','the cookies are not sent with the second post','C45: cookies of the second post'),
M('Model/Client.lean','discoverPost','if u.path = [] then [\'/\'] else u.path','u.path','an empty path is sent as it is','C48: requests of the Discover client'),
M('Model/Client.lean','checkStatus','if resp.status ≠ 200 then\n    (some resp','if resp.status ≥ 400 then\n    (some resp','redirections and 2xx other than 200 accepted','C47: only status 200 is a success'),
M('Model/Client.lean','Client.requestNoParse','if resp.contentLength ≤ 0 ∧ resp.cookies.length > 0 then','if resp.contentLength ≤ 0 ∨ resp.cookies.length > 0 then','posts twice whenever there are cookies','C45: when the second post is made'),
# lines printed
M('Model/Cli.lean','invCurrency','  | none => c.CurSym\n  | some _ => curDef','  | none => curDef\n  | some _ => curDef','the currency of investment transactions is ignored','C60: currency of investment lines'),
M('Model/Cli.lean','printInvSell','Amount.string s.Total ++ ")\\n".toList','Amount.string s.Units ++ ")\\n".toList','the total of sales is their number of units','C60: totals of sales'),
M('Model/Cli.lean','invTransactionText','enumText enumSubAcctType t.SubAcctFrom ++ " -> ".toList ++ enumText enumSubAcctType t.SubAcctTo ++ ")\\n".toList\n  | .jrnlSec','enumText enumSubAcctType t.SubAcctTo ++ " -> ".toList ++ enumText enumSubAcctType t.SubAcctFrom ++ ")\\n".toList\n  | .jrnlSec','subaccounts of journaled funds swapped','C60: direction of journaled funds'),
M('Model/Cli.lean','printInv','if bal.AvailCash.den = 1 ∧ bigInt64 bal.AvailCash.num ≠ 0 then','if bal.AvailCash ≠ 0 then','fractional balances are printed','C60: exactly which balances are printed'),
M('Model/Cli.lean','printInv','forPrint (printInvTransaction stmt.CurDef) l.InvTransactions','forPrint (printInvTransaction stmt.CurDef) (l.InvTransactions.drop 1)','the first investment transaction is skipped','C60: all investment transactions are printed'),
M('Model/Cli.lean','transactionName','      | some p => p.Name\n      | none => []','      | some p => p.Addr1\n      | none => []','the address of the payee is printed','C60: names of transactions'),
M('Model/Cli.lean','accountText','c.CCAcctFrom.AcctID ++ "\\"\\n".toList','c.CCAcctFrom.AcctKey ++ "\\"\\n".toList','the key of card accounts is printed','C60: accounts listed'),
M('Model/Cli.lean','checkSignon','if s.Code ≠ 0 then','if s.Code < 0 then','positive signon statuses are let pass','C59: nonzero signon statuses are failures'),
M('Model/Cli.lean','saveCommand','[(f.filename, written)]⟩\n          else ⟨[], .exit 0, tr ++ [.closed resp.id], [(f.filename, written)]⟩','[(f.filename, written)]⟩\n          else ⟨[], .exit 0, tr, [(f.filename, written)]⟩','the response body is not closed after downloading','C46: bodies are closed'),
M('Model/Cli.lean','detectStep','d.out ++ attemptText f.delay (d.attempts + 1) s,','d.out ++ attemptText f.delay d.attempts s,','attempts are counted from zero','C51: attempts are numbered from one'),
M('Model/Cli.lean','tryProfile','UserID := anonymous, UserPass := anonymous','UserID := anonymous','the password is sent with the anonymous user','C51: anonymous attempts'),
M('Model/Cli.lean','detectStep','tr ++ [.paused (pauseNs f.delay)]⟩','tr⟩','no pause after a failed attempt','C81: pauses'),
M('Model/Cli.lean','pauseNs','wrap64 (wrap64 delay * 1000000)','wrap64 (wrap64 delay * 1000)','the delay is taken as microseconds','C81: length of pauses'),
M('Model/Cli.lean','pauseNs','wrap64 (wrap64 delay * 1000000)','delay * 1000000','delays do not wrap around','C81: long delays'),
# schemas
M('Gen/Schema.lean','BankAcct.fields','.field [] "BRANCHID".toList true (.leaf .str)','.field [] "BRANCHID".toList false (.leaf .str)','the branch of an account is always written','C80: optional elements'),
M('Gen/Schema.lean','BankAcct.fields','  .field [] "ACCTID".toList false (.leaf .str) <|\n  .field [] "ACCTTYPE".toList false (.leaf (.enum enumAcctType)) <|\n  .field [] "ACCTKEY"','  .field [] "ACCTNUM".toList false (.leaf .str) <|\n  .field [] "ACCTTYPE".toList false (.leaf (.enum enumAcctType)) <|\n  .field [] "ACCTKEY"','the account number has another tag','C80, C75: names of elements'),
M('Gen/Schema.lean','BankAcct.toDen','(x.XMLName, x.BankID, x.BranchID, x.AcctID, x.AcctType, x.AcctKey, ())','(x.XMLName, x.BranchID, x.BankID, x.AcctID, x.AcctType, x.AcctKey, ())','bank and branch are swapped when written','C80: which value is in which element'),
M('Codec/Encode.lean','emitGo','','','',''),
]
MUTATIONS = [m for m in MUTATIONS if m['old']]
