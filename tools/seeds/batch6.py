def M(file, definition, old, new, edit, claim, **k):
    return dict(file=file, definition=definition, old=old, new=new, edit=edit, claim=claim, **k)
MUTATIONS = [
# passwords
M('Model/Valid.lean','SignonRequest.valid','(some "SONRQ>USERPASS invalid length", r)','(some ("SONRQ>USERPASS invalid length: \\"" ++ String.ofList r.UserPass ++ "\\""), r)','a password that is too long is quoted in the error','C82: errors do not quote passwords'),
M('Model/Cli.lean','checkServerFlags','| some p => (out1 ++ out2 ++ ask, ret,','| some p => (out1 ++ out2 ++ ask ++ p, ret,','the password typed in is echoed','C82: passwords typed in are not shown'),
M('Model/Cli.lean','newRequest','signon := ⟨GoTime.zero, f.username, f.password, [], false, [], f.org, f.fid, [], [], f.clientUID⟩ })','signon := ⟨GoTime.zero, f.username, f.password, [], false, [], f.org, f.fid, [], [], f.password⟩ })','the password is also sent as the client UID','C62: requests are what the flags say'),
M('Model/Cli.lean','checkServerFlags','if ret && blen f.password = 0 then','if ret then','the password is asked for even if given as a flag','C61: prompts'),
# places
M('Model/Date.lean','parseFinish','if l.2 = o ∧ (st.zone = [] ∨ l.1 = st.zone) then','if l.2 = o then','the abbreviation in the document is replaced by the local one','C83: only missing abbreviations are supplied'),
M('Model/Date.lean','parseFinish','if l.2 = o ∧ (st.zone = [] ∨ l.1 = st.zone) then some ⟨t, l.1, o⟩','if st.zone = [] ∨ l.1 = st.zone then some ⟨t, l.1, l.2⟩','dates without abbreviation are shown in local time','C83: offsets do not depend on the machine'),
M('Model/Date.lean','Date.unmarshal','tryFormats loc [.blank, .numTZ, .blank, .tz] (value ++ " +0000 GMT".toList) ofxDateFormats','tryFormats loc [.blank, .numTZ] (value ++ " +0000".toList) ofxDateFormats','dates without zone have no abbreviation','C16: dates without zone are GMT'),
M('Model/Date.lean','Date.unmarshal','tryFormats loc [.blank, .numTZ, .blank, .tz] (value ++ " +0000 GMT".toList) ofxDateFormats','tryFormats loc [.blank, .numTZ, .blank, .tz] (value ++ " +0000 GMT".toList) (ofxDateFormats.take 4)','dates without zone need an hour','C74: notations of dates'),
M('Model/Valid.lean','TransactionList.valid','if Date.equal l.DtStart emptyDate then','if l.DtStart.zone = [] then','lists starting at a date without abbreviation are invalid','C83: validity does not depend on the machine'),
# lines and files
M('Model/Cli.lean','transactionLine',"++ [' '] ++ name ++ ['\\n']","++ [' '] ++ name",'the lines of a listing are not ended','C84: a line for each transaction'),
M('Model/Cli.lean','printBank','| some l => forPrint (printTransaction stmt.CurDef) l.Transactions\n  | _ :: _ => say []\n\n/-- cctransactions.go 67-83','| some l => forPrint (printTransaction stmt.CurDef) l.Transactions.tail\n  | _ :: _ => say []\n\n/-- cctransactions.go 67-83','the first transaction is left out','C84: a line for each transaction'),
M('Model/Disk.lean','FileOp.on','if n = name then some [] else d n','if n = name then some ((d n).getD []) else d n','files are opened for appending instead of emptied','C85: after success the file has exactly the answer'),
M('Model/Disk.lean','fileOps','.create p.1 :: (cut p.2).map (.append p.1)','(cut p.2).map (.append p.1)','the file is not created','C85: after success the file has exactly the answer'),
M('Model/Disk.lean','fileOps','.create p.1 :: (cut p.2).map (.append p.1)','.create p.1 :: ((cut p.2).reverse).map (.append p.1)','pieces are written in the wrong order','C85: the file has the beginning of the answer'),
M('Model/Disk.lean','FileOp.on','| .create name => fun n => if n = name then some [] else d n','| .create name => fun _ => some []','creating a file empties all files','C85: other files are untouched'),
# answers that get through, usable flags, sizes
M('Model/Client.lean','vanguardRetry','post net defaultHttpClient url [contentType] cookies body tr with','post net defaultHttpClient url [contentType] cookies.tail body tr with','one of the cookies is not sent back','C87: Vanguard gives its answer to who comes back with the cookies'),
M('Model/Client.lean','Client.requestNoParse','if resp.contentLength ≤ 0 ∧ resp.cookies.length > 0 then','if resp.contentLength ≤ 0 ∧ resp.cookies.length > 0 ∧ resp.status = 200 then','no second try after an error status','C87: cookies come with whatever status'),
M('Model/Client.lean','discoverPost','if body ≠ [] ∧ written.length < headers.length + body.length then (none, tr)','if body ≠ [] ∧ written.length ≤ headers.length + body.length then (none, tr)','a complete write counts as short','C87: every client gets the answer'),
M('Model/Client.lean','checkStatus','if resp.status ≠ 200 then\n    (some resp','if resp.status ≠ 200 ∨ resp.contentLength < 0 then\n    (some resp','answers of unknown length are errors','C87: an answer with status 200 gets through'),
M('Model/Cli.lean','prepareBank','| .ok _ =>\n    match enumAcctType.new f.acctType with','| .ok _ =>\n    match enumAcctType.new (f.acctType.map Char.toUpper) with','kinds of accounts may be in lower case','C88: other flags send nothing'),
M('Model/Client.lean','BasicClient.id','if blen c.AppID > 0 then c.AppID','if blen c.AppID > 1 then c.AppID','an app id of one letter is replaced','C43: defaults replace only missing settings'),
M('Model/Valid.lean','SignonRequest.valid','blen r.UserPass > 32','blen r.UserPass > 31','passwords of 32 bytes are refused','C88: flags of allowed sizes work'),
M('Model/Cli.lean','saveCommand','if !w.creatable f.filename then','if !w.creatable f.filename || resp.body.isEmpty then','empty answers are not saved','C88: a command that saves saves what the server answered'),
M('Model/Cli.lean','showCommand','if (print resp).panics then .panic else .exit 0','if (print resp).panics then .panic else .exit 1','success is reported as failure','C88: a command that shows exits with status 0'),
]
