def M(file, definition, old, new, edit, claim, **k):
    return dict(file=file, definition=definition, old=old, new=new, edit=edit, claim=claim, **k)
MUTATIONS = [
# command line
M('Model/Main.lean','serverFlags','("org".toList, .text fun v f => { f with org := v }),\n   ("fid".toList, .text fun v f => { f with fid := v }),\n   ("appid"','("org".toList, .text fun v f => { f with fid := v }),\n   ("fid".toList, .text fun v f => { f with org := v }),\n   ("appid"','-org and -fid set each other\'s variable','C65: flags take effect'),
M('Model/Main.lean','Command.flags','| .downloadInv => serverFlags ++ [filenameFlag, acctidFlag, brokeridFlag]','| .downloadInv => serverFlags ++ [filenameFlag, acctidFlag]','-brokerid not defined','C65: flags of the sub-commands'),
M('Model/Main.lean','Command.flags','| .transactionsCC => serverFlags ++ [acctidFlag]','| .transactionsCC => serverFlags ++ [acctidFlag, bankidFlag]','an extra flag','C65: flags of the sub-commands'),
M('Model/Main.lean','defaultFlags','ofxVersion := "203".toList','ofxVersion := "102".toList','another default version','C65: defaults'),
M('Model/Main.lean','defaultFlags','carriageReturn := false, dryrun := false','carriageReturn := true, dryrun := false','another default','C65: defaults'),
M('Model/Main.lean','parseBool','["0", "f", "F", "false", "FALSE", "False"]','["0", "f", "F", "false", "FALSE", "False", "no"]','"no" accepted','C65: spelling of switches'),
M('Model/Main.lean','parseDigits','if n * base + d ≥ 2 ^ 64 then none','if n * base + d > 2 ^ 64 then none','wrong boundary','C65: delays below 2^64'),
M('Model/Main.lean','splitFlag','some ((cs.dropWhile (· ≠ \'=\')).tail)','some (cs.dropWhile (· ≠ \'=\'))','the equals sign is part of the value','C65: -name=value'),
M('Model/Main.lean','flagBody',"  | '-' :: '-' :: s => some s\n",'','two dashes not recognised','C65: --name'),
M('Model/Main.lean','flagBody',"  | ['-'] => none\n",'','a single dash is a flag','C65: what is left alone'),
M('Model/Main.lean','parseFlags','| none => parseFlags defs (set true f) rest','| none => parseFlags defs (set false f) rest','a switch without a value turns off','C65: switches'),
M('Model/Main.lean','parseFlags','| none, v :: rest => parseFlags defs (set v f) rest\n          | none, [] => .exit 2\n        | some (.number','| none, _ :: rest => parseFlags defs (set [] f) rest\n          | none, [] => .exit 2\n        | some (.number','the value in the next argument is lost','C65: -name value'),
M('Model/Main.lean','parseFlags','(splitFlag body).1 = "help".toList ∨ (splitFlag body).1 = "h".toList then .exit 0 else .exit 2','(splitFlag body).1 = "help".toList ∨ (splitFlag body).1 = "h".toList then .exit 0 else parseFlags defs f rest','unknown flags ignored','C65: unknown flags are refused'),
M('Model/Main.lean','parseFlags','            | none => .exit 2\n            | some b => parseFlags defs (set b f) rest','            | none => parseFlags defs f rest\n            | some b => parseFlags defs (set b f) rest','bad values of switches ignored','C65: bad values are refused'),
M('Model/Main.lean','commands','.transactionsInv, .detectSettings]','.transactionsInv]','detect-settings missing from the list','C64: every sub-command runs'),
M('Model/Main.lean','runArgs','| .exit n => ⟨[], .exit n, [], []⟩','| .exit _ => ⟨[], .exit 0, [], []⟩','always exits with 0','C65: bad arguments fail'),
M('Model/Main.lean','mainProgram','.toList ++ usage, .exit 1, [], []⟩\n  | _','.toList ++ usage, .exit 0, [], []⟩\n  | _','exit status 0 for an unknown sub-command','C64: exit status'),
M('Model/Main.lean','mainProgram','name = "--help".toList ∨ name = "help".toList then\n        ⟨usage','name = "--help".toList then\n        ⟨usage','help without dashes is an error','C64: asking for help'),
M('Model/Main.lean','Command.description','| .transactionsBank => "Print bank transactions and balance".toList','| .transactionsBank => "Print credit card transactions and balance".toList','wrong description','C64: list of sub-commands'),
M('Model/Main.lean','usage','padRight maxNameLen c.name ++ "    ".toList ++ c.description','padRight maxNameLen c.name ++ "    ".toList','descriptions missing','C64: list of sub-commands'),
# dates from numbers
M('Model/NewDate.lean','norm','if a.2 ≥ base then','if a.2 > base then','wrong boundary','C66: carrying'),
M('Model/NewDate.lean','norm','((-lo - 1).tdiv base + 1), lo +','((-lo).tdiv base + 1), lo +','negative multiples carried once too often','C66: carrying'),
M('Model/NewDate.lean','newDate','norm year (month - 1) 12','norm year month 12','months counted from 1','C66: carrying'),
M('Model/NewDate.lean','newDate','ym.2 + 1 ≥ 3 then 1','ym.2 + 1 ≥ 2 then 1','leap day inserted before February','C66: instants'),
M('Model/NewDate.lean','newDate','if utc < (loc wall).start ∨ utc ≥ (loc wall).stop then (loc utc).off else (loc wall).off','(loc wall).off','second lookup dropped','C66: locations whose clocks change'),
M('Model/NewDate.lean','newDate','utc ≥ (loc wall).stop','utc > (loc wall).stop','wrong boundary','C66: locations whose clocks change'),
M('Model/NewDate.lean','newDate','let t := wall - off','let t := wall + off','sign of the offset swapped','C66: instants'),
M('Model/NewDate.lean','newDate','(loc t).name, (loc t).off⟩','(loc t).name, off⟩','the offset used rather than the one in force','C66: offset in force'),
M('Model/NewDate.lean','gmt','fixedZone "GMT".toList 0','fixedZone "UTC".toList 0','another name','C66: NewDateGMT is printed with [0:GMT]'),
# printing of elements
M('Codec/Text.lean','escapeChar',"else if c = '&' then \"&amp;\".toList\n",'','ampersand not escaped','C39: texts survive'),
M('Codec/Text.lean','escapeChar',"else if c = '\\r' then \"&#xD;\".toList\n",'','carriage return not escaped','C39: texts survive'),
M('Codec/Text.lean','escapeChar','"&lt;".toList','"&gt;".toList','wrong entity','C39: texts survive'),
M('Codec/Text.lean','lineBreak','List.replicate (4 * depth)','List.replicate (2 * depth)','two spaces per level','C58: layout'),
M('Codec/Text.lean','lineBreak',"if o.carriageReturn then ['\\r', '\\n'] else ['\\n']","['\\n']",'carriage returns dropped','C58: line ends'),
M('Codec/Text.lean','renderNode','(if o.openLeaves && leafElements.contains n then []','(if leafElements.contains n then []','leaves never closed','C39: XML documents are well formed'),
M('Codec/Text.lean','renderNode','(if first then [] else lineBreak o depth)','(lineBreak o depth)','a line break before the first tag','layout'),
M('Codec/Text.lean','Doc.text','d.header ++ renderNode','renderNode','header not written','C28/C39: documents are decodable'),
# marshalling of responses
M('Model/Marshal.lean','Response.marshal','openLeaves := false','openLeaves := decide (r.version < ofxVersion200)','leaves left open in SGML responses','layout of responses'),
M('Model/Marshal.lean','Response.marshal','match r.signon.valid r.version with\n  | some e => (.error (.plain e), r)\n  | none =>','match (none : Option String) with\n  | some e => (.error (.plain e), r)\n  | none =>','signon not validated','C24/C26: invalid parts are not written'),
M('Model/Marshal.lean','Response.marshal','encodeSets r.version .rs MsgSet.lists r.sets','encodeSets r.version .rs (MsgSet.lists.drop 1) r.sets','first list not written','C25: all messages are written'),
M('Model/Marshal.lean','Request.marshal',':: rest) },\n         { r with signon := so, sets := f })',':: rest) },\n         r)','changes made by Valid lost','C27: defaults are filled in'),
M('Model/Marshal.lean','Request.marshal','indent := r.indent, carriageReturn := r.carriageReturn,','indent := r.carriageReturn, carriageReturn := r.indent,','options swapped','C58: layout'),
M('Model/Marshal.lean','Request.marshal','decide (r.version < ofxVersion200)','decide (r.version ≤ ofxVersion200)','version 200 written with open leaves','C58/C39: layout'),
M('Model/Marshal.lean','crlf',"if c = '\\n' then ['\\r', '\\n'] else [c]","if c = '\\n' then ['\\r'] else [c]",'CR only','C28: headers'),
M('Model/Marshal.lean','addMessageErrs','addMessageErrs version (addErr errs (MessageImpl.valid version m).1) ms','addErr errs (MessageImpl.valid version m).1','only the first message of a list validated','C36: every invalid message is reported'),
M('Model/Marshal.lean','errOrNil','if errs.length > 0 then','if errs.length > 1 then','a single error is dropped','C36: invalid responses are reported'),
M('Model/Marshal.lean','Err.error','"Validation failed: " ++ String.intercalate "; "','"Validation failed: " ++ String.intercalate ", "','another separator','C50: error text'),
M('Model/Marshal.lean','setOfName','(MsgType.rs s).string == n','(MsgType.rq s).string == n','request sets accepted in responses','C33: sets'),
M('Model/Marshal.lean','decodeMessageSet','mapE (decodeMessageNode env set) (cs.filter (fun c => !isBlank c))','mapE (decodeMessageNode env set) cs','white space between messages refused','C58: white space does not matter'),
M('Model/Marshal.lean','decodeOfx','if n = "OFX".toList then','if true then','any root element accepted','C33: the root is OFX'),
M('Model/Marshal.lean','decodeOfxChildren','if sn = (MsgType.rs .signon).string then','if true then','any first element accepted as signon','C33: signon first'),
# decoding
M('Model/Decode.lean','parseResponse','| .ok r => (some r, r.valid)','| .ok r => (some r, none)','response not validated','C35: ParseResponse reports invalid responses'),
M('Model/Decode.lean','parseResponse','| .error e => (none, some (.plain e))','| .error _ => (none, none)','error dropped','C35'),
M('Model/Decode.lean','decodeResponse','lex true nt (utf8Decode bs)','lex false nt (utf8Decode bs)','XML documents read as SGML','C34: XML documents must be well formed'),
M('Model/Decode.lean','decodeBody','match skipBlank toks with','match toks with','white space before OFX refused','C58'),
# validity
M('Model/Valid.lean','UID check','blen r.UserID < 1 ∨ blen r.UserID > 32','blen r.UserID > 32','user id not required','C23'),
]
