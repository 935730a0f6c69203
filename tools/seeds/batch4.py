def M(file, definition, old, new, edit, claim, **k):
    return dict(file=file, definition=definition, old=old, new=new, edit=edit, claim=claim, **k)
MUTATIONS = [
# lexer and tree builder against the grammar
M('Codec/Lexer.lean','afterComment',"      | '-' :: _ => none\n",'','two dashes inside a comment are let through','C76: comments do not contain two dashes'),
M('Codec/Lexer.lean','dirPlain','    | d + 1 => some (.plain, d)','    | _ + 1 => none','a directive ends at the first angle bracket','C76: angle brackets nest in directives'),
M('Codec/Lexer.lean','afterAttrs','| \'>\' :: r\' => some (true, r\')','| \'>\' :: r\' => some (false, r\')','an empty-element tag is left open','C76: empty-element tags'),
M('Codec/Lexer.lean','lexBang','if (normLines t).all isXmlChar then some ([.text (normLines t)], rest) else none','some ([.text (normLines t)], rest)','control characters allowed in CDATA sections','C76: characters of CDATA sections'),
M('Codec/Lexer.lean','lexBang','some ([.text (normLines t)], rest)','some ([.text t], rest)','line ends in CDATA sections not normalised','C76: line ends of CDATA sections'),
M('Codec/Lexer.lean','lexProc','if procOk target inst then some ([.proc target inst], r\') else none','some ([.proc target inst], r\')','the version of the xml declaration is not checked','C76: no other XML version than 1.0'),
M('Codec/Tree.lean','closes','| .stop n => n == name || !strict','| .stop n => n == name','SGML elements are not closed by other end tags','C76: elements left open in SGML'),
M('Codec/Tree.lean','build','| p :: ps => build strict (p.1, .elem top.1 top.2.reverse :: p.2) ps (t :: rest)','| p :: ps => build strict (p.1, .elem top.1 top.2.reverse :: p.2) ps rest','the tag that closes a leaf element is swallowed','C76: elements left open in SGML'),
M('Codec/Tree.lean','build','| .proc _ _ => build strict (top.1, .misc :: top.2) parents rest','| .proc _ _ => .error "instruction"','instructions inside elements refused','C76: instructions between tags'),
# amounts
M('Model/Amount.lean','scanLoop','invalSep := st.invalSep || decide (st.prev = .us) } cs','invalSep := st.invalSep } cs','underscore before the point allowed','C73: underscores only between digits'),
M('Model/Amount.lean','scanFinish','let bad := r.1.invalSep || decide (r.1.prev = .us)','let bad := r.1.invalSep','underscore at the end allowed','C73: underscores only between digits'),
M('Model/Amount.lean','natScan','else if !fracOk then scanFinish 8 true','else if !fracOk then scanFinish 10 true','leading zeros of fractions are decimal digits','C73: octal numerators (the notation of Go)'),
M('Model/Amount.lean','ratSetString','if b.rest ≠ [] ∨ b.val = 0 then none','if b.rest ≠ [] then none','zero denominators accepted','C73: denominators are not zero'),
M('Model/Amount.lean','ratSetString','else (d * 4, 0)','else (d, 0)','hexadecimal fractions count as binary','C73: hexadecimal fractions'),
M('Model/Amount.lean','scanExponent',"let base := if c = 'e' ∨ c = 'E' then 10 else 2","let base := 10",'p is an exponent of ten','C73: exponents of two'),
# dates
M('Model/Date.lean','parseNumTZ','if hr > 24 ∨ mm > 60 then none','if hr > 23 ∨ mm > 60 then none','offsets of 24 hours refused','C74: offsets up to 24 hours'),
M('Model/Date.lean','parseTimeZone',"(if u.getLast? = some 'T' ∨ u = \"WITA\".toList then some 4 else none)","(if u.getLast? = some 'T' then some 4 else none)",'WITA is no zone name','C74: zone names Go can read'),
M('Model/Date.lean','implicitFrac','(parseNanos ds).map (fun n => (n, (d :: r).dropWhile isDigit))','(parseNanos ds).map (fun n => (0, (d :: r).dropWhile isDigit))','fraction dropped','C74: fractions of seconds'),
M('Model/Date.lean','parseChunk','if 60 ≤ n then none else some ({ st with minute := n }, r)','if 60 < n then none else some ({ st with minute := n }, r)','minute 60 accepted','C74: minutes'),
M('Model/Date.lean','parseFinish','if l.2 = o ∧ (st.zone = [] ∨ l.1 = st.zone) then some ⟨t, l.1, o⟩','if st.zone = [] then some ⟨t, l.1, o⟩','nameless offsets always get the local name','C74: nameless offsets'),
# what elements say
M('Codec/Decode.lean','Ty.dec','match t.dec env ((show Option t.Den from v).getD t.zero) name cs with','match t.dec env t.zero name cs with','a repeated element starts from scratch','C75: repeated elements'),
M('Codec/Decode.lean','Ty.dec','| .ok x => .ok ((show List t.Den from v) ++ [x])','| .ok x => .ok ([x] ++ (show List t.Den from v))','lists are reversed','C75: order of lists'),
M('Codec/Decode.lean','Fields.events','else if fs.under (p ++ [n]) then fs.eventsL (p ++ [n]) cs\n    else [.junk]','else if fs.under (p ++ [n]) then fs.eventsL (p ++ [n]) cs\n    else fs.eventsL p cs','the insides of unknown elements are read','C75: unknown elements'),
M('Codec/Decode.lean','onlyChild','  match cs.filter (fun c => !isBlank c) with\n  | [','  match cs.filter (fun c => match c with | .elem _ _ => true | _ => false) with\n  | [','text next to message set elements ignored','C75: message set lists'),
M('Codec/Decode.lean','Alts.dec','| .alt dec _ t rest, n, cs =>\n    if n == dec then','| .alt dec enc t rest, n, cs =>\n    if n == enc then','elements of lists told apart by the names they are written with','C75: kinds of list elements'),
M('Codec/Schema.lean','Leaf.parse','| .uid, s => ','| .uid, s => (fun _ => ','placeholder','C75: skip'),
M('Model/Marshal.lean','decodeSignon','decodeNew','decodeNew','placeholder','C75: skip'),
# goroutines
M('Model/Concurrent.lean','setClientFieldsProg','.set a (fun r => { r with signon := { r.signon with AppVer := b3.version } }) <|\n','','AppVer is not set','C72: what each goroutine sends'),
M('Model/Concurrent.lean','messagesProg','(r.sets s).modify i fun m => (MessageImpl.valid version m).2','(r.sets s).modify 0 fun m => (MessageImpl.valid version m).2','the first message is changed instead of the one validated','C72: what is left in requests'),
M('Model/Concurrent.lean','sendProg','.get a fun r => .send (.retry r.url d.bytes resp.cookies) k','.get a fun r => .send (.retry r.url d.bytes []) k','cookies are not sent again','C72: what each goroutine does on the network'),
M('Model/Concurrent.lean','requestProg','| (_, some e) => .close resp.id (.ret (none, some e))','| (_, some e) => .ret (none, some e)','the body is not closed after a parse error','C72: what each goroutine does on the network'),
M('Model/Concurrent.lean','marshalProg','.set a (fun r => { r with signon := (r.signon.valid r6.version).2 }) <|\n','','the default language is not stored','C72: what is left in requests'),
# delivery
M('Model/Delivery.lean','Client.requestOver','| (_, some e) => ((none, some e), r, tr ++ [.closed resp.id])','| (res, some _) => ((res, none), r, tr ++ [.closed resp.id])','errors of parsing dropped','C69: broken downloads are errors'),
M('Model/Delivery.lean','Client.requestOver','| (_, some e) => ((none, some e), r, tr ++ [.closed resp.id])','| (_, some e) => ((none, some e), r, tr)','body not closed','C69: as with the whole body'),
# requests used again
M('Model/Marshal.lean','encodeMessages','(.ok (ns ++ rest), m\' :: ms\')','(.ok (ns ++ rest), m :: ms\')','what Valid changed is forgotten','C67: a request may be sent again'),
]
MUTATIONS += [
M('Gen/Accessors.lean','Position.InvPosition','  | .optPosition v => v.InvPos\n','  | .optPosition _ => default\n','options say nothing about themselves','C68: what positions say'),
M('Gen/Accessors.lean','OpenOrder.OrderType','| .ooSwitchMF _ => "SWITCHMF".toList','| .ooSwitchMF _ => "OOSWITCHMF".toList','another name for switches','C68: kinds of orders'),
]
MUTATIONS = [m for m in MUTATIONS if 'skip' not in m['claim']]
