def M(file, definition, old, new, edit, claim, **k):
    return dict(file=file, definition=definition, old=old, new=new, edit=edit, claim=claim, **k)
MUTATIONS = [
M('Model/Nil.lean','Entry.type','| .nil => .panic\n  | .nilPtr k => .ret k.type','| .nil => .ret (MsgKind.securityList).type\n  | .nilPtr k => .ret k.type','nil counts as a security list','C100_panics: nil entries panic in all sets'),
M('Model/Nil.lean','Entry.valid','| .nil => .panic\n  | .nilPtr k => if','| .nil => .ret (none, .nil)\n  | .nilPtr k => if','Valid is not called for nil','C100_valid_panics'),
M('Model/Nil.lean','Entry.valid','if k = .securityList then .ret (none, .nilPtr k) else .panic','.ret (none, .nilPtr k)','nil pointers are valid and written as nothing','C100_never_skipped: a request with a nil entry is never marshalled without it'),
M('Model/Nil.lean','encodeEntries','if t ≠ set then','if t = set then','the test of the set is inverted','C100: which entries are refused'),
M('Model/Nil.lean','encodeEntries','  | .ok ns =>\n            (encodeEntries version set es).bind fun r => .ret (r.map (ns ++ ·))','  | .ok ns =>\n            .ret (.ok ns)','only the first message of a set is written','C100_request_partial, C100_never_skipped'),
M('Model/Nil.lean','encodeEntrySets','| .ok ns => (encodeEntrySets version type f ss).bind fun r => .ret (r.map (ns ++ ·))','| .ok ns => .ret (.ok ns)','only the first set is written','C100_request_partial'),
M('Model/Nil.lean','Request.marshalEntries','encodeEntrySets r.version .rq r.sets','encodeEntrySets r.version .rs r.sets','requests are written in sets for responses','C100_request_partial'),
M('Model/Nil.lean','addEntryErrs','| errs, e :: es => (e.valid version).bind fun v => addEntryErrs version (addErr errs v.1) es','| errs, e :: es => (e.valid version).bind fun v => if v.1.isSome then .ret (addErr errs v.1) else addEntryErrs version (addErr errs v.1) es','Valid stops at the first invalid message','C100_valid_panics: entries after an invalid message count too'),
]
