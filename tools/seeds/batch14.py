def M(file, definition, old, new, edit, claim, **k):
    return dict(file=file, definition=definition, old=old, new=new, edit=edit, claim=claim, **k)
F='Model/Listed.lean'
MUTATIONS = [
M(F,'ListEntry.encode','  | .nilPointer => .panic','  | .nilPointer => .ret (.ok [])','nil pointers are skipped','C105 (nothing left out)'),
M(F,'ListEntry.encode','  | .nil => .panic','  | .nil => .ret (.error "nil")','nil entries are refused','C105 (which lists panic)'),
M(F,'ListEntry.encode','  | .pointer _ => .ret (.error "Invalid child type")','  | .pointer x => .ret (enc x)','pointers are written as what they point to','C105 (which lists are refused)'),
M(F,'ListEntry.encode','  | .own => .ret (.error "Invalid child type")','  | .own => .ret (.ok [])','entries of unknown types are skipped: no default case','C105 (nothing left out)'),
M(F,'encodeListed','      | .error e => .ret (.error e)','      | .error _ => encodeListed enc xs','an entry that cannot be written is skipped','C105 (nothing left out)'),
M(F,'encodeListed','.ret (r.map (ns ++ ·))','.ret (r.map (· ++ ns))','entries are written in reverse','C105 (in order)'),
M(F,'encodeListed','.ret (r.map (ns ++ ·))','.ret (.ok ns)','only the first entry is written','C105 (every entry)'),
M(F,'marshalPositions','"INVPOSLIST"','"POSLIST"','wrong element for positions','C105'),
M(F,'encodeBankTransactions','| .ok ns, .ok rest => .ok (ns ++ rest)','| .ok ns, .ok _ => .ok ns','only the first bank transaction is written','C105_transactions_partial'),
M(F,'marshalTransactions','(Date.marshal dtStart) :: textNode "DTEND".toList (Date.marshal dtEnd)','(Date.marshal dtEnd) :: textNode "DTEND".toList (Date.marshal dtStart)','dates swapped','C105_transactions_partial'),
M(F,'marshalTransactions',':: ns ++ bs)',':: bs ++ ns)','bank transactions come first','C105_transactions_partial'),
]
