def M(file, definition, old, new, edit, claim, **k):
    return dict(file=file, definition=definition, old=old, new=new, edit=edit, claim=claim, **k)
F='Model/Date.lean'
MUTATIONS = [
M(F,'Date.format','  fmtPad 2 c.2.1 ++ fmtPad 2 c.2.2 ++','  fmtPad 2 c.2.2 ++ fmtPad 2 c.2.1 ++','day before month','C106'),
M(F,'Date.format',"'.' :: fmtPad 3 (nanos.toNat / 1000000)","'.' :: natStr (nanos.toNat / 1000000)",'milliseconds are not padded','C106'),
M(F,'Date.format','  fmtPad 2 (sod / 3600) ++ fmtPad 2 (sod % 3600 / 60) ++','  fmtPad 2 (sod / 3600 % 12) ++ fmtPad 2 (sod % 3600 / 60) ++','hours of a twelve-hour clock','C106'),
M(F,'Date.format',"'.' :: fmtPad 3 (nanos.toNat / 1000000)","'.' :: fmtPad 3 ((nanos.toNat + 500000) / 1000000)",'milliseconds are rounded without a carry','C106: the last half millisecond of a second'),
M(F,'Date.string',"let f := if t.off < 0 then f ++ '[' ::","let f := if t.off < 0 then '[' ::",'western dates lose their digits','C106'),
]
