def M(file, definition, old, new, edit, claim, **k):
    return dict(file=file, definition=definition, old=old, new=new, edit=edit, claim=claim, **k)
MUTATIONS = [
M('Model/Types.lean','Int.unmarshal','parseInt64 (trimSpace text)','parseInt64 text','white space is no longer trimmed','C01: padded integers are accepted'),
M('Model/Types.lean','Boolean.unmarshal',"if tmpob = ['Y'] then .ok true","if tmpob = ['Y'] ∨ tmpob = ['y'] then .ok true",'lower case y accepted','C06: only Y and N are accepted'),
M('Model/Types.lean','Boolean.marshal',"if b then ['Y'] else ['N']","if b then ['N'] else ['Y']",'swapped results','C06: booleans round-trip'),
M('Model/Types.lean','OString.unmarshal','def OString.unmarshal (text : Str) : Except String Str := .ok (trimSpace text)','def OString.unmarshal (text : Str) : Except String Str := .ok text','no trimming','C07: decoding trims white space'),
M('Model/Types.lean','UID.valid','blen u > 36','blen u ≥ 36','wrong upper boundary','C08: UIDs of 36 bytes are valid'),
M('Model/Types.lean','UID.valid','blen u = 0 ∨ blen u > 36','u.length = 0 ∨ u.length > 36','length in characters instead of bytes','C08: the limit counts bytes'),
M('Model/Types.lean','UID.recommendedFormat','if blen u ≠ 36 then','if blen u < 20 then','length test relaxed: later byte accesses may panic','C08: no panic'),
M('Model/Types.lean','UID.recommendedFormat','(byteAt u 18)','(byteAt u 17)','hyphen looked for at the wrong place','C08: recommended format'),
M('Model/Types.lean','randomUID','(bs.drop 6).take 2','(bs.drop 4).take 2','bytes 4-5 used twice','C09: random UIDs are determined by and injective in the random bytes'),
M('Model/Types.lean','randomUID','if bs.length ≠ 16 then','if bs.length = 0 then','short reads accepted','C09: a short read is an error'),
M('Model/Types.lean','fixCaseC','c.toNat ≤ 122','c.toNat < 122','wrong boundary: z','C17: lower case codes are accepted'),
M('Model/Types.lean','CurrSymbol.valid',"if c.code = ['X', 'X', 'X'] then","if c.code = ['X', 'X', 'Y'] then",'compares with the wrong code','C17: XXX is invalid'),
M('Model/Amount.lean','Amount.unmarshal',"replaceFirst ',' '.' value","value",'comma not replaced','C05: comma is a decimal separator'),
M('Model/Amount.lean','Amount.string','floatString a 100','floatString a 10','ten decimals only','C03: printing is exact up to a hundred decimals'),
M('Model/Amount.lean','Amount.string',"trimRightC '.' (trimRightC '0' (floatString a 100))","trimRightC '0' (floatString a 100)",'trailing point kept','C04: no trailing point'),
M('Model/Amount.lean','floatString','if b ≤ 2 * r2 then','if b < 2 * r2 then','halves rounded down','C03: nearest value, halves away from zero'),
M('Model/Amount.lean','floatString','(if p ≤ r + 1 then (q + 1, r + 1 - p) else (q, r + 1))','(q, r + 1)','carry into the integer part dropped','C03: rounding error bound'),
M('Model/Amount.lean','floatString',"if x.num < 0 then ['-'] else []","[]",'sign dropped','C03: round trip of negative amounts'),
M('Model/Amount.lean','ratSetString','if m.base = 10 then (d, d)','if m.base = 10 then (d, 0)','decimal point scales by 2 only','C02: decimal texts mean their value'),
M('Model/Amount.lean','Amount.equal','a.num * b.den == b.num * a.den','a.num * a.den == b.num * b.den','cross multiplication swapped','C53: equality of amounts'),
M('Model/Enum.lean','EnumTable.fromString','| some i => (i + 1, none)','| some i => (i, none)','off by one','C10: enum texts and values correspond'),
M('Model/Enum.lean','EnumTable.valid','t.first ≤ e && e ≤ t.last','t.first ≤ e && e < t.last','last value invalid','C10: every declared value is valid'),
M('Model/Enum.lean','EnumTable.string','match t.names[e - 1]? with\n    | some s => .ret s','match t.names[e]? with\n    | some s => .ret s','index not shifted','C11: String never panics and prints the name'),
M('Model/Enum.lean','EnumTable.new','| (_, some err) => (0, some err)','| (_, some err) => (1, some err)','an error comes with a valid value','C10: failing constructors return the invalid value'),
M('Model/Date.lean','isLeap','y % 4 == 0 && (y % 100 != 0 || y % 400 == 0)','y % 4 == 0','century rule dropped','C13: invalid calendar dates are rejected'),
M('Model/Date.lean','zoneOf','digitsVal m3 * 60 / 100','digitsVal m3','fraction of an hour taken as minutes','C13: zone [5.30] means 5h18m'),
M('Model/Date.lean','Date.unmarshal','value ++ " +0000 GMT".toList','value ++ " +0100 GMT".toList','default zone one hour off','C16: no zone means GMT'),
M('Model/Date.lean','Date.string','(t.off.tmod 3600).tdiv 36','(t.off.tmod 3600).tdiv 60','fraction printed in minutes','C14: dates round-trip'),
M('Model/Date.lean','ofxDateFormats','[.year, .month, .day, .hour],\n','','format with hours only dropped','C13: five precisions accepted'),
M('Model/Date.lean','parseFinish','t - o * nsPerSec','t + o * nsPerSec','sign of the offset swapped','C15: east is ahead'),
M('Model/Date.lean','Date.equal','a.ns == b.ns','a.ns == b.ns && a.off == b.off','equality depends on the zone','C53: dates are equal iff they are the same instant'),
M('Model/Valid.lean','Status.valid','if arr.2.1 ≠ s.Severity then','if arr.2.1 = s.Severity then','severity test inverted','C18: status validity'),
M('Model/Valid.lean','BankAcct.valid','else if blen b.AcctID = 0 then some "BankAcct.AcctID empty"\n','','account id not checked','C19: bank accounts need an id'),
M('Model/Valid.lean','Currency.valid','c.CurRate.den = 1 ∧ bigInt64 c.CurRate.num = 0','bigInt64 c.CurRate.num = 1','wrong number compared','C19: rate may not be zero'),
M('Model/Valid.lean','Transaction.valid','blen t.CorrectFiTID > 0 ∧ enumCorrectAction.valid t.CorrectAction','blen t.CorrectFiTID > 0 ∧ !enumCorrectAction.valid t.CorrectAction','the inverted test repaired','C20: the theorems proving the violation must fail'),
M('Model/Valid.lean','Transaction.valid','∨ t.TrnType = trnTypeHold','','HOLD accepted','C21: HOLD is not allowed for posted transactions'),
M('Model/Valid.lean','Transaction.valid','t.ImageData.length > 2','t.ImageData.length > 3','wrong boundary','C21: at most two images'),
M('Model/Valid.lean','StatementRequest.valid','r.IncTranImg && decide (version < ofxVersion210)','r.IncTranImg && decide (version ≤ ofxVersion210)','boundary: 2.1 rejected','C22: images allowed from 2.1 on'),
M('Model/Valid.lean','SignonRequest.valid','(blen r.UserPass = 0) = (blen r.UserKey = 0)','blen r.UserPass = 0 ∧ blen r.UserKey = 0','password and key both accepted','C23: exactly one of password and key'),
M('Model/Valid.lean','SignonRequest.valid','{ r with Language := "ENG".toList }','r','language default dropped','C23: empty language becomes ENG'),
M('Model/Valid.lean','ProfileRequest.valid','{ r with ClientRouting := "NONE".toList }','{ r with ClientRouting := r.ClientRouting ++ "NONE".toList }','routing appended instead of set','C27: marshalling twice gives the same'),
M('Model/Message.lean','MsgType.string','| .rq .loan => "LOANMSGSRQV1".toList','| .rq .loan => "LOANMSGSRSV1".toList','request set named like the response set','C25: names of the sets'),
M('Model/Message.lean','Message.type','| .securityList _ => .rs .secList','| .securityList _ => .rq .secList','response classified as request','C33: decoded messages are filed in the right list'),
M('Model/Message.lean','decodeMessage','(decodeNew env name children).map .ccStatementResponse','.error "x"','credit card statements not decodable','C37: responses round-trip'),
M('Model/Message.lean','MsgSet.lists','.email, .secList,','.secList, .email,','order of two sets swapped','C25: order of the sets'),
M('Model/Marshal.lean','encodeMessages','if MessageImpl.type m ≠ set then','if false then','type check dropped','C24: messages in the wrong list are rejected'),
M('Model/Marshal.lean','encodeMessages','| (.ok rest, ms\') => (.ok (ns ++ rest), m\' :: ms\')','| (.ok rest, ms\') => (.ok (rest ++ ns), m\' :: ms\')','messages written in reverse order','C25: order of messages'),
M('Model/Marshal.lean','encodeMessageSet','(.ok [.elem set.string ns], ms\')','(.ok ns, ms\')','set element missing','C25: each set is one element'),
M('Model/Marshal.lean','writeHeader','if 1 ≤ v ∧ v ≤ 4 then','if 1 ≤ v ∧ v ≤ 3 then','version 160 gets an XML header','C28: header of version 160'),
M('Model/Marshal.lean','writeHeader','"\\" SECURITY=\\"NONE\\" OLDFILEUID','"\\" SECURITY=\\"TYPE1\\" OLDFILEUID','wrong security value in XML header','C28: written headers are accepted'),
M('Model/Marshal.lean','addErr','| some (.invalid es) => errs ++ es','| some (.invalid es) => es','earlier errors lost','C50: no error is lost'),
M('Model/Marshal.lean','Response.valid','(addErr [] ((r.signon.valid r.version).map Err.plain))','[]','signon not validated','C36: every invalid part is reported'),
M('Model/Marshal.lean','decodeSets','(f s ++ ms)','ms','a second set element overwrites the first','C33: all messages are kept'),
M('Model/Marshal.lean','decodeSignon','if rest.all isBlank then .ok so else','if true then .ok so else','extra elements in the signon set ignored','C33: decoded documents have exactly this shape'),
M('Model/Header.lean','guessVersion','decide (xml ≤ sgml)','decide (sgml ≤ xml)','comparison swapped','C28: classification'),
M('Model/Header.lean','checkSGMLHeader','if v > 4 then','if v > 5 then','version 200 accepted in SGML headers','C29: versions up to 160 only'),
M('Model/Header.lean','checkSGMLHeader','else if compression ≠ "NONE".toList then .error "OFX COMPRESSION header not NONE"\n        ','','compression not checked','C29: compressed documents are rejected'),
M('Model/Header.lean','headerExp','keyPieces "SECURITY" isReWord ++\n  keyPieces "ENCODING"','keyPieces "ENCODING"','security field dropped from the expression','C29: header fields'),
M('Model/Header.lean','xmlHeaderLoop','if v < 5 then','if v < 4 then','version 160 accepted in XML headers','C30: versions from 200 on'),
M('Model/Header.lean','checkXMLHeader','if !seen then','if false then','missing OFXHEADER accepted','C30: OFXHEADER required'),
M('Model/Header.lean','xmlHeaderLoop','else .error "Invalid OFX header"','else xmlHeaderLoop seen version (trimSpace rest\')','unknown attributes ignored','C30: unknown attributes rejected'),
M('Model/Decode.lean','readSlice','indexOf [\'<\'] (latin1 (bs.take 1024))','indexOf [\'<\'] (latin1 (bs.take 2048))','window of 2048 bytes','C29: header within 1024 bytes'),
M('Codec/Decode.lean','Ty.dec (slice)','.ok ((show List t.Den from v) ++ [x])','.ok (x :: (show List t.Den from v))','slices filled in reverse','C38: lists keep their order'),
M('Codec/Decode.lean','runEvents','| .junk :: es => if strict then','| .junk :: es => if true then','unknown elements are errors','C41: unknown elements are ignored'),
M('Codec/Encode.lean','emitGo','if h = h\' then emitGo inner (some (h\', acc ++ [⟨t, o, ns⟩])) rest','if h = h\' then emitGo inner (some (h\', [⟨t, o, ns⟩])) rest','earlier fields of a parent lost','C38: nothing lost in nested paths'),
M('Codec/Encode.lean','trimV1','s.take (s.length - 2)','s.take (s.length - 1)','suffix cut wrongly','C54: names of message sets'),
M('Codec/Decode.lean','decMsgSet','.ok (n, n, x)','.ok (n, [], x)','Name not set','C54: message set lists round-trip'),
]
