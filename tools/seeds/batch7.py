def M(file, definition, old, new, edit, claim, **k):
    return dict(file=file, definition=definition, old=old, new=new, edit=edit, claim=claim, **k)
MUTATIONS = [
# panics
M('Model/Checked.lean','checkSGMLHeaderC','if (headerMatches s).length = 0 then .ret (.error "OFX headers malformed")\n  else sgmlHeaderLoopC','if False then .ret (.error "OFX headers malformed")\n  else sgmlHeaderLoopC','the check that the header matched is dropped','C92: no index out of range'),
M('Model/Checked.lean','headerNames','"OLDFILEUID", "NEWFILEUID"]','"OLDFILEUID", "NEWFILEUID", "EXTRA"]','the loop goes over one name more than there are groups','C92: no index out of range'),
M('Model/Checked.lean','xmlHeaderLoopC','let tmp := splitN2 "=\\"".toList headers\n      if tmp.length ≠ 2 then','let tmp := splitN2 "=\\"".toList headers\n      if tmp.length > 2 then','an attribute without value is not noticed','C92: no index out of range'),
M('Model/Checked.lean','xmlHeaderLoopC','let tmp := splitN2 "\\"".toList headers\n        if tmp.length ≠ 2 then','let tmp := splitN2 "\\"".toList headers\n        if tmp.length = 0 then','a value without closing quote is not noticed','C92: no index out of range'),
M('Model/Checked.lean','Date.unmarshalC','if split.length = 2 then','if split.length ≥ 1 then','dates without zone are taken to have one','C92: no index out of range'),
M('Model/Checked.lean','Date.unmarshalC','(sliceAt found 5).bind fun m5','(sliceAt found 6).bind fun m5','the number of the group with the zone is one too big','C92: no index out of range'),
M('Model/Checked.lean','Transaction.validToC','else if t.BankAcctTo.isSome then (deref t.BankAcctTo)','else if t.BankAcctTo.isNone then (deref t.BankAcctTo)','the nil check is the wrong way round','C92: no nil dereference'),
M('Model/Checked.lean','okCurrencyC','if c.isSome then (deref c)','if true then (deref c)','the nil check is dropped for currencies','C92: no nil dereference'),
M('Model/Checked.lean','validIfSet','if p.isSome then (deref p).bind f','if true then (deref p).bind f','the nil check is dropped for lists','C92: no nil dereference'),
M('Model/Checked.lean','zoneMatches','[z, m1, if m3','[m1, if m3','the groups are numbered from 0','C92: no index out of range'),
# encodings
M('Codec/Text.lean','Doc.bytes','def Doc.bytes (d : Doc) : List UInt8 := toBytes d.text','def Doc.bytes (d : Doc) : List UInt8 := d.text.map (fun c => UInt8.ofNat c.toNat)','documents are written in Latin-1','C91: texts outside ASCII are written in UTF-8'),
M('Model/Marshal.lean','writeHeader','ENCODING:USASCII\\nCHARSET:1252','ENCODING:UTF-8\\nCHARSET:NONE','the header names UTF-8','C91: headers name code page 1252'),
M('Model/Decode.lean','decodeResponse','lex false nt (utf8Decode rest)','lex false nt (latin1 rest)','SGML documents are read as Latin-1','C91: everything is read as UTF-8'),
# accounts
M('Model/Valid.lean','BankAcct.valid','blen b.BankID = 0','blen b.BankID ≤ 1','banks with an id of one letter cannot be asked','C90: accounts read can be asked about'),
]
