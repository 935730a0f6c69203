import Verif.Model.Decode
/-
The functions of the reading path again, with the operations that may panic kept as they are in
the code: indexing of slices and dereferencing of pointers.  (Elsewhere in the model these
functions are given by what they return.)
-/
namespace Ofx

/-- Indexing of a slice `l[i]`, which panics when out of range. response.go 77, types.go 113. -/
def sliceAt {α : Type} (l : List α) (i : Nat) : Outcome α :=
  match l[i]? with
  | some x => .ret x
  | none => .panic

/-- Dereferencing of a pointer, as a method call with a value receiver does; nil panics.
bank.go 149, 156, 160, 171, 174, 342, 350. -/
def deref {α : Type} : Option α → Outcome α
  | some x => .ret x
  | none => .panic

/-- strings.SplitN(s, sep, 2) and bytes.SplitN(s, sep, 2). types.go 113, 117; response.go 129, 135. -/
def splitN2 (sep s : Str) : List Str :=
  match cut sep s with
  | some (a, b) => [a, b]
  | none => [s]

/-! ### SGML headers -/

/-- response.go 67: FindStringSubmatch returns nothing or the whole match and the groups. -/
def headerMatches (s : Str) : List Str :=
  match matchAll headerExp s with
  | some groups => s :: groups
  | none => []

/-- response.go 57-65, 72: the names of the groups, starting with that of the whole match. -/
def headerNames : List String :=
  ["", "OFXHEADER", "DATA", "VERSION", "SECURITY", "ENCODING", "CHARSET", "COMPRESSION", "OLDFILEUID", "NEWFILEUID"]

/-- response.go 72-106: the loop over the names, with their positions; `v` is or.Version. -/
def sgmlHeaderLoopC (found : List Str) : List (String × Nat) → Nat → Outcome (Except String Nat)
  | [], v => .ret (.ok v)
  | (name, i) :: rest, v =>
    if i = 0 then sgmlHeaderLoopC found rest v
    else (sliceAt found i).bind fun value =>
      if name = "OFXHEADER" then
        if value ≠ "100".toList then .ret (.error "OFXHEADER is not 100") else sgmlHeaderLoopC found rest v
      else if name = "DATA" then
        if value ≠ "OFXSGML".toList then .ret (.error "OFX DATA header does not contain OFXSGML") else sgmlHeaderLoopC found rest v
      else if name = "VERSION" then
        match enumOfxVersion.fromString value with
        | (_, some e) => .ret (.error e)
        | (v, none) => if v > 4 then .ret (.error "OFX VERSION > 160 in SGML header") else sgmlHeaderLoopC found rest v
      else if name = "SECURITY" then
        if ¬ (value = "NONE".toList ∨ value = "TYPE1".toList) then .ret (.error "OFX SECURITY header must be NONE or TYPE1")
        else sgmlHeaderLoopC found rest v
      else if name = "COMPRESSION" then
        if value ≠ "NONE".toList then .ret (.error "OFX COMPRESSION header not NONE") else sgmlHeaderLoopC found rest v
      else sgmlHeaderLoopC found rest v

/-- response.go 38-109 `readSGMLHeaders` on the text up to and including the first '<'. -/
def checkSGMLHeaderC (s : Str) : Outcome (Except String Nat) :=
  if (headerMatches s).length = 0 then .ret (.error "OFX headers malformed")
  else sgmlHeaderLoopC (headerMatches s) headerNames.zipIdx 0

/-! ### XML headers -/

/-- response.go 125-165: the loop over the attributes.  Every round takes at least three bytes, so
`fuel`, their number, is not used up. -/
def xmlHeaderLoopC : Nat → Bool → Option Nat → Str → Outcome (Except String (Bool × Option Nat))
  | 0, _, _, _ => .panic
  | fuel + 1, seen, version, headers =>
    if headers.length = 0 then .ret (.ok (seen, version))
    else
      let tmp := splitN2 "=\"".toList headers
      if tmp.length ≠ 2 then .ret (.error "Malformed OFX header")
      else (sliceAt tmp 0).bind fun header => (sliceAt tmp 1).bind fun headers =>
        let tmp := splitN2 "\"".toList headers
        if tmp.length ≠ 2 then .ret (.error "Malformed OFX header")
        else (sliceAt tmp 0).bind fun value => (sliceAt tmp 1).bind fun rest =>
          let headers := trimSpace rest
          if header = "OFXHEADER".toList then
            if value ≠ "200".toList then .ret (.error "OFXHEADER is not 200") else xmlHeaderLoopC fuel true version headers
          else if header = "VERSION".toList then
            match enumOfxVersion.fromString value with
            | (_, some e) => .ret (.error e)
            | (v, none) =>
              if v < 5 then .ret (.error "OFX VERSION < 200 in XML header") else xmlHeaderLoopC fuel seen (some v) headers
          else if header = "SECURITY".toList then
            if value ≠ "NONE".toList then .ret (.error "OFX SECURITY header not NONE") else xmlHeaderLoopC fuel seen version headers
          else if header = "OLDFILEUID".toList ∨ header = "NEWFILEUID".toList then xmlHeaderLoopC fuel seen version headers
          else .ret (.error "Invalid OFX header")

/-- response.go 124-178 on the text of the OFX processing instruction. -/
def checkXMLHeaderC (inst : Str) : Outcome (Except String Nat) :=
  (xmlHeaderLoopC (inst.length + 1) false none (trimSpace inst)).bind fun
    | .error e => .ret (.error e)
    | .ok (seen, version) =>
      if !seen then .ret (.error "OFXHEADER version missing")
      else
        match version with
        | some v => .ret (.ok v)
        | none => .ret (.error "OFX VERSION header missing")

/-- response.go 111-180 `readXMLHeaders`. -/
def readXMLHeadersC (toks : List Tok) : Outcome (Except String (Nat × List Tok)) :=
  match skipBlank toks with
  | .proc target _ :: rest =>
    if target = "xml".toList then
      match skipBlank rest with
      | .proc target' inst :: rest' =>
        if target' = "OFX".toList then
          (checkXMLHeaderC inst).bind fun
            | .ok v => .ret (.ok (v, rest'))
            | .error e => .ret (.error e)
        else .ret (.error "Missing xml 'OFX' processing instruction")
      | _ => .ret (.error "Missing xml 'OFX' processing instruction")
    else .ret (.error "Missing xml processing instruction")
  | _ => .ret (.error "Missing xml processing instruction")

/-! ### Dates -/

/-- types.go 123: FindStringSubmatch returns nil or the whole match and the five groups; groups not
taking part are empty. -/
def zoneMatches (z : Str) : Option (List Str) :=
  (zoneRegex z).map fun (m1, m3, m5) =>
    [z, m1, if m3 = [] then [] else '.' :: m3, m3, if m5 = [] then [] else ':' :: m5, m5]

/-- types.go 106-166 `Date.UnmarshalXML` on the element text. -/
def Date.unmarshalC (loc : LocalZone) (text : Str) : Outcome (Except String GoTime) :=
  (sliceAt (splitN2 [']'] text) 0).bind fun value =>
    let value := trimSpace value
    let split := splitN2 ['['] value
    if split.length = 2 then
      (sliceAt split 0).bind fun value => (sliceAt split 1).bind fun z =>
        let zone := trimRightC ']' z
        match zoneMatches zone with
        | none => .ret (.error "Invalid OFX Date timezone format")
        | some found =>
          (sliceAt found 1).bind fun m1 =>
            match parseInt64 m1 with
            | none => .ret (.error "strconv.Atoi")
            | some zonehours =>
              (sliceAt found 3).bind fun m3 =>
                let zoneminutes := if m3.length > 0 then digitsVal m3 * 60 / 100 else 0
                let zone := ' ' :: (fmtPlusPad 3 zonehours ++ fmtPad 2 zoneminutes)
                (sliceAt found 5).bind fun m5 =>
                  if m5.length > 0 then
                    .ret (tryFormats loc [.blank, .numTZ, .blank, .tz] (value ++ (zone ++ ' ' :: m5)) ofxDateFormats)
                  else if zonehours = 0 ∧ zoneminutes = 0 then
                    .ret (tryFormats loc [.blank, .numTZ, .blank, .tz] (value ++ (zone ++ " GMT".toList)) ofxDateFormats)
                  else .ret (tryFormats loc [.blank, .numTZ] (value ++ zone) ofxDateFormats)
    else .ret (tryFormats loc [.blank, .numTZ, .blank, .tz] (value ++ " +0000 GMT".toList) ofxDateFormats)

/-! ### Valid -/

/-- `x.Valid()` of what a pointer points to, if it is not nil. bank.go 148-152, 341-345. -/
def validIfSet {α : Type} (p : Option α) (f : α → Outcome (Option String)) : Outcome (Option String) :=
  if p.isSome then (deref p).bind f else .ret none

/-- bank.go 153-163: the accounts a transaction goes to. -/
def Transaction.validToC (t : Transaction) : Outcome (Option String) :=
  if t.BankAcctTo.isSome ∧ t.CCAcctTo.isSome then
    .ret (some "Only one of Transaction.BankAcctTo and CCAcctTo may be specified")
  else if t.BankAcctTo.isSome then (deref t.BankAcctTo).bind fun b => .ret b.valid
  else if t.CCAcctTo.isSome then (deref t.CCAcctTo).bind fun c => .ret c.valid
  else .ret none

/-- bank.go 169-175: `ok, _ = c.Valid()`, if c is not nil. -/
def okCurrencyC (c : Option Currency) : Outcome Bool :=
  if c.isSome then (deref c).bind fun c => .ret c.valid.isNone else .ret false

/-- bank.go 135-180 `Transaction.Valid`. -/
def Transaction.validC (version : Nat) (t : Transaction) : Outcome (Option String) :=
  if !enumTrnType.valid t.TrnType ∨ t.TrnType = trnTypeHold then .ret (some "Transaction.TrnType invalid")
  else if Date.equal t.DtPosted emptyDate then .ret (some "Transaction.DtPosted not filled")
  else if blen t.FiTID = 0 then .ret (some "Transaction.FiTID empty")
  else if blen t.CorrectFiTID > 0 ∧ enumCorrectAction.valid t.CorrectAction then
    .ret (some "Transaction.CorrectFiTID nonempty but CorrectAction invalid")
  else if blen t.Name > 0 ∧ t.Payee.isSome then .ret (some "Only one of Transaction.Name and Payee may be specified")
  else
    (validIfSet t.Payee fun p => .ret p.valid).bind fun
      | some e => .ret (some e)
      | none =>
        t.validToC.bind fun
          | some e => .ret (some e)
          | none =>
            if version < ofxVersion220 ∧ t.ImageData.length > 0 then
              .ret (some "Transaction.ImageData only supportd for OFX > 220")
            else if t.ImageData.length > 2 then .ret (some "Only 2 of ImageData allowed in Transaction")
            else
              (okCurrencyC t.Currency).bind fun ok1 => (okCurrencyC t.OrigCurrency).bind fun ok2 =>
                if ok1 && ok2 then
                  .ret (some "Currency and OrigCurrency both supplied for Pending Transaction, only one allowed")
                else .ret none

/-- The loops `for … { if !ok return }`. bank.go 199-203. -/
def firstErrorC {α : Type} (f : α → Outcome (Option String)) : List α → Outcome (Option String)
  | [] => .ret none
  | x :: xs =>
    (f x).bind fun
      | some e => .ret (some e)
      | none => firstErrorC f xs

/-- bank.go 192-206 `TransactionList.Valid`. -/
def TransactionList.validC (version : Nat) (l : TransactionList) : Outcome (Option String) :=
  if Date.equal l.DtStart emptyDate then .ret (some "TransactionList.DtStart not filled")
  else if Date.equal l.DtEnd emptyDate then .ret (some "TransactionList.DtEnd not filled")
  else firstErrorC (Transaction.validC version) l.Transactions

/-- bank.go 326-360 `StatementResponse.Valid`. -/
def StatementResponse.validC (version : Nat) (sr : StatementResponse) : Outcome (Option String) :=
  match UID.valid sr.TrnUID with
  | some e => .ret (some e)
  | none =>
  match sr.Status.valid with
  | some e => .ret (some e)
  | none =>
  match sr.CurDef.valid with
  | some e => .ret (some e)
  | none =>
  match sr.BankAcctFrom.valid with
  | some e => .ret (some e)
  | none =>
  if Date.equal sr.DtAsOf emptyDate then .ret (some "StatementResponse.DtAsOf not filled")
  else if sr.AvailBalAmt.isNone ≠ sr.AvailDtAsOf.isNone then
    .ret (some "StatementResponse.Avail* must both either be present or absent")
  else
    (validIfSet sr.BankTranList (TransactionList.validC version)).bind fun
      | some e => .ret (some e)
      | none =>
        (validIfSet sr.BankTranListP fun l =>
          if version < ofxVersion220 then .ret (some "StatementResponse.BankTranListP invalid for OFX < 2.2")
          else .ret l.valid).bind fun
          | some e => .ret (some e)
          | none => .ret (firstError Balance.valid sr.BalList)

/-- The method `Valid` of messages; only that of bank statements dereferences pointers.
bank.go 326-360, common.go 51-56. -/
def Message.validC (version : Nat) : Message → Outcome (Option String)
  | .statementResponse sr => sr.validC version
  | m => .ret (m.valid version).1

/-- response.go 398-408: the errors of the messages of a set. -/
def addMessageErrsC (version : Nat) : List Err → List Message → Outcome (List Err)
  | errs, [] => .ret errs
  | errs, m :: ms => (m.validC version).bind fun e => addMessageErrsC version (addErr errs (e.map Err.plain)) ms

/-- response.go 385-408: the loop over the sets. -/
def addSetErrsC (version : Nat) (f : MsgSet → List Message) : List Err → List MsgSet → Outcome (List Err)
  | errs, [] => .ret errs
  | errs, s :: ss => (addMessageErrsC version errs (f s)).bind fun errs => addSetErrsC version f errs ss

/-- response.go 380-409 `Response.Valid`. -/
def Response.validC (r : Response Message) : Outcome (Option Err) :=
  (addSetErrsC r.version r.sets (addErr [] ((r.signon.valid r.version).map Err.plain)) MsgSet.lists).bind fun errs =>
    .ret (errOrNil errs)

/-! ### Documents -/

/-- response.go 284-378 `DecodeResponse`.  (Dates inside are given by `Date.unmarshal`.) -/
def decodeResponseC (env : Env) (nt : NameTable) (bs : List UInt8) : Outcome (Except String (Response Message)) :=
  if guessVersion (latin1 (bs.take 1024)) then
    (readXMLHeadersC (lex true nt (utf8Decode bs))).bind fun
      | .error e => .ret (.error e)
      | .ok (version, toks) => .ret (decodeBody env true version toks)
  else
    match readSlice bs with
    | .error e => .ret (.error e)
    | .ok (s, rest) =>
      (checkSGMLHeaderC s).bind fun
        | .error e => .ret (.error e)
        | .ok version => .ret (decodeBody env false version (lex false nt (utf8Decode rest)))

/-- response.go 273-280 `ParseResponse`. -/
def parseResponseC (env : Env) (nt : NameTable) (bs : List UInt8) : Outcome (Option (Response Message) × Option Err) :=
  (decodeResponseC env nt bs).bind fun
    | .error e => .ret (none, some (.plain e))
    | .ok r => r.validC.bind fun e => .ret (some r, e)

end Ofx
