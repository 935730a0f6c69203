import Verif.Go.Str
/-
Model of the simple leaf types of ofxgo (types.go): Int, String, Boolean, UID,
CurrSymbol.  Amount and Date have their own files.

Every `UnmarshalXML` first obtains the element's character data with
`d.DecodeElement(&value, &start)`; the functions below take that text.  `none`/
`Except.error` is a non-nil `error` result.
-/
namespace Ofx

/-! ### Int -/

/-- types.go 21-38 `Int.UnmarshalXML` on the element text.  (On failure Go leaves
the receiver unchanged.) -/
def Int.unmarshal (text : Str) : Except String Int :=
  match parseInt64 (trimSpace text) with
  | some i => .ok i
  | none => .error "strconv.ParseInt: invalid"

/-- Int has no MarshalXML: encoding/xml writes kinds int64 with
`strconv.FormatInt(i, 10)`. types.go 17. -/
def Int.marshal (i : Int) : Str := intStr i

/-- types.go 41-43 `Int.Equal`. -/
def Int.equal (a b : Int) : Bool := a == b

/-! ### String -/

/-- types.go 219-227 `String.UnmarshalXML`. -/
def OString.unmarshal (text : Str) : Except String Str := .ok (trimSpace text)

/-- String has no MarshalXML: encoding/xml writes the string itself. types.go 215. -/
def OString.marshal (s : Str) : Str := s

/-- types.go 235-237 `String.Equal`. -/
def OString.equal (a b : Str) : Bool := a == b

/-! ### Boolean -/

/-- types.go 244-260 `Boolean.UnmarshalXML`. -/
def Boolean.unmarshal (text : Str) : Except String Bool :=
  let tmpob := trimSpace text
  if tmpob = ['Y'] then .ok true
  else if tmpob = ['N'] then .ok false
  else .error "Invalid OFX Boolean"

/-- types.go 263-268 `Boolean.MarshalXML` (the text written). -/
def Boolean.marshal (b : Bool) : Str := if b then ['Y'] else ['N']

/-- types.go 276-278 `Boolean.Equal`. -/
def Boolean.equal (a b : Bool) : Bool := a == b

/-! ### UID -/

/-- types.go 285-293 `UID.UnmarshalXML`. -/
def UID.unmarshal (text : Str) : Except String Str := .ok (trimSpace text)

/-- UID has no MarshalXML: encoding/xml writes the string itself. types.go 281. -/
def UID.marshal (s : Str) : Str := s

/-- types.go 309-314 `UID.Valid`: `none` is a nil error (valid). -/
def UID.valid (u : Str) : Option String :=
  if blen u = 0 ∨ blen u > 36 then some "UID invalid length" else none

/-- Outcome of code that may panic. types.go 301. -/
inductive Outcome (α : Type) where
  | ret (a : α)
  | panic
deriving Repr, DecidableEq

/-- Go's byte indexing `s[i]`, panicking when out of range. types.go 301. -/
def byteAt (s : Str) (i : Nat) : Outcome UInt8 :=
  match (toBytes s)[i]? with
  | some b => .ret b
  | none => .panic

/-- `s[i] != '-'` evaluated, then continue with `k` on the boolean. types.go 301. -/
def Outcome.bind {α β} (x : Outcome α) (k : α → Outcome β) : Outcome β :=
  match x with
  | .ret a => k a
  | .panic => .panic

/-- types.go 297-305 `UID.RecommendedFormat`.  The `||` chain on line 301
short-circuits from left to right.  `none` is a nil error. -/
def UID.recommendedFormat (u : Str) : Outcome (Option String) :=
  if blen u ≠ 36 then .ret (some "UID not 36 characters long")
  else
    let bad := Outcome.ret (some "UID missing hyphens at the appropriate places")
    (byteAt u 8).bind fun b8 => if b8 ≠ 0x2d then bad else
    (byteAt u 13).bind fun b13 => if b13 ≠ 0x2d then bad else
    (byteAt u 18).bind fun b18 => if b18 ≠ 0x2d then bad else
    (byteAt u 23).bind fun b23 => if b23 ≠ 0x2d then bad else
    .ret none

/-- types.go 317-319 `UID.Equal`. -/
def UID.equal (a b : Str) : Bool := a == b

/-- Lower-case hexadecimal digit. types.go 331. -/
def hexC (d : Nat) : Char := if d < 10 then Char.ofNat (48 + d) else Char.ofNat (87 + d)

/-- `fmt.Sprintf("%x", bs)` for a byte slice: two lower-case digits per byte. types.go 331. -/
def hexBytes (bs : List UInt8) : Str :=
  bs.flatMap fun b => [hexC (b.toNat / 16), hexC (b.toNat % 16)]

/-- Outcome of `rand.Read(uidbytes)`: an error, or the bytes delivered (`n` of them).
types.go 324-330. -/
inductive Entropy where
  | failed
  | read (bs : List UInt8)

/-- types.go 322-333 `RandomUID`.  The widths 8/4/4/4/12 in the format equal the
lengths of the hex texts, so no padding is ever added.  Slices follow Go's
`uidbytes[a:b]`. -/
def randomUID (e : Entropy) : Except String Str :=
  match e with
  | .failed => .error "entropy source failed"
  | .read bs =>
    if bs.length ≠ 16 then .error "RandomUID failed to read 16 random bytes"
    else .ok (padZero 8 (hexBytes (bs.take 4)) ++ ['-'] ++
      padZero 4 (hexBytes ((bs.drop 4).take 2)) ++ ['-'] ++
      padZero 4 (hexBytes ((bs.drop 6).take 2)) ++ ['-'] ++
      padZero 4 (hexBytes ((bs.drop 8).take 2)) ++ ['-'] ++
      padZero 12 (hexBytes (bs.drop 10)))

/-! ### CurrSymbol -/

/-- The ISO-4217 table of golang.org/x/text/currency (external): which three-letter
upper-case codes it knows.  The only assumption is that it knows "XXX" (the zero
`currency.Unit`). types.go 352, 381. -/
class CurrencyTable where
  known : Str → Bool
  known_xxx : known ['X', 'X', 'X'] = true

/-- A currency unit, represented by the code its `String()` prints.  The zero value
prints "XXX". types.go 336-338. -/
structure CurrSymbol where
  code : Str
deriving DecidableEq, Repr

/-- The zero value of `CurrSymbol`. types.go 336-338. -/
def CurrSymbol.zero : CurrSymbol := ⟨['X', 'X', 'X']⟩

/-- golang.org/x/text/internal/tag `FixCase("XXX", key)` on one byte: upper-case
ASCII letters, `none` for anything else. types.go 352. -/
def fixCaseC (c : Char) : Option Char :=
  if 65 ≤ c.toNat ∧ c.toNat ≤ 90 then some c
  else if 97 ≤ c.toNat ∧ c.toNat ≤ 122 then some (Char.ofNat (c.toNat - 32))
  else none

/-- golang.org/x/text/currency `ParseISO`: three ASCII letters in any case, known to
the table. types.go 352, 381. -/
def parseISO [CurrencyTable] (s : Str) : Option CurrSymbol :=
  match s with
  | [a, b, c] =>
    match fixCaseC a, fixCaseC b, fixCaseC c with
    | some a, some b, some c =>
      if CurrencyTable.known [a, b, c] then some ⟨[a, b, c]⟩ else none
    | _, _, _ => none
  | _ => none

/-- types.go 342-358 `CurrSymbol.UnmarshalXML`. -/
def CurrSymbol.unmarshal [CurrencyTable] (text : Str) : Except String CurrSymbol :=
  match parseISO (trimSpace text) with
  | some u => .ok u
  | none => .error "Error parsing CurrSymbol:"

/-- types.go 361-363 `CurrSymbol.MarshalXML`. -/
def CurrSymbol.marshal (c : CurrSymbol) : Str := c.code

/-- types.go 366-368 `CurrSymbol.Equal`. -/
def CurrSymbol.equal (a b : CurrSymbol) : Bool := a.code == b.code

/-- types.go 371-376 `CurrSymbol.Valid`. -/
def CurrSymbol.valid (c : CurrSymbol) : Option String :=
  if c.code = ['X', 'X', 'X'] then some "Invalid CurrSymbol: XXX" else none

/-- types.go 380-386 `NewCurrSymbol`: no trimming here. -/
def newCurrSymbol [CurrencyTable] (s : Str) : Except String CurrSymbol :=
  match parseISO s with
  | some u => .ok u
  | none => .error "Error parsing string to create new CurrSymbol:"

end Ofx
