import Verif.Codec.Xml
import Verif.Model.Amount
import Verif.Model.Date
import Verif.Model.Enum
/-
What encoding/xml knows, by reflection, about the types of ofxgo: a small universe of
schemas.  Gen/Schema.lean has one schema per Go struct, generated from /repo.
-/
namespace Ofx

/-- Leaf types: those whose content is the text of one element. -/
inductive Leaf where
  | str | uid | int | bool | amount | date | curr
  | enum (t : EnumTable)

/-- The Go values of a leaf type. -/
abbrev Leaf.Den : Leaf → Type
  | .str => Str
  | .uid => Str
  | .int => Int
  | .bool => Bool
  | .amount => Rat
  | .date => GoTime
  | .curr => CurrSymbol
  | .enum _ => Nat

/-- The zero `time.Time`: year 1, UTC. -/
def GoTime.zero : GoTime := ⟨0, "UTC".toList, 0⟩

/-- Go zero values. -/
def Leaf.zero : (l : Leaf) → l.Den
  | .str => ([] : Str)
  | .uid => ([] : Str)
  | .int => (0 : Int)
  | .bool => false
  | .amount => (0 : Rat)
  | .date => GoTime.zero
  | .curr => CurrSymbol.zero
  | .enum _ => (0 : Nat)

/-- encoding/xml `isEmptyValue`, used for omitempty: false for structs (Amount, Date,
CurrSymbol). -/
def Leaf.isEmpty : (l : Leaf) → l.Den → Bool
  | .str, v => List.isEmpty (α := Char) v
  | .uid, v => List.isEmpty (α := Char) v
  | .int, v => decide ((v : Int) = 0)
  | .bool, v => !v
  | .amount, _ => false
  | .date, _ => false
  | .curr, _ => false
  | .enum _, v => decide ((v : Nat) = 0)

/-- What the environment contributes to decoding: the local time zone (time.Parse) and
the currency table of golang.org/x/text. -/
structure Env where
  loc : LocalZone
  curr : CurrencyTable

/-- The text written for a leaf value; `none` when no element is written. -/
def Leaf.print : (l : Leaf) → l.Den → Option Str
  | .str, v => some (OString.marshal v)
  | .uid, v => some (UID.marshal v)
  | .int, v => some (Int.marshal v)
  | .bool, v => some (Boolean.marshal v)
  | .amount, v => some (Amount.marshal v)
  | .date, v => some (Date.marshal v)
  | .curr, v => some (CurrSymbol.marshal v)
  | .enum t, v => match t.marshal v with
    | .ret s => s
    | .panic => none

/-- Decoding the text of an element. -/
def Leaf.parse (env : Env) : (l : Leaf) → Str → Except String l.Den
  | .str, s => OString.unmarshal s
  | .uid, s => UID.unmarshal s
  | .int, s => Int.unmarshal s
  | .bool, s => Boolean.unmarshal s
  | .amount, s => Amount.unmarshal s
  | .date, s => Date.unmarshal env.loc s
  | .curr, s => @CurrSymbol.unmarshal env.curr s
  | .enum t, s => t.unmarshal s

/-- The XMLName field of a struct: absent, with a tag, or without a tag (then it holds
the name of the decoded element).
Library behaviour relied on by the struct declarations, e.g. common.go 264-269. -/
inductive XName where
  | none
  | tag (n : Str)
  | free

mutual
/-- Schemas of Go types.
Library behaviour relied on by the struct declarations, e.g. common.go 264-269. -/
inductive Ty where
  | leaf (l : Leaf)
  /-- a struct decoded by encoding/xml from its field tags -/
  | struct (xn : XName) (fs : Fields)
  /-- a type with the hand-written UnmarshalXML/MarshalXML of the list types: the
  element is always written as `lit`, unknown children are errors; `goSlice` says
  whether the Go type is a slice (InvTranList and SecurityList are structs). -/
  | closed (lit : Str) (goSlice : Bool) (fs : Fields)
  | ptr (t : Ty)
  | slice (t : Ty)
  /-- profile.go MessageSetList; `fs` are the tagged fields of MessageSet -/
  | msgSets (fs : Fields)
/-- Fields in declaration order: tag path, tag name, omitempty, type.
Library behaviour relied on by the struct declarations, e.g. common.go 264-269. -/
inductive Fields where
  | nil
  | field (path : List Str) (name : Str) (omitEmpty : Bool) (t : Ty) (rest : Fields)
  /-- a slice of an interface type, filled from several element names -/
  | alts (as : Alts) (rest : Fields)
/-- The concrete types of an interface: name in the `case` of UnmarshalXML, name
returned by the type method used by MarshalXML, type.
Library behaviour relied on by the struct declarations, e.g. common.go 264-269. -/
inductive Alts where
  | nil
  | alt (decName encName : Str) (t : Ty) (rest : Alts)
end

/-- XMLName field of a struct value: only untagged ones carry information.
Library behaviour relied on by the struct declarations, e.g. common.go 264-269. -/
abbrev XName.Den : XName → Type
  | .none => Unit
  | .tag _ => Unit
  | .free => Str

mutual
/-- Go values of a type.
Library behaviour relied on by the struct declarations, e.g. common.go 264-269. -/
def Ty.Den : Ty → Type
  | .leaf l => l.Den
  | .struct xn fs => xn.Den × fs.Den
  | .closed _ _ fs => fs.Den
  | .ptr t => Option t.Den
  | .slice t => List t.Den
  | .msgSets fs => List (Str × Str × fs.Den)
/-- Library behaviour relied on by the struct declarations, e.g. common.go 264-269. -/
def Fields.Den : Fields → Type
  | .nil => Unit
  | .field _ _ _ t rest => t.Den × rest.Den
  | .alts as rest => List as.Den × rest.Den
/-- Library behaviour relied on by the struct declarations, e.g. common.go 264-269. -/
def Alts.Den : Alts → Type
  | .nil => Empty
  | .alt _ _ t rest => t.Den ⊕ rest.Den
end

end Ofx
