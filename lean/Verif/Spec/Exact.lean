import Verif.Codec.Decode
import Verif.Gen.Enums
import Verif.Spec.Date
import Verif.Spec.Numeral
/-
What it means for a value to be exactly representable in a document, and for two values
to be the same message.  Both are read off the declared shape of the Go type (its
schema); neither mentions the encoder, the decoder, or the texts they exchange.
-/
namespace Ofx.Spec
open Ofx

/-- Dates that OFX can express and Go can read: milliseconds, years 0-9999 on the local
clock, offset a multiple of 3 minutes below 25 hours and not within an hour west of GMT,
no abbreviation or a readable one (UTC only for offset zero). -/
def ExactDate (t : GoTime) : Prop :=
  t.ns % 1000000 = 0 ∧
  (⟨0, 1, 1, 0, 0, 0, 0⟩ : Civil).instant t.off ≤ t.ns ∧
  t.ns ≤ (⟨9999, 12, 31, 23, 59, 59, 999⟩ : Civil).instant t.off ∧
  t.off % 180 = 0 ∧ (-90000 < t.off ∧ t.off < 90000) ∧ (t.off ≤ -3600 ∨ 0 ≤ t.off) ∧
  (t.zone = [] ∨ ReadableZone t.zone) ∧ (t.zone = "UTC".toList → t.off = 0)

/-- Leaf values that a document can carry exactly: text without surrounding white space,
64-bit integers, amounts with at most 100 decimals, `ExactDate`s, currencies in the
table, enumeration constants or the unset 0. -/
def LeafExact (env : Env) : (l : Leaf) → l.Den → Prop
  | .str, v => IsTrim v
  | .uid, v => IsTrim v
  | .int, v => InInt64 v
  | .bool, _ => True
  | .amount, v => ∃ n : Int, (v : Rat) = (n : Rat) / 10 ^ 100
  | .date, v => ExactDate v
  | .curr, v => v = CurrSymbol.zero ∨ ∃ text, @CurrSymbol.unmarshal env.curr text = .ok v
  | .enum t, v => t ∈ allEnums ∧ ((show Nat from v) = 0 ∨ t.valid v = true)

/-- Equal leaf values; dates must show the same instant at the same offset, and the
abbreviation must be kept if there is one. -/
def LeafSame : (l : Leaf) → l.Den → l.Den → Prop
  | .date, (v : GoTime), (v' : GoTime) => v'.ns = v.ns ∧ v'.off = v.off ∧ (v.zone ≠ [] → v'.zone = v.zone)
  | .str, v, v' => v' = v
  | .uid, v, v' => v' = v
  | .int, v, v' => v' = v
  | .bool, v, v' => v' = v
  | .amount, v, v' => v' = v
  | .curr, v, v' => v' = v
  | .enum _, v, v' => v' = v

/-- A date that names its zone. -/
def LeafSettled : (l : Leaf) → l.Den → Prop
  | .date, (v : GoTime) => v.zone ≠ []
  | _, _ => True

/-- XMLName: an untagged one is unset or names the element, a tagged one carries the
name of the element. -/
def XNameExact : (xn : XName) → Str → xn.Den → Prop
  | .none, _, _ => True
  | .tag t, name, _ => t = name
  | .free, name, (x : Str) => x = [] ∨ x = name

/-- After reading, an untagged XMLName holds the name of the element. -/
def XNameSame : (xn : XName) → Str → xn.Den → Prop
  | .none, _, _ => True
  | .tag _, _, _ => True
  | .free, name, (x' : Str) => x' = name

/-- The pointed-to values of two pointers: both nil or both related. -/
def SameOpt {α : Type} (r : α → α → Prop) (a b : Option α) : Prop :=
  match a, b with
  | none, none => True
  | some x, some y => r x y
  | _, _ => False

mutual
/-- Every leaf of the value, written under the element `name`, is exact. -/
def TyExact (env : Env) : (t : Ty) → Str → t.Den → Prop
  | .leaf l, _, v => LeafExact env l v
  | .struct xn fs, name, v => XNameExact xn name v.1 ∧ FieldsExact env fs v.2
  | .closed _ _ fs, _, v => FieldsExact env fs v
  | .ptr t, name, v => ∀ x ∈ (show Option t.Den from v), TyExact env t name x
  | .slice t, name, v => ∀ x ∈ (show List t.Den from v), TyExact env t name x
  | .msgSets fs, _, v => ∀ x ∈ (show List (Str × Str × fs.Den) from v),
      (∃ short, short ≠ [] ∧ x.2.1 = short ++ "V1".toList) ∧ FieldsExact env fs x.2.2
def FieldsExact (env : Env) : (fs : Fields) → fs.Den → Prop
  | .nil, _ => True
  | .field _ name _ t rest, v => TyExact env t name v.1 ∧ FieldsExact env rest v.2
  | .alts as rest, v => (∀ x ∈ (show List as.Den from v.1), AltsExact env as x) ∧ FieldsExact env rest v.2
def AltsExact (env : Env) : (as : Alts) → as.Den → Prop
  | .nil, _ => True
  | .alt dec _ t rest, v =>
    match (show t.Den ⊕ rest.Den from v) with
    | .inl x => TyExact env t dec x
    | .inr y => AltsExact env rest y
end

mutual
/-- The same message: the same shape with the same leaves. -/
def TySame : (t : Ty) → Str → t.Den → t.Den → Prop
  | .leaf l, _, v, v' => LeafSame l v v'
  | .struct xn fs, name, v, v' => XNameSame xn name v'.1 ∧ FieldsSame fs v.2 v'.2
  | .closed _ _ fs, _, v, v' => FieldsSame fs v v'
  | .ptr t, name, v, v' => SameOpt (TySame t name) (show Option t.Den from v) (show Option t.Den from v')
  | .slice t, name, v, v' => List.Forall₂ (TySame t name) (show List t.Den from v) (show List t.Den from v')
  | .msgSets fs, _, v, v' =>
    List.Forall₂ (fun (a b : Str × Str × fs.Den) => b.1 = a.2.1 ∧ b.2.1 = a.2.1 ∧ FieldsSame fs a.2.2 b.2.2)
      (show List (Str × Str × fs.Den) from v) (show List (Str × Str × fs.Den) from v')
def FieldsSame : (fs : Fields) → fs.Den → fs.Den → Prop
  | .nil, _, _ => True
  | .field _ name _ t rest, v, v' => TySame t name v.1 v'.1 ∧ FieldsSame rest v.2 v'.2
  | .alts as rest, v, v' =>
    List.Forall₂ (AltsSame as) (show List as.Den from v.1) (show List as.Den from v'.1) ∧ FieldsSame rest v.2 v'.2
def AltsSame : (as : Alts) → as.Den → as.Den → Prop
  | .nil, _, _ => True
  | .alt dec _ t rest, v, v' =>
    match (show t.Den ⊕ rest.Den from v), (show t.Den ⊕ rest.Den from v') with
    | .inl x, .inl x' => TySame t dec x x'
    | .inr y, .inr y' => AltsSame rest y y'
    | _, _ => False
end

mutual
/-- Values in the form decoding produces: every date names its zone, every untagged
XMLName (and that of a message set) holds the element name. -/
def TySettled : (t : Ty) → Str → t.Den → Prop
  | .leaf l, _, v => LeafSettled l v
  | .struct xn fs, name, v => XNameSame xn name v.1 ∧ FieldsSettled fs v.2
  | .closed _ _ fs, _, v => FieldsSettled fs v
  | .ptr t, name, v => ∀ x ∈ (show Option t.Den from v), TySettled t name x
  | .slice t, name, v => ∀ x ∈ (show List t.Den from v), TySettled t name x
  | .msgSets fs, _, v => ∀ x ∈ (show List (Str × Str × fs.Den) from v), x.1 = x.2.1 ∧ FieldsSettled fs x.2.2
def FieldsSettled : (fs : Fields) → fs.Den → Prop
  | .nil, _ => True
  | .field _ name _ t rest, v => TySettled t name v.1 ∧ FieldsSettled rest v.2
  | .alts as rest, v => (∀ x ∈ (show List as.Den from v.1), AltsSettled as x) ∧ FieldsSettled rest v.2
def AltsSettled : (as : Alts) → as.Den → Prop
  | .nil, _ => True
  | .alt dec _ t rest, v =>
    match (show t.Den ⊕ rest.Den from v) with
    | .inl x => TySettled t dec x
    | .inr y => AltsSettled rest y
end

/-! ### Declared names

`TyExact` also asks that a struct with a declared XMLName is written under that name.
For a type in which the declarations agree (`TyTags`) only the leaf values matter
(`TyRepr`). -/

def XNameRepr : (xn : XName) → Str → xn.Den → Prop
  | .none, _, _ => True
  | .tag _, _, _ => True
  | .free, name, (x : Str) => x = [] ∨ x = name

mutual
/-- Every leaf value can be carried by a document; an untagged XMLName is unset or right;
message sets are of version 1. -/
def TyRepr (env : Env) : (t : Ty) → Str → t.Den → Prop
  | .leaf l, _, v => LeafExact env l v
  | .struct xn fs, name, v => XNameRepr xn name v.1 ∧ FieldsRepr env fs v.2
  | .closed _ _ fs, _, v => FieldsRepr env fs v
  | .ptr t, name, v => ∀ x ∈ (show Option t.Den from v), TyRepr env t name x
  | .slice t, name, v => ∀ x ∈ (show List t.Den from v), TyRepr env t name x
  | .msgSets fs, _, v => ∀ x ∈ (show List (Str × Str × fs.Den) from v),
      (∃ short, short ≠ [] ∧ x.2.1 = short ++ "V1".toList) ∧ FieldsRepr env fs x.2.2
def FieldsRepr (env : Env) : (fs : Fields) → fs.Den → Prop
  | .nil, _ => True
  | .field _ name _ t rest, v => TyRepr env t name v.1 ∧ FieldsRepr env rest v.2
  | .alts as rest, v => (∀ x ∈ (show List as.Den from v.1), AltsRepr env as x) ∧ FieldsRepr env rest v.2
def AltsRepr (env : Env) : (as : Alts) → as.Den → Prop
  | .nil, _ => True
  | .alt dec _ t rest, v =>
    match (show t.Den ⊕ rest.Den from v) with
    | .inl x => TyRepr env t dec x
    | .inr y => AltsRepr env rest y
end

mutual
/-- In this type every struct is declared with the name it is written under. -/
def TyTags : Ty → Str → Bool
  | .leaf _, _ => true
  | .struct (.tag t) fs, name => t == name && FieldsTags fs
  | .struct .none fs, _ => FieldsTags fs
  | .struct .free fs, _ => FieldsTags fs
  | .closed _ _ fs, _ => FieldsTags fs
  | .ptr t, name => TyTags t name
  | .slice t, name => TyTags t name
  | .msgSets fs, _ => FieldsTags fs
def FieldsTags : Fields → Bool
  | .nil => true
  | .field _ name _ t rest => TyTags t name && FieldsTags rest
  | .alts as rest => AltsTags as && FieldsTags rest
def AltsTags : Alts → Bool
  | .nil => true
  | .alt dec _ t rest => TyTags t dec && AltsTags rest
end

end Ofx.Spec
