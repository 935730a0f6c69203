import Verif.Codec.Encode
import Verif.Codec.Decode
/-
Relations used to state what survives encoding and decoding, and the well-formedness
conditions of schemas (decidable; checked for every generated schema).
-/
namespace Ofx

/-- `v'` is what a leaf field holds after writing `v` and reading it back: what the text
parses to; the zero value if nothing was written. -/
def LeafRT (env : Env) (l : Leaf) (v v' : l.Den) : Prop :=
  (l.isEmpty v = true → v' = l.zero) ∧
  match l.print v with
  | some s => l.parse env s = .ok v'
  | none => v' = l.zero

/-- Untagged XMLName: set to the element name by reading; must not have been set to
another name before writing. -/
def XName.Rel : (xn : XName) → Str → xn.Den → xn.Den → Prop
  | .none, _, _, _ => True
  | .tag _, _, _, _ => True
  | .free, name, x, x' => ((show Str from x) = [] ∨ (show Str from x) = name) ∧ (show Str from x') = name

/-- Both nil, or both non-nil with related targets. -/
def OptRel {α β : Type} (r : α → β → Prop) : Option α → Option β → Prop
  | none, none => True
  | some a, some b => r a b
  | _, _ => False

/-- Lists of equal length with related elements. -/
def ListRel {α β : Type} (r : α → β → Prop) : List α → List β → Prop
  | [], [] => True
  | a :: as, b :: bs => r a b ∧ ListRel r as bs
  | _, _ => False

mutual
/-- Field-wise lifting of `LeafRT`: same shape, every leaf replaced by what is read back
for it.  A struct whose XMLName tag differs from the name it occurs under is related to
nothing: it cannot be read back. -/
def Ty.Rel (env : Env) : (t : Ty) → Str → t.Den → t.Den → Prop
  | .leaf l, _, v, v' => LeafRT env l v v'
  | .struct xn fs, name, v, v' => xn.check name = true ∧ xn.Rel name v.1 v'.1 ∧ fs.Rel env v.2 v'.2
  | .closed _ _ fs, _, v, v' => fs.Rel env v v'
  | .ptr t, name, v, v' => OptRel (fun a b => t.Rel env name a b) v v'
  | .slice t, name, v, v' => ListRel (fun a b => t.Rel env name a b) v v'
  | .msgSets fs, _, v, v' =>
    ListRel (fun (a b : Str × Str × fs.Den) =>
      (trimV1 a.2.1).isSome = true ∧ b.1 = a.2.1 ∧ b.2.1 = a.2.1 ∧ fs.Rel env a.2.2 b.2.2) v v'
def Fields.Rel (env : Env) : (fs : Fields) → fs.Den → fs.Den → Prop
  | .nil, _, _ => True
  | .field _ name _ t rest, v, v' => t.Rel env name v.1 v'.1 ∧ rest.Rel env v.2 v'.2
  | .alts as rest, v, v' => ListRel (fun a b => as.Rel env a b) v.1 v'.1 ∧ rest.Rel env v.2 v'.2
def Alts.Rel (env : Env) : (as : Alts) → as.Den → as.Den → Prop
  | .nil, v, _ => (show Empty from v).elim
  | .alt dec _ t rest, v, v' =>
    match (show t.Den ⊕ rest.Den from v), (show t.Den ⊕ rest.Den from v') with
    | .inl x, .inl x' => t.Rel env dec x x'
    | .inr y, .inr y' => rest.Rel env y y'
    | _, _ => False
end

/-! ### Well-formed schemas -/

/-- No proper prefix of the path is the name of a field. -/
def pathOk (full : Fields) : List Str → List Str → Bool
  | _, [] => true
  | pre, h :: t => !full.hits pre h && full.under (pre ++ [h]) && pathOk full (pre ++ [h]) t

/-- Types of which a value is written as exactly one element. -/
def Ty.single : Ty → Bool
  | .leaf (.enum _) => false
  | .leaf _ => true
  | .struct _ _ => true
  | .closed _ _ _ => true
  | .ptr _ => false
  | .slice _ => false
  | .msgSets _ => true

def Ty.isStruct : Ty → Bool
  | .struct _ _ => true
  | _ => false

/-- All names of the alternatives satisfy `p`. -/
def Alts.all (p : Str → Bool) : Alts → Bool
  | .nil => true
  | .alt dec _ _ rest => p dec && rest.all p

mutual
/-- The schema can be read back when written under `name`. -/
def Ty.wf : Ty → Str → Bool → Bool
  | .leaf _, _, _ => true
  | .struct _ fs, _, _ => fs.wf fs
  | .closed lit _ fs, name, _ => lit == name && fs.wf fs
  | .ptr t, name, _ => t.single && t.wf name false
  | .slice t, name, om => t.single && (!om || t.isStruct) && t.wf name om
  | .msgSets fs, name, _ => name == "MSGSETLIST".toList && fs.wf fs &&
      !fs.hits [] "Name".toList && !fs.under ["Name".toList]
def Fields.wf : Fields → Fields → Bool
  | .nil, _ => true
  | .field path name om t rest, full =>
    pathOk full [] path && full.hits path name && !rest.hits path name && t.wf name om && rest.wf full
  | .alts as rest, full =>
    as.all (fun n => full.hits [] n && !rest.hits [] n) && as.wf && rest.wf full
def Alts.wf : Alts → Bool
  | .nil => true
  | .alt dec enc t rest =>
    dec == enc && !rest.has dec && t.isStruct && t.wf dec false && rest.wf
end

end Ofx
