import Verif.Spec.Leaves
/-
What the elements of a document say, read off the declared shape of a Go type (its schema).  That
this is what Spec/Elements writes out is proved in Lemmas/Elements.
-/
namespace Ofx.Spec
open Ofx

/-- A struct may demand a name of its elements ... -/
def NameAllowed : XName → Str → Prop
  | .none, _ => True
  | .tag t, name => name = t
  | .free, _ => True

/-- ... or remember it: that of the last one. -/
def NameSays : (xn : XName) → List (Str × List Node) → xn.Den → Prop
  | .none, _, _ => True
  | .tag _, _, _ => True
  | .free, es, (x : Str) => x = (es.getLast?.map (fun e => e.1)).getD []

mutual
/-- The elements `es`, all those in the document for one field of type `t`, say `v`. -/
def TySays (env : Env) : (t : Ty) → (es : List (Str × List Node)) → t.Den → Prop
  -- a leaf: every element can be read; the last one counts; without one, it is the zero value
  | .leaf l, es, v => (∀ e ∈ es, ∃ x, LeafSays env l (leafText e.2) x) ∧
      match es.getLast? with
      | none => v = l.zero
      | some e => LeafSays env l (leafText e.2) v
  -- a struct: the contents of the elements, taken together, say what its fields are
  | .struct xn fs, es, v => (∀ e ∈ es, NameAllowed xn e.1) ∧ NameSays xn es v.1 ∧ FieldsSay env fs (es.flatMap (fun e => e.2)) v.2
  -- a list type: likewise, and there is nothing else in them
  | .closed _ _ fs, es, v => FieldsSay env fs (es.flatMap (fun e => e.2)) v ∧
      ∀ c ∈ es.flatMap (fun e => e.2), (∃ n ch, c = .elem n ch ∧ n ∈ childNames fs []) ∨ ∃ s, c = .text s ∧ IsPadding s
  -- a pointer: nil without elements
  | .ptr t, es, v => (es = [] ∧ v = none) ∨ (es ≠ [] ∧ ∃ x, v = some x ∧ TySays env t es x)
  -- a slice: one value for each element
  | .slice t, es, v => List.Forall₂ (fun e x => TySays env t [e] x) es (show List t.Den from v)
  -- a list of message sets: one for each element, which contains one element that gives the name
  | .msgSets fs, es, v => OnlyElements (es.flatMap (fun e => e.2)) ∧
      List.Forall₂ (fun e (x : Str × Str × fs.Den) => x.2.1 = x.1 ∧
        ∃ ch, OnlyElements e.2 ∧ elems e.2 = [(x.1, ch)] ∧ FieldsSay env fs ch x.2.2)
        (elems (es.flatMap (fun e => e.2))) (show List (Str × Str × fs.Den) from v)
/-- The contents `cs` of an element say what the fields are. -/
def FieldsSay (env : Env) : (fs : Fields) → (cs : List Node) → fs.Den → Prop
  | .nil, _, _ => True
  | .field path name _ t rest, cs, v => TySays env t (elementsAt path name cs) v.1 ∧ FieldsSay env rest cs v.2
  | .alts as rest, cs, v =>
      List.Forall₂ (AltsSay env as) ((elems cs).filter (fun e => e.1 ∈ altNames as)) (show List as.Den from v.1) ∧
      FieldsSay env rest cs v.2
/-- An element says which alternative of a list it is, by its name, and what that is. -/
def AltsSay (env : Env) : (as : Alts) → (e : Str × List Node) → as.Den → Prop
  | .nil, _, _ => False
  | .alt name _ t rest, e, v =>
    match (show t.Den ⊕ rest.Den from v) with
    | .inl x => e.1 = name ∧ TySays env t [e] x
    | .inr y => e.1 ≠ name ∧ AltsSay env rest e y
end

end Ofx.Spec
