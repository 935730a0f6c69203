import Verif.Spec.Exact
import Verif.Codec.Rel
import Verif.Props.Date
import Verif.Props.Amount
import Verif.Props.Enum
import Verif.Props.Leaf
/-
Exact values survive: leaf by leaf, lifted to all schemas.
-/
namespace Ofx
open Spec Props

theorem pad_nil (s : Str) : s = [] ++ s ++ [] := by simp

theorem leaf_exact (env : Env) : (l : Leaf) → ∀ v : l.Den, LeafExact env l v →
    ∃ v', LeafRT env l v v' ∧ LeafSame l v v'
  | .str, v, h => by
    refine ⟨v, ⟨?_, ?_⟩, rfl⟩
    · intro he; exact List.isEmpty_iff.mp he
    · exact (C07_string_roundtrip_iff v).mpr h
  | .uid, v, h => by
    refine ⟨v, ⟨?_, ?_⟩, rfl⟩
    · intro he; exact List.isEmpty_iff.mp he
    · exact (C07_uid_roundtrip_iff v).mpr h
  | .int, v, h => by
    refine ⟨v, ⟨?_, ?_⟩, rfl⟩
    · intro he; exact of_decide_eq_true he
    · have := C01_int_roundtrip v h [] [] (by decide) (by decide)
      rw [← pad_nil] at this
      exact this
  | .bool, v, _ => by
    refine ⟨v, ⟨?_, ?_⟩, rfl⟩
    · intro he
      change Bool at v
      cases v with
      | false => rfl
      | true => simp [Leaf.isEmpty] at he
    · have := C06_boolean_roundtrip v [] [] (by decide) (by decide)
      rw [← pad_nil] at this
      exact this
  | .amount, v, h => by
    obtain ⟨y, h1, -, h3⟩ := C03_roundtrip v
    have e := h3.mpr h
    rw [e] at h1
    exact ⟨v, ⟨by intro he; simp [Leaf.isEmpty] at he, h1⟩, rfl⟩
  | .date, v, h => by
    obtain ⟨h1, h2, h3, h4, h5, h6, h7, h8⟩ := (show ExactDate v from h)
    obtain ⟨t', g1, g2⟩ := C14_roundtrip env.loc v h1 h2 h3 h4 h5 h6 h7 h8
    exact ⟨t', ⟨by intro he; simp [Leaf.isEmpty] at he, g1⟩, g2⟩
  | .curr, v, h => by
    have := @C17_roundtrip env.curr v h [] [] (by decide) (by decide)
    rw [← pad_nil] at this
    exact ⟨v, ⟨by intro he; simp [Leaf.isEmpty] at he, this⟩, rfl⟩
  | .enum t, v, h => by
    obtain ⟨ht, h⟩ := h
    change Nat at v
    refine ⟨v, ⟨fun he => of_decide_eq_true he, ?_⟩, rfl⟩
    have g := good_of_mem ht
    cases hv : t.valid v with
    | false =>
      have hm : t.marshal v = .ret none := by simp [EnumTable.marshal, hv]
      simp only [Leaf.print, hm]
      rcases h with h | h
      · exact h
      · rw [hv] at h; cases h
    | true =>
      obtain ⟨s, hs, hstr⟩ := g.string_valid hv
      have hm : t.marshal v = .ret (some s) := by simp [EnumTable.marshal, hv, hs]
      simp only [Leaf.print, hm, Leaf.parse]
      obtain ⟨s', e1, e2⟩ := C10_roundtrip t ht v hv [] [] (by decide) (by decide)
      rw [hstr] at e1
      cases e1
      rw [← pad_nil] at e2
      exact ((C10_new_unmarshal t s v).2).mpr e2

theorem settled_leaf : (l : Leaf) → ∀ v v' : l.Den, LeafSame l v v' → LeafSettled l v → v' = v
  | .str, _, _, h, _ => h
  | .uid, _, _, h, _ => h
  | .int, _, _, h, _ => h
  | .bool, _, _, h, _ => h
  | .amount, _, _, h, _ => h
  | .curr, _, _, h, _ => h
  | .enum _, _, _, h, _ => h
  | .date, (v : GoTime), (v' : GoTime), h, hs => by
    obtain ⟨h1, h2, h3⟩ := (show v'.ns = v.ns ∧ v'.off = v.off ∧ (v.zone ≠ [] → v'.zone = v.zone) from h)
    have h4 := h3 hs
    change v' = v
    cases v; cases v'
    simp_all

theorem trimV1_of_suffix {short : Str} (h : short ≠ []) : (trimV1 (short ++ "V1".toList)).isSome = true := by
  have := List.length_pos_iff.mpr h
  simp [trimV1, this]

/-- Pointwise existence along a list. -/
theorem list_exact {α : Type} {p : α → Prop} {r s : α → α → Prop} (l : List α)
    (hl : ∀ x ∈ l, p x) (h : ∀ x ∈ l, p x → ∃ y, r x y ∧ s x y) :
    ∃ l', ListRel r l l' ∧ List.Forall₂ s l l' := by
  induction l with
  | nil => exact ⟨[], trivial, .nil⟩
  | cons a l ih =>
    obtain ⟨y, h1, h2⟩ := h a (by simp) (hl a (by simp))
    obtain ⟨l', g1, g2⟩ := ih (fun x hx => hl x (by simp [hx])) (fun x hx => h x (by simp [hx]))
    exact ⟨y :: l', ⟨h1, g1⟩, .cons h2 g2⟩

theorem list_settled {α : Type} {q : α → Prop} {s : α → α → Prop} {l l' : List α}
    (hs : List.Forall₂ s l l') (hq : ∀ x ∈ l, q x) (h : ∀ x y, s x y → q x → y = x) : l' = l := by
  induction hs with
  | nil => rfl
  | cons h1 h2 ih => rw [h _ _ h1 (hq _ (by simp)), ih (fun x hx => hq x (by simp [hx]))]

mutual
theorem ty_exact (env : Env) : (t : Ty) → ∀ (name : Str) (v : t.Den), TyExact env t name v →
    ∃ v', t.Rel env name v v' ∧ TySame t name v v'
  | .leaf l, name, v, h => leaf_exact env l v h
  | .struct xn fs, name, v, h => by
    obtain ⟨x, v⟩ := v
    obtain ⟨h1, h2⟩ := (show XNameExact xn name x ∧ FieldsExact env fs v from h)
    obtain ⟨v', g1, g2⟩ := fields_exact env fs v h2
    refine ⟨(xn.set name, v'), ?_⟩
    simp only [Ty.Rel, TySame]
    cases xn with
    | none => exact ⟨⟨rfl, trivial, g1⟩, trivial, g2⟩
    | tag t => exact ⟨⟨by have e : t = name := h1; simp [XName.check, e], trivial, g1⟩, trivial, g2⟩
    | free => exact ⟨⟨rfl, ⟨h1, rfl⟩, g1⟩, rfl, g2⟩
  | .closed _ _ fs, name, v, h => fields_exact env fs v h
  | .ptr t, name, v, h => by
    change Option t.Den at v
    cases v with
    | none => exact ⟨(none : Option t.Den), trivial, trivial⟩
    | some x =>
      obtain ⟨y, h1, h2⟩ := ty_exact env t name x (h x rfl)
      exact ⟨(some y : Option t.Den), h1, h2⟩
  | .slice t, name, v, h =>
    list_exact (show List t.Den from v) h (fun x _ hx => ty_exact env t name x hx)
  | .msgSets fs, name, v, h => by
    refine list_exact (show List (Str × Str × fs.Den) from v) h (fun x _ hx => ?_)
    obtain ⟨⟨short, hs⟩, hf⟩ := hx
    obtain ⟨y, g1, g2⟩ := fields_exact env fs x.2.2 hf
    exact ⟨(x.2.1, x.2.1, y), ⟨by rw [hs.2]; exact trimV1_of_suffix hs.1, rfl, rfl, g1⟩, rfl, rfl, g2⟩
theorem fields_exact (env : Env) : (fs : Fields) → ∀ v : fs.Den, FieldsExact env fs v →
    ∃ v', fs.Rel env v v' ∧ FieldsSame fs v v'
  | .nil, _, _ => ⟨(), trivial, trivial⟩
  | .field _ name _ t rest, v, h => by
    obtain ⟨h1, h2⟩ := (show TyExact env t name v.1 ∧ FieldsExact env rest v.2 from h)
    obtain ⟨a, a1, a2⟩ := ty_exact env t name v.1 h1
    obtain ⟨b, b1, b2⟩ := fields_exact env rest v.2 h2
    exact ⟨(a, b), ⟨a1, b1⟩, a2, b2⟩
  | .alts as rest, v, h => by
    obtain ⟨h1, h2⟩ := (show (∀ x ∈ (show List as.Den from v.1), AltsExact env as x) ∧ FieldsExact env rest v.2 from h)
    obtain ⟨a, a1, a2⟩ := list_exact (show List as.Den from v.1) h1 (fun x _ hx => alts_exact env as x hx)
    obtain ⟨b, b1, b2⟩ := fields_exact env rest v.2 h2
    exact ⟨(a, b), ⟨a1, b1⟩, a2, b2⟩
theorem alts_exact (env : Env) : (as : Alts) → ∀ v : as.Den, AltsExact env as v →
    ∃ v', as.Rel env v v' ∧ AltsSame as v v'
  | .nil, v, _ => (show Empty from v).elim
  | .alt dec enc t rest, v, h => by
    change t.Den ⊕ rest.Den at v
    rcases v with x | y
    · obtain ⟨x', h1, h2⟩ := ty_exact env t dec x h
      exact ⟨(.inl x' : t.Den ⊕ rest.Den), h1, h2⟩
    · obtain ⟨y', h1, h2⟩ := alts_exact env rest y h
      exact ⟨(.inr y' : t.Den ⊕ rest.Den), h1, h2⟩
end

mutual
theorem ty_settled : (t : Ty) → ∀ (name : Str) (v v' : t.Den), TySame t name v v' → TySettled t name v → v' = v
  | .leaf l, name, v, v', h, hs => settled_leaf l v v' h hs
  | .struct xn fs, name, v, v', h, hs => by
    obtain ⟨h1, h2⟩ := (show XNameSame xn name v'.1 ∧ FieldsSame fs v.2 v'.2 from h)
    obtain ⟨s1, s2⟩ := (show XNameSame xn name v.1 ∧ FieldsSettled fs v.2 from hs)
    refine Prod.ext ?_ (fields_settled fs v.2 v'.2 h2 s2)
    cases xn with
    | none => rfl
    | tag t => rfl
    | free => exact Eq.trans h1 (Eq.symm s1)
  | .closed _ _ fs, name, v, v', h, hs => fields_settled fs v v' h hs
  | .ptr t, name, v, v', h, hs => by
    change Option t.Den at v v'
    rcases v with _ | x <;> rcases v' with _ | y
    · rfl
    · exact (show False from h).elim
    · exact (show False from h).elim
    · exact congrArg some (ty_settled t name x y h (hs x rfl))
  | .slice t, name, v, v', h, hs =>
    list_settled (show List.Forall₂ (TySame t name) v v' from h) hs (fun x y h1 h2 => ty_settled t name x y h1 h2)
  | .msgSets fs, name, v, v', h, hs =>
    list_settled (l := (show List (Str × Str × fs.Den) from v)) (l' := (show List (Str × Str × fs.Den) from v')) h hs
      (fun x y h1 h2 => Prod.ext (h1.1.trans h2.1.symm) (Prod.ext h1.2.1 (fields_settled fs _ _ h1.2.2 h2.2)))
theorem fields_settled : (fs : Fields) → ∀ v v' : fs.Den, FieldsSame fs v v' → FieldsSettled fs v → v' = v
  | .nil, _, _, _, _ => rfl
  | .field _ name _ t rest, v, v', h, hs =>
    Prod.ext (ty_settled t name v.1 v'.1 h.1 hs.1) (fields_settled rest v.2 v'.2 h.2 hs.2)
  | .alts as rest, v, v', h, hs =>
    Prod.ext (list_settled h.1 hs.1 (fun x y h1 h2 => alts_settled as x y h1 h2)) (fields_settled rest v.2 v'.2 h.2 hs.2)
theorem alts_settled : (as : Alts) → ∀ v v' : as.Den, AltsSame as v v' → AltsSettled as v → v' = v
  | .nil, v, _, _, _ => (show Empty from v).elim
  | .alt dec _ t rest, v, v', h, hs => by
    change t.Den ⊕ rest.Den at v v'
    rcases v with x | x <;> rcases v' with y | y
    · exact congrArg Sum.inl (ty_settled t dec x y h hs)
    · exact (show False from h).elim
    · exact (show False from h).elim
    · exact congrArg Sum.inr (alts_settled rest x y h hs)
end

mutual
theorem ty_repr (env : Env) : (t : Ty) → ∀ (name : Str) (v : t.Den), TyTags t name = true → TyRepr env t name v →
    TyExact env t name v
  | .leaf l, _, _, _, h => h
  | .struct (.tag t) fs, name, v, ht, h => by
    simp only [TyTags, Bool.and_eq_true, beq_iff_eq] at ht
    exact ⟨ht.1, fields_repr env fs v.2 ht.2 h.2⟩
  | .struct .none fs, name, v, ht, h => ⟨trivial, fields_repr env fs v.2 ht h.2⟩
  | .struct .free fs, name, v, ht, h => ⟨h.1, fields_repr env fs v.2 ht h.2⟩
  | .closed _ _ fs, _, v, ht, h => fields_repr env fs v ht h
  | .ptr t, name, v, ht, h => fun x hx => ty_repr env t name x ht (h x hx)
  | .slice t, name, v, ht, h => fun x hx => ty_repr env t name x ht (h x hx)
  | .msgSets fs, _, v, ht, h => fun x hx => ⟨(h x hx).1, fields_repr env fs _ ht (h x hx).2⟩
theorem fields_repr (env : Env) : (fs : Fields) → ∀ v : fs.Den, FieldsTags fs = true → FieldsRepr env fs v →
    FieldsExact env fs v
  | .nil, _, _, _ => trivial
  | .field _ name _ t rest, v, ht, h => by
    simp only [FieldsTags, Bool.and_eq_true] at ht
    exact ⟨ty_repr env t name _ ht.1 h.1, fields_repr env rest _ ht.2 h.2⟩
  | .alts as rest, v, ht, h => by
    simp only [FieldsTags, Bool.and_eq_true] at ht
    exact ⟨fun x hx => alts_repr env as x ht.1 (h.1 x hx), fields_repr env rest _ ht.2 h.2⟩
theorem alts_repr (env : Env) : (as : Alts) → ∀ v : as.Den, AltsTags as = true → AltsRepr env as v → AltsExact env as v
  | .nil, _, _, _ => trivial
  | .alt dec enc t rest, v, ht, h => by
    simp only [AltsTags, Bool.and_eq_true] at ht
    change t.Den ⊕ rest.Den at v
    cases v with
    | inl x => exact ty_repr env t dec x ht.1 h
    | inr y => exact alts_repr env rest y ht.2 h
end

mutual
theorem ty_exact_repr (env : Env) : (t : Ty) → ∀ (name : Str) (v : t.Den), TyExact env t name v → TyRepr env t name v
  | .leaf l, _, _, h => h
  | .struct (.tag t) fs, name, v, h => ⟨trivial, fields_exact_repr env fs v.2 h.2⟩
  | .struct .none fs, name, v, h => ⟨trivial, fields_exact_repr env fs v.2 h.2⟩
  | .struct .free fs, name, v, h => ⟨h.1, fields_exact_repr env fs v.2 h.2⟩
  | .closed _ _ fs, _, v, h => fields_exact_repr env fs v h
  | .ptr t, name, v, h => fun x hx => ty_exact_repr env t name x (h x hx)
  | .slice t, name, v, h => fun x hx => ty_exact_repr env t name x (h x hx)
  | .msgSets fs, _, v, h => fun x hx => ⟨(h x hx).1, fields_exact_repr env fs _ (h x hx).2⟩
theorem fields_exact_repr (env : Env) : (fs : Fields) → ∀ v : fs.Den, FieldsExact env fs v → FieldsRepr env fs v
  | .nil, _, _ => trivial
  | .field _ name _ t rest, v, h => ⟨ty_exact_repr env t name _ h.1, fields_exact_repr env rest _ h.2⟩
  | .alts as rest, v, h => ⟨fun x hx => alts_exact_repr env as x (h.1 x hx), fields_exact_repr env rest _ h.2⟩
theorem alts_exact_repr (env : Env) : (as : Alts) → ∀ v : as.Den, AltsExact env as v → AltsRepr env as v
  | .nil, _, _ => trivial
  | .alt dec enc t rest, v, h => by
    change t.Den ⊕ rest.Den at v
    cases v with
    | inl x => exact ty_exact_repr env t dec x h
    | inr y => exact alts_exact_repr env rest y h
end

end Ofx
