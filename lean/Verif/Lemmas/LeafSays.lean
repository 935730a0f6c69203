import Verif.Spec.LeafSays
import Verif.Props.Leaf
import Verif.Props.Enum
import Verif.Props.AmountText
import Verif.Props.DateText
/-
Values are read as their texts say.
-/
namespace Ofx
open Spec

theorem search_iff (s : Str) : ∀ (names : List Str) (k i : Nat), names.Nodup →
    (EnumTable.search s names k = some i ↔ ∃ j, i = k + j ∧ names[j]? = some s)
  | [], k, i, _ => by simp [EnumTable.search]
  | x :: xs, k, i, h => by
    rw [List.nodup_cons] at h
    unfold EnumTable.search
    by_cases hx : x = s
    · subst hx
      rw [if_pos rfl]
      constructor
      · intro e; cases e; exact ⟨0, rfl, rfl⟩
      · rintro ⟨j, rfl, hj⟩
        cases j with
        | zero => rfl
        | succ j => exact absurd (List.mem_of_getElem? (by simpa using hj)) h.1
    · rw [if_neg hx, search_iff s xs (k + 1) i h.2]
      constructor
      · rintro ⟨j, rfl, hj⟩; exact ⟨j + 1, by omega, by simpa using hj⟩
      · rintro ⟨j, rfl, hj⟩
        cases j with
        | zero => simp at hj; exact absurd hj hx
        | succ j => exact ⟨j, by omega, by simpa using hj⟩

/-- The strings of an enumeration are all different. -/
def leafOk : Leaf → Bool
  | .enum t => decide t.names.Nodup
  | _ => true

theorem leaf_says (env : Env) (l : Leaf) (hl : leafOk l = true) (text : Str) (v : l.Den) :
    l.parse env text = .ok v ↔ LeafSays env l text v := by
  cases l with
  | str =>
    simp only [Leaf.parse, LeafSays, trimsTo_iff, OString.unmarshal, Except.ok.injEq]
  | uid =>
    simp only [Leaf.parse, LeafSays, trimsTo_iff, UID.unmarshal, Except.ok.injEq]
  | int => exact Props.C01_int_decode_iff text v
  | bool => exact Props.C06_boolean_decode_iff text v
  | amount =>
    simp only [Leaf.parse, LeafSays]
    constructor
    · intro h
      exact ⟨trimSpace text, (trimsTo_iff _ _).mpr rfl, (Props.C73_accepted_iff text _ v ((trimsTo_iff _ _).mpr rfl)).mp h⟩
    · rintro ⟨core, h1, h2⟩
      exact (Props.C73_accepted_iff text core v h1).mpr h2
  | date => exact Props.C74_accepted_iff env.loc text v
  | curr =>
    refine (@Props.C17_decode_iff env.curr text v).trans ?_
    constructor
    · rintro ⟨core, h1, ⟨h2, h3, h4⟩, h5⟩; exact ⟨core, h1, h2, h3, h4, h5⟩
    · rintro ⟨core, h1, h2, h3, h4, h5⟩; exact ⟨core, h1, ⟨h2, h3, h4⟩, h5⟩
  | enum t =>
    simp only [Leaf.parse, LeafSays, EnumTable.unmarshal, EnumTable.fromString]
    have hn : t.names.Nodup := by simpa [leafOk] using hl
    have key := fun i => search_iff (trimSpace text) t.names 0 i hn
    cases hs : EnumTable.search (trimSpace text) t.names 0 with
    | none =>
      simp only [reduceCtorEq, false_iff]
      rintro ⟨i, name, -, hi, ht⟩
      rw [trimsTo_iff] at ht; subst ht
      rw [(key i).mpr ⟨i, by omega, hi⟩] at hs; cases hs
    | some i =>
      simp only [Except.ok.injEq]
      constructor
      · intro e
        obtain ⟨j, hj, hn⟩ := (key i).mp hs
        refine ⟨i, _, e.symm, ?_, (trimsTo_iff _ _).mpr rfl⟩
        rw [hj]; simpa using hn
      · rintro ⟨j, name, e, hi, ht⟩
        rw [trimsTo_iff] at ht; subst ht
        rw [(key j).mpr ⟨j, by omega, hi⟩] at hs; cases hs
        exact e.symm

theorem search_name (s : Str) : ∀ (names : List Str) (k i : Nat), EnumTable.search s names k = some i →
    ∃ j, i = k + j ∧ names[j]? = some s
  | [], k, i, h => by simp [EnumTable.search] at h
  | x :: xs, k, i, h => by
    unfold EnumTable.search at h
    by_cases hx : x = s
    · rw [if_pos hx] at h; cases h; exact ⟨0, rfl, by simp [hx]⟩
    · rw [if_neg hx] at h
      obtain ⟨j, rfl, hj⟩ := search_name s xs (k + 1) i h
      exact ⟨j + 1, by omega, by simpa using hj⟩

theorem enum_says {env : Env} {t : EnumTable} {s : Str} {v : Nat} (h : (Leaf.enum t).parse env s = .ok v) :
    LeafSays env (.enum t) s v := by
  simp only [Leaf.parse, EnumTable.unmarshal, EnumTable.fromString] at h
  cases hs : EnumTable.search (trimSpace s) t.names 0 with
  | none => rw [hs] at h; cases h
  | some i =>
    rw [hs] at h
    obtain ⟨j, hj, hn⟩ := search_name _ _ _ _ hs
    simp only [Except.ok.injEq] at h
    exact ⟨j, _, by omega, hn, (trimsTo_iff _ _).mpr rfl⟩

/-- Texts that denote the same values are read alike. -/
theorem leaf_same {l : Leaf} {s s' : Str} (h : ∀ env v, LeafSays env l s v ↔ LeafSays env l s' v) (env : Env) (v : l.Den) :
    l.parse env s = .ok v ↔ l.parse env s' = .ok v := by
  by_cases hl : leafOk l = true
  · rw [leaf_says env l hl, leaf_says env l hl, h]
  · cases l with
    | enum t =>
      by_cases hx : ∃ x, LeafSays env (.enum t) s x
      · obtain ⟨x, h1⟩ := hx
        have h2 := (h env x).mp h1
        obtain ⟨i, name, e, hi, ht⟩ := h1
        obtain ⟨i', name', e', hi', ht'⟩ := h2
        have : i' = i := by omega
        subst this
        rw [hi] at hi'
        cases hi'
        rw [trimsTo_iff] at ht ht'
        simp only [Leaf.parse, EnumTable.unmarshal, EnumTable.fromString, ht, ht']
        cases EnumTable.search name t.names 0 <;> simp
      · exact ⟨fun g => absurd ⟨v, enum_says g⟩ hx, fun g => absurd ⟨v, (h env v).mpr (enum_says g)⟩ hx⟩
    | _ => exact absurd rfl hl

end Ofx
