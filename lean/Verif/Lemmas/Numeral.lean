import Verif.Lemmas.Str
import Verif.Spec.Numeral
/- The model's string functions against the independent numeral specification. -/
namespace Ofx
open Spec

theorem isDecDigit_iff (c : Char) : IsDecDigit c ↔ isDigit c = true := by
  constructor
  · intro h
    simp only [IsDecDigit, List.mem_cons, List.not_mem_nil, or_false] at h
    rcases h with h | h | h | h | h | h | h | h | h | h <;> subst h <;> decide
  · intro h
    have hv := digitV_lt h
    rw [← digitC_digitV h]
    generalize digitV c = d at hv
    have : d = 0 ∨ d = 1 ∨ d = 2 ∨ d = 3 ∨ d = 4 ∨ d = 5 ∨ d = 6 ∨ d = 7 ∨ d = 8 ∨ d = 9 := by omega
    rcases this with h | h | h | h | h | h | h | h | h | h <;> subst h <;> decide

theorem digit_eq {c : Char} (h : isDigit c = true) : digit c = digitV c := by
  have hv := digitV_lt h
  rw [← digitC_digitV h]
  generalize digitV c = d at hv
  have : d = 0 ∨ d = 1 ∨ d = 2 ∨ d = 3 ∨ d = 4 ∨ d = 5 ∨ d = 6 ∨ d = 7 ∨ d = 8 ∨ d = 9 := by omega
  rcases this with h | h | h | h | h | h | h | h | h | h <;> subst h <;> decide

theorem value_eq {s : Str} (h : ∀ c ∈ s, isDigit c = true) : value s = digitsVal s := by
  induction s with
  | nil => rfl
  | cons c cs ih =>
    rw [value, digitsVal_cons, ih (fun x hx => h x (by simp [hx])), digit_eq (h c (by simp))]

theorem isNumeral_iff (s : Str) : IsNumeral s ↔ s ≠ [] ∧ ∀ c ∈ s, isDigit c = true := by
  simp only [IsNumeral, isDecDigit_iff]

theorem whiteSpace_iff (c : Char) : c.toNat ∈ whiteSpace ↔ isSpace c = true := by
  simp only [whiteSpace, List.mem_cons, List.not_mem_nil, or_false, isSpace, Bool.or_eq_true,
    Bool.and_eq_true, decide_eq_true_eq, beq_iff_eq]
  omega

theorem isPadding_iff (s : Str) : IsPadding s ↔ AllSpace s := by
  simp only [IsPadding, AllSpace, whiteSpace_iff]

theorem isTrim_iff (s : Str) : IsTrim s ↔ Trimmed s := by
  simp only [IsTrim, Trimmed, whiteSpace_iff, Bool.not_eq_true]

theorem trimsTo_iff (t core : Str) : TrimsTo t core ↔ trimSpace t = core := by
  constructor
  · rintro ⟨w, w', hw, hw', rfl, hc⟩
    exact trimSpace_pad ((isPadding_iff w).mp hw) ((isPadding_iff w').mp hw') ((isTrim_iff core).mp hc)
  · rintro rfl
    obtain ⟨w, w', hw, hw', he⟩ := trimSpace_decomp t
    exact ⟨w, w', (isPadding_iff w).mpr hw, (isPadding_iff w').mpr hw', he,
      (isTrim_iff _).mpr (trimSpace_trimmed t)⟩

end Ofx
