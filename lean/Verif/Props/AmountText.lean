import Verif.Lemmas.AmountText
/-
Property C73: exactly which texts are amounts.
-/
namespace Ofx.Props
open Ofx Spec

/-- C73: the text of an amount element is accepted as the amount q exactly if, without surrounding
white space, it is an optionally signed number denoting q: in point notation (decimal, or to a base
chosen by 0b, 0o or 0x, with underscores between digits, a point or a comma and an exponent of ten
or two), or a fraction of two whole numbers. -/
theorem C73_accepted_iff (text core : Str) (q : ℚ) (ht : TrimsTo text core) :
    Amount.unmarshal text = .ok q ↔ AmountText core q := by
  rw [trimsTo_iff] at ht
  unfold Amount.unmarshal
  rw [ht]
  simp only
  rw [← amountText_iff, ← ratSetString_iff]
  cases ratSetString (replaceFirst ',' '.' core) with
  | none => simp
  | some r => simp

/-- C73: a text that is no such number is an error. -/
theorem C73_rejected_iff (text core : Str) (ht : TrimsTo text core) :
    (∃ e, Amount.unmarshal text = .error e) ↔ ¬ ∃ q, AmountText core q := by
  constructor
  · rintro ⟨e, he⟩ ⟨q, hq⟩
    rw [(C73_accepted_iff text core q ht).mpr hq] at he
    cases he
  · intro h
    cases hu : Amount.unmarshal text with
    | error e => exact ⟨e, rfl⟩
    | ok q => exact absurd ⟨q, (C73_accepted_iff text core q ht).mp hu⟩ h

/-- C73: the notation is unambiguous, a text denotes at most one amount. -/
theorem C73_unambiguous (core : Str) (q r : ℚ) (hq : AmountText core q) (hr : AmountText core r) : q = r := by
  rw [← amountText_iff, ← ratSetString_iff] at hq hr
  rw [hq] at hr
  exact Option.some.inj hr

theorem trimsTo_self {s : Str} (h : IsTrim s) : TrimsTo s s := ⟨[], [], by simp [IsPadding], by simp [IsPadding], by simp, h⟩

theorem grouped_digits {b : Nat} {s : Str} (hne : s ≠ []) (h : ∀ c ∈ s, digitIn c < b) : Grouped b s s :=
  ⟨[s], by simp, by simpa using ⟨hne, h⟩, by simp, by simp⟩

/-- "-1_000,50" is an amount text for -1000.5. -/
theorem amount_grouped : AmountText "-1_000,50".toList (-2001/2) := by
  refine ⟨['-'], "1_000,50".toList, 2001/2, rfl, by decide, Or.inl ?_, by norm_num⟩
  refine ⟨10, [], "1_000".toList, "1000".toList, ",50".toList, "50".toList, "50".toList, [], 10, 0, rfl, Or.inl ⟨rfl, rfl⟩,
    Or.inr ⟨[['1'], "000".toList], by decide, by decide, rfl, rfl⟩,
    Or.inr ⟨Or.inr rfl, Or.inr (grouped_digits (by decide) (by decide))⟩, by decide, Or.inl ⟨rfl, rfl, rfl⟩, by decide,
    Or.inr (by unfold InRange; decide), ?_⟩
  rw [show valueIn 10 ("1000".toList ++ "50".toList) = 100050 by decide, show "50".toList.length = 2 by rfl]
  norm_num

example : Amount.unmarshal " -1_000,50\n".toList = .ok (-2001/2) :=
  (C73_accepted_iff _ "-1_000,50".toList _ ⟨[' '], ['\n'], by decide, by decide, rfl, by decide, by decide⟩).mpr amount_grouped

/-- "0x10" is an amount text for 16. -/
theorem amount_hex : AmountText "0x10".toList 16 := by
  refine ⟨[], "0x10".toList, 16, rfl, by decide, Or.inl ?_, by norm_num⟩
  refine ⟨16, "0x".toList, "10".toList, "10".toList, [], [], [], [], 10, 0, rfl, Or.inr ⟨"0x".toList, by decide, Or.inl rfl⟩,
    Or.inr (grouped_digits (by decide) (by decide)), Or.inl ⟨rfl, rfl⟩, by decide, Or.inl ⟨rfl, rfl, rfl⟩, by simp,
    Or.inr (by unfold InRange; decide), ?_⟩
  rw [show valueIn 16 ("10".toList ++ []) = 16 by decide]
  norm_num

/-- "1e3" is an amount text for 1000. -/
theorem amount_exponent : AmountText "1e3".toList 1000 := by
  refine ⟨[], "1e3".toList, 1000, rfl, by decide, Or.inl ?_, by norm_num⟩
  refine ⟨10, [], "1".toList, "1".toList, [], [], [], "e3".toList, 10, 3, rfl, Or.inl ⟨rfl, rfl⟩,
    Or.inr (grouped_digits (by decide) (by decide)), Or.inl ⟨rfl, rfl⟩, by decide,
    Or.inr ⟨'e', [], "3".toList, "3".toList, rfl, Or.inl ⟨rfl, Or.inl rfl⟩, Or.inl rfl, grouped_digits (by decide) (by decide),
      by decide, by unfold InInt64; decide⟩, by decide, Or.inr (by unfold InRange; decide), ?_⟩
  rw [show valueIn 10 ("1".toList ++ []) = 1 by decide]
  norm_num

/-- "010/4" is an amount text for 2: whole numbers with a leading zero are octal in fractions. -/
theorem amount_octal : AmountText "010/4".toList 2 := by
  refine ⟨[], "010/4".toList, 2, rfl, by decide, Or.inr ?_, by norm_num⟩
  refine ⟨"010".toList, "4".toList, 8, 4, rfl, Or.inr (Or.inr (Or.inl ?_)), Or.inr (Or.inl ?_), by decide, by norm_num⟩
  · exact ⟨"10".toList, "10".toList, Or.inl rfl, grouped_digits (by decide) (by decide), by decide⟩
  · exact ⟨"4".toList, grouped_digits (by decide) (by decide), by decide, by decide⟩

/-- C73: OFX amounts are decimal numerals, but texts that are none are accepted all the same:
hexadecimal numbers, numbers with an exponent and fractions, the latter with octal numbers. -/
theorem C73_beyond_decimal :
    Amount.unmarshal "0x10".toList = .ok 16 ∧ Amount.unmarshal "1e3".toList = .ok 1000 ∧
    Amount.unmarshal "010/4".toList = .ok 2 ∧
    ∀ k q, ¬ DecimalText "0x10".toList k q ∧ ¬ DecimalText "1e3".toList k q ∧ ¬ DecimalText "010/4".toList k q := by
  refine ⟨(C73_accepted_iff _ _ _ (trimsTo_self ⟨by decide, by decide⟩)).mpr amount_hex,
    (C73_accepted_iff _ _ _ (trimsTo_self ⟨by decide, by decide⟩)).mpr amount_exponent,
    (C73_accepted_iff _ _ _ (trimsTo_self ⟨by decide, by decide⟩)).mpr amount_octal, ?_⟩
  have key : ∀ (s : Str) (c : Char), c ∈ s → (¬ IsDecDigit c ∧ c ≠ '+' ∧ c ≠ '-' ∧ c ≠ '.' ∧ c ≠ ',') →
      ∀ k q, ¬ DecimalText s k q := by
    rintro s c hm ⟨h0, h1, h2, h3, h4⟩ k q ⟨sign, ip, frac, fp, rfl, hs, hip, hfp, hne, hfrac, -, -⟩
    rcases List.mem_append.mp hm with hm | hm
    · rcases List.mem_append.mp hm with hm | hm
      · rcases hs with rfl | rfl | rfl <;> simp at hm
        · exact h1 hm
        · exact h2 hm
      · exact h0 (hip c hm)
    · rcases hfrac with ⟨rfl, -⟩ | rfl | rfl
      · simp at hm
      · rcases List.mem_cons.mp hm with hm | hm
        · exact h3 hm
        · exact h0 (hfp c hm)
      · rcases List.mem_cons.mp hm with hm | hm
        · exact h4 hm
        · exact h0 (hfp c hm)
  intro k q
  exact ⟨key _ 'x' (by decide) (by decide) k q, key _ 'e' (by decide) (by decide) k q, key _ '/' (by decide) (by decide) k q⟩

example : ∃ e, Amount.unmarshal "12 50".toList = .error e := by
  refine (C73_rejected_iff "12 50".toList "12 50".toList (trimsTo_self ⟨by decide, by decide⟩)).mpr ?_
  rintro ⟨q, h⟩
  rw [← amountText_iff, ← ratSetString_iff] at h
  have : ratSetString (replaceFirst ',' '.' "12 50".toList) = none := by decide +kernel
  rw [this] at h
  cases h

end Ofx.Props
