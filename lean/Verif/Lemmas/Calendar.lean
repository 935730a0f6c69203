import Verif.Model.Date
import Verif.Spec.Date
import Verif.Lemmas.Leaf
import Mathlib.Tactic.IntervalCases
/- The model's calendar arithmetic agrees with counting, and `civil` inverts it. -/
namespace Ofx
open Spec

theorem isLeap_iff (y : Nat) : isLeap (y : Int) = true ↔ LeapYear y := by
  simp only [isLeap, LeapYear, Bool.and_eq_true, Bool.or_eq_true, beq_iff_eq, bne_iff_ne, ne_eq]
  omega

theorem daysSinceEpoch_succ (y : Int) :
    daysSinceEpoch (y + 1) = daysSinceEpoch y + (if isLeap y = true then 366 else 365) := by
  simp only [isLeap, daysSinceEpoch, Bool.and_eq_true, Bool.or_eq_true, beq_iff_eq, bne_iff_ne, ne_eq]
  split <;> omega

theorem daysSinceEpoch_eq (y : Nat) : daysSinceEpoch (y : Int) = (daysBeforeYear y : Int) - 366 := by
  induction y with
  | zero => decide
  | succ y ih =>
    have := daysSinceEpoch_succ (y : Int)
    push_cast
    rw [this, ih, daysBeforeYear, yearLength]
    by_cases h : LeapYear y
    · rw [if_pos ((isLeap_iff y).mpr h), if_pos h]; push_cast; ring
    · rw [if_neg (fun h' => h ((isLeap_iff y).mp h')), if_neg h]; push_cast; ring

theorem daysIn_eq (y m : Nat) (h1 : 1 ≤ m) (h2 : m ≤ 12) : daysIn m y = monthLength y m := by
  unfold daysIn monthLength
  simp only [isLeap_iff]
  by_cases h : LeapYear y
  · interval_cases m <;> simp [h, daysBefore]
  · interval_cases m <;> simp [h, daysBefore]

theorem daysBeforeMonth_eq (y m : Nat) (h1 : 1 ≤ m) (h2 : m ≤ 12) :
    daysBefore.getD (m - 1) 0 + (if isLeap y = true ∧ 3 ≤ m then 1 else 0) = daysBeforeMonth y m := by
  simp only [isLeap_iff]
  by_cases h : LeapYear y
  · interval_cases m <;> simp [h, daysBefore, daysBeforeMonth, monthLength]
  · interval_cases m <;> simp [h, daysBefore, daysBeforeMonth, monthLength]

theorem dayOf_eq (y m d : Nat) (h1 : 1 ≤ m) (h2 : m ≤ 12) (h3 : 1 ≤ d) :
    dayOf y m d = ((daysBeforeYear y + daysBeforeMonth y m + (d - 1) : Nat) : Int) - 366 := by
  unfold dayOf
  rw [daysSinceEpoch_eq, ← daysBeforeMonth_eq y m h1 h2]
  push_cast
  split <;> omega

/-- The month/day half of `absDate`, checked over its whole finite domain. -/
theorem monthDay_spec (leap : Bool) (yd : Nat) (h : yd < if leap then 366 else 365) :
    1 ≤ (monthDay leap yd).1 ∧ (monthDay leap yd).1 ≤ 12 ∧ 1 ≤ (monthDay leap yd).2 ∧
    (monthDay leap yd).2 ≤ (if (monthDay leap yd).1 = 2 ∧ leap = true then 29
      else daysBefore.getD (monthDay leap yd).1 0 - daysBefore.getD ((monthDay leap yd).1 - 1) 0) ∧
    yd = daysBefore.getD ((monthDay leap yd).1 - 1) 0 +
      (if leap = true ∧ 3 ≤ (monthDay leap yd).1 then 1 else 0) + ((monthDay leap yd).2 - 1) := by
  have key : ∀ leap : Bool, ∀ yd < 366, (yd < if leap then 366 else 365) →
    1 ≤ (monthDay leap yd).1 ∧ (monthDay leap yd).1 ≤ 12 ∧ 1 ≤ (monthDay leap yd).2 ∧
    (monthDay leap yd).2 ≤ (if (monthDay leap yd).1 = 2 ∧ leap = true then 29
      else daysBefore.getD (monthDay leap yd).1 0 - daysBefore.getD ((monthDay leap yd).1 - 1) 0) ∧
    yd = daysBefore.getD ((monthDay leap yd).1 - 1) 0 +
      (if leap = true ∧ 3 ≤ (monthDay leap yd).1 then 1 else 0) + ((monthDay leap yd).2 - 1) := by
    decide +kernel
  exact key leap yd (by split at h <;> omega) h

theorem daysSinceEpoch_cycle (a b c e : Int) (hb : 0 ≤ b ∧ b ≤ 3) (hc : 0 ≤ c ∧ c ≤ 24) (he : 0 ≤ e ∧ e ≤ 3) :
    daysSinceEpoch (400 * a + 100 * b + 4 * c + e + 1) = 146097 * a + 36524 * b + 1461 * c + 365 * e := by
  have h1 : (400 * a + 100 * b + 4 * c + e) / 400 = a := by omega
  have h2 : (100 * b + 4 * c + e) / 100 = b := by omega
  have h3 : (4 * c + e) / 4 = c := by omega
  simp only [daysSinceEpoch]
  rw [show 400 * a + 100 * b + 4 * c + e + 1 - 1 = 400 * a + 100 * b + 4 * c + e from by ring, h1,
    show 400 * a + 100 * b + 4 * c + e - 400 * a = 100 * b + 4 * c + e from by ring, h2,
    show 100 * b + 4 * c + e - 100 * b = 4 * c + e from by ring, h3]
  ring

theorem isLeap_cycle (a b c e : Int) (hb : 0 ≤ b ∧ b ≤ 3) (hc : 0 ≤ c ∧ c ≤ 24) (he : 0 ≤ e ∧ e ≤ 3) :
    isLeap (400 * a + 100 * b + 4 * c + e + 1) = true ↔ e = 3 ∧ (c ≠ 24 ∨ b = 3) := by
  simp only [isLeap, Bool.and_eq_true, Bool.or_eq_true, beq_iff_eq, bne_iff_ne, ne_eq]
  omega

theorem quarter (n : Int) (k : Int) (h : 0 ≤ n ∧ n ≤ 4) (hk : k = n - n / 4) :
    (n = 4 ∧ k = 3) ∨ (n < 4 ∧ k = n) := by omega

/-- `civil` gives an existing date whose day number is the argument. -/
theorem civil_spec (d : Int) :
    1 ≤ (civil d).2.1 ∧ (civil d).2.1 ≤ 12 ∧ 1 ≤ (civil d).2.2 ∧
    (civil d).2.2 ≤ daysIn (civil d).2.1 (civil d).1 ∧
    dayOf (civil d).1 (civil d).2.1 (civil d).2.2 = d ∧
    daysSinceEpoch (civil d).1 ≤ d ∧ d < daysSinceEpoch ((civil d).1 + 1) := by
  have hy : ∃ (y : Int) (yd : Nat), (civil d) = (y, monthDay (isLeap y) yd) ∧
      (d = daysSinceEpoch y + yd) ∧ (yd < if isLeap y then 366 else 365) := by
    unfold civil
    simp only
    have ha : 0 ≤ d - 146097 * (d / 146097) ∧ d - 146097 * (d / 146097) < 146097 := by omega
    generalize d / 146097 = a at ha ⊢
    generalize hd1 : d - 146097 * a = d1 at ha ⊢
    have hb0 := quarter (d1 / 36524) _ (by omega) rfl
    generalize hb : d1 / 36524 - d1 / 36524 / 4 = b at hb0 ⊢
    have hbb : (0 ≤ b ∧ b ≤ 3) ∧ 0 ≤ d1 - 36524 * b ∧ d1 - 36524 * b ≤ 36524 ∧
        (b < 3 → d1 - 36524 * b < 36524) := by omega
    clear hb hb0
    generalize hd2 : d1 - 36524 * b = d2 at hbb ⊢
    have hcc : (0 ≤ d2 / 1461 ∧ d2 / 1461 ≤ 24) ∧ 0 ≤ d2 - 1461 * (d2 / 1461) ∧
        d2 - 1461 * (d2 / 1461) < 1461 ∧ (b < 3 → d2 / 1461 = 24 → d2 - 1461 * (d2 / 1461) < 1460) := by omega
    generalize d2 / 1461 = c at hcc ⊢
    generalize hd3 : d2 - 1461 * c = d3 at hcc ⊢
    have he0 := quarter (d3 / 365) _ (by omega) rfl
    generalize he : d3 / 365 - d3 / 365 / 4 = e at he0 ⊢
    have hee : (0 ≤ e ∧ e ≤ 3) ∧ 0 ≤ d3 - 365 * e ∧ d3 - 365 * e ≤ 365 ∧ (e < 3 → d3 - 365 * e < 365) := by omega
    clear he he0
    refine ⟨_, _, rfl, ?_, ?_⟩
    · rw [daysSinceEpoch_cycle a b c e hbb.1 hcc.1 hee.1]; omega
    · have hl := isLeap_cycle a b c e hbb.1 hcc.1 hee.1
      by_cases h : isLeap (400 * a + 100 * b + 4 * c + e + 1) = true
      · rw [if_pos h]; omega
      · rw [if_neg h]
        rw [hl] at h
        omega
  obtain ⟨y, yd, hc, hd, hyd⟩ := hy
  have hs := monthDay_spec (isLeap y) yd hyd
  rw [hc]
  refine ⟨hs.1, hs.2.1, hs.2.2.1, ?_, ?_, ?_, ?_⟩
  · unfold daysIn
    exact hs.2.2.2.1
  · unfold dayOf
    simp only
    rw [hd]
    have h5 := hs.2.2.2.2
    have h3 := hs.2.2.1
    generalize monthDay (isLeap y) yd = md at h5 h3 ⊢
    split <;> rename_i hh <;> simp only [hh, and_self, if_true, if_false] at h5 <;> omega
  · simp only; omega
  · simp only
    rw [daysSinceEpoch_succ]
    split at hyd <;> rename_i hl
    · rw [if_pos hl]; omega
    · rw [if_neg hl]; omega

theorem daysSinceEpoch_mono {a b : Int} (h : a ≤ b) : daysSinceEpoch a ≤ daysSinceEpoch b := by
  obtain ⟨n, rfl⟩ : ∃ n : Nat, b = a + n := ⟨(b - a).toNat, by omega⟩
  clear h
  induction n with
  | zero => simp
  | succ n ih =>
    have := daysSinceEpoch_succ (a + n)
    push_cast
    rw [← Int.add_assoc, this]
    split <;> omega

end Ofx
