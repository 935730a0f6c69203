import Mathlib.Tactic.IntervalCases
import Verif.Props.Date

/-!
C106: dates in one zone sort as texts.
-/
namespace Ofx.Props
open Ofx Spec

/-- Texts that begin with numbers of as many digits. -/
theorem digits_lt : ∀ {s s' : Str}, (∀ c ∈ s, isDigit c = true) → (∀ c ∈ s', isDigit c = true) → s.length = s'.length →
    ∀ r r' : Str, s ++ r < s' ++ r' ↔ digitsVal s < digitsVal s' ∨ digitsVal s = digitsVal s' ∧ r < r'
  | [], [], _, _, _, r, r' => by simp
  | c :: s, c' :: s', h, h', hl, r, r' => by
    have hc := h c (by simp)
    have hc' := h' c' (by simp)
    have hs : ∀ x ∈ s, isDigit x = true := fun x hx => h x (by simp [hx])
    have hs' : ∀ x ∈ s', isDigit x = true := fun x hx => h' x (by simp [hx])
    have hl' : s.length = s'.length := by simpa using hl
    have ih := digits_lt hs hs' hl' r r'
    have b := digitsVal_lt hs
    have b' := digitsVal_lt hs'
    rw [digitsVal_cons, digitsVal_cons, hl']
    rw [hl'] at b
    have e1 : c < c' ↔ digitV c < digitV c' := by
      show c.val < c'.val ↔ _
      rw [UInt32.lt_iff_toNat_lt]
      simp only [isDigit, Bool.and_eq_true, decide_eq_true_eq] at hc hc'
      unfold digitV
      show c.toNat < c'.toNat ↔ _
      omega
    have e2 : c = c' ↔ digitV c = digitV c' := by
      refine ⟨fun e => by rw [e], fun e => ?_⟩
      simp only [isDigit, Bool.and_eq_true, decide_eq_true_eq] at hc hc'
      unfold digitV at e
      have : c.toNat = c'.toNat := by omega
      exact Char.toNat_inj.mp this
    rw [List.cons_append, List.cons_append, List.cons_lt_cons_iff, e1, e2, ih]
    generalize digitV c = d at *
    generalize digitV c' = d' at *
    generalize digitsVal s = v at *
    generalize digitsVal s' = v' at *
    generalize 10 ^ s'.length = P at *
    rcases Nat.lt_trichotomy d d' with hd | hd | hd
    · have : d * P + v < d' * P + v' := by
        have := Nat.mul_le_mul_right P (Nat.succ_le_of_lt hd)
        rw [Nat.succ_mul] at this
        omega
      simp [hd, this]
    · subst hd
      simp
    · have : d' * P + v' < d * P + v := by
        have := Nat.mul_le_mul_right P (Nat.succ_le_of_lt hd)
        rw [Nat.succ_mul] at this
        omega
      have g1 : ¬ d < d' := by omega
      have g2 : ¬ d = d' := by omega
      have g3 : ¬ d * P + v < d' * P + v' := by omega
      have g4 : ¬ d * P + v = d' * P + v' := by omega
      simp [g1, g2, g3, g4]

theorem pad_lt {w n n' : Nat} (hw : 0 < w) (h : n < 10 ^ w) (h' : n' < 10 ^ w) (r r' : Str) :
    fmtPad w n ++ r < fmtPad w n' ++ r' ↔ n < n' ∨ n = n' ∧ r < r' := by
  obtain ⟨l1, d1, v1⟩ := isDigits_fmtPad hw h
  obtain ⟨l2, d2, v2⟩ := isDigits_fmtPad hw h'
  have d1' : ∀ c ∈ fmtPad w n, isDigit c = true := fun c hc => (isDecDigit_iff c).mp (d1 c hc)
  have d2' : ∀ c ∈ fmtPad w n', isDigit c = true := fun c hc => (isDecDigit_iff c).mp (d2 c hc)
  rw [digits_lt d1' d2' (by rw [l1, l2]) r r', ← value_eq d1', ← value_eq d2', v1, v2]

/-! ### The calendar -/

theorem month_room (y m : Nat) (h1 : 1 ≤ m) (h2 : m ≤ 12) : daysBeforeMonth y m + monthLength y m ≤ yearLength y := by
  unfold yearLength
  interval_cases m <;> simp only [daysBeforeMonth, monthLength] <;> by_cases hl : LeapYear y <;> simp [hl]

theorem month_order (y m : Nat) (h1 : 1 ≤ m) : ∀ k, daysBeforeMonth y m + monthLength y m ≤ daysBeforeMonth y (m + 1 + k)
  | 0 => by
    obtain ⟨n, rfl⟩ : ∃ n, m = n + 1 := ⟨m - 1, by omega⟩
    exact Nat.le_refl _
  | k + 1 => by
    have := month_order y m h1 k
    obtain ⟨n, rfl⟩ : ∃ n, m = n + 1 := ⟨m - 1, by omega⟩
    have e : daysBeforeMonth y (n + 1 + 1 + (k + 1)) = daysBeforeMonth y (n + 1 + 1 + k) + monthLength y (n + 1 + 1 + k) := by
      have : n + 1 + 1 + (k + 1) = (n + 1 + k) + 2 := by omega
      rw [this, daysBeforeMonth]
      have : n + 1 + k + 1 = n + 1 + 1 + k := by omega
      rw [this]
    omega

theorem year_order (y : Nat) : ∀ k, daysBeforeYear y + yearLength y ≤ daysBeforeYear (y + 1 + k)
  | 0 => Nat.le_refl _
  | k + 1 => Nat.le_trans (year_order y k) (Nat.le_add_right _ _)

/-- The number of the day. -/
def dayNumber (c : Civil) : Nat := daysBeforeYear c.year + daysBeforeMonth c.year c.month + (c.day - 1)

theorem dayNumber_lt {c c' : Civil} (h : c.Exists) (h' : c'.Exists)
    (hlt : c.year < c'.year ∨ c.year = c'.year ∧ (c.month < c'.month ∨ c.month = c'.month ∧ c.day < c'.day)) :
    dayNumber c < dayNumber c' := by
  obtain ⟨-, m1, m2, d1, d2, -⟩ := h
  obtain ⟨-, m1', m2', d1', d2', -⟩ := h'
  unfold dayNumber
  rcases hlt with hy | ⟨hy, hm | ⟨hm, hd⟩⟩
  · have a := month_room c.year c.month m1 m2
    have b := year_order c.year (c'.year - (c.year + 1))
    rw [show c.year + 1 + (c'.year - (c.year + 1)) = c'.year by omega] at b
    omega
  · have b := month_order c.year c.month m1 (c'.month - (c.month + 1))
    rw [show c.month + 1 + (c'.month - (c.month + 1)) = c'.month by omega] at b
    rw [← hy]
    omega
  · rw [← hy, ← hm]
    omega

/-- Earlier by the calendar and the clock. -/
def Earlier (c c' : Civil) : Prop :=
  c.year < c'.year ∨ c.year = c'.year ∧ (c.month < c'.month ∨ c.month = c'.month ∧ (c.day < c'.day ∨ c.day = c'.day ∧
    (c.hour < c'.hour ∨ c.hour = c'.hour ∧ (c.minute < c'.minute ∨ c.minute = c'.minute ∧
      (c.second < c'.second ∨ c.second = c'.second ∧ c.milli < c'.milli)))))

theorem wall_lt {c c' : Civil} (h : c.Exists) (h' : c'.Exists) (hlt : Earlier c c') : c.wall < c'.wall := by
  have key : dayNumber c < dayNumber c' ∨ dayNumber c = dayNumber c' ∧ (c.hour < c'.hour ∨ c.hour = c'.hour ∧
      (c.minute < c'.minute ∨ c.minute = c'.minute ∧ (c.second < c'.second ∨ c.second = c'.second ∧ c.milli < c'.milli))) := by
    rcases hlt with hy | ⟨hy, hm | ⟨hm, hd | ⟨hd, hr⟩⟩⟩
    · exact .inl (dayNumber_lt h h' (.inl hy))
    · exact .inl (dayNumber_lt h h' (.inr ⟨hy, .inl hm⟩))
    · exact .inl (dayNumber_lt h h' (.inr ⟨hy, .inr ⟨hm, hd⟩⟩))
    · exact .inr ⟨by unfold dayNumber; rw [hy, hm, hd], hr⟩
  obtain ⟨-, -, -, -, -, b1, b2, b3, b4⟩ := h
  obtain ⟨-, -, -, -, -, b1', b2', b3', b4'⟩ := h'
  have e : ∀ c : Civil, c.wall = (dayNumber c * 86400 + c.hour * 3600 + c.minute * 60 + c.second) * 1000 + c.milli := fun _ => rfl
  rw [e, e]
  omega

theorem earlier_total (c c' : Civil) : Earlier c c' ∨ c = c' ∨ Earlier c' c := by
  obtain ⟨y, m, d, h, i, s, ms⟩ := c
  obtain ⟨y', m', d', h', i', s', ms'⟩ := c'
  unfold Earlier
  simp only [Civil.mk.injEq]
  omega

theorem wall_lt_iff {c c' : Civil} (h : c.Exists) (h' : c'.Exists) : Earlier c c' ↔ c.wall < c'.wall := by
  refine ⟨wall_lt h h', fun hw => ?_⟩
  rcases earlier_total c c' with he | rfl | he
  · exact he
  · omega
  · have := wall_lt h' h he
    omega

/-! ### The texts -/

/-- The time without what is less than a millisecond. -/
def cutMs (t : GoTime) : GoTime := { t with ns := t.ns / 1000000 * 1000000 }

theorem format_cutMs (t : GoTime) : Date.format (cutMs t) = Date.format t := by
  unfold Date.format cutMs nsPerSec
  simp only
  have h1 : (t.ns / 1000000 * 1000000 + t.off * 1000000000) / 1000000000 = (t.ns + t.off * 1000000000) / 1000000000 := by omega
  have h2 : ((t.ns / 1000000 * 1000000 + t.off * 1000000000) % 1000000000).toNat / 1000000 =
      ((t.ns + t.off * 1000000000) % 1000000000).toNat / 1000000 := by omega
  rw [h1, h2]

/-- What stands after the digits. -/
def suffixOf (off : Int) (zone : Str) : Str :=
  (if off < 0 then '[' :: fmtPlusPad 0 (off.tdiv 3600) else '[' :: intStr (off.tdiv 3600)) ++
  (if (off.tmod 3600).tdiv 36 > 0 then '.' :: fmtPad 2 ((off.tmod 3600).tdiv 36).natAbs
    else if (off.tmod 3600).tdiv 36 < 0 then '.' :: fmtPad 2 ((off.tmod 3600).tdiv 36).natAbs else []) ++
  (if zone.length > 0 then ':' :: zone ++ [']'] else [']'])

theorem marshal_suffix (t : GoTime) : Date.marshal t = Date.format t ++ suffixOf t.off t.zone := by
  unfold Date.marshal Date.string suffixOf
  simp only
  split <;> split <;> split <;> (try split) <;> simp

theorem format_civil (t : GoTime) (hms : t.ns % 1000000 = 0)
    (h1 : (⟨0, 1, 1, 0, 0, 0, 0⟩ : Civil).instant t.off ≤ t.ns) :
    Date.format t = fmtPad 4 (civilOf t).year ++ (fmtPad 2 (civilOf t).month ++ (fmtPad 2 (civilOf t).day ++
      (fmtPad 2 (civilOf t).hour ++ (fmtPad 2 (civilOf t).minute ++ (fmtPad 2 (civilOf t).second ++
        '.' :: (fmtPad 3 (civilOf t).milli ++ [])))))) := by
  rw [instant_first] at h1
  obtain ⟨c1, c2, c3, c4, c5, c6, c7⟩ := civil_spec ((t.ns + t.off * nsPerSec) / nsPerSec / 86400)
  have hy0 : 0 ≤ (civil ((t.ns + t.off * nsPerSec) / nsPerSec / 86400)).1 := by
    by_contra hneg
    have := daysSinceEpoch_mono (a := (civil ((t.ns + t.off * nsPerSec) / nsPerSec / 86400)).1 + 1) (b := 0) (by omega)
    have h0 : daysSinceEpoch 0 = -366 := by decide
    unfold nsPerSec at *
    omega
  unfold Date.format civilOf
  simp only
  rw [if_neg (by omega)]
  have hab : ∀ i : Int, 0 ≤ i → i.natAbs = i.toNat := by intro i hi; omega
  rw [hab _ hy0]
  simp only [List.append_assoc, List.append_nil]

theorem format_lt (a b : GoTime) (ho : a.off = b.off) (ha : a.ns % 1000000 = 0) (hb : b.ns % 1000000 = 0)
    (a1 : (⟨0, 1, 1, 0, 0, 0, 0⟩ : Civil).instant a.off ≤ a.ns) (a2 : a.ns ≤ (⟨9999, 12, 31, 23, 59, 59, 999⟩ : Civil).instant a.off)
    (b1 : (⟨0, 1, 1, 0, 0, 0, 0⟩ : Civil).instant b.off ≤ b.ns) (b2 : b.ns ≤ (⟨9999, 12, 31, 23, 59, 59, 999⟩ : Civil).instant b.off)
    (r : Str) : Date.format a ++ r < Date.format b ++ r ↔ a.ns < b.ns := by
  obtain ⟨xa, ia, -⟩ := civilOf_spec a ha a1 a2
  obtain ⟨xb, ib, -⟩ := civilOf_spec b hb b1 b2
  have hw : (civilOf a).wall < (civilOf b).wall ↔ a.ns < b.ns := by
    rw [← ia, ← ib, ho]
    unfold Civil.instant
    omega
  rw [← hw, ← wall_lt_iff xa xb, format_civil a ha a1, format_civil b hb b1]
  simp only [List.append_assoc, List.cons_append, List.nil_append]
  obtain ⟨p1, p2, p3, p4, p5, p6, p7, p8, p9⟩ := xa
  obtain ⟨q1, q2, q3, q4, q5, q6, q7, q8, q9⟩ := xb
  have ml : ∀ y m, monthLength y m ≤ 31 := by intro y m; unfold monthLength; split <;> split <;> omega
  have := ml (civilOf a).year (civilOf a).month
  have := ml (civilOf b).year (civilOf b).month
  rw [pad_lt (by omega) (by omega) (by omega), pad_lt (by omega) (by omega) (by omega), pad_lt (by omega) (by omega) (by omega),
    pad_lt (by omega) (by omega) (by omega), pad_lt (by omega) (by omega) (by omega), pad_lt (by omega) (by omega) (by omega),
    List.cons_lt_cons_iff, pad_lt (by omega) (by omega) (by omega)]
  have hr : ¬ r < r := List.lt_irrefl r
  have hd : ¬ ('.' : Char) < '.' := by decide
  simp only [hr, hd, and_false, or_false, false_or, true_and]
  rfl

/-- C106: of two times shown in the same zone, in the years 0 to 9999, the text written for one comes first in the order of
texts (character by character) exactly if it is at least a millisecond's tick earlier. -/
theorem C106_sorts (a b : GoTime) (ho : a.off = b.off) (hz : a.zone = b.zone)
    (a1 : (⟨0, 1, 1, 0, 0, 0, 0⟩ : Civil).instant a.off ≤ a.ns) (a2 : a.ns < (⟨9999, 12, 31, 23, 59, 59, 999⟩ : Civil).instant a.off + 1000000)
    (b1 : (⟨0, 1, 1, 0, 0, 0, 0⟩ : Civil).instant b.off ≤ b.ns) (b2 : b.ns < (⟨9999, 12, 31, 23, 59, 59, 999⟩ : Civil).instant b.off + 1000000) :
    Date.marshal a < Date.marshal b ↔ a.ns / 1000000 < b.ns / 1000000 := by
  rw [marshal_suffix, marshal_suffix, ho, hz, ← format_cutMs a, ← format_cutMs b]
  rw [instant_first] at a1 b1
  rw [instant_last] at a2 b2
  have := format_lt (cutMs a) (cutMs b) ho (by simp [cutMs]) (by simp [cutMs])
    (by rw [instant_first]; simp only [cutMs]; omega) (by rw [instant_last]; simp only [cutMs]; omega)
    (by rw [instant_first]; simp only [cutMs]; omega) (by rw [instant_last]; simp only [cutMs]; omega) (suffixOf b.off b.zone)
  rw [this]
  simp only [cutMs]
  omega

/-- C106: and the texts are the same exactly if the times are, up to what is less than a millisecond. -/
theorem C106_same (a b : GoTime) (ho : a.off = b.off) (hz : a.zone = b.zone)
    (a1 : (⟨0, 1, 1, 0, 0, 0, 0⟩ : Civil).instant a.off ≤ a.ns) (a2 : a.ns < (⟨9999, 12, 31, 23, 59, 59, 999⟩ : Civil).instant a.off + 1000000)
    (b1 : (⟨0, 1, 1, 0, 0, 0, 0⟩ : Civil).instant b.off ≤ b.ns) (b2 : b.ns < (⟨9999, 12, 31, 23, 59, 59, 999⟩ : Civil).instant b.off + 1000000) :
    Date.marshal a = Date.marshal b ↔ a.ns / 1000000 = b.ns / 1000000 := by
  have h1 := C106_sorts a b ho hz a1 a2 b1 b2
  have h2 := C106_sorts b a ho.symm hz.symm b1 b2 a1 a2
  constructor
  · intro h
    rw [h] at h1 h2
    have hr := List.lt_irrefl (Date.marshal b)
    have n1 := mt h1.mpr hr
    have n2 := mt h2.mpr hr
    omega
  · intro h
    have n1 : ¬ Date.marshal a < Date.marshal b := fun hl => by have := h1.mp hl; omega
    have n2 : ¬ Date.marshal b < Date.marshal a := fun hl => by have := h2.mp hl; omega
    exact List.le_antisymm (List.not_lt.mp n2) (List.not_lt.mp n1)

/-- C14: a time with more than milliseconds is read back as the last millisecond before it. -/
theorem C14_cut (loc : LocalZone) (t : GoTime)
    (hlo : (⟨0, 1, 1, 0, 0, 0, 0⟩ : Civil).instant t.off ≤ t.ns)
    (hhi : t.ns < (⟨9999, 12, 31, 23, 59, 59, 999⟩ : Civil).instant t.off + 1000000)
    (h3 : t.off % 180 = 0) (hr : -90000 < t.off ∧ t.off < 90000) (hw : t.off ≤ -3600 ∨ 0 ≤ t.off)
    (hn : t.zone = [] ∨ ReadableZone t.zone) (hu : t.zone = "UTC".toList → t.off = 0) :
    ∃ t', Date.unmarshal loc (Date.marshal t) = .ok t' ∧ t'.ns % 1000000 = 0 ∧ t'.ns ≤ t.ns ∧ t.ns < t'.ns + 1000000 ∧
      t'.off = t.off ∧ (t.zone ≠ [] → t'.zone = t.zone) := by
  rw [instant_first] at hlo
  rw [instant_last] at hhi
  obtain ⟨t', h, h1, h2, h3⟩ := C14_roundtrip loc (cutMs t) (by simp [cutMs]) (by rw [instant_first]; simp only [cutMs]; omega)
    (by rw [instant_last]; simp only [cutMs]; omega) h3 hr hw hn hu
  refine ⟨t', ?_, ?_, ?_, ?_, h2, h3⟩
  · rw [marshal_suffix, ← format_cutMs, ← h, marshal_suffix]
    rfl
  all_goals rw [h1]; simp only [cutMs]; omega

/-- A microsecond is cut off. -/
example : ∃ t', Date.unmarshal utcLocal (Date.marshal ⟨63587214000123001000, "EST".toList, -18000⟩) = .ok t' ∧
    t'.ns = 63587214000123000000 := ⟨⟨63587214000123000000, "EST".toList, -18000⟩, by decide +kernel, rfl⟩

/-- Two times in a zone west of GMT, about 15.5 hours apart, on either side of a new year. -/
example : Date.marshal ⟨63587214000123456789, "EST".toList, -18000⟩ < Date.marshal ⟨63587269800000000000, "EST".toList, -18000⟩ := by
  refine (C106_sorts ⟨63587214000123456789, "EST".toList, -18000⟩ ⟨63587269800000000000, "EST".toList, -18000⟩ rfl rfl ?_ ?_ ?_ ?_).mpr ?_
  · simp only [instant_first]; omega
  · simp only [instant_last]; omega
  · simp only [instant_first]; omega
  · simp only [instant_last]; omega
  · simp only; omega

/-- The zone must be the same: eight o'clock in GMT comes before eleven o'clock five hours ahead, which is six in GMT. -/
example : Date.marshal ⟨63587404800000000000, "GMT".toList, 0⟩ < Date.marshal ⟨63587397600000000000, [], 18000⟩ := by decide +kernel

end Ofx.Props
