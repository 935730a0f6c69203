import Verif.Props.Date
import Verif.Spec.NewDate
/-
C66: dates made from numbers.
-/
namespace Ofx.Props
open Ofx Spec

theorem norm_eq (hi lo base : Int) (hb : 0 < base) : norm hi lo base = (hi + lo / base, lo % base) := by
  have h1 : ∀ x : Int, 0 ≤ x → x.tdiv base = x / base := fun x hx => Int.tdiv_eq_ediv_of_nonneg hx
  have key : ∀ hi lo : Int, 0 ≤ lo → (if lo ≥ base then (hi + lo.tdiv base, lo - lo.tdiv base * base) else (hi, lo)) =
      (hi + lo / base, lo % base) := by
    intro hi lo hlo
    by_cases h : lo ≥ base
    · rw [if_pos h, h1 _ hlo]
      have := Int.emod_def lo base
      rw [this, Int.mul_comm]
    · rw [if_neg h, Int.ediv_eq_zero_of_lt hlo (by omega), Int.emod_eq_of_lt hlo (by omega), Int.add_zero]
  unfold norm
  simp only
  by_cases h : lo < 0
  · rw [if_pos h, h1 _ (by omega)]
    simp only
    have e : lo + ((-lo - 1) / base + 1) * base = lo % base := by
      have h2 : (-lo - 1) / base = -(lo / base) - 1 := by
        have h3 := Int.emod_add_mul_ediv lo base
        have h4 := Int.emod_nonneg lo (show base ≠ 0 by omega)
        have h5 := Int.emod_lt_of_pos lo hb
        have h6 : -lo - 1 = (base - 1 - lo % base) + base * (-(lo / base) - 1) := by
          rw [Int.mul_sub, Int.mul_neg]; omega
        rw [h6, Int.add_mul_ediv_left _ _ (by omega), Int.ediv_eq_zero_of_lt (by omega) (by omega)]
        omega
      rw [h2, Int.emod_def]
      ring_nf
    have h2 : (-lo - 1) / base = -(lo / base) - 1 := by
      have h3 := Int.emod_add_mul_ediv lo base
      have h4 := Int.emod_nonneg lo (show base ≠ 0 by omega)
      have h5 := Int.emod_lt_of_pos lo hb
      have h6 : -lo - 1 = (base - 1 - lo % base) + base * (-(lo / base) - 1) := by
        rw [Int.mul_sub, Int.mul_neg]; omega
      rw [h6, Int.add_mul_ediv_left _ _ (by omega), Int.ediv_eq_zero_of_lt (by omega) (by omega)]
      omega
    rw [e]
    have h4 := Int.emod_nonneg lo (show base ≠ 0 by omega)
    have h5 := Int.emod_lt_of_pos lo hb
    rw [if_neg (by omega), h2]
    congr 1
    omega
  · rw [if_neg h]
    exact key hi lo (by omega)

/-- The wall clock reading, in seconds, and the nanoseconds. -/
theorem newDate_eq (y m d h mi s ns : Int) (loc : Location) : newDate y m d h mi s ns loc =
    let wall := dayOf (y + (m - 1) / 12) ((m - 1) % 12 + 1).toNat 1 * 86400 + (d - 1) * 86400 + h * 3600 + mi * 60 + s + ns / 1000000000
    let off := if (loc wall).off = 0 then 0
      else if wall - (loc wall).off < (loc wall).start ∨ wall - (loc wall).off ≥ (loc wall).stop then
        (loc (wall - (loc wall).off)).off else (loc wall).off
    ⟨(wall - off) * 1000000000 + ns % 1000000000, (loc (wall - off)).name, (loc (wall - off)).off⟩ := by
  unfold newDate
  simp only [norm_eq _ _ 12 (by decide), norm_eq _ _ 1000000000 (by decide), norm_eq _ _ 60 (by decide), norm_eq _ _ 24 (by decide)]
  have h1 := Int.emod_nonneg (m - 1) (show (12 : Int) ≠ 0 by decide)
  have h2 := Int.emod_lt_of_pos (m - 1) (show (0 : Int) < 12 by decide)
  generalize (m - 1) % 12 = k at *
  obtain ⟨k, rfl⟩ := Int.eq_ofNat_of_zero_le h1
  have e1 : ((k : Int) + 1).toNat = k + 1 := by omega
  have e2 : (k : Int).toNat = k := by omega
  rw [e1, e2]
  have hw : (daysSinceEpoch (y + (m - 1) / 12) + (daysBefore.getD k 0 : Int) +
      (if isLeap (y + (m - 1) / 12) = true ∧ (k : Int) + 1 ≥ 3 then 1 else 0) + (d + (h + (mi + (s + ns / 1000000000) / 60) / 60) / 24 - 1)) * 86400 +
      ((h + (mi + (s + ns / 1000000000) / 60) / 60) % 24 * 3600 + (mi + (s + ns / 1000000000) / 60) % 60 * 60 + (s + ns / 1000000000) % 60) =
    dayOf (y + (m - 1) / 12) (k + 1) 1 * 86400 + (d - 1) * 86400 + h * 3600 + mi * 60 + s + ns / 1000000000 := by
    unfold dayOf
    have : (if isLeap (y + (m - 1) / 12) = true ∧ (k : Int) + 1 ≥ 3 then (1 : Int) else 0) =
        if isLeap (y + (m - 1) / 12) = true ∧ 3 ≤ k + 1 then 1 else 0 := by
      congr 1
      rw [show ((k : Int) + 1 ≥ 3) = (3 ≤ k + 1) from propext (by omega)]
    rw [this, Nat.add_sub_cancel]
    push_cast
    omega
  rw [hw]
  rfl

theorem fixedZone_off (name : Str) (off wall : Int) :
    (if (fixedZone name off wall).off = 0 then 0
      else if wall - (fixedZone name off wall).off < (fixedZone name off wall).start ∨
        wall - (fixedZone name off wall).off ≥ (fixedZone name off wall).stop then
        (fixedZone name off (wall - (fixedZone name off wall).off)).off else (fixedZone name off wall).off) = off := by
  show (if off = 0 then 0 else if _ then off else off) = off
  by_cases h : off = 0
  · rw [if_pos h, h]
  · rw [if_neg h, ite_self]

/-- C66: in a zone with a fixed offset, fields beyond their range carry over: the result is as many
days, hours, minutes, seconds and nanoseconds after the first of the month as asked for, and
months count on from January of the year, for all integers. -/
theorem C66_carry (y m d h mi s ns : Int) (name : Str) (off : Int) (year month : Nat)
    (hy : y * 12 + (m - 1) = year * 12 + (month - 1)) (hm : 1 ≤ month ∧ month ≤ 12) :
    newDate y m d h mi s ns (fixedZone name off) =
      ⟨(⟨year, month, 1, 0, 0, 0, 0⟩ : Civil).instant off +
        ((d - 1) * 86400 + h * 3600 + mi * 60 + s) * 1000000000 + ns, name, off⟩ := by
  rw [newDate_eq]
  simp only
  rw [fixedZone_off]
  have e1 : y + (m - 1) / 12 = year := by omega
  have e2 : ((m - 1) % 12 + 1).toNat = month := by omega
  rw [e1, e2, dayOf_eq year month 1 hm.1 hm.2 (by decide), instant_eq]
  simp only [Nat.sub_self, Nat.add_zero]
  show GoTime.mk _ _ _ = _
  have e3 : ns = ns / 1000000000 * 1000000000 + ns % 1000000000 := by omega
  congr 1
  push_cast
  generalize ns / 1000000000 = q at *
  generalize ns % 1000000000 = r at *
  subst e3
  ring

/-- C66: in a zone with a fixed offset, a reading that exists gives the instant at which the clock
shows it. -/
theorem C66_fixed (c : Civil) (hc : c.Exists) (extra : Nat) (name : Str) (off : Int) :
    newDate c.year c.month c.day c.hour c.minute c.second (c.milli * 1000000 + extra : Nat) (fixedZone name off) =
      ⟨c.instant off + extra, name, off⟩ := by
  obtain ⟨-, h1, h2, h3, -⟩ := hc
  rw [C66_carry _ _ _ _ _ _ _ name off c.year c.month (by omega) ⟨h1, h2⟩, instant_eq, instant_eq]
  congr 1
  simp only [Nat.sub_self]
  obtain ⟨d, hd⟩ : ∃ d, c.day = d + 1 := ⟨c.day - 1, by omega⟩
  rw [hd]
  push_cast
  simp
  ring

theorem dby_step {a b : Nat} (h : a < b) : daysBeforeYear a + yearLength a ≤ daysBeforeYear b := by
  induction b with
  | zero => omega
  | succ b ih =>
    show _ ≤ daysBeforeYear b + yearLength b
    rcases Nat.lt_or_ge a b with h' | h'
    · have := ih h'; omega
    · rw [show a = b by omega]

theorem dbm_step (y : Nat) {a b : Nat} (ha : 1 ≤ a) (h : a < b) : daysBeforeMonth y a + monthLength y a ≤ daysBeforeMonth y b := by
  induction b with
  | zero => omega
  | succ b ih =>
    obtain ⟨b, rfl⟩ : ∃ k, b = k + 1 := ⟨b - 1, by omega⟩
    show _ ≤ daysBeforeMonth y (b + 1) + monthLength y (b + 1)
    rcases Nat.lt_or_ge a (b + 1) with h' | h'
    · have := ih h'; omega
    · rw [show a = b + 1 by omega]

theorem dbm_year (y : Nat) : daysBeforeMonth y 13 = yearLength y := by
  by_cases h : LeapYear y <;> simp [daysBeforeMonth, monthLength, yearLength, h]

/-- The days since 0000-01-01 determine the date. -/
theorem date_inj {c c' : Civil} (hc : c.Exists) (hc' : c'.Exists)
    (h : daysBeforeYear c.year + daysBeforeMonth c.year c.month + (c.day - 1) =
      daysBeforeYear c'.year + daysBeforeMonth c'.year c'.month + (c'.day - 1)) :
    c.year = c'.year ∧ c.month = c'.month ∧ c.day = c'.day := by
  obtain ⟨-, h1, h2, h3, h4, -⟩ := hc
  obtain ⟨-, k1, k2, k3, k4, -⟩ := hc'
  have u := dbm_step c.year h1 (show c.month < 13 by omega)
  have u' := dbm_step c'.year k1 (show c'.month < 13 by omega)
  rw [dbm_year] at u u'
  have hy : c.year = c'.year := by
    rcases Nat.lt_trichotomy c.year c'.year with hl | hl | hl
    · have := dby_step hl; omega
    · exact hl
    · have := dby_step hl; omega
  rw [← hy] at h k4
  have hm : c.month = c'.month := by
    rcases Nat.lt_trichotomy c.month c'.month with hl | hl | hl
    · have := dbm_step c.year h1 hl; omega
    · exact hl
    · have := dbm_step c.year k1 hl; omega
  rw [← hm] at h
  exact ⟨hy, hm, by omega⟩

theorem instant_inj {c c' : Civil} (hc : c.Exists) (hc' : c'.Exists) (off : Int) (h : c.instant off = c'.instant off) : c = c' := by
  have hw : c.wall = c'.wall := by unfold Civil.instant at h; omega
  unfold Civil.wall at hw
  obtain ⟨e1, e2, e3⟩ := date_inj hc hc' (by
    obtain ⟨-, -, -, -, -, h5, h6, h7, h8⟩ := hc
    obtain ⟨-, -, -, -, -, k5, k6, k7, k8⟩ := hc'
    omega)
  obtain ⟨-, -, -, -, -, h5, h6, h7, h8⟩ := hc
  obtain ⟨-, -, -, -, -, k5, k6, k7, k8⟩ := hc'
  rw [e1, e2, e3] at hw
  obtain ⟨y, m, d, hh, mi, s, ms⟩ := c
  obtain ⟨y', m', d', hh', mi', s', ms'⟩ := c'
  simp only at *
  subst e1 e2 e3
  congr 1 <;> omega

theorem instant_le_last {c : Civil} (hc : c.Exists) (off : Int) :
    c.instant off ≤ (⟨9999, 12, 31, 23, 59, 59, 999⟩ : Civil).instant off := by
  rw [instant_last, instant_eq]
  obtain ⟨h0, h1, h2, h3, h4, h5, h6, h7, h8⟩ := hc
  have u := dbm_step c.year h1 (show c.month < 13 by omega)
  rw [dbm_year] at u
  have v := dby_step (show c.year < 10000 by omega)
  have w : (daysBeforeYear 10000 : Int) = 3652425 := by
    rw [daysBeforeYear, Nat.cast_add, dby_9999, show yearLength 9999 = 365 by decide]; rfl
  have hms : (c.milli : Int) ≤ 999 := by omega
  omega

/-- C66: NewDateGMT followed by encoding writes the digits of the reading, and GMT; decoding that
gives the same instant. -/
theorem C66_gmt (loc : LocalZone) (c : Civil) (hc : c.Exists) :
    ∃ body, DateBody c body ∧
      Date.marshal (newDateGMT c.year c.month c.day c.hour c.minute c.second (c.milli * 1000000 : Nat)) = body ++ "[0:GMT]".toList ∧
      ∃ t, Date.unmarshal loc (body ++ "[0:GMT]".toList) = .ok t ∧
        Date.equal t (newDateGMT c.year c.month c.day c.hour c.minute c.second (c.milli * 1000000 : Nat)) = true := by
  have h : newDateGMT c.year c.month c.day c.hour c.minute c.second (c.milli * 1000000 : Nat) = ⟨c.instant 0, "GMT".toList, 0⟩ := by
    have := C66_fixed c hc 0 "GMT".toList 0
    simpa [newDateGMT, gmt] using this
  rw [h]
  have hms : c.instant 0 % 1000000 = 0 := by unfold Civil.instant; omega
  have hlo : (⟨0, 1, 1, 0, 0, 0, 0⟩ : Civil).instant 0 ≤ c.instant 0 := by
    rw [instant_first, instant_eq]
    omega
  have hhi := instant_le_last hc 0
  obtain ⟨h1, h2, h3⟩ := civilOf_spec ⟨c.instant 0, "GMT".toList, 0⟩ hms hlo hhi
  have h4 := instant_inj h1 hc 0 h2
  rw [h4] at h3
  have h5 : Date.marshal ⟨c.instant 0, "GMT".toList, 0⟩ = Date.format ⟨c.instant 0, "GMT".toList, 0⟩ ++ "[0:GMT]".toList := by
    show Date.string _ = _
    unfold Date.string
    simp only
    generalize Date.format _ = f
    rw [if_pos (show "GMT".toList.length > 0 by decide), if_neg (show ¬ (0 : Int) < 0 by decide),
      if_neg (show ¬ ((0 : Int).tmod 3600).tdiv 36 > 0 by decide), if_neg (show ¬ ((0 : Int).tmod 3600).tdiv 36 < 0 by decide)]
    rw [show intStr ((0 : Int).tdiv 3600) = ['0'] by decide]
    simp
  refine ⟨_, h3, h5, ?_⟩
  obtain ⟨t, k1, k2, -⟩ := C14_roundtrip loc ⟨c.instant 0, "GMT".toList, 0⟩ hms hlo hhi rfl
    (by show (-90000 : Int) < 0 ∧ (0 : Int) < 90000; decide) (.inr (by show (0 : Int) ≤ 0; decide))
    (.inr (by show ReadableZone "GMT".toList; decide)) (fun _ => rfl)
  rw [h5] at k1
  exact ⟨t, k1, by unfold Date.equal; rw [k2]; simp⟩

theorem wall_secs (c : Civil) (hc : c.Exists) (extra : Nat) (he : extra < 1000000) :
    (∀ o : Int, c.instant o + extra = (c.instant 0 / 1000000000 - o) * 1000000000 + (c.milli * 1000000 + extra)) ∧
    dayOf ((c.year : Int) + ((c.month : Int) - 1) / 12) (((c.month : Int) - 1) % 12 + 1).toNat 1 * 86400 + ((c.day : Int) - 1) * 86400 +
      c.hour * 3600 + c.minute * 60 + c.second + ((c.milli * 1000000 + extra : Nat) : Int) / 1000000000 = c.instant 0 / 1000000000 := by
  obtain ⟨c1, c2, c3, c4, c5, c6, c7, c8, c9⟩ := hc
  constructor
  · intro o
    rw [instant_eq, instant_eq]; omega
  · rw [show (c.year : Int) + ((c.month : Int) - 1) / 12 = c.year by omega, show (((c.month : Int) - 1) % 12 + 1).toNat = c.month by omega,
      dayOf_eq c.year c.month 1 c2 c3 (by decide), instant_eq]
    simp only [Nat.sub_self, Nat.add_zero]
    omega

/-- C66: for every location, the result is the reading taken with an offset in force in that
location near the reading, also for readings the clock skips when it is set forward. -/
theorem C66_nearby (loc : Location) (c : Civil) (hc : c.Exists) (extra : Nat) (he : extra < 1000000)
    (reach : Int) (hr : ∀ t, -reach ≤ (loc t).off ∧ (loc t).off ≤ reach) :
    ∃ u, c.instant 0 / 1000000000 - reach ≤ u ∧ u ≤ c.instant 0 / 1000000000 + reach ∧
      (newDate c.year c.month c.day c.hour c.minute c.second (c.milli * 1000000 + extra : Nat) loc).ns =
        c.instant (loc u).off + extra := by
  obtain ⟨hW, hwall⟩ := wall_secs c hc extra he
  rw [newDate_eq]
  simp only
  rw [hwall]
  simp only [hW]
  obtain ⟨-, -, -, -, -, -, -, -, c9⟩ := hc
  have hn : ((c.milli * 1000000 + extra : Nat) : Int) % 1000000000 = c.milli * 1000000 + extra := by omega
  rw [hn]
  generalize c.instant 0 / 1000000000 = W at *
  have r1 := hr W
  by_cases h0 : (loc W).off = 0
  · exact ⟨W, by omega, by omega, by rw [if_pos h0, h0]⟩
  · rw [if_neg h0]
    by_cases h1 : W - (loc W).off < (loc W).start ∨ W - (loc W).off ≥ (loc W).stop
    · exact ⟨W - (loc W).off, by omega, by omega, by rw [if_pos h1]⟩
    · exact ⟨W, by omega, by omega, by rw [if_neg h1]⟩

/-- C66: for every location in which clocks are changed at most once within `reach` of the reading
(and are at most that far from UTC), if the clock ever shows the reading, the result is an
instant at which it does.  (When clocks are set back there are two such instants.) -/
theorem C66_location (loc : Location) (hl : Consistent loc) (c : Civil) (hc : c.Exists) (extra : Nat) (he : extra < 1000000)
    (reach : Int) (ho : OneChange loc (c.instant 0 / 1000000000) reach) (t : Int) (ht : ClockShows loc c extra t) :
    let made := newDate c.year c.month c.day c.hour c.minute c.second (c.milli * 1000000 + extra : Nat) loc
    ClockShows loc c extra made.ns ∧ made.off = (loc (made.ns / 1000000000)).off ∧ made.zone = (loc (made.ns / 1000000000)).name := by
  obtain ⟨hr, change, b, a, ho⟩ := ho
  obtain ⟨hW, hwall⟩ := wall_secs c hc extra he
  obtain ⟨-, -, -, -, -, -, -, -, c9⟩ := hc
  intro made
  have hm : made = _ := newDate_eq _ _ _ _ _ _ _ _
  simp only at hm
  rw [hwall] at hm
  unfold ClockShows at ht
  rw [hW] at ht
  generalize c.instant 0 / 1000000000 = W at *
  have hv : t / 1000000000 = W - (loc (t / 1000000000)).off := by omega
  generalize t / 1000000000 = v at *
  have hn : ((c.milli * 1000000 + extra : Nat) : Int) % 1000000000 = c.milli * 1000000 + extra := by omega
  rw [hn] at hm
  -- it suffices that the offset chosen is in force
  suffices key : ∀ o, o = (if (loc W).off = 0 then 0 else
      if W - (loc W).off < (loc W).start ∨ W - (loc W).off ≥ (loc W).stop then (loc (W - (loc W).off)).off else (loc W).off) →
      (loc (W - o)).off = o by
    have k := key _ rfl
    generalize (if (loc W).off = 0 then (0 : Int) else _) = o at k hm
    have e : made.ns / 1000000000 = W - o := by rw [hm]; simp only; omega
    refine ⟨?_, ?_, ?_⟩
    · unfold ClockShows
      rw [e, k, hW, hm]
    · rw [e, hm]
    · rw [e, hm]
  intro o hod
  by_cases h0 : (loc W).off = 0
  · rw [if_pos h0] at hod
    subst hod
    rw [Int.sub_zero, h0]
  · rw [if_neg h0] at hod
    by_cases h1 : W - (loc W).off < (loc W).start ∨ W - (loc W).off ≥ (loc W).stop
    · rw [if_pos h1] at hod
      have r1 := hr W
      have r2 := hr (W - (loc W).off)
      have r3 := hr v
      have e1 := ho W (by omega) (by omega)
      have e2 := ho (W - (loc W).off) (by omega) (by omega)
      have e3 := ho v (by omega) (by omega)
      generalize hA : (loc W).off = A at *
      generalize hV : (loc v).off = V at *
      by_cases heq : o = A
      · rw [heq] at hod
        rw [heq, ← hod]
      -- otherwise the offset when the reading is shown is one of the two
      have hcase : V = A ∨ V = o := by
        rw [← hod] at e2
        split at e1 <;> split at e2 <;> split at e3 <;> omega
      rcases hcase with h | h
      · have : v = W - A := by omega
        rw [← this, hV] at hod
        omega
      · have : v = W - o := by omega
        rw [← this, hV, h]
    · rw [if_neg h1] at hod
      subst hod
      exact (hl W).2.2 _ (by omega) (by omega)

/-- A clock five hours behind UTC, four from 2024-03-10T07:00:00Z on. -/
def newYork : Location := fun t =>
  if t < 63845650800 then ⟨"EST".toList, -18000, t, 63845650800⟩ else ⟨"EDT".toList, -14400, 63845650800, t + 1⟩

theorem newYork_consistent : Consistent newYork := by
  intro t
  by_cases h : t < 63845650800
  · have e : newYork t = ⟨"EST".toList, -18000, t, 63845650800⟩ := if_pos h
    rw [e]
    refine ⟨Int.le_refl _, h, fun u _ hu => ?_⟩
    have e' : newYork u = ⟨"EST".toList, -18000, u, 63845650800⟩ := if_pos hu
    rw [e']
  · have e : newYork t = ⟨"EDT".toList, -14400, 63845650800, t + 1⟩ := if_neg h
    rw [e]
    refine ⟨by simp only; omega, by simp only; omega, fun u hu _ => ?_⟩
    have e' : newYork u = ⟨"EDT".toList, -14400, 63845650800, u + 1⟩ := if_neg (by simp only at hu; omega)
    rw [e']

theorem newYork_changes (around : Int) : OneChange newYork around 18000 := by
  refine ⟨fun t => ?_, 63845650800, -18000, -14400, fun t _ _ => ?_⟩ <;> unfold newYork <;> split <;> simp

/-- Half past one in the morning before the clocks change. -/
def beforeChange : Civil := ⟨2024, 3, 10, 1, 30, 0, 0⟩

example : beforeChange.Exists ∧ Consistent newYork ∧ OneChange newYork (beforeChange.instant 0 / 1000000000) 18000 ∧
    ClockShows newYork beforeChange 0 63845649000000000000 :=
  ⟨by decide, newYork_consistent, newYork_changes _, by unfold ClockShows; rw [instant_eq]; decide +kernel⟩

example : (newDate 2024 3 10 1 59 59 0 newYork) = ⟨63845650799000000000, "EST".toList, -18000⟩ := by decide +kernel
example : (newDate 2024 3 10 3 0 0 0 newYork) = ⟨63845650800000000000, "EDT".toList, -14400⟩ := by decide +kernel
-- the clock never shows 02:30; taken with the later offset
example : (newDate 2024 3 10 2 30 0 0 newYork) = ⟨63845649000000000000, "EST".toList, -18000⟩ := by decide +kernel
-- February 30th is March 1st, month 14 of 2023 is February 2024
example : newDate 2023 14 30 0 0 0 0 gmt = newDateGMT 2024 3 1 0 0 0 0 := by decide +kernel

end Ofx.Props
