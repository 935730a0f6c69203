import Verif.Lemmas.Date
/-
Properties C13-C16 of OFX dates.  `loc` is the local time zone of the process, which Go's
`time.Parse` consults; every theorem holds for each.
-/
namespace Ofx.Props
open Ofx Spec

/-- C13: a date text without zone suffix, in any of the five precisions, decodes to the
instant it denotes in GMT. -/
theorem C13_decode_no_zone (loc : LocalZone) (c : Civil) (body : Str) (hc : c.Exists) (hb : DateBody c body) :
    ∃ t, Date.unmarshal loc body = .ok t ∧ t.ns = c.instant 0 ∧ t.off = 0 ∧ t.zone = "GMT".toList := by
  rw [unmarshal_plain loc hb, if_pos (fieldsOk_of_exists hc)]
  have hcz := zoneChunks_named (stOf c) '+' (Or.inl rfl) (h := 0) (m := 0) (by omega) (by omega) gmt_readable
  obtain ⟨zn, hzn, h2⟩ := parseFinish_off loc c hc 0 "GMT".toList
  refine ⟨⟨c.instant 0, zn, 0⟩, ?_, rfl, rfl, h2 (by decide)⟩
  unfold zoneParse
  erw [hcz]
  simp only [Option.bind_some]
  erw [hzn]; rfl

/-- A leap day at half past one in the afternoon. -/
def leapDay : Civil := ⟨2024, 2, 29, 13, 30, 0, 0⟩

theorem leapDay_exists : leapDay.Exists := by decide
theorem leapDay_body : DateBody leapDay "202402291330".toList :=
  .ymdhm (Y := "2024".toList) (M := "02".toList) (D := "29".toList) (H := "13".toList) (I := "30".toList)
    (by decide) (by decide) (by decide) (by decide) (by decide) rfl rfl

example (loc : LocalZone) : ∃ t, Date.unmarshal loc "202402291330".toList = .ok t ∧ t.ns = leapDay.instant 0 ∧
    t.off = 0 ∧ t.zone = "GMT".toList := C13_decode_no_zone loc leapDay _ leapDay_exists leapDay_body

/-- C13 in full: decoding a date with any zone suffix gives the instant the suffix
denotes.  It does not hold of the code, see `C13_full_false`. -/
def DecodesEveryZone : Prop :=
  ∀ (loc : LocalZone) (c : Civil) (body zt : Str) (z : Zone), c.Exists → DateBody c body → ZoneText z zt →
    z.hours * 100 + z.hundredths ≤ 2400 → (∀ x ∈ z.name, IsCapital x) →
    ∃ t, Date.unmarshal loc (body ++ zt ++ [']']) = .ok t ∧ t.ns = c.instant z.offset ∧ t.off = z.offset

/-- C13, with the zone suffixes the code gets right: hundredths that make whole minutes,
not a fraction of an hour west of GMT, a zone name Go's package time can read, and no
offset together with the name UTC.  Missing for the full property: the other suffixes,
for which it fails. -/
theorem C13_decode_zone_partial (loc : LocalZone) (c : Civil) (body zt : Str) (z : Zone) (hc : c.Exists)
    (hb : DateBody c body) (hz : ZoneText z zt) (h24 : z.hours ≤ 24) (h5 : z.hundredths % 5 = 0)
    (hw : z.west = true → 1 ≤ z.hours ∨ z.hundredths = 0) (hn : z.name = [] ∨ ReadableZone z.name)
    (hu : z.name = "UTC".toList → z.offset = 0) :
    ∃ t, Date.unmarshal loc (body ++ zt ++ [']']) = .ok t ∧ t.ns = c.instant z.offset ∧ t.off = z.offset ∧
      (z.name ≠ [] → t.zone = z.name) :=
  by
  have h := unmarshal_zone loc hc hb hz h24 hn []
  have e : zoneOffset z = z.offset := zoneOffset_eq h5 hw hu
  rw [e] at h
  exact h

example (loc : LocalZone) : ∃ t, Date.unmarshal loc "202402291330[-3.50:NST]".toList = .ok t ∧
    t.ns = leapDay.instant (-12600) ∧ t.off = -12600 ∧ t.zone = "NST".toList := by
  obtain ⟨t, h1, h2, h3, h4⟩ := C13_decode_zone_partial loc leapDay "202402291330".toList "[-3.50:NST".toList
    ⟨true, 3, 50, "NST".toList⟩ leapDay_exists leapDay_body
    ⟨['-'], ['3'], ".50".toList, ":NST".toList, rfl, Or.inr ⟨rfl, rfl⟩, by decide, by decide,
      Or.inr ⟨"50".toList, rfl, by decide⟩, Or.inr ⟨rfl, by decide⟩⟩
    (by decide) (by decide) (by decide) (Or.inr (by decide)) (by decide)
  exact ⟨t, h1, h2, h3, h4 (by decide)⟩

/-- C13: a date text whose components do not exist in the calendar is rejected, whatever
follows it in brackets. -/
theorem C13_invalid_rejected (loc : LocalZone) (c : Civil) (body : Str) (hb : DateBody c body) (hc : ¬ c.Exists)
    (suffix : Str) (hs : suffix = [] ∨ ∃ inner, suffix = '[' :: inner) :
    ∃ e, Date.unmarshal loc (body ++ suffix) = .error e := by
  cases h : Date.unmarshal loc (body ++ suffix) with
  | error e => exact ⟨e, rfl⟩
  | ok t =>
    exfalso
    apply hc
    rcases hs with rfl | ⟨inner, rfl⟩
    · rw [List.append_nil, unmarshal_plain loc hb] at h
      exact exists_of_fields hb (tryFormats_exists loc hb [.numTZ, .blank, .tz] (by decide) "+0000 GMT".toList
        ((body_parse hb loc _ _).trans h))
    · obtain ⟨zone, zf, hz, ht⟩ := unmarshal_any_bracket loc hb inner h
      exact exists_of_fields hb (tryFormats_exists loc hb _ hz _ ht)

example (loc : LocalZone) : ∃ e, Date.unmarshal loc "20230230[-5:EST]".toList = .error e :=
  C13_invalid_rejected loc ⟨2023, 2, 30, 0, 0, 0, 0⟩ "20230230".toList
    (.ymd (Y := "2023".toList) (M := "02".toList) (D := "30".toList) (by decide) (by decide) (by decide)
      rfl rfl rfl rfl) (by decide) "[-5:EST]".toList (Or.inr ⟨_, rfl⟩)

/-- A process running in UTC. -/
def utcLocal : LocalZone := fun _ => ("UTC".toList, 0)

/-- C13 in full fails: `[5.01]` is 36 seconds off, because the code keeps whole minutes
only. -/
theorem C13_full_false : ¬ DecodesEveryZone := by
  intro h
  obtain ⟨t, h1, -, h3⟩ := h utcLocal leapDay "202402291330".toList "[5.01".toList ⟨false, 5, 1, []⟩ leapDay_exists
    leapDay_body ⟨[], ['5'], ".01".toList, [], rfl, Or.inl ⟨rfl, Or.inl rfl⟩, by decide, by decide,
      Or.inr ⟨"01".toList, rfl, by decide⟩, Or.inl ⟨rfl, rfl⟩⟩ (by decide) (by simp)
  have h2 : (match Date.unmarshal utcLocal ("202402291330".toList ++ "[5.01".toList ++ [']']) with
      | .ok t => t.off | .error _ => 0) = 18000 := by decide +kernel
  rw [h1] at h2
  have h4 : t.off = 18000 := h2
  rw [h3] at h4
  exact absurd h4 (by decide)

/-- C13: the name UTC hides the offset. -/
theorem C13_utc_name_hides_offset :
    (match Date.unmarshal utcLocal "202402291330[5:UTC]".toList with | .ok t => some t.off | .error _ => none) =
      some 0 := by decide +kernel

/-- C13: a one-letter (military) zone name is not accepted. -/
theorem C13_short_name_rejected :
    (match Date.unmarshal utcLocal "202402291330[0:Z]".toList with | .ok _ => true | .error _ => false) = false := by
  decide +kernel

/-- C14: for every instant with millisecond precision that reads as years 0-9999 on its
own clock, in a zone whose offset is a multiple of 3 minutes, less than 25 hours, and not
within an hour west of GMT, and whose abbreviation is empty or one Go can read, decoding
the printed date gives the same instant, offset and abbreviation. -/
theorem C14_roundtrip (loc : LocalZone) (t : GoTime) (hms : t.ns % 1000000 = 0)
    (hlo : (⟨0, 1, 1, 0, 0, 0, 0⟩ : Civil).instant t.off ≤ t.ns)
    (hhi : t.ns ≤ (⟨9999, 12, 31, 23, 59, 59, 999⟩ : Civil).instant t.off)
    (h3 : t.off % 180 = 0) (hr : -90000 < t.off ∧ t.off < 90000) (hw : t.off ≤ -3600 ∨ 0 ≤ t.off)
    (hn : t.zone = [] ∨ ReadableZone t.zone) (hu : t.zone = "UTC".toList → t.off = 0) :
    ∃ t', Date.unmarshal loc (Date.marshal t) = .ok t' ∧ t'.ns = t.ns ∧ t'.off = t.off ∧
      (t.zone ≠ [] → t'.zone = t.zone) := by
  obtain ⟨hex, hin, hbody⟩ := civilOf_spec t hms hlo hhi
  obtain ⟨zt, hs, hz⟩ := string_zone t hw
  have hoff : (printedZone t).offset = t.off := by
    unfold Zone.offset printedZone
    by_cases hneg : t.off < 0
    · simp only [hneg, decide_true, if_true]; omega
    · simp only [hneg, decide_false, Bool.false_eq_true, if_false]; omega
  obtain ⟨t', h1, h2, h3', h4⟩ := C13_decode_zone_partial loc (civilOf t) _ zt (printedZone t) hex hbody hz
    (by simp only [printedZone]; omega) (by simp only [printedZone]; omega)
    (by simp only [printedZone, decide_eq_true_eq]; omega) hn (fun h => by rw [hoff]; exact hu h)
  rw [hoff] at h2 h3'
  exact ⟨t', by unfold Date.marshal; rw [hs]; exact h1, by rw [h2, hin], h3', h4⟩

example (loc : LocalZone) : ∃ t', Date.unmarshal loc (Date.marshal ⟨63800000000123000000, "EST".toList, -18000⟩) = .ok t' ∧
    t'.ns = 63800000000123000000 ∧ t'.off = -18000 ∧ ("EST".toList ≠ [] → t'.zone = "EST".toList) :=
  C14_roundtrip loc ⟨63800000000123000000, "EST".toList, -18000⟩ (by decide) (by rw [instant_first]; decide)
    (by rw [instant_last]; decide) (by decide) (by decide) (by decide) (Or.inr (by decide)) (by decide)

/-- C14: what the limits exclude.  An abbreviation that is not letters, such as the `-03`
Go reports for São Paulo, prints a date that cannot be decoded. -/
theorem C14_numeric_abbreviation_lost :
    (match Date.unmarshal utcLocal (Date.marshal ⟨63800000000123000000, "-03".toList, -10800⟩) with
      | .ok _ => true | .error _ => false) = false := by decide +kernel

/-- C15: in full, a suffix with a negative number denotes a zone west of GMT. -/
def NegativeIsWest : Prop :=
  ∀ (loc : LocalZone) (c : Civil) (body zt : Str) (z : Zone) (t : GoTime), c.Exists → DateBody c body →
    ZoneText z zt → z.west = true → z.hours ≤ 24 → 0 < z.hours * 100 + z.hundredths →
    Date.unmarshal loc (body ++ zt ++ [']']) = .ok t → t.off < 0

/-- C15: in full, a date west of GMT prints a minus sign after the bracket. -/
def WestPrintsNegative : Prop :=
  ∀ t : GoTime, t.off < 0 → ∃ rest, Date.string t = Date.format t ++ '[' :: '-' :: rest

/-- C15, decoding, for a suffix of at least one hour.  Missing: `[-0.ff]`, where it
fails. -/
theorem C15_negative_is_west_partial (loc : LocalZone) (c : Civil) (body zt : Str) (z : Zone) (hc : c.Exists)
    (hb : DateBody c body) (hz : ZoneText z zt) (hw : z.west = true) (h24 : z.hours ≤ 24) (h1 : 1 ≤ z.hours)
    (hn : z.name = [] ∨ ReadableZone z.name) (hu : z.name ≠ "UTC".toList) :
    ∃ t, Date.unmarshal loc (body ++ zt ++ [']']) = .ok t ∧ t.off < 0 ∧ c.instant 0 < t.ns := by
  obtain ⟨t, h, h2, h3, -⟩ := unmarshal_zone loc hc hb hz h24 hn []
  have hneg : zoneOffset z < 0 := by
    unfold zoneOffset
    rw [if_neg hu, if_pos ⟨hw, by omega⟩]
    generalize z.hundredths * 60 / 100 = x
    omega
  refine ⟨t, h, by omega, ?_⟩
  rw [h2, instant_off c (zoneOffset z)]
  unfold nsPerSec
  omega

/-- C15, decoding, the other sign: a suffix without a minus never denotes a zone west of
GMT. -/
theorem C15_positive_is_east (loc : LocalZone) (c : Civil) (body zt : Str) (z : Zone) (hc : c.Exists)
    (hb : DateBody c body) (hz : ZoneText z zt) (hw : z.west = false) (h24 : z.hours ≤ 24)
    (hn : z.name = [] ∨ ReadableZone z.name) :
    ∃ t, Date.unmarshal loc (body ++ zt ++ [']']) = .ok t ∧ 0 ≤ t.off ∧ t.ns ≤ c.instant 0 := by
  obtain ⟨t, h, h2, h3, -⟩ := unmarshal_zone loc hc hb hz h24 hn []
  have hpos : 0 ≤ zoneOffset z := by
    unfold zoneOffset
    rw [hw]
    split
    · omega
    · simp only [Bool.false_eq_true, false_and, if_false]; omega
  refine ⟨t, h, by omega, ?_⟩
  rw [h2, instant_off c (zoneOffset z)]
  unfold nsPerSec
  omega

example (loc : LocalZone) : ∃ t, Date.unmarshal loc "202402291330[-5]".toList = .ok t ∧ t.off < 0 ∧
    leapDay.instant 0 < t.ns :=
  C15_negative_is_west_partial loc leapDay "202402291330".toList "[-5".toList ⟨true, 5, 0, []⟩ leapDay_exists
    leapDay_body ⟨['-'], ['5'], [], [], rfl, Or.inr ⟨rfl, rfl⟩, by decide, by decide, Or.inl ⟨rfl, rfl⟩,
      Or.inl ⟨rfl, rfl⟩⟩ rfl (by decide) (by decide) (Or.inl rfl) (by decide)

example (loc : LocalZone) : ∃ t, Date.unmarshal loc "202402291330[+5]".toList = .ok t ∧ 0 ≤ t.off ∧
    t.ns ≤ leapDay.instant 0 :=
  C15_positive_is_east loc leapDay "202402291330".toList "[+5".toList ⟨false, 5, 0, []⟩ leapDay_exists
    leapDay_body ⟨['+'], ['5'], [], [], rfl, Or.inl ⟨rfl, Or.inr rfl⟩, by decide, by decide, Or.inl ⟨rfl, rfl⟩,
      Or.inl ⟨rfl, rfl⟩⟩ rfl (by decide) (Or.inl rfl)

/-- C15, printing, for dates at least an hour west of GMT.  Missing: less than an hour
west, where it fails. -/
theorem C15_west_prints_negative_partial (t : GoTime) (h : t.off ≤ -3600) :
    ∃ rest, Date.string t = Date.format t ++ '[' :: '-' :: rest := by
  obtain ⟨zt, hs, sign, hh, fr, nm, rfl, hsg, -⟩ := string_zone t (Or.inl h)
  have : sign = ['-'] := by
    rcases hsg with ⟨h1, -⟩ | ⟨-, h2⟩
    · simp only [printedZone, decide_eq_false_iff_not] at h1; omega
    · exact h2
  subst this
  exact ⟨hh ++ fr ++ nm ++ [']'], by rw [hs]; simp⟩

example : ∃ rest, Date.string ⟨63800000000123000000, [], -18000⟩ =
    Date.format ⟨63800000000123000000, [], -18000⟩ ++ '[' :: '-' :: rest :=
  C15_west_prints_negative_partial _ (by decide)

/-- C15 fails when decoding: `[-0.50]` decodes to half an hour east of GMT. -/
theorem C15_negative_is_west_false : ¬ NegativeIsWest := by
  intro h
  have h2 : (match Date.unmarshal utcLocal ("202402291330".toList ++ "[-0.50".toList ++ [']']) with
      | .ok t => some t.off | .error _ => none) = some 1800 := by decide +kernel
  cases hu : Date.unmarshal utcLocal ("202402291330".toList ++ "[-0.50".toList ++ [']']) with
  | error e => rw [hu] at h2; cases h2
  | ok t =>
    have h3 := h utcLocal leapDay "202402291330".toList "[-0.50".toList ⟨true, 0, 50, []⟩ t leapDay_exists
      leapDay_body ⟨['-'], ['0'], ".50".toList, [], rfl, Or.inr ⟨rfl, rfl⟩, by decide, by decide,
        Or.inr ⟨"50".toList, rfl, by decide⟩, Or.inl ⟨rfl, rfl⟩⟩ rfl (by decide) (by decide) hu
    rw [hu] at h2
    injection h2 with h2
    omega

/-- C15 fails when printing: half an hour west of GMT prints as `[+0.50]`. -/
theorem C15_west_prints_negative_false : ¬ WestPrintsNegative := by
  intro h
  obtain ⟨rest, hr⟩ := h ⟨63800000000123000000, [], -1800⟩ (by decide)
  have h2 : (Date.string ⟨63800000000123000000, [], -1800⟩)[19]? = some '+' := by decide +kernel
  have h3 : (Date.format ⟨63800000000123000000, [], -1800⟩).length = 18 := by decide +kernel
  rw [hr, List.getElem?_append_right (by omega), h3] at h2
  simp at h2

/-- C16: white space around a date text does not change what it decodes to. -/
theorem C16_padding (loc : LocalZone) (w text w' : Str) (h : IsPadding w) (h' : IsPadding w') :
    Date.unmarshal loc (w ++ text ++ w') = Date.unmarshal loc text := by
  rw [isPadding_iff] at h h'
  have hw : ']' ∉ w := not_mem_space h _ (by decide)
  have hw' : ']' ∉ w' := not_mem_space h' _ (by decide)
  have key : trimSpace (splitC ']' (w ++ text ++ w')).1 = trimSpace (splitC ']' text).1 := by
    rw [List.append_assoc, splitC_fst_prepend hw, allSpace_trim_left h]
    by_cases hm : ']' ∈ text
    · rw [splitC_fst_append hm]
    · rw [splitC_fst_prepend hm, splitC_none hw', splitC_none hm]
      exact allSpace_trim_right h'
  unfold Date.unmarshal
  simp only [key]

/-- C16: text after the closing bracket does not change what a date decodes to. -/
theorem C16_trailing (loc : LocalZone) (text tail : Str) (h : ']' ∈ text) :
    Date.unmarshal loc (text ++ tail) = Date.unmarshal loc text := by
  unfold Date.unmarshal
  simp only [splitC_fst_append h]

/-- C16: a date text with no zone suffix decodes as GMT, if at all. -/
theorem C16_default_gmt (loc : LocalZone) (text : Str) (h : '[' ∉ text) (h' : ']' ∉ text) (hp : IsTrim text)
    (t : GoTime) (ht : Date.unmarshal loc text = .ok t) :
    Date.unmarshal loc (text ++ "[0:GMT]".toList) = .ok t := by
  rw [isTrim_iff] at hp
  by_cases hne : text = []
  · subst hne
    have hnone : ∀ zf, tryFormats loc zf " +0000 GMT".toList ofxDateFormats = .error "OFX: Couldn't parse date" := by
      intro zf
      rfl
    unfold Date.unmarshal at ht
    simp only [splitC_none h', splitC_none h, trimSpace_of_trimmed hp, List.nil_append] at ht
    rw [hnone] at ht; cases ht
  · have hb : ']' ∉ text ++ "[0:GMT".toList := by
      intro hm
      rcases List.mem_append.mp hm with hm | hm
      · exact h' hm
      · exact absurd hm (by decide)
    have htr : Trimmed (text ++ "[0:GMT".toList) := by
      constructor
      · intro c hc
        cases text with
        | nil => exact absurd rfl hne
        | cons x xs => exact hp.1 c hc
      · intro c hc
        rw [List.getLast?_append] at hc
        simp at hc
        subst hc; decide
    have e : Date.unmarshal loc (text ++ "[0:GMT]".toList) =
        tryFormats loc [.blank, .numTZ, .blank, .tz] (text ++ " +0000 GMT".toList) ofxDateFormats := by
      unfold Date.unmarshal
      have e1 : text ++ "[0:GMT]".toList = (text ++ "[0:GMT".toList) ++ ']' :: [] := by simp
      rw [e1, splitC_append hb]
      simp only [trimSpace_of_trimmed htr]
      have e2 : text ++ "[0:GMT".toList = text ++ '[' :: "0:GMT".toList := rfl
      rw [e2, splitC_append h]
      simp only
      have e3 : zoneOf (trimRightC ']' "0:GMT".toList) = .ok (" +0000 GMT".toList, [.blank, .numTZ, .blank, .tz]) := by
        decide +kernel
      rw [e3]
    rw [e, ← ht]
    unfold Date.unmarshal
    simp only [splitC_none h', splitC_none h, trimSpace_of_trimmed hp]

example (loc : LocalZone) : Date.unmarshal loc "\n 20240229[-5:EST] x]\t".toList =
    Date.unmarshal loc "20240229[-5:EST]".toList :=
  (C16_padding loc "\n ".toList "20240229[-5:EST] x]".toList "\t".toList (by decide) (by decide)).trans
    (C16_trailing loc "20240229[-5:EST]".toList " x]".toList (by decide))

example (loc : LocalZone) : ∃ t, Date.unmarshal loc "202402291330[0:GMT]".toList = .ok t := by
  obtain ⟨t, h, -⟩ := C13_decode_no_zone loc leapDay _ leapDay_exists leapDay_body
  exact ⟨t, C16_default_gmt loc _ (by decide) (by decide)
    ((isTrim_iff _).mpr (trimmed_of_all (by decide))) t h⟩

end Ofx.Props
