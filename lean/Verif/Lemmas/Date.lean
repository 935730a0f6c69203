import Verif.Lemmas.DateZone
/- Date decoding and printing as a whole. -/
namespace Ofx
open Spec

theorem allSpace_trim_right {s w : Str} (h : AllSpace w) : trimSpace (s ++ w) = trimSpace s := by
  have := trimSpace_pad' [] s w (by intro c hc; cases hc) h
  simpa using this

theorem allSpace_trim_left {s w : Str} (h : AllSpace w) : trimSpace (w ++ s) = trimSpace s := by
  have := trimSpace_pad' w s [] h (by intro c hc; cases hc)
  simpa using this

theorem not_mem_space {w : Str} (h : AllSpace w) (c : Char) (hc : isSpace c = false) : c ∉ w := by
  intro hm
  have := h c hm
  rw [hc] at this; cases this

theorem splitC_fst_append {c : Char} {s t : Str} (h : c ∈ s) : (splitC c (s ++ t)).1 = (splitC c s).1 := by
  induction s with
  | nil => cases h
  | cons x xs ih =>
    rw [List.cons_append, splitC, splitC]
    by_cases hx : x = c
    · rw [if_pos hx, if_pos hx]
    · rw [if_neg hx, if_neg hx]
      have hm : c ∈ xs := by simp only [List.mem_cons] at h; exact h.resolve_left (fun e => hx e.symm)
      have := ih hm
      simp only [this]

theorem splitC_fst_prepend {c : Char} {w s : Str} (h : c ∉ w) : (splitC c (w ++ s)).1 = w ++ (splitC c s).1 := by
  induction w with
  | nil => rfl
  | cons x xs ih =>
    simp only [List.mem_cons, not_or] at h
    rw [List.cons_append, splitC, if_neg (fun e => h.1 e.symm)]
    simp only [ih h.2, List.cons_append]

/-- The zone a text without suffix gets. -/
theorem unmarshal_plain (loc : LocalZone) {c : Civil} {body : Str} (h : DateBody c body) :
    Date.unmarshal loc body =
      if fieldsOk c.month c.hour c.minute c.second then
        orFail (zoneParse loc [.blank, .numTZ, .blank, .tz] (stOf c) " +0000 GMT".toList)
      else .error "OFX: Couldn't parse date" := by
  have hch := fun x hx => bodyChar_facts (body_chars h x hx)
  have h1 : ']' ∉ body := fun hm => (hch _ hm).2.2 rfl
  have h2 : '[' ∉ body := fun hm => (hch _ hm).2.1 rfl
  unfold Date.unmarshal
  simp only [splitC_none h1, trimSpace_of_trimmed (trimmed_of_all (fun x hx => (hch x hx).1)), splitC_none h2]
  exact body_parse h loc _ _

/-- A text with a bracket: what the bracket contains decides the zone. -/
theorem unmarshal_bracket (loc : LocalZone) {c : Civil} {body : Str} (h : DateBody c body) {inner : Str}
    (hsp : ∀ x ∈ inner, isSpace x = false ∧ x ≠ ']') (rest : Str) :
    Date.unmarshal loc (body ++ '[' :: inner ++ ']' :: rest) =
      match zoneOf inner with
      | .error e => .error e
      | .ok (zone, fmt) => tryFormats loc fmt (body ++ zone) ofxDateFormats := by
  have hch := fun x hx => bodyChar_facts (body_chars h x hx)
  have h1 : ']' ∉ body ++ '[' :: inner := by
    intro hm
    simp only [List.mem_append, List.mem_cons] at hm
    rcases hm with hm | hm | hm
    · exact (hch _ hm).2.2 rfl
    · exact absurd hm (by decide)
    · exact (hsp _ hm).2 rfl
  have h2 : '[' ∉ body := fun hm => (hch _ hm).2.1 rfl
  have htr : ∀ x ∈ body ++ '[' :: inner, isSpace x = false := by
    intro x hx
    simp only [List.mem_append, List.mem_cons] at hx
    rcases hx with hx | hx | hx
    · exact (hch _ hx).1
    · subst hx; decide
    · exact (hsp _ hx).1
  have hrt : trimRightC ']' inner = inner := by
    unfold trimRightC
    apply trimRightP_eq_self
    intro x hx
    have := (hsp x (List.mem_of_getLast? hx)).2
    simp [this]
  unfold Date.unmarshal
  simp only [splitC_append h1, trimSpace_of_trimmed (trimmed_of_all htr), splitC_append h2, hrt]
  cases zoneOf inner <;> rfl

/-- A bracketed suffix, whatever it is, never changes the calendar fields. -/
theorem unmarshal_any_bracket (loc : LocalZone) {c : Civil} {body : Str} (h : DateBody c body) (inner : Str)
    {t : GoTime} (ht : Date.unmarshal loc (body ++ '[' :: inner) = .ok t) :
    ∃ zone zf, (∀ x ∈ Chunk.blank :: zf, x = .blank ∨ x = .numTZ ∨ x = .tz) ∧
      tryFormats loc (.blank :: zf) (body ++ ' ' :: zone) ofxDateFormats = .ok t := by
  have hch := fun x hx => bodyChar_facts (body_chars h x hx)
  have h1 : ']' ∉ body ++ ['['] := by
    intro hm
    simp only [List.mem_append, List.mem_cons, List.not_mem_nil, or_false] at hm
    rcases hm with hm | hm
    · exact (hch _ hm).2.2 rfl
    · exact absurd hm (by decide)
  have h2 : '[' ∉ body := fun hm => (hch _ hm).2.1 rfl
  have hsplit : (splitC ']' (body ++ '[' :: inner)).1 = body ++ '[' :: (splitC ']' inner).1 := by
    have := splitC_fst_prepend (s := inner) h1
    simpa using this
  have htrim : ∀ u : Str, ∃ u', trimSpace (body ++ '[' :: u) = body ++ '[' :: u' := by
    intro u
    have hhead : trimLeftP isSpace (body ++ '[' :: u) = body ++ '[' :: u := by
      apply dropWhile_eq_self
      intro x hx
      cases body with
      | nil => exact absurd rfl (body_ne_nil h)
      | cons b bs =>
        simp only [List.cons_append, List.head?_cons, Option.some.injEq] at hx
        subst hx; exact (hch b (by simp)).1
    unfold trimSpace
    rw [hhead]
    unfold trimRightP
    rw [List.reverse_append, List.reverse_cons, List.append_assoc, List.dropWhile_append]
    split
    · refine ⟨[], ?_⟩
      have : isSpace '[' = false := by decide
      simp [this]
    · refine ⟨(List.dropWhile isSpace u.reverse).reverse, ?_⟩
      simp
  unfold Date.unmarshal at ht
  simp only [hsplit] at ht
  obtain ⟨u', hu'⟩ := htrim (splitC ']' inner).1
  simp only [hu', splitC_append h2] at ht
  cases hz : zoneOf (trimRightC ']' u') with
  | error e => rw [hz] at ht; cases ht
  | ok p =>
    obtain ⟨zone, fmt⟩ := p
    rw [hz] at ht
    obtain ⟨r, zf, rfl, rfl, hall⟩ := zoneOf_shape hz
    exact ⟨r, zf, hall, ht⟩

/-- Nothing but existing readings can come out of the layouts. -/
theorem tryFormats_exists (loc : LocalZone) {c : Civil} {body : Str} (h : DateBody c body) (zf : List Chunk)
    (hz : ∀ x ∈ Chunk.blank :: zf, x = .blank ∨ x = .numTZ ∨ x = .tz) (zone : Str) {t : GoTime}
    (ht : tryFormats loc (.blank :: zf) (body ++ ' ' :: zone) ofxDateFormats = .ok t) : 
    fieldsOk c.month c.hour c.minute c.second ∧ 1 ≤ c.day ∧ c.day ≤ daysIn c.month c.year := by
  rw [body_parse h] at ht
  by_cases hf : fieldsOk c.month c.hour c.minute c.second
  · rw [if_pos hf] at ht
    refine ⟨hf, ?_⟩
    unfold zoneParse at ht
    cases hp : parseChunks (.blank :: zf) (stOf c) (' ' :: zone) with
    | none => rw [hp] at ht; cases ht
    | some st' =>
      rw [hp] at ht
      obtain ⟨e1, e2, e3⟩ := zoneChunks_fields hz hp
      by_cases hd : c.day < 1 ∨ c.day > daysIn c.month c.year
      · exfalso
        have : parseFinish loc st' = none := by
          unfold parseFinish
          rw [e1, e2, e3]
          exact if_pos hd
        rw [show (some st').bind (parseFinish loc) = parseFinish loc st' from rfl, this] at ht
        cases ht
      · omega
  · rw [if_neg hf] at ht; cases ht

theorem body_ranges {c : Civil} {body : Str} (h : DateBody c body) : c.year ≤ 9999 ∧ c.milli < 1000 := by
  have key4 : ∀ {Y : Str}, IsDigits 4 c.year Y → c.year ≤ 9999 := by
    intro Y hY
    have := digitsVal_lt (isDigits_digits hY)
    rw [hY.1, ← value_eq (isDigits_digits hY), hY.2.2] at this
    omega
  have key3 : ∀ {F : Str}, IsDigits 3 c.milli F → c.milli < 1000 := by
    intro Y hY
    have := digitsVal_lt (isDigits_digits hY)
    rw [hY.1, ← value_eq (isDigits_digits hY), hY.2.2] at this
    omega
  cases h with
  | ymd hY hM hD hh hmi hs hms => exact ⟨key4 hY, by omega⟩
  | ymdh hY hM hD hH hmi hs hms => exact ⟨key4 hY, by omega⟩
  | ymdhm hY hM hD hH hI hs hms => exact ⟨key4 hY, by omega⟩
  | ymdhms hY hM hD hH hI hS hms => exact ⟨key4 hY, by omega⟩
  | full hY hM hD hH hI hS hF => exact ⟨key4 hY, key3 hF⟩

theorem exists_of_fields {c : Civil} {body : Str} (h : DateBody c body)
    (hf : fieldsOk c.month c.hour c.minute c.second ∧ 1 ≤ c.day ∧ c.day ≤ daysIn c.month c.year) : c.Exists := by
  obtain ⟨hf, hd1, hd2⟩ := hf
  obtain ⟨hy, hm⟩ := body_ranges h
  unfold fieldsOk at hf
  rw [daysIn_eq _ _ (by omega) (by omega)] at hd2
  unfold Civil.Exists
  omega

/-- The offset the code gives a zone suffix: the fraction cut to whole minutes, the sign
taken from the hours, and none at all for the name UTC. -/
def zoneOffset (z : Zone) : Int :=
  if z.name = "UTC".toList then 0
  else if z.west = true ∧ z.hours ≠ 0 then -(((z.hours * 60 + z.hundredths * 60 / 100) * 60 : Nat) : Int)
  else (((z.hours * 60 + z.hundredths * 60 / 100) * 60 : Nat) : Int)

/-- Decoding with a well-formed zone suffix. -/
theorem unmarshal_zone (loc : LocalZone) {c : Civil} {body zt : Str} {z : Zone} (hc : c.Exists)
    (hb : DateBody c body) (hz : ZoneText z zt) (h24 : z.hours ≤ 24)
    (hn : z.name = [] ∨ ReadableZone z.name) (rest : Str) :
    ∃ t, Date.unmarshal loc (body ++ zt ++ ']' :: rest) = .ok t ∧ t.ns = c.instant (zoneOffset z) ∧
      t.off = zoneOffset z ∧ (z.name ≠ [] → t.zone = z.name) := by
  obtain ⟨sign, hs, frac, nm, rfl, hsg, hnum, hval, hfrac, hnm⟩ := hz
  obtain ⟨hne, hdig⟩ := (isNumeral_iff hs).mp hnum
  rw [value_eq hdig] at hval
  have hcap : ∀ x ∈ z.name, IsCapital x := by
    intro x hx
    rcases hn with h | h
    · rw [h] at hx; cases hx
    · exact h.1 x hx
  obtain ⟨f, hf1, hf2⟩ : ∃ f, frac = (if f = [] then [] else '.' :: f) ∧
      ((f = [] ∧ z.hundredths = 0) ∨ IsDigits 2 z.hundredths f) := by
    rcases hfrac with ⟨h1, h2⟩ | ⟨f, h1, h2⟩
    · exact ⟨[], by simp [h1], Or.inl ⟨rfl, h2⟩⟩
    · refine ⟨f, ?_, Or.inr h2⟩
      rw [if_neg (by rintro rfl; have := h2.1; simp at this)]; exact h1
  have hnm2 : nm = (if z.name = [] then [] else ':' :: z.name) := by
    rcases hnm with ⟨h1, h2⟩ | ⟨h1, h2⟩
    · simp [h1, h2]
    · rw [if_neg h2]; exact h1
  have hh100 : z.hundredths < 100 := by
    rcases hf2 with ⟨-, h⟩ | h
    · omega
    · have := digitsVal_lt (isDigits_digits h)
      rw [h.1, ← value_eq (isDigits_digits h), h.2.2] at this
      omega
  have hchars : ∀ x ∈ sign ++ hs ++ frac ++ nm, isSpace x = false ∧ x ≠ ']' := by
    intro x hx
    have hdg : ∀ x, isDigit x = true → isSpace x = false ∧ x ≠ ']' := fun x hx =>
      ⟨(bodyChar_facts (Or.inl hx)).1, (bodyChar_facts (Or.inl hx)).2.2⟩
    simp only [List.mem_append] at hx
    rcases hx with ((hx | hx) | hx) | hx
    · rcases hsg with ⟨-, rfl | rfl⟩ | ⟨-, rfl⟩
      · cases hx
      · simp only [List.mem_singleton] at hx; subst hx; decide
      · simp only [List.mem_singleton] at hx; subst hx; decide
    · exact hdg x (hdig x hx)
    · rcases hfrac with ⟨h1, h2⟩ | ⟨f, h1, h2⟩
      · rw [h1] at hx; cases hx
      · rw [h1] at hx
        simp only [List.mem_cons] at hx
        rcases hx with rfl | hx
        · decide
        · exact hdg x (isDigits_digits h2 x hx)
    · rcases hnm with ⟨h1, h2⟩ | ⟨h1, h2⟩
      · rw [h1] at hx; cases hx
      · rw [h1] at hx
        simp only [List.mem_cons] at hx
        rcases hx with rfl | hx
        · decide
        · have hcx := (isCapital_iff x).mp (hcap x hx)
          constructor
          · simp only [isUpper, Bool.and_eq_true, decide_eq_true_eq] at hcx
            have h65 : (65 : Nat) ≤ x.toNat := hcx.1
            have h90 : x.toNat ≤ 90 := hcx.2
            simp only [isSpace]
            simp
            omega
          · rintro rfl; exact absurd hcx (by decide)
  have hzo := zoneOf_ok (z := z) hsg hdig hne hval h24 hf2 hcap
  rw [← hf1, ← hnm2] at hzo
  have hmin : z.hundredths * 60 / 100 < 60 := by omega
  have hbody := unmarshal_bracket loc hb hchars rest
  rw [hbody, hzo]
  set sg : Char := if z.west = true ∧ z.hours ≠ 0 then '-' else '+' with hsgd
  have hsg' : sg = '+' ∨ sg = '-' := by rw [hsgd]; split <;> simp
  have hoff : z.name ≠ "UTC".toList →
      (if sg = '-' then -(((z.hours * 60 + z.hundredths * 60 / 100) * 60 : Nat) : Int)
      else (((z.hours * 60 + z.hundredths * 60 / 100) * 60 : Nat) : Int)) = zoneOffset z := by
    intro hnu
    unfold zoneOffset
    rw [if_neg hnu]
    by_cases hwest : z.west = true ∧ z.hours ≠ 0
    · rw [if_pos hwest, if_pos (by rw [hsgd, if_pos hwest])]
    · rw [if_neg hwest, if_neg (by rw [hsgd, if_neg hwest]; decide)]
  by_cases hname : z.name = []
  · have hoff := hoff (by rw [hname]; decide)
    rw [if_neg (by simp [hname])]
    by_cases h00 : z.hours = 0 ∧ z.hundredths * 60 / 100 = 0
    · rw [if_pos h00]
      simp only
      rw [show ∀ A B : Str, body ++ (' ' :: A ++ B) = body ++ ' ' :: (A ++ B) from fun _ _ => rfl,
        body_parse hb, if_pos (fieldsOk_of_exists hc)]
      have hcz := zoneChunks_named (stOf c) sg hsg' h24 hmin gmt_readable
      rw [hoff, if_neg (by decide)] at hcz
      obtain ⟨zn, hzn, -⟩ := parseFinish_off loc c hc (zoneOffset z) "GMT".toList
      refine ⟨⟨c.instant (zoneOffset z), zn, zoneOffset z⟩, ?_, rfl, rfl, fun h => absurd hname h⟩
      unfold zoneParse
      erw [hcz]
      simp only [Option.bind_some, hzn]; rfl
    · rw [if_neg h00]
      simp only
      rw [body_parse hb, if_pos (fieldsOk_of_exists hc)]
      have hcz := zoneChunks_anon (stOf c) sg hsg' h24 hmin
      rw [hoff] at hcz
      obtain ⟨zn, hzn, -⟩ := parseFinish_off loc c hc (zoneOffset z) []
      refine ⟨⟨c.instant (zoneOffset z), zn, zoneOffset z⟩, ?_, rfl, rfl, fun h => absurd hname h⟩
      unfold zoneParse
      erw [hcz]
      simp only [Option.bind_some]
      erw [hzn]; rfl
  · rw [if_pos hname]
    simp only
    rw [show ∀ A B : Str, body ++ (' ' :: A ++ B) = body ++ ' ' :: (A ++ B) from fun _ _ => rfl,
      body_parse hb, if_pos (fieldsOk_of_exists hc)]
    have hrd := hn.resolve_left hname
    have hcz := zoneChunks_named (stOf c) sg hsg' h24 hmin hrd
    by_cases hutc : z.name = "UTC".toList
    · rw [if_pos hutc] at hcz
      have h0 : zoneOffset z = 0 := by unfold zoneOffset; rw [if_pos hutc]
      refine ⟨⟨c.instant 0, "UTC".toList, 0⟩, ?_, by rw [h0], by rw [h0], fun _ => hutc.symm⟩
      unfold zoneParse
      erw [hcz]
      simp only [Option.bind_some]
      erw [parseFinish_utc loc c hc _]; rfl
    · rw [hoff hutc, if_neg hutc] at hcz
      obtain ⟨zn, hzn, hz2⟩ := parseFinish_off loc c hc (zoneOffset z) z.name
      refine ⟨⟨c.instant (zoneOffset z), zn, zoneOffset z⟩, ?_, rfl, rfl, fun h => hz2 h⟩
      unfold zoneParse
      erw [hcz]
      simp only [Option.bind_some, hzn]; rfl

theorem zoneOffset_eq {z : Zone} (h5 : z.hundredths % 5 = 0)
    (hw : z.west = true → 1 ≤ z.hours ∨ z.hundredths = 0) (hu : z.name = "UTC".toList → z.offset = 0) :
    zoneOffset z = z.offset := by
  have hmm : z.hundredths * 60 / 100 * 60 = z.hundredths * 36 := by omega
  have hN : (z.hours * 60 + z.hundredths * 60 / 100) * 60 = z.hours * 3600 + z.hundredths * 36 := by
    rw [Nat.add_mul, hmm, Nat.mul_assoc]
  unfold zoneOffset
  by_cases hutc : z.name = "UTC".toList
  · rw [if_pos hutc, hu hutc]
  · rw [if_neg hutc, hN]
    unfold Zone.offset
    by_cases hwest : z.west = true
    · by_cases h0 : z.hours = 0
      · have := (hw hwest).resolve_left (by omega)
        simp [h0, this]
      · simp [hwest, h0]
    · simp [hwest]

/-! ### Printing -/

theorem isDigits_fmtPad {w n : Nat} (hw : 0 < w) (h : n < 10 ^ w) : IsDigits w n (fmtPad w n) := by
  have hd := padZero_digits (w := w) (natStr_digits n)
  refine ⟨padZero_length (natStr_length_le h hw), fun c hc => (isDecDigit_iff c).mpr (hd c hc), ?_⟩
  unfold fmtPad
  rw [value_eq hd, digitsVal_padZero, digitsVal_natStr]

/-- The wall clock reading of a time. -/
def civilOf (t : GoTime) : Civil :=
  let wall := t.ns + t.off * nsPerSec
  let secs := wall / nsPerSec
  let c := civil (secs / 86400)
  let sod := (secs % 86400).toNat
  ⟨c.1.toNat, c.2.1, c.2.2, sod / 3600, sod % 3600 / 60, sod % 60, (wall % nsPerSec).toNat / 1000000⟩

theorem instant_eq (c : Civil) (off : Int) : c.instant off =
    ((daysBeforeYear c.year : Int) + daysBeforeMonth c.year c.month + ((c.day - 1 : Nat) : Int) - 366) * 86400000000000 +
    (c.hour * 3600 + c.minute * 60 + c.second) * 1000000000 + c.milli * 1000000 - off * 1000000000 := by
  have hy : yearLength 0 = 366 := by decide
  unfold Civil.instant Civil.wall
  rw [hy]
  push_cast
  ring

theorem dby_9999 : (daysBeforeYear 9999 : Int) = 3652060 := by
  have hdse := daysSinceEpoch_eq 9999
  have hdse' : daysSinceEpoch ((9999 : Nat) : Int) = 3651694 := by decide
  generalize (daysBeforeYear 9999 : Int) = x at hdse ⊢
  rw [hdse'] at hdse
  omega

theorem instant_first (off : Int) :
    (⟨0, 1, 1, 0, 0, 0, 0⟩ : Civil).instant off = -31622400000000000 - off * 1000000000 := by
  rw [instant_eq]
  have : daysBeforeYear 0 = 0 := rfl
  have h1 : daysBeforeMonth 0 1 = 0 := rfl
  simp only [this, h1]
  norm_num

theorem instant_last (off : Int) :
    (⟨9999, 12, 31, 23, 59, 59, 999⟩ : Civil).instant off = 315537897599999000000 - off * 1000000000 := by
  rw [instant_eq]
  have hbm : daysBeforeMonth 9999 12 = 334 := by decide
  simp only [hbm, dby_9999]
  norm_num

theorem civilOf_spec (t : GoTime) (hms : t.ns % 1000000 = 0)
    (h1 : (⟨0, 1, 1, 0, 0, 0, 0⟩ : Civil).instant t.off ≤ t.ns)
    (h2 : t.ns ≤ (⟨9999, 12, 31, 23, 59, 59, 999⟩ : Civil).instant t.off) :
    (civilOf t).Exists ∧ (civilOf t).instant t.off = t.ns ∧ DateBody (civilOf t) (Date.format t) := by
  rw [instant_first] at h1
  rw [instant_last] at h2
  obtain ⟨c1, c2, c3, c4, c5, c6, c7⟩ := civil_spec ((t.ns + t.off * nsPerSec) / nsPerSec / 86400)
  have hy0 : 0 ≤ (civil ((t.ns + t.off * nsPerSec) / nsPerSec / 86400)).1 := by
    by_contra hneg
    have := daysSinceEpoch_mono (a := (civil ((t.ns + t.off * nsPerSec) / nsPerSec / 86400)).1 + 1) (b := 0) (by omega)
    have h0 : daysSinceEpoch 0 = -366 := by decide
    unfold nsPerSec at *
    omega
  have hy1 : (civil ((t.ns + t.off * nsPerSec) / nsPerSec / 86400)).1 ≤ 9999 := by
    by_contra hneg
    have := daysSinceEpoch_mono (a := 10000) (b := (civil ((t.ns + t.off * nsPerSec) / nsPerSec / 86400)).1) (by omega)
    have h0 : daysSinceEpoch 10000 = 3652059 := by decide
    unfold nsPerSec at *
    omega
  have hex : (civilOf t).Exists := by
    unfold civilOf
    simp only [Civil.Exists]
    obtain ⟨y, hy⟩ := Int.eq_ofNat_of_zero_le hy0
    rw [hy] at c4 hy1 ⊢
    rw [daysIn_eq _ _ c1 c2] at c4
    refine ⟨by omega, c1, c2, c3, c4, ?_, ?_, ?_, ?_⟩
    · omega
    · omega
    · omega
    · unfold nsPerSec; omega
  refine ⟨hex, ?_, ?_⟩
  · rw [instant_off, ← goDate_eq _ hex]
    unfold goDate civilOf
    simp only
    rw [Int.toNat_of_nonneg hy0, c5]
    unfold nsPerSec
    omega
  · have hf : Date.format t = fmtPad 4 (civilOf t).year ++ fmtPad 2 (civilOf t).month ++ fmtPad 2 (civilOf t).day ++
        fmtPad 2 (civilOf t).hour ++ fmtPad 2 (civilOf t).minute ++ fmtPad 2 (civilOf t).second ++
        '.' :: fmtPad 3 (civilOf t).milli := by
      unfold Date.format civilOf
      simp only
      rw [if_neg (by omega)]
      have hab : ∀ i : Int, 0 ≤ i → i.natAbs = i.toNat := by intro i hi; omega
      rw [hab _ hy0]
    rw [hf]
    obtain ⟨e1, e2, e3, e4, e5, e6, e7, e8, e9⟩ := hex
    have hml : monthLength (civilOf t).year (civilOf t).month ≤ 31 := by unfold monthLength; split <;> split <;> omega
    exact .full (isDigits_fmtPad (by omega) (by omega)) (isDigits_fmtPad (by omega) (by omega))
      (isDigits_fmtPad (by omega) (by omega)) (isDigits_fmtPad (by omega) (by omega))
      (isDigits_fmtPad (by omega) (by omega)) (isDigits_fmtPad (by omega) (by omega))
      (isDigits_fmtPad (by omega) (by omega))

/-- The zone suffix a time prints, when it is not less than an hour west of GMT. -/
def printedZone (t : GoTime) : Zone :=
  ⟨decide (t.off < 0), t.off.natAbs / 3600, t.off.natAbs % 3600 / 36, t.zone⟩

theorem string_zone (t : GoTime) (hw : t.off ≤ -3600 ∨ 0 ≤ t.off) :
    ∃ zt, Date.string t = Date.format t ++ zt ++ [']'] ∧ ZoneText (printedZone t) zt := by
  have hdiv : (t.off.tdiv 3600).natAbs = t.off.natAbs / 3600 := by
    rw [Int.natAbs_tdiv]; rfl
  have hfr : ((t.off.tmod 3600).tdiv 36).natAbs = t.off.natAbs % 3600 / 36 := by
    rw [Int.natAbs_tdiv, Int.natAbs_tmod]; rfl
  have hfr0 : ((t.off.tmod 3600).tdiv 36) = 0 ↔ t.off.natAbs % 3600 / 36 = 0 := by omega
  generalize hF : (t.off.tmod 3600).tdiv 36 = F at hfr hfr0
  let sign : Str := if t.off < 0 then ['-'] else []
  let frac : Str := if t.off.natAbs % 3600 / 36 = 0 then [] else '.' :: fmtPad 2 (t.off.natAbs % 3600 / 36)
  let nm : Str := if t.zone = [] then [] else ':' :: t.zone
  refine ⟨'[' :: (sign ++ natStr (t.off.natAbs / 3600) ++ frac ++ nm), ?_, ?_⟩
  · unfold Date.string
    simp only [hF]
    have e1 : (if t.off < 0 then Date.format t ++ '[' :: fmtPlusPad 0 (t.off.tdiv 3600)
        else Date.format t ++ '[' :: intStr (t.off.tdiv 3600)) =
        Date.format t ++ '[' :: (sign ++ natStr (t.off.natAbs / 3600)) := by
      by_cases hneg : t.off < 0
      · have hlt : t.off.tdiv 3600 < 0 := by
          have h3 := Int.tdiv_nonneg (a := -t.off) (b := 3600) (by omega) (by omega)
          rw [Int.neg_tdiv] at h3
          omega
        simp only [sign, if_pos hneg, fmtPlusPad, if_pos hlt, hdiv]
        simp [padZero]
      · have hge : ¬ t.off.tdiv 3600 < 0 := by
          have h3 := Int.tdiv_nonneg (a := t.off) (b := 3600) (by omega) (by omega)
          omega
        simp only [sign, if_neg hneg, intStr, if_neg hge, hdiv]
        rfl
    rw [e1]
    have e2 : ∀ f : Str, (if F > 0 then f ++ '.' :: fmtPad 2 F.natAbs
        else if F < 0 then f ++ '.' :: fmtPad 2 F.natAbs else f) = f ++ frac := by
      intro f
      simp only [frac, ← hfr]
      rcases lt_trichotomy F 0 with h | h | h
      · rw [if_neg (by omega), if_pos h, if_neg (by omega)]
      · subst h; simp
      · rw [if_pos h, if_neg (by omega)]
    rw [e2]
    simp only [nm]
    by_cases hz : t.zone = []
    · rw [if_neg (by simp [hz]), if_pos hz]; simp
    · rw [if_pos (List.length_pos_iff.mpr hz), if_neg hz]; simp
  · refine ⟨sign, natStr (t.off.natAbs / 3600), frac, nm, rfl, ?_, ?_, ?_, ?_, ?_⟩
    · by_cases hneg : t.off < 0
      · exact Or.inr ⟨by simp [printedZone, hneg], by simp [sign, hneg]⟩
      · exact Or.inl ⟨by simp [printedZone]; omega, Or.inl (by simp [sign, hneg])⟩
    · exact (isNumeral_iff _).mpr ⟨natStr_ne_nil _, natStr_digits _⟩
    · rw [value_eq (natStr_digits _), digitsVal_natStr]; rfl
    · by_cases h0 : t.off.natAbs % 3600 / 36 = 0
      · exact Or.inl ⟨by simp [frac, h0], h0⟩
      · exact Or.inr ⟨fmtPad 2 (t.off.natAbs % 3600 / 36), by simp only [frac, if_neg h0],
          isDigits_fmtPad (n := t.off.natAbs % 3600 / 36) (by omega) (by omega)⟩
    · by_cases hz : t.zone = []
      · exact Or.inl ⟨by simp [nm, hz], hz⟩
      · exact Or.inr ⟨by simp [nm, hz, printedZone], hz⟩

end Ofx
