import Verif.Lemmas.DateTextZone
/- Decoding of dates: exactly the texts that are accepted. -/
namespace Ofx
open Spec

/-! ### A text is the date and time of one moment only -/

theorem numeral_noSign {d : Str} (h : IsNumeral d) : d.head? ≠ some '+' ∧ d.head? ≠ some '-' := by
  obtain ⟨hne, hd⟩ := (isNumeral_iff d).mp h
  constructor <;> intro hh <;> exact absurd (hd _ (List.mem_of_mem_head? hh)) (by decide)

theorem fraction_unique {n n' : Nat} {F : Str} (h : FractionText n F) (h' : FractionText n' F) : n = n' := by
  rcases h with ⟨rfl, rfl⟩ | ⟨sep, d, rfl, -, h⟩
  · rcases h' with ⟨-, rfl⟩ | ⟨_, _, h, -⟩
    · rfl
    · cases h
  · rcases h' with ⟨h0, -⟩ | ⟨sep', d', he, -, h'⟩
    · cases h0
    · injection he with h1 h2
      subst h2
      rcases h with ⟨a1, a2⟩ | ⟨m, e, rfl, a2, a3⟩ | ⟨e, rfl, a2, a3⟩
      · rcases h' with ⟨b1, b2⟩ | ⟨m', e', rfl, b2, b3⟩ | ⟨e', rfl, b2, b3⟩
        · rw [a2, b2]
        · exact absurd rfl (numeral_noSign a1).1
        · exact absurd rfl (numeral_noSign a1).2
      · rcases h' with ⟨b1, b2⟩ | ⟨m', e', he, b2, b3⟩ | ⟨e', he, b2, b3⟩
        · exact absurd rfl (numeral_noSign b1).1
        · injection he with _ he
          subst he
          rw [a3, b3, isDigits_unique a2 b2]
        · injection he with he _
          exact absurd he (by decide)
      · rcases h' with ⟨b1, b2⟩ | ⟨m', e', he, b2, b3⟩ | ⟨e', he, b2, b3⟩
        · exact absurd rfl (numeral_noSign b1).2
        · injection he with he _
          exact absurd he (by decide)
        · rw [a3, b3]

theorem time_unique {c c' : Civil} {n n' : Nat} {T : Str} (h : TimeText c n T) (h' : TimeText c' n' T) :
    c.hour = c'.hour ∧ c.minute = c'.minute ∧ c.second = c'.second ∧ n = n' := by
  have key : ∀ {c c' : Civil} {n n' : Nat} {T : Str}, TimeText c n T → TimeText c' n' T → 
      T.length = 0 ∧ c.hour = 0 ∧ c.minute = 0 ∧ c.second = 0 ∧ n = 0 ∨
      (T.length = 1 ∨ T.length = 2) ∧ value T = c.hour ∧ c.minute = 0 ∧ c.second = 0 ∧ n = 0 ∨
      T.length = 4 ∧ value (T.take 2) = c.hour ∧ value (T.drop 2) = c.minute ∧ c.second = 0 ∧ n = 0 ∨
      6 ≤ T.length ∧ value (T.take 2) = c.hour ∧ value ((T.drop 2).take 2) = c.minute ∧ value ((T.drop 4).take 2) = c.second ∧
        FractionText n (T.drop 6) := by
    intro c _ n _ T h _
    rcases h with ⟨rfl, h⟩ | ⟨hH, h⟩ | ⟨H, I, rfl, hH, hI, h⟩ | ⟨H, I, S, F, rfl, hH, hI, hS, hF⟩
    · exact Or.inl ⟨rfl, h⟩
    · rcases hH with hH | hH
      · exact Or.inr (Or.inl ⟨Or.inl hH.1, hH.2.2, h⟩)
      · exact Or.inr (Or.inl ⟨Or.inr hH.1, hH.2.2, h⟩)
    · obtain ⟨h1, h2, rfl, -⟩ := isDigits_two hH
      obtain ⟨i1, i2, rfl, -⟩ := isDigits_two hI
      exact Or.inr (Or.inr (Or.inl ⟨rfl, hH.2.2, hI.2.2, h⟩))
    · obtain ⟨h1, h2, rfl, -⟩ := isDigits_two hH
      obtain ⟨i1, i2, rfl, -⟩ := isDigits_two hI
      obtain ⟨s1, s2, rfl, -⟩ := isDigits_two hS
      exact Or.inr (Or.inr (Or.inr ⟨by simp, hH.2.2, hI.2.2, hS.2.2, hF⟩))
  have k1 := key h h'
  have k2 := key h' h
  rcases k1 with ⟨l, e1, e2, e3, e4⟩ | ⟨l, e1, e2, e3, e4⟩ | ⟨l, e1, e2, e3, e4⟩ | ⟨l, e1, e2, e3, e4⟩ <;>
  rcases k2 with ⟨l', e1', e2', e3', e4'⟩ | ⟨l', e1', e2', e3', e4'⟩ | ⟨l', e1', e2', e3', e4'⟩ | ⟨l', e1', e2', e3', e4'⟩ <;>
  first
  | omega
  | (refine ⟨by omega, by omega, by omega, ?_⟩; first | omega | exact fraction_unique e4 e4')

theorem moment_unique {c c' : Civil} {n n' : Nat} {D : Str} (h : MomentText c n D) (h' : MomentText c' n' D)
    (hm : c.milli = 0) (hm' : c'.milli = 0) : c = c' ∧ n = n' := by
  obtain ⟨Y, M, D, T, rfl, hY, hM, hD, hT⟩ := h
  obtain ⟨Y', M', D', T', e, hY', hM', hD', hT'⟩ := h'
  simp only [List.append_assoc] at e
  obtain ⟨rfl, e2⟩ := List.append_inj e (hY.1.trans hY'.1.symm)
  obtain ⟨rfl, e3⟩ := List.append_inj e2 (hM.1.trans hM'.1.symm)
  obtain ⟨rfl, rfl⟩ := List.append_inj e3 (hD.1.trans hD'.1.symm)
  obtain ⟨e1, e2, e3, e4⟩ := time_unique hT hT'
  refine ⟨?_, e4⟩
  cases c; cases c'
  simp only at e1 e2 e3 hm hm' hY hY' hM hM' hD hD'
  rw [isDigits_unique hY hY', isDigits_unique hM hM', isDigits_unique hD hD', e1, e2, e3, hm, hm']

/-- Characters of a date and time. -/
theorem moment_chars {c : Civil} {n : Nat} {D : Str} (h : MomentText c n D) :
    ∀ x ∈ D, isSpace x = false ∧ x ≠ '[' ∧ x ≠ ']' := by
  have hdg : ∀ {w k : Nat} {s : Str}, IsDigits w k s → ∀ x ∈ s, isSpace x = false ∧ x ≠ '[' ∧ x ≠ ']' :=
    fun hs x hx => bodyChar_facts (Or.inl (isDigits_digits hs x hx))
  have hfr : ∀ {F : Str}, FractionText n F → ∀ x ∈ F, isSpace x = false ∧ x ≠ '[' ∧ x ≠ ']' := by
    intro F hF x hx
    rcases hF with ⟨rfl, -⟩ | ⟨sep, d, rfl, hsep, h⟩
    · cases hx
    · rcases List.mem_cons.mp hx with rfl | hx
      · rcases hsep with rfl | rfl <;> decide
      · rcases h with ⟨h, -⟩ | ⟨m, e, rfl, h, -⟩ | ⟨e, rfl, h, -⟩
        · exact bodyChar_facts (Or.inl (((isNumeral_iff d).mp h).2 x hx))
        · rcases List.mem_cons.mp hx with rfl | hx
          · decide
          · exact hdg h x hx
        · rcases List.mem_cons.mp hx with rfl | hx
          · decide
          · exact hdg h x hx
  obtain ⟨Y, M, D, T, rfl, hY, hM, hD, hT⟩ := h
  intro x hx
  simp only [List.mem_append] at hx
  rcases hx with ((hx | hx) | hx) | hx
  · exact hdg hY x hx
  · exact hdg hM x hx
  · exact hdg hD x hx
  · rcases hT with ⟨rfl, -⟩ | ⟨hH, -⟩ | ⟨H, I, rfl, hH, hI, -⟩ | ⟨H, I, S, F, rfl, hH, hI, hS, hF⟩
    · cases hx
    · rcases hH with hH | hH <;> exact hdg hH x hx
    · rcases List.mem_append.mp hx with hx | hx
      · exact hdg hH x hx
      · exact hdg hI x hx
    · simp only [List.mem_append] at hx
      rcases hx with ((hx | hx) | hx) | hx
      · exact hdg hH x hx
      · exact hdg hI x hx
      · exact hdg hS x hx
      · exact hfr hF x hx

theorem moment_noblank {c : Civil} {n : Nat} {D : Str} (h : MomentText c n D) : ' ' ∉ D := by
  intro hm
  have := (moment_chars h _ hm).1
  exact absurd this (by decide)

theorem moment_ne_nil {c : Civil} {n : Nat} {D : Str} (h : MomentText c n D) : D ≠ [] := by
  obtain ⟨Y, M, D, T, rfl, hY, -⟩ := h
  intro h0
  have h1 := congrArg List.length h0
  have h2 := hY.1
  simp only [List.length_append, List.length_nil] at h1
  omega

theorem blankfree_prefix {D r v Z : Str} (h : D ++ r = v ++ ' ' :: Z) (hD : ' ' ∉ D) : ∃ v', v = D ++ v' ∧ r = v' ++ ' ' :: Z := by
  rcases List.append_eq_append_iff.mp h with ⟨a, h1, h2⟩ | ⟨a, h1, h2⟩
  · exact ⟨a, h1, h2⟩
  · cases a with
    | nil => exact ⟨[], by simpa using h1.symm, by simpa using h2.symm⟩
    | cons x xs =>
      rw [List.cons_append] at h2
      injection h2 with h3 _
      subst h3
      exact absurd (by rw [h1]; simp) hD

/-! ### The end of parsing -/

theorem goDate_nanos (c : Civil) (hc : c.Exists) (hm : c.milli = 0) (n : Nat) :
    goDate c.year c.month c.day c.hour c.minute c.second n = c.instant 0 + n := by
  have := goDate_eq c hc
  rw [hm] at this
  rw [← this]
  unfold goDate
  push_cast
  ring

theorem finish_day {loc : LocalZone} {st : PState} {t : GoTime} (h : parseFinish loc st = some t) :
    1 ≤ st.day ∧ st.day ≤ daysIn st.month st.year := by
  unfold parseFinish at h
  by_cases hd : st.day < 1 ∨ st.day > daysIn st.month st.year
  · rw [if_pos hd] at h; cases h
  · omega

/-- The zone part of the parser's state. -/
def stZ (c : Civil) (n : Nat) (o : Int) (u : Bool) (zn : Str) : PState :=
  { stN c n with off := some o, utc := u, zone := zn }

theorem finish_eq (loc : LocalZone) {c : Civil} (hc : c.Exists) (hm : c.milli = 0) (n : Nat) (o : Int) (u : Bool) (zn : Str) :
    ∃ t, parseFinish loc (stZ c n o u zn) = some t ∧ t.off = (if u then 0 else o) ∧ t.ns = c.instant (if u then 0 else o) + n ∧
      t.zone = (if u then "UTC".toList else zoneShown loc t.ns o zn) := by
  have hd : ¬ (c.day < 1 ∨ c.day > daysIn c.month c.year) := by
    obtain ⟨-, h1, h2, h3, h4, -⟩ := hc
    rw [daysIn_eq _ _ h1 h2]; omega
  unfold parseFinish
  simp only [stZ, stN]
  erw [if_neg hd]
  simp only [goDate_nanos c hc hm]
  cases u with
  | true => exact ⟨_, rfl, rfl, rfl, rfl⟩
  | false =>
    simp only [Bool.false_eq_true, if_false]
    have e : c.instant 0 + (n : Int) - o * nsPerSec = c.instant o + n := by rw [instant_off c o]; ring
    rw [e]
    have hns : (nsPerSec : Int) = 1000000000 := rfl
    rw [hns]
    unfold zoneShown
    by_cases hl : (loc ((c.instant o + n) / 1000000000)).2 = o ∧ (zn = [] ∨ (loc ((c.instant o + n) / 1000000000)).1 = zn)
    · rw [if_pos hl]
      refine ⟨_, rfl, rfl, rfl, ?_⟩
      simp only
      by_cases hz : zn = []
      · rw [if_neg (by simp [hz]), if_pos hl.1]
      · rw [if_pos hz]; exact hl.2.resolve_left hz
    · rw [if_neg hl]
      refine ⟨_, rfl, rfl, rfl, ?_⟩
      simp only
      by_cases hz : zn = []
      · rw [if_neg (by simp [hz]), if_neg (fun h => hl ⟨h, Or.inl hz⟩), hz]
      · rw [if_pos hz]

theorem tryFormats_mem {loc : LocalZone} {zf : List Chunk} {v : Str} {t : GoTime} {fs : List (List Chunk)}
    (h : tryFormats loc zf v fs = .ok t) : ∃ f ∈ fs, timeParse loc (f ++ zf) v = some t := by
  induction fs with
  | nil => cases h
  | cons f fs ih =>
    rw [tryFormats] at h
    cases hp : timeParse loc (f ++ zf) v with
    | some t' => rw [hp] at h; cases h; exact ⟨f, by simp, hp⟩
    | none =>
      rw [hp] at h
      obtain ⟨g, hg, h⟩ := ih h
      exact ⟨g, by simp [hg], h⟩

theorem tryFormats_some {loc : LocalZone} {zf : List Chunk} {v : Str} {t : GoTime} {fs : List (List Chunk)} {f : List Chunk}
    (hf : f ∈ fs) (h : timeParse loc (f ++ zf) v = some t) : ∃ t', tryFormats loc zf v fs = .ok t' := by
  induction fs with
  | nil => cases hf
  | cons g fs ih =>
    rw [tryFormats]
    cases hp : timeParse loc (g ++ zf) v with
    | some t' => exact ⟨t', rfl⟩
    | none =>
      rcases List.mem_cons.mp hf with rfl | hf
      · rw [hp] at h; cases h
      · exact ih hf

/-- The date and time before a zone suffix, or at the end. -/
def Core (v : Str) (i o : Int) : Prop :=
  ∃ c n body blanks, v = body ++ blanks ∧ MomentText c n body ∧ (∀ x ∈ blanks, x = ' ') ∧ c.Exists ∧ c.milli = 0 ∧ i = c.instant o + n

/-- The layouts, given what the zone part accepts. -/
theorem tryFormats_iff (loc : LocalZone) (zf : List Chunk) (Z : Str) (good : Prop) (o1 : Int) (u : Bool) (zn : Str)
    (hz : ∀ c n st' w, parseChunks (.blank :: zf) (stN c n) (w ++ ' ' :: Z) = some st' ↔
      (∀ x ∈ w, x = ' ') ∧ good ∧ st' = stZ c n o1 u zn) (v : Str) (t : GoTime) :
    tryFormats loc (.blank :: zf) (v ++ ' ' :: Z) ofxDateFormats = .ok t ↔
      good ∧ t.off = (if u then 0 else o1) ∧ t.zone = (if u then "UTC".toList else zoneShown loc t.ns o1 zn) ∧ Core v t.ns t.off := by
  have inv : ∀ t, tryFormats loc (.blank :: zf) (v ++ ' ' :: Z) ofxDateFormats = .ok t →
      good ∧ t.off = (if u then 0 else o1) ∧ t.zone = (if u then "UTC".toList else zoneShown loc t.ns o1 zn) ∧ Core v t.ns t.off := by
    intro t ht
    obtain ⟨f, hf, hp⟩ := tryFormats_mem ht
    unfold timeParse at hp
    cases hc : parseChunks (f ++ .blank :: zf) {} (v ++ ' ' :: Z) with
    | none => rw [hc] at hp; cases hp
    | some st' =>
      rw [hc] at hp
      replace hp : parseFinish loc st' = some t := hp
      obtain ⟨c, n, D, r, e, hM, hm, hy, hfo, hr⟩ := layout_inv hf hc
      obtain ⟨v', rfl, rfl⟩ := blankfree_prefix e.symm (moment_noblank hM)
      obtain ⟨hbl, hgood, rfl⟩ := (hz c n st' v').mp hr
      have hday := finish_day hp
      have hex : c.Exists := by
        replace hday : 1 ≤ c.day ∧ c.day ≤ daysIn c.month c.year := hday
        unfold fieldsOk at hfo
        rw [daysIn_eq _ _ (by omega) (by omega)] at hday
        unfold Civil.Exists
        omega
      obtain ⟨t', ht', h1, h2, h3⟩ := finish_eq loc hex hm n o1 u zn
      rw [ht'] at hp
      cases hp
      exact ⟨hgood, h1, h3, c, n, D, v', rfl, hM, hbl, hex, hm, by rw [h2, h1]⟩
  constructor
  · exact inv t
  · rintro ⟨hgood, ho, hzn, c, n, body, blanks, rfl, hM, hbl, hex, hm, hi⟩
    obtain ⟨f, hf, hp⟩ := layout_fw hM (fieldsOk_of_exists hex) zf (blanks ++ ' ' :: Z).tail
    have hcons : (' ' : Char) :: (blanks ++ ' ' :: Z).tail = blanks ++ ' ' :: Z := by
      cases blanks with
      | nil => rfl
      | cons x xs => have := hbl x (by simp); subst this; rfl
    rw [hcons, (hz c n (stZ c n o1 u zn) blanks).mpr ⟨hbl, hgood, rfl⟩] at hp
    obtain ⟨t0, ht, -⟩ := finish_eq loc hex hm n o1 u zn
    have htp : timeParse loc (f ++ .blank :: zf) (body ++ blanks ++ ' ' :: Z) = some t0 := by
      unfold timeParse
      rw [List.append_assoc, hp]; exact ht
    obtain ⟨t', ht'⟩ := tryFormats_some hf htp
    obtain ⟨-, ho', hzn', c', n', body', blanks', e, hM', hbl', hex', hm', hi'⟩ := inv t' ht'
    have hb : body = body' := by
      have e1 : (body ++ blanks).takeWhile (· != ' ') = body := by
        refine (takeWhile_append_stop (p := (· != ' ')) (s := body) (t := blanks) ?_ ?_).1
        · intro x hx; simp only [bne_iff_ne]; rintro rfl; exact moment_noblank hM hx
        · intro x hx; have := hbl x (List.mem_of_mem_head? hx); simp [this]
      have e2 : (body' ++ blanks').takeWhile (· != ' ') = body' := by
        refine (takeWhile_append_stop (p := (· != ' ')) (s := body') (t := blanks') ?_ ?_).1
        · intro x hx; simp only [bne_iff_ne]; rintro rfl; exact moment_noblank hM' hx
        · intro x hx; have := hbl' x (List.mem_of_mem_head? hx); simp [this]
      rw [← e1, ← e2, e]
    subst hb
    obtain ⟨rfl, rfl⟩ := moment_unique hM hM' hm hm'
    have eo : t'.off = t.off := by rw [ho', ho]
    have en : t'.ns = t.ns := by rw [hi', hi, eo]
    have ez : t'.zone = t.zone := by rw [hzn', hzn, en]
    have : t' = t := by
      cases t; cases t'
      simp only at eo en ez
      rw [eo, en, ez]
    rw [← this]; exact ht'

/-! ### Zone suffixes -/

/-- The sign a zone suffix is given. -/
def Spec.Zone.sign (z : Zone) : Char := if z.west = true ∧ z.hours ≠ 0 then '-' else '+'

/-- What a zone suffix appends to the text and to the layouts. -/
def zoneTail (z : Zone) : Str × List Chunk :=
  if z.name ≠ [] then (' ' :: z.sign :: (zoneDigits z.hours (z.hundredths * 60 / 100) ++ ' ' :: z.name), [.blank, .numTZ, .blank, .tz])
  else if z.hours = 0 ∧ z.hundredths * 60 / 100 = 0 then
    (' ' :: z.sign :: (zoneDigits z.hours (z.hundredths * 60 / 100) ++ ' ' :: "GMT".toList), [.blank, .numTZ, .blank, .tz])
  else (' ' :: z.sign :: zoneDigits z.hours (z.hundredths * 60 / 100), [.blank, .numTZ])

theorem zoneOf_tail {z : Zone} {sign hs f : Str}
    (hsg : (z.west = false ∧ (sign = [] ∨ sign = ['+'])) ∨ (z.west = true ∧ sign = ['-']))
    (hhs : ∀ c ∈ hs, isDigit c = true) (hne : hs ≠ [])
    (hparse : parseInt64 (sign ++ hs) = some (if z.west then -(z.hours : Int) else (z.hours : Int)))
    (hf : (f = [] ∧ z.hundredths = 0) ∨ IsDigits 2 z.hundredths f) (hn : ∀ c ∈ z.name, IsCapital c) :
    zoneOf (sign ++ hs ++ (if f = [] then [] else '.' :: f) ++ (if z.name = [] then [] else ':' :: z.name)) = .ok (zoneTail z) := by
  rw [zoneOf_gen hsg hhs hne hparse hf hn]
  unfold zoneTail zoneDigits Spec.Zone.sign
  by_cases h1 : z.name ≠ []
  · rw [if_pos h1, if_pos h1]; simp
  · rw [if_neg h1, if_neg h1]
    by_cases h2 : z.hours = 0 ∧ z.hundredths * 60 / 100 = 0
    · rw [if_pos h2, if_pos h2]; simp
    · rw [if_neg h2, if_neg h2]

theorem zoneSign_inv (z : Str) : ∃ r, z = zoneSign z ++ r ∧ z.drop (zoneSign z).length = r ∧
    (zoneSign z = [] ∨ zoneSign z = ['+'] ∨ zoneSign z = ['-']) := by
  unfold zoneSign
  split
  · exact ⟨_, rfl, rfl, by simp⟩
  · exact ⟨_, rfl, rfl, by simp⟩
  · exact ⟨_, rfl, rfl, by simp⟩

theorem zoneName_inv {r n : Str} (h : zoneName r = some n) : r = (if n = [] then [] else ':' :: n) ∧ ∀ c ∈ n, IsCapital c := by
  unfold zoneName at h
  split at h
  · cases h; exact ⟨rfl, by simp⟩
  · next n' =>
    by_cases hc : (n'.all isUpper && !n'.isEmpty) = true
    · rw [if_pos hc] at h
      cases h
      rw [Bool.and_eq_true, List.all_eq_true] at hc
      refine ⟨?_, fun c hm => (isCapital_iff c).mpr (hc.1 c hm)⟩
      rw [if_neg (by rintro rfl; simp at hc)]
    · rw [if_neg hc] at h; cases h
  · cases h

theorem zoneRegex_inv {z m1 m3 m5 : Str} (h : zoneRegex z = some (m1, m3, m5)) :
    ∃ sign hs, m1 = sign ++ hs ∧ (sign = [] ∨ sign = ['+'] ∨ sign = ['-']) ∧ (∀ c ∈ hs, isDigit c = true) ∧ hs ≠ [] ∧
      (m3 = [] ∨ ∃ a b, m3 = [a, b] ∧ isDigit a = true ∧ isDigit b = true) ∧ (∀ c ∈ m5, IsCapital c) ∧
      z = sign ++ hs ++ (if m3 = [] then [] else '.' :: m3) ++ (if m5 = [] then [] else ':' :: m5) := by
  obtain ⟨r, hz, hr, hsg⟩ := zoneSign_inv z
  unfold zoneRegex at h
  simp only [hr] at h
  by_cases he : (r.takeWhile isDigit).isEmpty = true
  · rw [if_pos he] at h; cases h
  · rw [if_neg he] at h
    have hne : r.takeWhile isDigit ≠ [] := by simpa using he
    have hd : ∀ c ∈ r.takeWhile isDigit, isDigit c = true := fun c hc => mem_takeWhile_imp hc
    have hr2 : r = r.takeWhile isDigit ++ r.dropWhile isDigit := (List.takeWhile_append_dropWhile).symm
    have other : ∀ r', r' = r.dropWhile isDigit → (zoneName r').map (fun n => (zoneSign z ++ r.takeWhile isDigit, ([] : Str), n)) = some (m1, m3, m5) →
        ∃ sign hs, m1 = sign ++ hs ∧ (sign = [] ∨ sign = ['+'] ∨ sign = ['-']) ∧ (∀ c ∈ hs, isDigit c = true) ∧ hs ≠ [] ∧
      (m3 = [] ∨ ∃ a b, m3 = [a, b] ∧ isDigit a = true ∧ isDigit b = true) ∧ (∀ c ∈ m5, IsCapital c) ∧
      z = sign ++ hs ++ (if m3 = [] then [] else '.' :: m3) ++ (if m5 = [] then [] else ':' :: m5) := by
      intro r' hr' h
      rw [Option.map_eq_some_iff] at h
      obtain ⟨n, hn, e⟩ := h
      cases e
      obtain ⟨h1, h2⟩ := zoneName_inv hn
      refine ⟨zoneSign z, r.takeWhile isDigit, rfl, hsg, hd, hne, Or.inl rfl, h2, ?_⟩
      rw [if_pos rfl, List.append_nil, ← h1, hr', List.append_assoc, List.takeWhile_append_dropWhile]
      exact hz
    generalize hdw : r.dropWhile isDigit = dw at h other
    split at h
    · next a b r' =>
      by_cases hab : (isDigit a && isDigit b) = true
      · rw [if_pos hab, Option.map_eq_some_iff] at h
        obtain ⟨n, hn, e⟩ := h
        cases e
        obtain ⟨h1, h2⟩ := zoneName_inv hn
        rw [Bool.and_eq_true] at hab
        refine ⟨zoneSign z, r.takeWhile isDigit, rfl, hsg, hd, hne, Or.inr ⟨a, b, rfl, hab⟩, h2, ?_⟩
        rw [if_neg (by simp), ← h1]
        conv_lhs => rw [hz, hr2, hdw]
        simp
      · rw [if_neg hab] at h; cases h
    · exact other _ rfl h

theorem parseInt64_sign {sign hs : Str} {i : Int} (hsg : sign = [] ∨ sign = ['+'] ∨ sign = ['-']) (hhs : ∀ c ∈ hs, isDigit c = true)
    (h : parseInt64 (sign ++ hs) = some i) : i = (if sign = ['-'] then -(digitsVal hs : Int) else (digitsVal hs : Int)) := by
  have hsp : splitSign (sign ++ hs) = (decide (sign = ['-']), hs) := by
    rcases hsg with rfl | rfl | rfl
    · rw [List.nil_append, splitSign_digits hhs]; rfl
    · rfl
    · rfl
  unfold parseInt64 at h
  rw [hsp] at h
  simp only at h
  by_cases he : (hs.isEmpty || !hs.all isDigit) = true
  · rw [if_pos he] at h; cases h
  · rw [if_neg he] at h
    by_cases hs' : sign = ['-']
    · rw [if_pos (by simpa using hs')] at h
      rw [if_pos hs']
      by_cases hl : digitsVal hs ≤ 2 ^ 63
      · rw [if_pos hl] at h; cases h; rfl
      · rw [if_neg hl] at h; cases h
    · rw [if_neg (by simpa using hs')] at h
      rw [if_neg hs']
      by_cases hl : digitsVal hs < 2 ^ 63
      · rw [if_pos hl] at h; cases h; rfl
      · rw [if_neg hl] at h; cases h

theorem zoneText_mk {z : Zone} {sign hs f : Str}
    (hsg : (z.west = false ∧ (sign = [] ∨ sign = ['+'])) ∨ (z.west = true ∧ sign = ['-']))
    (hhs : ∀ c ∈ hs, isDigit c = true) (hne : hs ≠ []) (hval : digitsVal hs = z.hours)
    (hf : (f = [] ∧ z.hundredths = 0) ∨ IsDigits 2 z.hundredths f) :
    ZoneText z ('[' :: (sign ++ hs ++ (if f = [] then [] else '.' :: f) ++ (if z.name = [] then [] else ':' :: z.name))) := by
  refine ⟨sign, hs, _, _, rfl, hsg, (isNumeral_iff hs).mpr ⟨hne, hhs⟩, by rw [value_eq hhs]; exact hval, ?_, ?_⟩
  · rcases hf with ⟨rfl, h0⟩ | h
    · exact Or.inl ⟨by simp, h0⟩
    · exact Or.inr ⟨f, by rw [if_neg (by rintro rfl; exact absurd h.1 (by simp))], h⟩
  · by_cases hn : z.name = []
    · exact Or.inl ⟨by rw [if_pos hn], hn⟩
    · exact Or.inr ⟨by rw [if_neg hn], hn⟩

/-- Exactly the zone suffixes that are read at all. -/
theorem zoneOf_inv {zs zone : Str} {fmt : List Chunk} (h : zoneOf zs = .ok (zone, fmt)) :
    ∃ z, ZoneText z ('[' :: zs) ∧ (∀ c ∈ z.name, IsCapital c) ∧ (zone, fmt) = zoneTail z := by
  have h0 := h
  unfold zoneOf at h
  cases hr : zoneRegex zs with
  | none => rw [hr] at h; cases h
  | some p =>
    obtain ⟨m1, m3, m5⟩ := p
    rw [hr] at h
    simp only at h
    cases hp : parseInt64 m1 with
    | none => rw [hp] at h; cases h
    | some zh =>
      clear h
      obtain ⟨sign, hs, rfl, hsg, hd, hne, hm3, hcap, hz⟩ := zoneRegex_inv hr
      have hi := parseInt64_sign hsg hd hp
      let z : Zone := ⟨decide (sign = ['-']), digitsVal hs, if m3 = [] then 0 else digitsVal m3, m5⟩
      have hsg' : (z.west = false ∧ (sign = [] ∨ sign = ['+'])) ∨ (z.west = true ∧ sign = ['-']) := by
        rcases hsg with rfl | rfl | rfl
        · exact Or.inl ⟨rfl, Or.inl rfl⟩
        · exact Or.inl ⟨rfl, Or.inr rfl⟩
        · exact Or.inr ⟨rfl, rfl⟩
      have hf : (m3 = [] ∧ z.hundredths = 0) ∨ IsDigits 2 z.hundredths m3 := by
        rcases hm3 with rfl | ⟨a, b, rfl, ha, hb⟩
        · exact Or.inl ⟨rfl, rfl⟩
        · right
          have := isDigits_mk2 ha hb
          have e : z.hundredths = digitV a * 10 + digitV b := by simp [z, digitsVal]
          rw [e]; exact this
      have hpz : parseInt64 (sign ++ hs) = some (if z.west then -(z.hours : Int) else (z.hours : Int)) := by
        rw [hp, hi]
        simp [z]
      have hzt := zoneOf_tail hsg' hd hne hpz hf hcap
      refine ⟨z, ?_, hcap, ?_⟩
      · rw [hz]; exact zoneText_mk hsg' hd hne rfl hf
      · have : zoneOf zs = .ok (zoneTail z) := by rw [hz]; exact hzt
        rw [h0] at this
        injection this

theorem zoneText_hundredths {z : Zone} {t : Str} (h : ZoneText z t) : z.hundredths < 100 := by
  obtain ⟨sign, hs, frac, nm, -, -, -, -, hf, -⟩ := h
  rcases hf with ⟨-, h⟩ | ⟨f, -, h⟩
  · omega
  · have := digitsVal_lt (isDigits_digits h)
    rw [h.1, ← value_eq (isDigits_digits h), h.2.2] at this
    omega

/-- Zone suffixes of up to 24 hours are read. -/
theorem zoneOf_fw {z : Zone} {t : Str} (h : ZoneText z t) (h24 : z.hours ≤ 24) (hcap : ∀ c ∈ z.name, IsCapital c) :
    ∃ zs, t = '[' :: zs ∧ zoneOf zs = .ok (zoneTail z) := by
  obtain ⟨sign, hs, frac, nm, rfl, hsg, hnum, hval, hfrac, hnm⟩ := h
  obtain ⟨hne, hdig⟩ := (isNumeral_iff hs).mp hnum
  rw [value_eq hdig] at hval
  obtain ⟨f, hf1, hf2⟩ : ∃ f, frac = (if f = [] then [] else '.' :: f) ∧
      ((f = [] ∧ z.hundredths = 0) ∨ IsDigits 2 z.hundredths f) := by
    rcases hfrac with ⟨h1, h2⟩ | ⟨f, h1, h2⟩
    · exact ⟨[], by simp [h1], Or.inl ⟨rfl, h2⟩⟩
    · refine ⟨f, ?_, Or.inr h2⟩
      rw [if_neg (by rintro rfl; have := h2.1; simp at this)]; exact h1
  have hnm2 : nm = (if z.name = [] then [] else ':' :: z.name) := by
    rcases hnm with ⟨h1, h2⟩ | ⟨h1, h2⟩
    · simp [h1, h2]
    · rw [if_neg h2]; exact h1
  refine ⟨_, rfl, ?_⟩
  have := zoneOf_ok hsg hdig hne hval h24 hf2 hcap
  rw [← hf1, ← hnm2] at this
  rw [this]
  unfold zoneTail zoneDigits Spec.Zone.sign
  by_cases h1 : z.name ≠ []
  · rw [if_pos h1, if_pos h1]; simp
  · rw [if_neg h1, if_neg h1]
    by_cases h2 : z.hours = 0 ∧ z.hundredths * 60 / 100 = 0
    · rw [if_pos h2, if_pos h2]; simp
    · rw [if_neg h2, if_neg h2]

end Ofx
