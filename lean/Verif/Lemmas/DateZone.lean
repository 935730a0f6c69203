import Verif.Lemmas.DateParse
/- Zone suffixes and the whole of date decoding. -/
namespace Ofx
open Spec

theorem isDigits_two {n : Nat} {s : Str} (h : IsDigits 2 n s) :
    ∃ a b, s = [a, b] ∧ isDigit a = true ∧ isDigit b = true ∧ num2 a b = n := by
  obtain ⟨hl, hd, hv⟩ := h
  match s, hl with
  | [a, b], _ =>
    have hda := (isDecDigit_iff a).mp (hd a (by simp))
    have hdb := (isDecDigit_iff b).mp (hd b (by simp))
    refine ⟨a, b, rfl, hda, hdb, ?_⟩
    rw [← hv, value_eq (by intro c hc; exact (isDecDigit_iff c).mp (hd c hc))]
    simp [num2, digitsVal]

theorem isDigits_three {n : Nat} {s : Str} (h : IsDigits 3 n s) :
    ∃ a b c, s = [a, b, c] ∧ isDigit a = true ∧ isDigit b = true ∧ isDigit c = true ∧ num3 a b c = n := by
  obtain ⟨hl, hd, hv⟩ := h
  match s, hl with
  | [a, b, c], _ =>
    refine ⟨a, b, c, rfl, (isDecDigit_iff a).mp (hd a (by simp)), (isDecDigit_iff b).mp (hd b (by simp)),
      (isDecDigit_iff c).mp (hd c (by simp)), ?_⟩
    rw [← hv, value_eq (by intro c hc; exact (isDecDigit_iff c).mp (hd c hc))]
    rfl

theorem isDigits_four {n : Nat} {s : Str} (h : IsDigits 4 n s) :
    ∃ a b c d, s = [a, b, c, d] ∧ isDigit a = true ∧ isDigit b = true ∧ isDigit c = true ∧ isDigit d = true ∧
      num4 a b c d = n := by
  obtain ⟨hl, hd, hv⟩ := h
  match s, hl with
  | [a, b, c, d], _ =>
    refine ⟨a, b, c, d, rfl, (isDecDigit_iff a).mp (hd a (by simp)), (isDecDigit_iff b).mp (hd b (by simp)),
      (isDecDigit_iff c).mp (hd c (by simp)), (isDecDigit_iff d).mp (hd d (by simp)), ?_⟩
    rw [← hv, value_eq (by intro c hc; exact (isDecDigit_iff c).mp (hd c hc))]
    rfl

/-- The parser state after reading the fields of `c`. -/
def stOf (c : Civil) : PState :=
  { year := c.year, month := c.month, day := c.day, hour := c.hour, minute := c.minute, second := c.second,
    nsec := c.milli * 1000000 }

theorem body_parse {c : Civil} {body : Str} (h : DateBody c body) (loc : LocalZone) (zf : List Chunk) (rest : Str) :
    tryFormats loc (.blank :: zf) (body ++ ' ' :: rest) ofxDateFormats =
      if fieldsOk c.month c.hour c.minute c.second then
        orFail (zoneParse loc (.blank :: zf) (stOf c) (' ' :: rest))
      else .error "OFX: Couldn't parse date" := by
  cases h with
  | ymd hY hM hD hh hmi hs hms =>
    obtain ⟨y1, y2, y3, y4, rfl, a1, a2, a3, a4, a5⟩ := isDigits_four hY
    obtain ⟨m1, m2, rfl, b1, b2, b3⟩ := isDigits_two hM
    obtain ⟨d1, d2, rfl, c1, c2, c3⟩ := isDigits_two hD
    have := body_ymd (loc := loc) (zf := zf) (rest := rest) a1 a2 a3 a4 b1 b2 c1 c2
    simp only [stOf, hh, hmi, hs, hms, ← a5, ← b3, ← c3, Nat.zero_mul]
    exact this
  | ymdh hY hM hD hH hmi hs hms =>
    obtain ⟨y1, y2, y3, y4, rfl, a1, a2, a3, a4, a5⟩ := isDigits_four hY
    obtain ⟨m1, m2, rfl, b1, b2, b3⟩ := isDigits_two hM
    obtain ⟨d1, d2, rfl, c1, c2, c3⟩ := isDigits_two hD
    obtain ⟨h1, h2, rfl, e1, e2, e3⟩ := isDigits_two hH
    have := body_ymdh (loc := loc) (zf := zf) (rest := rest) a1 a2 a3 a4 b1 b2 c1 c2 e1 e2
    simp only [stOf, hmi, hs, hms, ← a5, ← b3, ← c3, ← e3, Nat.zero_mul]
    exact this
  | ymdhm hY hM hD hH hI hs hms =>
    obtain ⟨y1, y2, y3, y4, rfl, a1, a2, a3, a4, a5⟩ := isDigits_four hY
    obtain ⟨m1, m2, rfl, b1, b2, b3⟩ := isDigits_two hM
    obtain ⟨d1, d2, rfl, c1, c2, c3⟩ := isDigits_two hD
    obtain ⟨h1, h2, rfl, e1, e2, e3⟩ := isDigits_two hH
    obtain ⟨i1, i2, rfl, f1, f2, f3⟩ := isDigits_two hI
    have := body_ymdhm (loc := loc) (zf := zf) (rest := rest) a1 a2 a3 a4 b1 b2 c1 c2 e1 e2 f1 f2
    simp only [stOf, hs, hms, ← a5, ← b3, ← c3, ← e3, ← f3, Nat.zero_mul]
    exact this
  | ymdhms hY hM hD hH hI hS hms =>
    obtain ⟨y1, y2, y3, y4, rfl, a1, a2, a3, a4, a5⟩ := isDigits_four hY
    obtain ⟨m1, m2, rfl, b1, b2, b3⟩ := isDigits_two hM
    obtain ⟨d1, d2, rfl, c1, c2, c3⟩ := isDigits_two hD
    obtain ⟨h1, h2, rfl, e1, e2, e3⟩ := isDigits_two hH
    obtain ⟨i1, i2, rfl, f1, f2, f3⟩ := isDigits_two hI
    obtain ⟨s1, s2, rfl, g1, g2, g3⟩ := isDigits_two hS
    have := body_ymdhms (loc := loc) (zf := zf) (rest := rest) a1 a2 a3 a4 b1 b2 c1 c2 e1 e2 f1 f2 g1 g2
    simp only [stOf, hms, ← a5, ← b3, ← c3, ← e3, ← f3, ← g3, Nat.zero_mul]
    exact this
  | full hY hM hD hH hI hS hF =>
    obtain ⟨y1, y2, y3, y4, rfl, a1, a2, a3, a4, a5⟩ := isDigits_four hY
    obtain ⟨m1, m2, rfl, b1, b2, b3⟩ := isDigits_two hM
    obtain ⟨d1, d2, rfl, c1, c2, c3⟩ := isDigits_two hD
    obtain ⟨h1, h2, rfl, e1, e2, e3⟩ := isDigits_two hH
    obtain ⟨i1, i2, rfl, f1, f2, f3⟩ := isDigits_two hI
    obtain ⟨s1, s2, rfl, g1, g2, g3⟩ := isDigits_two hS
    obtain ⟨k1, k2, k3, rfl, j1, j2, j3, j4⟩ := isDigits_three hF
    have := body_full (loc := loc) (zf := zf) (rest := rest) a1 a2 a3 a4 b1 b2 c1 c2 e1 e2 f1 f2 g1 g2 j1 j2 j3
    simp only [stOf, ← a5, ← b3, ← c3, ← e3, ← f3, ← g3, ← j4]
    exact this

theorem isDigits_digits {w n : Nat} {s : Str} (h : IsDigits w n s) : ∀ c ∈ s, isDigit c = true :=
  fun c hc => (isDecDigit_iff c).mp (h.2.1 c hc)

/-- Characters of a date body. -/
theorem body_chars {c : Civil} {body : Str} (h : DateBody c body) : ∀ x ∈ body, isDigit x = true ∨ x = '.' := by
  intro x hx
  cases h with
  | ymd hY hM hD =>
    simp only [List.mem_append] at hx
    rcases hx with (hx | hx) | hx
    · exact Or.inl (isDigits_digits hY x hx)
    · exact Or.inl (isDigits_digits hM x hx)
    · exact Or.inl (isDigits_digits hD x hx)
  | ymdh hY hM hD hH =>
    simp only [List.mem_append] at hx
    rcases hx with ((hx | hx) | hx) | hx
    · exact Or.inl (isDigits_digits hY x hx)
    · exact Or.inl (isDigits_digits hM x hx)
    · exact Or.inl (isDigits_digits hD x hx)
    · exact Or.inl (isDigits_digits hH x hx)
  | ymdhm hY hM hD hH hI =>
    simp only [List.mem_append] at hx
    rcases hx with (((hx | hx) | hx) | hx) | hx
    · exact Or.inl (isDigits_digits hY x hx)
    · exact Or.inl (isDigits_digits hM x hx)
    · exact Or.inl (isDigits_digits hD x hx)
    · exact Or.inl (isDigits_digits hH x hx)
    · exact Or.inl (isDigits_digits hI x hx)
  | ymdhms hY hM hD hH hI hS =>
    simp only [List.mem_append] at hx
    rcases hx with ((((hx | hx) | hx) | hx) | hx) | hx
    · exact Or.inl (isDigits_digits hY x hx)
    · exact Or.inl (isDigits_digits hM x hx)
    · exact Or.inl (isDigits_digits hD x hx)
    · exact Or.inl (isDigits_digits hH x hx)
    · exact Or.inl (isDigits_digits hI x hx)
    · exact Or.inl (isDigits_digits hS x hx)
  | full hY hM hD hH hI hS hF =>
    simp only [List.mem_append, List.mem_cons] at hx
    rcases hx with (((((hx | hx) | hx) | hx) | hx) | hx) | hx | hx
    · exact Or.inl (isDigits_digits hY x hx)
    · exact Or.inl (isDigits_digits hM x hx)
    · exact Or.inl (isDigits_digits hD x hx)
    · exact Or.inl (isDigits_digits hH x hx)
    · exact Or.inl (isDigits_digits hI x hx)
    · exact Or.inl (isDigits_digits hS x hx)
    · exact Or.inr hx
    · exact Or.inl (isDigits_digits hF x hx)

theorem body_ne_nil {c : Civil} {body : Str} (h : DateBody c body) : body ≠ [] := by
  have key : ∀ {Y : Str} (t : Str), IsDigits 4 c.year Y → Y ++ t ≠ [] := by
    intro Y t hY h0
    have := congrArg List.length h0
    rw [List.length_append, hY.1] at this
    simp at this
  cases h with
  | ymd hY => simp only [List.append_assoc]; exact key _ hY
  | ymdh hY => simp only [List.append_assoc]; exact key _ hY
  | ymdhm hY => simp only [List.append_assoc]; exact key _ hY
  | ymdhms hY => simp only [List.append_assoc]; exact key _ hY
  | full hY => simp only [List.append_assoc]; exact key _ hY

theorem bodyChar_facts {x : Char} (h : isDigit x = true ∨ x = '.') :
    isSpace x = false ∧ x ≠ '[' ∧ x ≠ ']' := by
  rcases h with h | rfl
  · exact ⟨isDigit_not_space h, by rintro rfl; exact absurd h (by decide), by rintro rfl; exact absurd h (by decide)⟩
  · decide

theorem splitC_append {c : Char} {s t : Str} (h : c ∉ s) : splitC c (s ++ c :: t) = (s, some t) := by
  induction s with
  | nil => simp [splitC]
  | cons x xs ih =>
    simp only [List.mem_cons, not_or] at h
    rw [List.cons_append, splitC, if_neg (fun e => h.1 e.symm), ih h.2]

theorem splitC_none {c : Char} {s : Str} (h : c ∉ s) : splitC c s = (s, none) := by
  induction s with
  | nil => rfl
  | cons x xs ih =>
    simp only [List.mem_cons, not_or] at h
    rw [splitC, if_neg (fun e => h.1 e.symm), ih h.2]

/-! ### Two-digit output -/

theorem pad2 {n : Nat} (h : n < 100) : padZero 2 (natStr n) = [digitC (n / 10), digitC (n % 10)] := by
  by_cases h10 : n < 10
  · rw [natStr_lt10 h10, Nat.div_eq_of_lt h10, Nat.mod_eq_of_lt h10]; rfl
  · rw [natStr_ge10 h10, natStr_lt10 (by omega)]; rfl

theorem num2_digitC {n : Nat} (h : n < 100) : num2 (digitC (n / 10)) (digitC (n % 10)) = n := by
  rw [num2, digitV_digitC (by omega), digitV_digitC (by omega)]; omega

theorem getnum_pad {f : Bool} {n : Nat} (h : n < 100) (r : Str) :
    getnum f (digitC (n / 10) :: digitC (n % 10) :: r) = some (n, r) := by
  have h1 : isDigit (digitC (n / 10)) = true := isDigit_digitC (by omega)
  have h2 : isDigit (digitC (n % 10)) = true := isDigit_digitC (by omega)
  simp only [getnum, h1, h2, if_true]
  have := num2_digitC h
  unfold num2 at this
  rw [this]

/-! ### Zone regular expression -/

theorem isCapital_iff (c : Char) : IsCapital c ↔ isUpper c = true := by
  simp only [IsCapital, isUpper, Bool.and_eq_true, decide_eq_true_eq]
  exact Iff.rfl

theorem zoneName_ok {name : Str} (h : ∀ c ∈ name, IsCapital c) :
    zoneName (if name = [] then [] else ':' :: name) = some name := by
  split
  · next h0 => subst h0; rfl
  · next h0 =>
    have : name.all isUpper = true := by
      rw [List.all_eq_true]; intro c hc; exact (isCapital_iff c).mp (h c hc)
    simp [zoneName, this, h0]

theorem takeWhile_append_stop {α} {p : α → Bool} {s t : List α} (h : ∀ c ∈ s, p c = true)
    (ht : ∀ c, t.head? = some c → p c = false) : (s ++ t).takeWhile p = s ∧ (s ++ t).dropWhile p = t := by
  induction s with
  | nil =>
    cases t with
    | nil => simp
    | cons x xs => have := ht x rfl; simp [this]
  | cons x xs ih =>
    have := h x (by simp)
    have ih := ih (fun c hc => h c (by simp [hc]))
    simp [this, ih]

/-- The regular expression on a well-formed zone text. -/
theorem zoneRegex_ok {sign hs f name : Str} (hsg : sign = [] ∨ sign = ['+'] ∨ sign = ['-'])
    (hhs : ∀ c ∈ hs, isDigit c = true) (hne : hs ≠ [])
    (hf : f = [] ∨ ∃ a b, f = [a, b] ∧ isDigit a = true ∧ isDigit b = true) (hn : ∀ c ∈ name, IsCapital c) :
    zoneRegex (sign ++ hs ++ (if f = [] then [] else '.' :: f) ++ (if name = [] then [] else ':' :: name)) =
      some (sign ++ hs, f, name) := by
  generalize hnm : (if name = [] then [] else ':' :: name : Str) = nm
  have hnm' : zoneName nm = some name := by rw [← hnm]; exact zoneName_ok hn
  have hnmh : ∀ c, nm.head? = some c → c = ':' := by
    intro c hc; rw [← hnm] at hc; split at hc <;> simp at hc; exact hc.symm
  have hsgm : ∀ t : Str, zoneSign (sign ++ (hs ++ t)) = sign := by
    intro t
    rcases hsg with rfl | rfl | rfl
    · cases hs with
      | nil => exact absurd rfl hne
      | cons x xs =>
        have hx := hhs x (by simp)
        simp only [List.nil_append, List.cons_append]
        unfold zoneSign
        split
        · next h => injection h with h1; subst h1; exact absurd hx (by decide)
        · next h => injection h with h1; subst h1; exact absurd hx (by decide)
        · rfl
    · rfl
    · rfl
  unfold zoneRegex
  rw [List.append_assoc, List.append_assoc]
  simp only [hsgm]
  have hdrop : ∀ t : Str, (sign ++ t).drop sign.length = t := by intro t; simp
  rw [hdrop]
  have hstop : ∀ c, ((if f = [] then [] else '.' :: f) ++ nm).head? = some c → isDigit c = false := by
    intro c hc
    by_cases hf0 : f = []
    · rw [if_pos hf0, List.nil_append] at hc
      rw [hnmh c hc]; decide
    · rw [if_neg hf0] at hc; simp at hc; rw [← hc]; decide
  obtain ⟨htw, hdw⟩ := takeWhile_append_stop (p := isDigit) hhs hstop
  rw [htw, hdw]
  have he : hs.isEmpty = false := by cases hs with
    | nil => exact absurd rfl hne
    | cons _ _ => rfl
  rw [he]
  simp only [Bool.false_eq_true, if_false]
  rcases hf with rfl | ⟨a, b, rfl, ha, hb⟩
  · simp only [if_true, List.nil_append]
    split
    · next a b r' h' => exact absurd (hnmh '.' rfl) (by decide)
    · rw [hnm']; rfl
  · rw [if_neg (by simp)]
    simp [ha, hb, hnm']

/-- The pieces of a zone text whose hours are a number. -/
theorem zoneOf_gen {z : Zone} {sign hs f : Str}
    (hsg : (z.west = false ∧ (sign = [] ∨ sign = ['+'])) ∨ (z.west = true ∧ sign = ['-']))
    (hhs : ∀ c ∈ hs, isDigit c = true) (hne : hs ≠ []) 
    (hparse : parseInt64 (sign ++ hs) = some (if z.west then -(z.hours : Int) else (z.hours : Int)))
    (hf : (f = [] ∧ z.hundredths = 0) ∨ IsDigits 2 z.hundredths f) (hn : ∀ c ∈ z.name, IsCapital c) :
    zoneOf (sign ++ hs ++ (if f = [] then [] else '.' :: f) ++ (if z.name = [] then [] else ':' :: z.name)) =
      .ok (if z.name ≠ [] then
             (' ' :: (if z.west = true ∧ z.hours ≠ 0 then '-' else '+') :: (padZero 2 (natStr z.hours) ++
               padZero 2 (natStr (z.hundredths * 60 / 100))) ++ ' ' :: z.name, [.blank, .numTZ, .blank, .tz])
           else if z.hours = 0 ∧ z.hundredths * 60 / 100 = 0 then
             (' ' :: (if z.west = true ∧ z.hours ≠ 0 then '-' else '+') :: (padZero 2 (natStr z.hours) ++
               padZero 2 (natStr (z.hundredths * 60 / 100))) ++ " GMT".toList, [.blank, .numTZ, .blank, .tz])
           else
             (' ' :: (if z.west = true ∧ z.hours ≠ 0 then '-' else '+') :: (padZero 2 (natStr z.hours) ++
               padZero 2 (natStr (z.hundredths * 60 / 100))), [.blank, .numTZ])) := by
  have hf' : f = [] ∨ ∃ a b, f = [a, b] ∧ isDigit a = true ∧ isDigit b = true := by
    rcases hf with ⟨h, -⟩ | h
    · exact Or.inl h
    · obtain ⟨a, b, h1, h2, h3, -⟩ := isDigits_two h
      exact Or.inr ⟨a, b, h1, h2, h3⟩
  have hmin : (if f.length > 0 then digitsVal f * 60 / 100 else 0) = z.hundredths * 60 / 100 := by
    rcases hf with ⟨h, h'⟩ | h
    · simp [h, h']
    · rw [if_pos (by rw [h.1]; omega), ← value_eq (isDigits_digits h), h.2.2]
  unfold zoneOf
  rw [zoneRegex_ok (by rcases hsg with ⟨-, h | h⟩ | ⟨-, h⟩ <;> simp [h]) hhs hne hf' hn]
  simp only [hparse, hmin]
  have hzh : (if z.west then -(z.hours : Int) else (z.hours : Int)) = 0 ↔ z.hours = 0 := by
    split <;> omega
  have hfm : fmtPlusPad 3 (if z.west then -(z.hours : Int) else (z.hours : Int)) =
      (if z.west = true ∧ z.hours ≠ 0 then '-' else '+') :: padZero 2 (natStr z.hours) := by
    unfold fmtPlusPad
    congr 1
    · cases z.west
      · simp
      · by_cases h : z.hours = 0
        · simp [h]
        · simp [h]
    · congr 2
      split <;> simp
  rw [hfm]
  unfold fmtPad
  generalize (if z.west = true ∧ z.hours ≠ 0 then '-' else '+') = sg
  generalize (if z.west then -(z.hours : Int) else (z.hours : Int)) = zh at hzh
  by_cases hn0 : z.name = []
  · have hl : ¬ (z.name.length > 0) := by simp [hn0]
    have hn1 : ¬ (z.name ≠ []) := by simp [hn0]
    simp only [if_neg hl, if_neg hn1]
    by_cases h00 : z.hours = 0 ∧ z.hundredths * 60 / 100 = 0
    · have h01 : zh = 0 ∧ z.hundredths * 60 / 100 = 0 := ⟨hzh.mpr h00.1, h00.2⟩
      simp only [if_pos h00, if_pos h01, List.cons_append, List.append_assoc]
    · have h01 : ¬ (zh = 0 ∧ z.hundredths * 60 / 100 = 0) := fun h => h00 ⟨hzh.mp h.1, h.2⟩
      simp only [if_neg h00, if_neg h01, List.cons_append]
  · have hl : z.name.length > 0 := List.length_pos_iff.mpr hn0
    have hn1 : z.name ≠ [] := hn0
    simp only [if_pos hl, if_pos hn1, List.cons_append, List.append_assoc]

/-- The pieces of a zone text. -/
theorem zoneOf_ok {z : Zone} {sign hs f : Str}
    (hsg : (z.west = false ∧ (sign = [] ∨ sign = ['+'])) ∨ (z.west = true ∧ sign = ['-']))
    (hhs : ∀ c ∈ hs, isDigit c = true) (hne : hs ≠ []) (hval : digitsVal hs = z.hours) (h24 : z.hours ≤ 24)
    (hf : (f = [] ∧ z.hundredths = 0) ∨ IsDigits 2 z.hundredths f) (hn : ∀ c ∈ z.name, IsCapital c) :
    zoneOf (sign ++ hs ++ (if f = [] then [] else '.' :: f) ++ (if z.name = [] then [] else ':' :: z.name)) =
      .ok (if z.name ≠ [] then
             (' ' :: (if z.west = true ∧ z.hours ≠ 0 then '-' else '+') :: (padZero 2 (natStr z.hours) ++
               padZero 2 (natStr (z.hundredths * 60 / 100))) ++ ' ' :: z.name, [.blank, .numTZ, .blank, .tz])
           else if z.hours = 0 ∧ z.hundredths * 60 / 100 = 0 then
             (' ' :: (if z.west = true ∧ z.hours ≠ 0 then '-' else '+') :: (padZero 2 (natStr z.hours) ++
               padZero 2 (natStr (z.hundredths * 60 / 100))) ++ " GMT".toList, [.blank, .numTZ, .blank, .tz])
           else
             (' ' :: (if z.west = true ∧ z.hours ≠ 0 then '-' else '+') :: (padZero 2 (natStr z.hours) ++
               padZero 2 (natStr (z.hundredths * 60 / 100))), [.blank, .numTZ])) := by
  have hparse : parseInt64 (sign ++ hs) = some (if z.west then -(z.hours : Int) else (z.hours : Int)) := by
    have hall : hs.all isDigit = true := by rw [List.all_eq_true]; exact hhs
    have hemp : hs.isEmpty = false := by cases hs with
      | nil => exact absurd rfl hne
      | cons _ _ => rfl
    rcases hsg with ⟨hw, rfl | rfl⟩ | ⟨hw, rfl⟩
    · unfold parseInt64
      rw [List.nil_append, splitSign_digits hhs]
      simp only [hall, hemp, hval, hw]
      simp; omega
    · unfold parseInt64
      simp only [List.cons_append, List.nil_append, splitSign, hall, hemp, hval, hw]
      simp; omega
    · unfold parseInt64
      simp only [List.cons_append, List.nil_append, splitSign, hall, hemp, hval, hw]
      simp; omega
  exact zoneOf_gen hsg hhs hne hparse hf hn

/-! ### Zone part of `time.Parse` -/

theorem parseNumTZ_ok (sg : Char) (hsg : sg = '+' ∨ sg = '-') {h m : Nat} (hh : h ≤ 24) (hm : m < 60) (r : Str) :
    parseNumTZ (sg :: digitC (h / 10) :: digitC (h % 10) :: digitC (m / 10) :: digitC (m % 10) :: r) =
      some ((if sg = '-' then -(((h * 60 + m) * 60 : Nat) : Int) else (((h * 60 + m) * 60 : Nat) : Int)), r) := by
  unfold parseNumTZ
  simp only [getnum_pad (f := true) (n := h) (by omega) [], getnum_pad (f := true) (n := m) (by omega) []]
  rw [if_neg (by omega)]
  rcases hsg with rfl | rfl <;> simp

theorem readable_parse {n : Str} (h : ReadableZone n) (hu : n ≠ "UTC".toList) :
    n.take 3 ≠ "UTC".toList ∧ parseTimeZone n = some n.length := by
  obtain ⟨hc, hl⟩ := h
  have hup : ∀ c ∈ n, isUpper c = true := fun c hm => (isCapital_iff c).mp (hc c hm)
  have hlen3 : 3 ≤ n.length ∧ n.length ≤ 5 := by
    rcases hl with h | ⟨h, -⟩ | h
    · omega
    · omega
    · subst h; decide
  have hno4 : ¬ (n.take 4 = "ChST".toList ∨ n.take 4 = "MeST".toList) := by
    rintro (h | h)
    · have : 'h' ∈ n.take 4 := by rw [h]; decide
      exact absurd (hup 'h' (List.mem_of_mem_take this)) (by decide)
    · have : 'e' ∈ n.take 4 := by rw [h]; decide
      exact absurd (hup 'e' (List.mem_of_mem_take this)) (by decide)
  have hsign : ¬ (n.head? = some '+' ∨ n.head? = some '-') := by
    rintro (h | h)
    · exact absurd (hup _ (List.mem_of_mem_head? h)) (by decide)
    · exact absurd (hup _ (List.mem_of_mem_head? h)) (by decide)
  have htake : (n.take 6).takeWhile isUpper = n := by
    rw [List.take_of_length_le (by omega)]
    have := (takeWhile_append_stop (p := isUpper) (t := []) hup (by simp)).1
    simpa using this
  have h3 : n.length = 3 → n.take 3 = n := fun h => List.take_of_length_le (by omega)
  constructor
  · rcases hl with h | ⟨-, -, h, -⟩ | h
    · rw [h3 h]; exact hu
    · exact h
    · subst h; decide
  · unfold parseTimeZone
    rw [if_neg (by omega), if_neg hno4]
    by_cases hg : n.take 3 = "GMT".toList
    · rw [if_pos hg]
      have : n.length = 3 := by
        rcases hl with h | ⟨-, -, -, h⟩ | h
        · exact h
        · exact absurd hg h
        · subst h; exact absurd hg (by decide)
      rw [List.drop_of_length_le (by omega), this]; rfl
    · rw [if_neg hg, if_neg hsign]
      simp only [htake]
      rcases hl with h | ⟨h | h, ht, -⟩ | h
      · rw [if_pos h, h]
      · rw [if_neg (by omega), if_pos h, if_pos (Or.inl ht), h]
      · rw [if_neg (by omega), if_neg (by omega), if_pos h, if_pos ht, h]
      · subst h; decide

theorem gmt_readable : ReadableZone "GMT".toList := by decide

/-- Blank, numeric zone, blank, name. -/
theorem zoneChunks_named (st : PState) (sg : Char) (hsg : sg = '+' ∨ sg = '-') {h m : Nat} (hh : h ≤ 24)
    (hm : m < 60) {n : Str} (hn : ReadableZone n) :
    parseChunks [.blank, .numTZ, .blank, .tz] st
      (' ' :: sg :: (padZero 2 (natStr h) ++ padZero 2 (natStr m)) ++ ' ' :: n) =
    some (let o : Int := if sg = '-' then -(((h * 60 + m) * 60 : Nat) : Int) else (((h * 60 + m) * 60 : Nat) : Int)
      if n = "UTC".toList then { st with off := some o, utc := true } else { st with off := some o, zone := n }) := by
  rw [pad2 (by omega), pad2 (by omega)]
  have hsp : ∀ r : Str, (' ' :: sg :: r).dropWhile (· == ' ') = sg :: r := by
    intro r
    rcases hsg with rfl | rfl <;> simp
  have hn0 : ∃ c cs, n = c :: cs ∧ (c == ' ') = false := by
    obtain ⟨hc, hl⟩ := hn
    cases n with
    | nil => rcases hl with h | ⟨h, -⟩ | h <;> simp at h
    | cons c cs =>
      refine ⟨c, cs, rfl, ?_⟩
      have := (isCapital_iff c).mp (hc c (by simp))
      simp only [beq_eq_false_iff_ne]
      rintro rfl; exact absurd this (by decide)
  have hspn : (' ' :: n).dropWhile (· == ' ') = n := by
    obtain ⟨c, cs, rfl, hc⟩ := hn0
    simp [hc]
  simp only [List.cons_append, List.nil_append]
  rw [parseChunks]
  simp only [parseChunk, if_true, hsp]
  rw [parseChunks]
  simp only [parseChunk]
  rw [parseNumTZ_ok sg hsg hh hm]
  simp only [Option.map_some]
  rw [parseChunks]
  simp only [parseChunk, if_true, hspn]
  rw [parseChunks]
  simp only [parseChunk]
  by_cases hu : n = "UTC".toList
  · subst hu
    rfl
  · obtain ⟨h1, h2⟩ := readable_parse hn hu
    rw [if_neg h1, h2]
    simp only [Option.map_some, List.take_length, List.drop_length, if_neg hu]
    rw [parseChunks]; simp

/-- Blank and numeric zone only. -/
theorem zoneChunks_anon (st : PState) (sg : Char) (hsg : sg = '+' ∨ sg = '-') {h m : Nat} (hh : h ≤ 24)
    (hm : m < 60) :
    parseChunks [.blank, .numTZ] st (' ' :: sg :: (padZero 2 (natStr h) ++ padZero 2 (natStr m))) =
    some { st with off := some (if sg = '-' then -(((h * 60 + m) * 60 : Nat) : Int) else (((h * 60 + m) * 60 : Nat) : Int)) } := by
  rw [pad2 (by omega), pad2 (by omega)]
  have hsp : ∀ r : Str, (' ' :: sg :: r).dropWhile (· == ' ') = sg :: r := by
    intro r
    rcases hsg with rfl | rfl <;> simp
  simp only [List.cons_append, List.nil_append]
  rw [parseChunks]
  simp only [parseChunk, if_true, hsp]
  rw [parseChunks]
  simp only [parseChunk]
  rw [parseNumTZ_ok sg hsg hh hm]
  simp only [Option.map_some]
  rw [parseChunks]; simp

/-- Zone layout elements leave the calendar fields alone. -/
theorem zoneChunks_fields {zf : List Chunk} (hz : ∀ c ∈ zf, c = .blank ∨ c = .numTZ ∨ c = .tz) {st st' : PState}
    {v : Str} (h : parseChunks zf st v = some st') :
    st'.year = st.year ∧ st'.month = st.month ∧ st'.day = st.day := by
  induction zf generalizing st v with
  | nil =>
    rw [parseChunks] at h
    split at h
    · cases h; exact ⟨rfl, rfl, rfl⟩
    · cases h
  | cons c cs ih =>
    rw [parseChunks] at h
    split at h
    · next st2 v2 h2 =>
      have := ih (fun x hx => hz x (by simp [hx])) h
      have h3 : st2.year = st.year ∧ st2.month = st.month ∧ st2.day = st.day := by
        rcases hz c (by simp) with rfl | rfl | rfl
        · simp only [parseChunk] at h2
          split at h2
          · cases h2; exact ⟨rfl, rfl, rfl⟩
          · split at h2
            · cases h2; exact ⟨rfl, rfl, rfl⟩
            · cases h2
        · simp only [parseChunk, Option.map_eq_some_iff] at h2
          obtain ⟨x, -, hx⟩ := h2
          cases hx; exact ⟨rfl, rfl, rfl⟩
        · simp only [parseChunk] at h2
          split at h2
          · cases h2; exact ⟨rfl, rfl, rfl⟩
          · simp only [Option.map_eq_some_iff] at h2
            obtain ⟨x, -, hx⟩ := h2
            cases hx; exact ⟨rfl, rfl, rfl⟩
      exact ⟨this.1.trans h3.1, this.2.1.trans h3.2.1, this.2.2.trans h3.2.2⟩
    · cases h

/-- Whatever the brackets contain, the zone text starts with a blank. -/
theorem zoneOf_shape {z : Str} {zone : Str} {fmt : List Chunk} (h : zoneOf z = .ok (zone, fmt)) :
    ∃ r zf, zone = ' ' :: r ∧ fmt = .blank :: zf ∧ (∀ c ∈ fmt, c = .blank ∨ c = .numTZ ∨ c = .tz) := by
  unfold zoneOf at h
  split at h
  · cases h
  · split at h
    · cases h
    · next m3 m5 _ _ zh _ =>
      simp only at h
      generalize (if m3.length > 0 then digitsVal m3 * 60 / 100 else 0) = zm at h
      by_cases h5 : m5.length > 0
      · rw [if_pos h5] at h
        cases h; exact ⟨_, _, rfl, rfl, by decide⟩
      · rw [if_neg h5] at h
        by_cases h6 : zh = 0 ∧ zm = 0
        · rw [if_pos h6] at h
          cases h; exact ⟨_, _, rfl, rfl, by decide⟩
        · rw [if_neg h6] at h
          cases h; exact ⟨_, _, rfl, rfl, by decide⟩

/-- The instant of an existing wall clock reading. -/
theorem goDate_eq (c : Civil) (hc : c.Exists) :
    goDate c.year c.month c.day c.hour c.minute c.second (c.milli * 1000000) = c.instant 0 := by
  obtain ⟨-, h1, h2, h3, -⟩ := hc
  unfold goDate Civil.instant Civil.wall nsPerSec
  rw [dayOf_eq c.year c.month c.day h1 h2 h3]
  have : yearLength 0 = 366 := by decide
  rw [this]
  push_cast
  ring

theorem instant_off (c : Civil) (o : Int) : c.instant o = c.instant 0 - o * nsPerSec := by
  unfold Civil.instant nsPerSec; ring

/-- End of parsing for an existing date. -/
theorem parseFinish_off (loc : LocalZone) (c : Civil) (hc : c.Exists) (o : Int) (n : Str) :
    ∃ zn, parseFinish loc { stOf c with off := some o, zone := n } = some ⟨c.instant o, zn, o⟩ ∧
      (n ≠ [] → zn = n) := by
  have hd : ¬ (c.day < 1 ∨ c.day > daysIn c.month c.year) := by
    obtain ⟨-, h1, h2, h3, h4, -⟩ := hc
    rw [daysIn_eq _ _ h1 h2]; omega
  unfold parseFinish
  simp only [stOf]
  erw [if_neg hd]
  simp only [goDate_eq c hc, ← instant_off, Bool.false_eq_true, if_false]
  split
  · next h => exact ⟨_, rfl, fun hn => h.2.resolve_left hn⟩
  · exact ⟨_, rfl, fun _ => rfl⟩

theorem parseFinish_utc (loc : LocalZone) (c : Civil) (hc : c.Exists) (o : Option Int) :
    parseFinish loc { stOf c with off := o, utc := true } = some ⟨c.instant 0, "UTC".toList, 0⟩ := by
  have hd : ¬ (c.day < 1 ∨ c.day > daysIn c.month c.year) := by
    obtain ⟨-, h1, h2, h3, h4, -⟩ := hc
    rw [daysIn_eq _ _ h1 h2]; omega
  unfold parseFinish
  simp only [stOf]
  erw [if_neg hd]
  simp only [goDate_eq c hc]
  rfl

theorem fieldsOk_of_exists {c : Civil} (hc : c.Exists) : fieldsOk c.month c.hour c.minute c.second := by
  obtain ⟨-, h1, h2, h3, h4, h5, h6, h7, h8⟩ := hc
  unfold fieldsOk; omega

end Ofx
