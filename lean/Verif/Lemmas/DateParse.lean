import Verif.Lemmas.Calendar
/- Parsing of the digits of a date in the five layouts. -/
namespace Ofx
open Spec

/-- Two-digit number. -/
def num2 (a b : Char) : Nat := digitV a * 10 + digitV b
/-- Four-digit number. -/
def num4 (a b c d : Char) : Nat := digitsVal [a, b, c, d]
/-- Three-digit number. -/
def num3 (a b c : Char) : Nat := digitsVal [a, b, c]

section chunks
variable {cs : List Chunk} {st : PState} {r : Str} {a b c d : Char}

theorem pc_year (ha : isDigit a = true) (hb : isDigit b = true) (hc : isDigit c = true) (hd : isDigit d = true) :
    parseChunks (.year :: cs) st (a :: b :: c :: d :: r) = parseChunks cs { st with year := num4 a b c d } r := by
  simp [parseChunks, parseChunk, ha, hb, hc, hd, num4]

theorem pc_month (ha : isDigit a = true) (hb : isDigit b = true) :
    parseChunks (.month :: cs) st (a :: b :: r) =
      if num2 a b = 0 ∨ 12 < num2 a b then none else parseChunks cs { st with month := num2 a b } r := by
  have hg : getnum true (a :: b :: r) = some (num2 a b, r) := by simp [getnum, ha, hb, num2]
  simp only [parseChunks, parseChunk, hg]
  by_cases h : num2 a b = 0 ∨ 12 < num2 a b
  · simp only [if_pos h]
  · simp only [if_neg h]

theorem pc_day (ha : isDigit a = true) (hb : isDigit b = true) :
    parseChunks (.day :: cs) st (a :: b :: r) = parseChunks cs { st with day := num2 a b } r := by
  simp [parseChunks, parseChunk, getnum, ha, hb, num2]

theorem pc_hour (ha : isDigit a = true) (hb : isDigit b = true) :
    parseChunks (.hour :: cs) st (a :: b :: r) =
      if 24 ≤ num2 a b then none else parseChunks cs { st with hour := num2 a b } r := by
  simp only [parseChunks, parseChunk, getnum, ha, hb, if_true, num2]
  split <;> simp_all

theorem pc_minute (ha : isDigit a = true) (hb : isDigit b = true) :
    parseChunks (.minute :: cs) st (a :: b :: r) =
      if 60 ≤ num2 a b then none else parseChunks cs { st with minute := num2 a b } r := by
  simp only [parseChunks, parseChunk, getnum, ha, hb, if_true, num2]
  split <;> simp_all

theorem pc_second_frac (ha : isDigit a = true) (hb : isDigit b = true) :
    parseChunks (.second :: .frac3 :: cs) st (a :: b :: r) =
      if 60 ≤ num2 a b then none else parseChunks (.frac3 :: cs) { st with second := num2 a b } r := by
  rw [parseChunks]
  simp only [parseChunk, getnum, ha, hb, if_true, num2, List.head?_cons, decide_true]
  split <;> simp_all

theorem pc_second_blank (ha : isDigit a = true) (hb : isDigit b = true) (hc : isDigit c = false)
    (hc' : commaOrPeriod c = false) :
    parseChunks (.second :: .blank :: cs) st (a :: b :: c :: r) =
      if 60 ≤ num2 a b then none
      else parseChunks (.blank :: cs) { st with second := num2 a b, nsec := 0 } (c :: r) := by
  rw [parseChunks]
  have hi : implicitFrac (c :: r) = some (0, c :: r) := by
    cases r with
    | nil => rfl
    | cons x xs => simp [implicitFrac, hc']
  have h : (decide ((Chunk.blank :: cs).head? = some Chunk.frac3)) = false := by simp
  simp only [parseChunk, getnum, ha, hb, if_true, num2, h, Bool.false_eq_true, if_false, hi, Option.map_some]
  split <;> simp_all

theorem parseNanos3 (ha : isDigit a = true) (hb : isDigit b = true) (hc : isDigit c = true) :
    parseNanos [a, b, c] = some (num3 a b c * 1000000) := by
  unfold parseNanos
  have h : atoiNonneg [a, b, c] = some (num3 a b c) := by
    unfold atoiNonneg
    split
    · next h => injection h with h1 h2; subst h1; exact absurd ha (by decide)
    · next h => injection h with h1 h2; subst h1; exact absurd ha (by decide)
    · simp [ha, hb, hc, num3]
  simp [h]

theorem pc_frac3 (ha : isDigit a = true) (hb : isDigit b = true) (hc : isDigit c = true) :
    parseChunks (.frac3 :: cs) st ('.' :: a :: b :: c :: r) =
      parseChunks cs { st with nsec := num3 a b c * 1000000 } r := by
  simp [parseChunks, parseChunk, commaOrPeriod, parseNanos3 ha hb hc]

/-- A fraction in the input that the layout does not mention. -/
theorem pc_second_implicit {s1 s2 : Char} (h1 : isDigit s1 = true) (h2 : isDigit s2 = true)
    (ha : isDigit a = true) (hb : isDigit b = true) (hc : isDigit c = true) (hd : isDigit d = false) :
    parseChunks (.second :: .blank :: cs) st (s1 :: s2 :: '.' :: a :: b :: c :: d :: r) =
      if 60 ≤ num2 s1 s2 then none
      else parseChunks (.blank :: cs) { st with second := num2 s1 s2, nsec := num3 a b c * 1000000 } (d :: r) := by
  rw [parseChunks]
  have h : (decide ((Chunk.blank :: cs).head? = some Chunk.frac3)) = false := by simp
  have hi : implicitFrac ('.' :: a :: b :: c :: d :: r) = some (num3 a b c * 1000000, d :: r) := by
    simp [implicitFrac, commaOrPeriod, ha, hb, hc, hd, parseNanos3 ha hb hc]
  simp only [parseChunk, getnum, h1, h2, if_true, num2, h, Bool.false_eq_true, if_false, hi, Option.map_some]
  split <;> simp_all

/-- Layout elements that need a digit fail on anything else. -/
theorem pc_nondigit {ck : Chunk} (h : ck = .month ∨ ck = .day ∨ ck = .hour ∨ ck = .minute ∨ ck = .second)
    (ha : isDigit a = false) : parseChunks (ck :: cs) st (a :: r) = none := by
  have hg : ∀ f, getnum f (a :: r) = none := by
    intro f
    cases r with
    | nil => simp [getnum, ha]
    | cons x xs => simp [getnum, ha]
  rcases h with rfl | rfl | rfl | rfl | rfl <;> simp [parseChunks, parseChunk, hg]

theorem pc_frac_blank : parseChunks (.frac3 :: cs) st (' ' :: r) = none := by
  have h : ∀ hf, parseChunk .frac3 hf st (' ' :: r) = none := by
    intro hf
    unfold parseChunk
    simp only
    split
    · next heq => injection heq with h1 _; subst h1; simp [commaOrPeriod]
    · rfl
  rw [parseChunks, h]

theorem pc_blank_other (ha : a ≠ ' ') : parseChunks (.blank :: cs) st (a :: r) = none := by
  simp [parseChunks, parseChunk, ha]

end chunks

theorem digit_not_blank {a : Char} (h : isDigit a = true) : a ≠ ' ' := digit_ne' h
where digit_ne' {a : Char} (h : isDigit a = true) : a ≠ ' ' := by rintro rfl; exact absurd h (by decide)

/-- The zone part and the end of `time.Parse`, from the state reached after the digits. -/
def zoneParse (loc : LocalZone) (zf : List Chunk) (st : PState) (rest : Str) : Option GoTime :=
  (parseChunks zf st rest).bind (parseFinish loc)

/-- Turn an optional time into the outcome of the format loop. -/
def orFail : Option GoTime → Except String GoTime
  | some t => .ok t
  | none => .error "OFX: Couldn't parse date"

theorem tryFormats_none {loc : LocalZone} {zf : List Chunk} {v : Str} {f : List Chunk} {fs : List (List Chunk)}
    (h : timeParse loc (f ++ zf) v = none) : tryFormats loc zf v (f :: fs) = tryFormats loc zf v fs := by
  rw [tryFormats, h]

theorem tryFormats_last {loc : LocalZone} {zf : List Chunk} {v : Str} {f : List Chunk} {fs : List (List Chunk)}
    (h : tryFormats loc zf v fs = .error "OFX: Couldn't parse date") :
    tryFormats loc zf v (f :: fs) = orFail (timeParse loc (f ++ zf) v) := by
  rw [tryFormats]
  split
  · next t ht => rw [ht]; rfl
  · next ht => rw [ht, h]; rfl

theorem tryFormats_two {loc : LocalZone} {zf : List Chunk} {v : Str} {f g : List Chunk} {fs : List (List Chunk)}
    {X : Option GoTime} (hf : timeParse loc (f ++ zf) v = X) (hg : timeParse loc (g ++ zf) v = X)
    (h : tryFormats loc zf v fs = .error "OFX: Couldn't parse date") :
    tryFormats loc zf v (f :: g :: fs) = orFail X := by
  rw [tryFormats, tryFormats, hf, hg, h]
  cases X <;> rfl

/-- Reading of the digits: range checks of the fields, then the state. -/
def fieldsOk (mo h mi s : Nat) : Prop := ¬ (mo = 0 ∨ 12 < mo) ∧ h < 24 ∧ mi < 60 ∧ s < 60

instance (mo h mi s : Nat) : Decidable (fieldsOk mo h mi s) := by unfold fieldsOk; infer_instance

section bodies
variable {loc : LocalZone} {zf : List Chunk} {rest : Str}
variable {y1 y2 y3 y4 m1 m2 d1 d2 h1 h2 i1 i2 s1 s2 f1 f2 f3 : Char}
variable (hy1 : isDigit y1 = true) (hy2 : isDigit y2 = true) (hy3 : isDigit y3 = true) (hy4 : isDigit y4 = true)
variable (hm1 : isDigit m1 = true) (hm2 : isDigit m2 = true) (hd1 : isDigit d1 = true) (hd2 : isDigit d2 = true)
variable (hh1 : isDigit h1 = true) (hh2 : isDigit h2 = true) (hi1 : isDigit i1 = true) (hi2 : isDigit i2 = true)
variable (hs1 : isDigit s1 = true) (hs2 : isDigit s2 = true)
variable (hf1 : isDigit f1 = true) (hf2 : isDigit f2 = true) (hf3 : isDigit f3 = true)

include hy1 hy2 hy3 hy4 hm1 hm2 hd1 hd2

theorem body_ymd :
    tryFormats loc (.blank :: zf) ([y1, y2, y3, y4, m1, m2, d1, d2] ++ ' ' :: rest) ofxDateFormats =
      if fieldsOk (num2 m1 m2) 0 0 0 then
        orFail (zoneParse loc (.blank :: zf)
          { year := num4 y1 y2 y3 y4, month := num2 m1 m2, day := num2 d1 d2 } (' ' :: rest))
      else .error "OFX: Couldn't parse date" := by
  have hb : isDigit ' ' = false := by decide
  have n1 : ∀ fs, timeParse loc (([.year, .month, .day, .hour] ++ fs) ++ .blank :: zf)
      ([y1, y2, y3, y4, m1, m2, d1, d2] ++ ' ' :: rest) = none := by
    intro fs
    simp only [timeParse, List.cons_append, List.nil_append]
    rw [pc_year hy1 hy2 hy3 hy4, pc_month hm1 hm2]
    split
    · rfl
    · rw [pc_day hd1 hd2, pc_nondigit (by simp) hb]; rfl
  rw [ofxDateFormats, tryFormats_none (f := [.year, .month, .day, .hour, .minute, .second, .frac3]) (n1 [.minute, .second, .frac3]), tryFormats_none (f := [.year, .month, .day, .hour, .minute, .second]) (n1 [.minute, .second]), tryFormats_none (f := [.year, .month, .day, .hour, .minute]) (n1 [.minute]), tryFormats_none (f := [.year, .month, .day, .hour]) (n1 [])]
  rw [tryFormats_last rfl]
  simp only [timeParse, List.cons_append, List.nil_append]
  rw [pc_year hy1 hy2 hy3 hy4, pc_month hm1 hm2]
  split
  · next h => rw [if_neg (by unfold fieldsOk; omega)]; rfl
  · next h => rw [if_pos (by unfold fieldsOk; omega), pc_day hd1 hd2]; rfl

include hh1 hh2

theorem body_ymdh :
    tryFormats loc (.blank :: zf) ([y1, y2, y3, y4, m1, m2, d1, d2, h1, h2] ++ ' ' :: rest) ofxDateFormats =
      if fieldsOk (num2 m1 m2) (num2 h1 h2) 0 0 then
        orFail (zoneParse loc (.blank :: zf)
          { year := num4 y1 y2 y3 y4, month := num2 m1 m2, day := num2 d1 d2, hour := num2 h1 h2 } (' ' :: rest))
      else .error "OFX: Couldn't parse date" := by
  have hb : isDigit ' ' = false := by decide
  have n1 : ∀ fs, timeParse loc (([.year, .month, .day, .hour, .minute] ++ fs) ++ .blank :: zf)
      ([y1, y2, y3, y4, m1, m2, d1, d2, h1, h2] ++ ' ' :: rest) = none := by
    intro fs
    simp only [timeParse, List.cons_append, List.nil_append]
    rw [pc_year hy1 hy2 hy3 hy4, pc_month hm1 hm2]
    split
    · rfl
    · rw [pc_day hd1 hd2, pc_hour hh1 hh2]
      split
      · rfl
      · rw [pc_nondigit (by simp) hb]; rfl
  have n2 : timeParse loc ([.year, .month, .day] ++ .blank :: zf)
      ([y1, y2, y3, y4, m1, m2, d1, d2, h1, h2] ++ ' ' :: rest) = none := by
    simp only [timeParse, List.cons_append, List.nil_append]
    rw [pc_year hy1 hy2 hy3 hy4, pc_month hm1 hm2]
    split
    · rfl
    · rw [pc_day hd1 hd2, pc_blank_other (digit_not_blank hh1)]; rfl
  rw [ofxDateFormats, tryFormats_none (f := [.year, .month, .day, .hour, .minute, .second, .frac3]) (n1 [.second, .frac3]), tryFormats_none (f := [.year, .month, .day, .hour, .minute, .second]) (n1 [.second]), tryFormats_none (f := [.year, .month, .day, .hour, .minute]) (n1 [])]
  rw [tryFormats_last (by rw [tryFormats_none n2]; rfl)]
  simp only [timeParse, List.cons_append, List.nil_append]
  rw [pc_year hy1 hy2 hy3 hy4, pc_month hm1 hm2]
  split
  · next h => rw [if_neg (by unfold fieldsOk; omega)]; rfl
  · next h =>
    rw [pc_day hd1 hd2, pc_hour hh1 hh2]
    split
    · rw [if_neg (by unfold fieldsOk; omega)]; rfl
    · rw [if_pos (by unfold fieldsOk; omega)]; rfl

include hi1 hi2

theorem body_ymdhm :
    tryFormats loc (.blank :: zf) ([y1, y2, y3, y4, m1, m2, d1, d2, h1, h2, i1, i2] ++ ' ' :: rest) ofxDateFormats =
      if fieldsOk (num2 m1 m2) (num2 h1 h2) (num2 i1 i2) 0 then
        orFail (zoneParse loc (.blank :: zf)
          { year := num4 y1 y2 y3 y4, month := num2 m1 m2, day := num2 d1 d2, hour := num2 h1 h2,
            minute := num2 i1 i2 } (' ' :: rest))
      else .error "OFX: Couldn't parse date" := by
  have hb : isDigit ' ' = false := by decide
  have n1 : ∀ fs, timeParse loc (([.year, .month, .day, .hour, .minute, .second] ++ fs) ++ .blank :: zf)
      ([y1, y2, y3, y4, m1, m2, d1, d2, h1, h2, i1, i2] ++ ' ' :: rest) = none := by
    intro fs
    simp only [timeParse, List.cons_append, List.nil_append]
    rw [pc_year hy1 hy2 hy3 hy4, pc_month hm1 hm2]
    split
    · rfl
    · rw [pc_day hd1 hd2, pc_hour hh1 hh2]
      split
      · rfl
      · rw [pc_minute hi1 hi2]
        split
        · rfl
        · rw [pc_nondigit (by simp) hb]; rfl
  have n2 : timeParse loc ([.year, .month, .day] ++ .blank :: zf)
      ([y1, y2, y3, y4, m1, m2, d1, d2, h1, h2, i1, i2] ++ ' ' :: rest) = none := by
    simp only [timeParse, List.cons_append, List.nil_append]
    rw [pc_year hy1 hy2 hy3 hy4, pc_month hm1 hm2]
    split
    · rfl
    · rw [pc_day hd1 hd2, pc_blank_other (digit_not_blank hh1)]; rfl
  have n3 : timeParse loc ([.year, .month, .day, .hour] ++ .blank :: zf)
      ([y1, y2, y3, y4, m1, m2, d1, d2, h1, h2, i1, i2] ++ ' ' :: rest) = none := by
    simp only [timeParse, List.cons_append, List.nil_append]
    rw [pc_year hy1 hy2 hy3 hy4, pc_month hm1 hm2]
    split
    · rfl
    · rw [pc_day hd1 hd2, pc_hour hh1 hh2]
      split
      · rfl
      · rw [pc_blank_other (digit_not_blank hi1)]; rfl
  rw [ofxDateFormats, tryFormats_none (f := [.year, .month, .day, .hour, .minute, .second, .frac3]) (n1 [.frac3]), tryFormats_none (f := [.year, .month, .day, .hour, .minute, .second]) (n1 [])]
  rw [tryFormats_last (by rw [tryFormats_none n3, tryFormats_none n2]; rfl)]
  simp only [timeParse, List.cons_append, List.nil_append]
  rw [pc_year hy1 hy2 hy3 hy4, pc_month hm1 hm2]
  split
  · next h => rw [if_neg (by unfold fieldsOk; omega)]; rfl
  · next h =>
    rw [pc_day hd1 hd2, pc_hour hh1 hh2]
    split
    · rw [if_neg (by unfold fieldsOk; omega)]; rfl
    · rw [pc_minute hi1 hi2]
      split
      · rw [if_neg (by unfold fieldsOk; omega)]; rfl
      · rw [if_pos (by unfold fieldsOk; omega)]; rfl

include hs1

/-- The three shorter layouts fail on texts with at least 13 digits. -/
theorem short_fail (t : Str) (fs : List Chunk) (hfs : fs = [] ∨ fs = [.hour] ∨ fs = [.hour, .minute]) :
    timeParse loc (([.year, .month, .day] ++ fs) ++ .blank :: zf)
      (y1 :: y2 :: y3 :: y4 :: m1 :: m2 :: d1 :: d2 :: h1 :: h2 :: i1 :: i2 :: s1 :: t) = none := by
  rcases hfs with rfl | rfl | rfl
  · simp only [timeParse, List.cons_append, List.nil_append]
    rw [pc_year hy1 hy2 hy3 hy4, pc_month hm1 hm2]
    split
    · rfl
    · rw [pc_day hd1 hd2, pc_blank_other (digit_not_blank hh1)]; rfl
  · simp only [timeParse, List.cons_append, List.nil_append]
    rw [pc_year hy1 hy2 hy3 hy4, pc_month hm1 hm2]
    split
    · rfl
    · rw [pc_day hd1 hd2, pc_hour hh1 hh2]
      split
      · rfl
      · rw [pc_blank_other (digit_not_blank hi1)]; rfl
  · simp only [timeParse, List.cons_append, List.nil_append]
    rw [pc_year hy1 hy2 hy3 hy4, pc_month hm1 hm2]
    split
    · rfl
    · rw [pc_day hd1 hd2, pc_hour hh1 hh2]
      split
      · rfl
      · rw [pc_minute hi1 hi2]
        split
        · rfl
        · rw [pc_blank_other (digit_not_blank hs1)]; rfl

include hs2

theorem short_loop (t : Str) : tryFormats loc (.blank :: zf)
      (y1 :: y2 :: y3 :: y4 :: m1 :: m2 :: d1 :: d2 :: h1 :: h2 :: i1 :: i2 :: s1 :: t)
      [[.year, .month, .day, .hour, .minute], [.year, .month, .day, .hour], [.year, .month, .day]] =
    .error "OFX: Couldn't parse date" := by
  have hsf := fun fs hfs => short_fail (loc := loc) (zf := zf) hy1 hy2 hy3 hy4 hm1 hm2 hd1 hd2 hh1 hh2 hi1 hi2 hs1 t fs hfs
  rw [tryFormats_none (f := [.year, .month, .day, .hour, .minute]) (hsf [.hour, .minute] (by simp)), tryFormats_none (f := [.year, .month, .day, .hour]) (hsf [.hour] (by simp)), tryFormats_none (f := [.year, .month, .day]) (hsf [] (by simp))]
  rfl

theorem body_ymdhms :
    tryFormats loc (.blank :: zf) ([y1, y2, y3, y4, m1, m2, d1, d2, h1, h2, i1, i2, s1, s2] ++ ' ' :: rest)
        ofxDateFormats =
      if fieldsOk (num2 m1 m2) (num2 h1 h2) (num2 i1 i2) (num2 s1 s2) then
        orFail (zoneParse loc (.blank :: zf)
          { year := num4 y1 y2 y3 y4, month := num2 m1 m2, day := num2 d1 d2, hour := num2 h1 h2,
            minute := num2 i1 i2, second := num2 s1 s2 } (' ' :: rest))
      else .error "OFX: Couldn't parse date" := by
  have n1 : timeParse loc ([.year, .month, .day, .hour, .minute, .second, .frac3] ++ .blank :: zf)
      ([y1, y2, y3, y4, m1, m2, d1, d2, h1, h2, i1, i2, s1, s2] ++ ' ' :: rest) = none := by
    simp only [timeParse, List.cons_append, List.nil_append]
    rw [pc_year hy1 hy2 hy3 hy4, pc_month hm1 hm2]
    split
    · rfl
    · rw [pc_day hd1 hd2, pc_hour hh1 hh2]
      split
      · rfl
      · rw [pc_minute hi1 hi2]
        split
        · rfl
        · rw [pc_second_frac hs1 hs2]
          split
          · rfl
          · rw [pc_frac_blank]; rfl
  rw [ofxDateFormats, tryFormats_none n1]
  rw [tryFormats_last (by
    exact short_loop (loc := loc) (zf := zf) hy1 hy2 hy3 hy4 hm1 hm2 hd1 hd2 hh1 hh2 hi1 hi2 hs1 hs2
      (s2 :: ' ' :: rest))]
  simp only [timeParse, List.cons_append, List.nil_append]
  rw [pc_year hy1 hy2 hy3 hy4, pc_month hm1 hm2]
  split
  · next h => rw [if_neg (by unfold fieldsOk; omega)]; rfl
  · next h =>
    rw [pc_day hd1 hd2, pc_hour hh1 hh2]
    split
    · rw [if_neg (by unfold fieldsOk; omega)]; rfl
    · rw [pc_minute hi1 hi2]
      split
      · rw [if_neg (by unfold fieldsOk; omega)]; rfl
      · rw [pc_second_blank hs1 hs2 (by decide) (by decide)]
        split
        · rw [if_neg (by unfold fieldsOk; omega)]; rfl
        · rw [if_pos (by unfold fieldsOk; omega)]; rfl

include hf1 hf2 hf3

theorem body_full_implicit : timeParse loc ([.year, .month, .day, .hour, .minute, .second] ++ .blank :: zf)
    ([y1, y2, y3, y4, m1, m2, d1, d2, h1, h2, i1, i2, s1, s2, '.', f1, f2, f3] ++ ' ' :: rest) =
    if fieldsOk (num2 m1 m2) (num2 h1 h2) (num2 i1 i2) (num2 s1 s2) then
      zoneParse loc (.blank :: zf)
        { year := num4 y1 y2 y3 y4, month := num2 m1 m2, day := num2 d1 d2, hour := num2 h1 h2,
          minute := num2 i1 i2, second := num2 s1 s2, nsec := num3 f1 f2 f3 * 1000000 } (' ' :: rest)
    else none := by
  simp only [timeParse, List.cons_append, List.nil_append]
  rw [pc_year hy1 hy2 hy3 hy4, pc_month hm1 hm2]
  split
  · next h => rw [if_neg (by unfold fieldsOk; omega)]; rfl
  · rw [pc_day hd1 hd2, pc_hour hh1 hh2]
    split
    · rw [if_neg (by unfold fieldsOk; omega)]; rfl
    · rw [pc_minute hi1 hi2]
      split
      · rw [if_neg (by unfold fieldsOk; omega)]; rfl
      · rw [pc_second_implicit hs1 hs2 hf1 hf2 hf3 (by decide)]
        split
        · rw [if_neg (by unfold fieldsOk; omega)]; rfl
        · rw [if_pos (by unfold fieldsOk; omega)]; rfl

theorem body_full_explicit : timeParse loc ([.year, .month, .day, .hour, .minute, .second, .frac3] ++ .blank :: zf)
    ([y1, y2, y3, y4, m1, m2, d1, d2, h1, h2, i1, i2, s1, s2, '.', f1, f2, f3] ++ ' ' :: rest) =
    if fieldsOk (num2 m1 m2) (num2 h1 h2) (num2 i1 i2) (num2 s1 s2) then
      zoneParse loc (.blank :: zf)
        { year := num4 y1 y2 y3 y4, month := num2 m1 m2, day := num2 d1 d2, hour := num2 h1 h2,
          minute := num2 i1 i2, second := num2 s1 s2, nsec := num3 f1 f2 f3 * 1000000 } (' ' :: rest)
    else none := by
  simp only [timeParse, List.cons_append, List.nil_append]
  rw [pc_year hy1 hy2 hy3 hy4, pc_month hm1 hm2]
  split
  · next h => rw [if_neg (by unfold fieldsOk; omega)]; rfl
  · rw [pc_day hd1 hd2, pc_hour hh1 hh2]
    split
    · rw [if_neg (by unfold fieldsOk; omega)]; rfl
    · rw [pc_minute hi1 hi2]
      split
      · rw [if_neg (by unfold fieldsOk; omega)]; rfl
      · rw [pc_second_frac hs1 hs2]
        split
        · rw [if_neg (by unfold fieldsOk; omega)]; rfl
        · rw [if_pos (by unfold fieldsOk; omega), pc_frac3 hf1 hf2 hf3]; rfl

theorem body_full :
    tryFormats loc (.blank :: zf)
        ([y1, y2, y3, y4, m1, m2, d1, d2, h1, h2, i1, i2, s1, s2, '.', f1, f2, f3] ++ ' ' :: rest) ofxDateFormats =
      if fieldsOk (num2 m1 m2) (num2 h1 h2) (num2 i1 i2) (num2 s1 s2) then
        orFail (zoneParse loc (.blank :: zf)
          { year := num4 y1 y2 y3 y4, month := num2 m1 m2, day := num2 d1 d2, hour := num2 h1 h2,
            minute := num2 i1 i2, second := num2 s1 s2, nsec := num3 f1 f2 f3 * 1000000 } (' ' :: rest))
      else .error "OFX: Couldn't parse date" := by
  have hsl := short_loop (loc := loc) (zf := zf) hy1 hy2 hy3 hy4 hm1 hm2 hd1 hd2 hh1 hh2 hi1 hi2 hs1 hs2
    (s2 :: '.' :: f1 :: f2 :: f3 :: ' ' :: rest)
  have key := tryFormats_two (body_full_explicit (loc := loc) (zf := zf) (rest := rest) hy1 hy2 hy3 hy4 hm1 hm2 hd1 hd2 hh1 hh2 hi1 hi2 hs1 hs2 hf1 hf2 hf3)
    (body_full_implicit (loc := loc) (zf := zf) (rest := rest) hy1 hy2 hy3 hy4 hm1 hm2 hd1 hd2 hh1 hh2 hi1 hi2 hs1 hs2 hf1 hf2 hf3) (by exact hsl)
  rw [ofxDateFormats, key]
  split <;> rfl

end bodies

end Ofx
