import Verif.Lemmas.Date
import Verif.Spec.DateText
/- Exactly which texts the layouts of a date accept. -/
namespace Ofx
open Spec

/-! ### Digits -/

theorem isDigits_mk1 {a : Char} (ha : isDigit a = true) : IsDigits 1 (digitV a) [a] := by
  have hd : ∀ c ∈ [a], isDigit c = true := by simp [ha]
  refine ⟨rfl, fun c hc => (isDecDigit_iff c).mpr (hd c hc), ?_⟩
  rw [value_eq hd]; simp [digitsVal]

theorem isDigits_mk2 {a b : Char} (ha : isDigit a = true) (hb : isDigit b = true) :
    IsDigits 2 (digitV a * 10 + digitV b) [a, b] := by
  have hd : ∀ c ∈ [a, b], isDigit c = true := by simp [ha, hb]
  refine ⟨rfl, fun c hc => (isDecDigit_iff c).mpr (hd c hc), ?_⟩
  rw [value_eq hd]; simp [digitsVal]

theorem isDigits_one {n : Nat} {s : Str} (h : IsDigits 1 n s) : ∃ a, s = [a] ∧ isDigit a = true ∧ digitV a = n := by
  obtain ⟨hl, hd, hv⟩ := h
  match s, hl with
  | [a], _ =>
    have hda := (isDecDigit_iff a).mp (hd a (by simp))
    refine ⟨a, rfl, hda, ?_⟩
    rw [← hv, value_eq (by intro c hc; exact (isDecDigit_iff c).mp (hd c hc))]
    simp [digitsVal]

theorem isDigits_unique {w w' n n' : Nat} {s : Str} (h : IsDigits w n s) (h' : IsDigits w' n' s) : n = n' :=
  h.2.2.symm.trans h'.2.2

theorem getnum_inv {v r : Str} {n : Nat} (h : getnum true v = some (n, r)) : ∃ D, IsDigits 2 n D ∧ v = D ++ r := by
  match v with
  | [] => cases h
  | [a] => simp [getnum] at h
  | a :: b :: r' =>
    simp only [getnum] at h
    by_cases ha : isDigit a = true
    · rw [if_pos ha] at h
      by_cases hb : isDigit b = true
      · rw [if_pos hb] at h
        cases h
        exact ⟨[a, b], isDigits_mk2 ha hb, rfl⟩
      · rw [if_neg hb] at h; cases h
    · rw [if_neg ha] at h; cases h

theorem getnum_inv' {v r : Str} {n : Nat} (h : getnum false v = some (n, r)) :
    ∃ D, v = D ++ r ∧ (IsDigits 2 n D ∨ (IsDigits 1 n D ∧ ∀ c, r.head? = some c → isDigit c = false)) := by
  match v with
  | [] => cases h
  | [a] =>
    by_cases ha : isDigit a = true
    · simp [getnum, ha] at h
      obtain ⟨rfl, rfl⟩ := h
      exact ⟨[a], rfl, Or.inr ⟨isDigits_mk1 ha, by simp⟩⟩
    · simp [getnum, ha] at h
  | a :: b :: r' =>
    simp only [getnum] at h
    by_cases ha : isDigit a = true
    · rw [if_pos ha] at h
      by_cases hb : isDigit b = true
      · rw [if_pos hb] at h
        cases h
        exact ⟨[a, b], rfl, Or.inl (isDigits_mk2 ha hb)⟩
      · rw [if_neg hb, if_neg (by decide)] at h
        cases h
        exact ⟨[a], rfl, Or.inr ⟨isDigits_mk1 ha, by simpa using hb⟩⟩
    · rw [if_neg ha] at h; cases h

theorem getnum_fw {f : Bool} {D r : Str} {n : Nat} (h : IsDigits 2 n D) : getnum f (D ++ r) = some (n, r) := by
  obtain ⟨a, b, rfl, ha, hb, rfl⟩ := isDigits_two h
  simp [getnum, ha, hb, num2]

theorem getnum_fw1 {D r : Str} {n : Nat} (h : IsDigits 1 n D) (hr : ∀ c, r.head? = some c → isDigit c = false) :
    getnum false (D ++ r) = some (n, r) := by
  obtain ⟨a, rfl, ha, rfl⟩ := isDigits_one h
  cases r with
  | nil => simp [getnum, ha]
  | cons b r' => have := hr b rfl; simp [getnum, ha, this]

/-! ### Fractions -/

theorem atoiNonneg_digits {ds : Str} (hd : ∀ c ∈ ds, isDigit c = true) (hne : ds ≠ []) :
    atoiNonneg ds = some (digitsVal ds) := by
  cases ds with
  | nil => exact absurd rfl hne
  | cons a t =>
    have ha := hd a (by simp)
    have hall : (a :: t).all isDigit = true := by rw [List.all_eq_true]; exact hd
    unfold atoiNonneg
    split
    · next h => injection h with h1; subst h1; exact absurd ha (by decide)
    · next h => injection h with h1; subst h1; exact absurd ha (by decide)
    · simp only [hall]; rfl

theorem parseNanos_digits {ds : Str} (hd : ∀ c ∈ ds, isDigit c = true) (hne : ds ≠ []) :
    parseNanos ds = some (value (ds.take 9) * 10 ^ (9 - (ds.take 9).length)) := by
  have hd9 : ∀ c ∈ ds.take 9, isDigit c = true := fun c hc => hd c (List.mem_of_mem_take hc)
  unfold parseNanos
  simp only [atoiNonneg_digits hd9 (by cases ds with
    | nil => exact absurd rfl hne
    | cons => simp), Option.map_some, value_eq hd9]

theorem parseNanos_inv3 {a b d : Char} {n : Nat} (h : parseNanos [a, b, d] = some n) :
    (IsNumeral [a, b, d] ∧ n = value ([a, b, d].take 9) * 10 ^ (9 - ([a, b, d].take 9).length)) ∨
     (∃ m e, [a, b, d] = '+' :: e ∧ IsDigits 2 m e ∧ n = m * 1000000) ∨
     (∃ e, [a, b, d] = '-' :: e ∧ IsDigits 2 0 e ∧ n = 0) := by
  unfold parseNanos at h
  simp only [Option.map_eq_some_iff] at h
  obtain ⟨k, hk, rfl⟩ := h
  have htk : [a, b, d].take 9 = [a, b, d] := rfl
  rw [htk] at hk ⊢
  unfold atoiNonneg at hk
  split at hk
  · next ds heq =>
    by_cases hc : (ds.all isDigit && !ds.isEmpty) = true
    · rw [if_pos hc] at hk
      cases hk
      injection heq with h1 h2
      subst h1; subst h2
      refine Or.inr (Or.inl ⟨digitsVal [b, d], [b, d], rfl, ?_, rfl⟩)
      simp at hc
      have := isDigits_mk2 hc.1 hc.2
      simpa [digitsVal] using this
    · rw [if_neg hc] at hk; cases hk
  · next ds heq =>
    by_cases hc : (ds.all isDigit && !ds.isEmpty && digitsVal ds == 0) = true
    · rw [if_pos hc] at hk
      cases hk
      injection heq with h1 h2
      subst h1; subst h2
      refine Or.inr (Or.inr ⟨[b, d], rfl, ?_, by simp⟩)
      simp at hc
      have h0 := isDigits_mk2 hc.1.1 hc.1.2
      have h2 : digitV b * 10 + digitV d = 0 := by have := hc.2; simp [digitsVal] at this; omega
      rw [h2] at h0; exact h0
    · rw [if_neg hc] at hk; cases hk
  · by_cases hc : ([a, b, d].all isDigit && ![a, b, d].isEmpty) = true
    · rw [if_pos hc] at hk
      cases hk
      have hd : ∀ c ∈ [a, b, d], isDigit c = true := by
        have := (Bool.and_eq_true _ _ ▸ hc).1
        rw [List.all_eq_true] at this; exact this
      refine Or.inl ⟨(isNumeral_iff _).mpr ⟨by simp, hd⟩, ?_⟩
      rw [value_eq hd]
    · rw [if_neg hc] at hk; cases hk

theorem sep_iff (c : Char) : commaOrPeriod c = true ↔ c = '.' ∨ c = ',' := by simp [commaOrPeriod]

/-- A fraction the layout asks for. -/
theorem frac3_inv {cs : List Chunk} {st st' : PState} {v : Str} (h : parseChunks (.frac3 :: cs) st v = some st') :
    ∃ F n r, v = F ++ r ∧ FractionText n F ∧ parseChunks cs { st with nsec := n } r = some st' := by
  rw [parseChunks] at h
  match v with
  | [] => simp [parseChunk] at h
  | [_] => simp [parseChunk] at h
  | [_, _] => simp [parseChunk] at h
  | [_, _, _] => simp [parseChunk] at h
  | c :: a :: b :: d :: r =>
    simp only [parseChunk] at h
    by_cases hc : commaOrPeriod c = true
    · rw [if_pos hc] at h
      cases hp : parseNanos [a, b, d] with
      | none => rw [hp] at h; simp at h
      | some n =>
        rw [hp] at h
        simp only [Option.map_some] at h
        exact ⟨[c, a, b, d], n, r, rfl, Or.inr ⟨c, [a, b, d], rfl, (sep_iff c).mp hc, parseNanos_inv3 hp⟩, h⟩
    · rw [if_neg hc] at h; simp at h

theorem dropWhile_head_false {α : Type} {p : α → Bool} {s : List α} {c : α} (h : (s.dropWhile p).head? = some c) : p c = false := by
  induction s with
  | nil => simp at h
  | cons x xs ih =>
    by_cases hx : p x = true
    · simp [hx] at h; exact ih h
    · simp [hx] at h; subst h; simpa using hx

/-- A fraction the layout does not mention. -/
theorem implicitFrac_inv {v r : Str} {n : Nat} (h : implicitFrac v = some (n, r)) :
    ∃ F, v = F ++ r ∧ FractionText n F := by
  match v with
  | [] => simp [implicitFrac] at h; obtain ⟨rfl, rfl⟩ := h; exact ⟨[], rfl, Or.inl ⟨rfl, rfl⟩⟩
  | [c] => simp [implicitFrac] at h; obtain ⟨rfl, rfl⟩ := h; exact ⟨[], rfl, Or.inl ⟨rfl, rfl⟩⟩
  | c :: d :: t =>
    simp only [implicitFrac] at h
    by_cases hc : (commaOrPeriod c && isDigit d) = true
    · rw [if_pos hc] at h
      rw [Bool.and_eq_true] at hc
      have hne : (d :: t).takeWhile isDigit ≠ [] := by simp [hc.2]
      have hd : ∀ x ∈ (d :: t).takeWhile isDigit, isDigit x = true := fun x hx => mem_takeWhile_imp hx
      rw [parseNanos_digits hd hne] at h
      simp only [Option.map_some, Option.some.injEq, Prod.mk.injEq] at h
      obtain ⟨rfl, rfl⟩ := h
      refine ⟨c :: (d :: t).takeWhile isDigit, ?_, Or.inr ⟨c, _, rfl, (sep_iff c).mp hc.1, Or.inl ⟨(isNumeral_iff _).mpr ⟨hne, hd⟩, rfl⟩⟩⟩
      rw [List.cons_append, List.takeWhile_append_dropWhile]
    · rw [if_neg hc] at h
      cases h
      exact ⟨[], rfl, Or.inl ⟨rfl, rfl⟩⟩

/-! ### One layout element after the other -/

section inv
variable {cs : List Chunk} {st st' : PState} {v : Str}

theorem year_inv (h : parseChunks (.year :: cs) st v = some st') :
    ∃ n D r, IsDigits 4 n D ∧ v = D ++ r ∧ parseChunks cs { st with year := n } r = some st' := by
  rw [parseChunks] at h
  simp only [parseChunk] at h
  by_cases hc : (decide ((v.take 4).length = 4) && (v.take 4).all isDigit) = true
  · rw [if_pos hc] at h
    simp only at h
    rw [Bool.and_eq_true, decide_eq_true_eq, List.all_eq_true] at hc
    refine ⟨digitsVal (v.take 4), v.take 4, v.drop 4, ⟨hc.1, fun c hm => (isDecDigit_iff c).mpr (hc.2 c hm), value_eq hc.2⟩, (List.take_append_drop 4 v).symm, h⟩
  · rw [if_neg hc] at h; cases h

theorem month_inv (h : parseChunks (.month :: cs) st v = some st') :
    ∃ n D r, IsDigits 2 n D ∧ v = D ++ r ∧ ¬ (n = 0 ∨ 12 < n) ∧ parseChunks cs { st with month := n } r = some st' := by
  rw [parseChunks] at h
  simp only [parseChunk] at h
  cases hg : getnum true v with
  | none => rw [hg] at h; cases h
  | some p =>
    obtain ⟨n, r⟩ := p
    rw [hg] at h
    simp only at h
    by_cases hn : n = 0 ∨ 12 < n
    · rw [if_pos hn] at h; cases h
    · rw [if_neg hn] at h
      obtain ⟨D, hD, hv⟩ := getnum_inv hg
      exact ⟨n, D, r, hD, hv, hn, h⟩

theorem day_inv (h : parseChunks (.day :: cs) st v = some st') :
    ∃ n D r, IsDigits 2 n D ∧ v = D ++ r ∧ parseChunks cs { st with day := n } r = some st' := by
  rw [parseChunks] at h
  simp only [parseChunk] at h
  cases hg : getnum true v with
  | none => rw [hg] at h; cases h
  | some p =>
    obtain ⟨n, r⟩ := p
    rw [hg] at h
    obtain ⟨D, hD, hv⟩ := getnum_inv hg
    exact ⟨n, D, r, hD, hv, h⟩

theorem hour_inv (h : parseChunks (.hour :: cs) st v = some st') :
    ∃ n D r, (IsDigits 2 n D ∨ (IsDigits 1 n D ∧ ∀ c, r.head? = some c → isDigit c = false)) ∧ v = D ++ r ∧ n < 24 ∧
      parseChunks cs { st with hour := n } r = some st' := by
  rw [parseChunks] at h
  simp only [parseChunk] at h
  cases hg : getnum false v with
  | none => rw [hg] at h; cases h
  | some p =>
    obtain ⟨n, r⟩ := p
    rw [hg] at h
    simp only at h
    by_cases hn : 24 ≤ n
    · rw [if_pos hn] at h; cases h
    · rw [if_neg hn] at h
      obtain ⟨D, hv, hD⟩ := getnum_inv' hg
      exact ⟨n, D, r, hD, hv, by omega, h⟩

theorem minute_inv (h : parseChunks (.minute :: cs) st v = some st') :
    ∃ n D r, IsDigits 2 n D ∧ v = D ++ r ∧ n < 60 ∧ parseChunks cs { st with minute := n } r = some st' := by
  rw [parseChunks] at h
  simp only [parseChunk] at h
  cases hg : getnum true v with
  | none => rw [hg] at h; cases h
  | some p =>
    obtain ⟨n, r⟩ := p
    rw [hg] at h
    simp only at h
    by_cases hn : 60 ≤ n
    · rw [if_pos hn] at h; cases h
    · rw [if_neg hn] at h
      obtain ⟨D, hD, hv⟩ := getnum_inv hg
      exact ⟨n, D, r, hD, hv, by omega, h⟩

theorem second_frac_inv (h : parseChunks (.second :: .frac3 :: cs) st v = some st') :
    ∃ n D r, IsDigits 2 n D ∧ v = D ++ r ∧ n < 60 ∧ parseChunks (.frac3 :: cs) { st with second := n } r = some st' := by
  rw [parseChunks] at h
  simp only [parseChunk] at h
  cases hg : getnum true v with
  | none => rw [hg] at h; cases h
  | some p =>
    obtain ⟨n, r⟩ := p
    rw [hg] at h
    simp only [List.head?_cons, decide_true, if_true] at h
    by_cases hn : 60 ≤ n
    · rw [if_pos hn] at h; cases h
    · rw [if_neg hn] at h
      obtain ⟨D, hD, hv⟩ := getnum_inv hg
      exact ⟨n, D, r, hD, hv, by omega, h⟩

theorem second_inv (h : parseChunks (.second :: .blank :: cs) st v = some st') :
    ∃ n D F k r, IsDigits 2 n D ∧ v = D ++ F ++ r ∧ n < 60 ∧ FractionText k F ∧
      parseChunks (.blank :: cs) { st with second := n, nsec := k } r = some st' := by
  rw [parseChunks] at h
  simp only [parseChunk] at h
  cases hg : getnum true v with
  | none => rw [hg] at h; cases h
  | some p =>
    obtain ⟨n, r⟩ := p
    rw [hg] at h
    have hf : (decide ((Chunk.blank :: cs).head? = some Chunk.frac3)) = false := by simp
    simp only [hf, Bool.false_eq_true, if_false] at h
    by_cases hn : 60 ≤ n
    · rw [if_pos hn] at h; cases h
    · rw [if_neg hn] at h
      obtain ⟨D, hD, hv⟩ := getnum_inv hg
      cases hi : implicitFrac r with
      | none => rw [hi] at h; cases h
      | some q =>
        obtain ⟨k, r'⟩ := q
        rw [hi] at h
        obtain ⟨F, hF, hk⟩ := implicitFrac_inv hi
        exact ⟨n, D, F, k, r', hD, by rw [hv, hF, List.append_assoc], by omega, hk, h⟩

end inv

/-- The parser's state after a date and time of n nanoseconds. -/
def stN (c : Civil) (n : Nat) : PState :=
  { year := c.year, month := c.month, day := c.day, hour := c.hour, minute := c.minute, second := c.second, nsec := n }

theorem head_digit_append {n : Nat} {D r : Str} (h : IsDigits 2 n D) : ∃ c, (D ++ r).head? = some c ∧ isDigit c = true := by
  obtain ⟨a, b, rfl, ha, -, -⟩ := isDigits_two h
  exact ⟨a, rfl, ha⟩

/-- What a layout of a date accepts. -/
theorem layout_inv {f zf : List Chunk} (hf : f ∈ ofxDateFormats) {w : Str} {st' : PState}
    (h : parseChunks (f ++ .blank :: zf) {} w = some st') :
    ∃ c n D r, w = D ++ r ∧ MomentText c n D ∧ c.milli = 0 ∧ c.year ≤ 9999 ∧ fieldsOk c.month c.hour c.minute c.second ∧
      parseChunks (.blank :: zf) (stN c n) r = some st' := by
  have hpre : ∃ g, f = .year :: .month :: .day :: g ∧ (g = [.hour, .minute, .second, .frac3] ∨ g = [.hour, .minute, .second] ∨
      g = [.hour, .minute] ∨ g = [.hour] ∨ g = []) := by
    simp only [ofxDateFormats, List.mem_cons, List.not_mem_nil, or_false] at hf
    rcases hf with rfl | rfl | rfl | rfl | rfl <;> exact ⟨_, rfl, by simp⟩
  obtain ⟨g, rfl, hg⟩ := hpre
  simp only [List.cons_append] at h
  obtain ⟨y, Y, r1, hY, rfl, q1⟩ := year_inv h
  obtain ⟨m, M, r2, hM, rfl, hm, q2⟩ := month_inv q1
  obtain ⟨d, D, r3, hD, rfl, q3⟩ := day_inv q2
  have hy : y ≤ 9999 := by
    have := digitsVal_lt (isDigits_digits hY)
    rw [hY.1, ← value_eq (isDigits_digits hY), hY.2.2] at this
    omega
  have key : ∀ (hh mi s n : Nat) (T r : Str), r3 = T ++ r → TimeText ⟨y, m, d, hh, mi, s, 0⟩ n T → hh < 24 → mi < 60 → s < 60 →
      parseChunks (.blank :: zf) (stN ⟨y, m, d, hh, mi, s, 0⟩ n) r = some st' →
      ∃ c n D' r, Y ++ (M ++ (D ++ r3)) = D' ++ r ∧ MomentText c n D' ∧ c.milli = 0 ∧ c.year ≤ 9999 ∧
        fieldsOk c.month c.hour c.minute c.second ∧ parseChunks (.blank :: zf) (stN c n) r = some st' := by
    intro hh mi s n T r e hT h1 h2 h3 hp
    refine ⟨⟨y, m, d, hh, mi, s, 0⟩, n, Y ++ M ++ D ++ T, r, by rw [e]; simp, ⟨Y, M, D, T, rfl, hY, hM, hD, hT⟩, rfl, hy, ⟨hm, h1, h2, h3⟩, hp⟩
  rcases hg with rfl | rfl | rfl | rfl | rfl
  · simp only [List.cons_append, List.nil_append] at q3
    obtain ⟨hh, H, r4, hH, rfl, hh24, q4⟩ := hour_inv q3
    obtain ⟨mi, I, r5, hI, rfl, hmi, q5⟩ := minute_inv q4
    obtain ⟨s, S, r6, hS, rfl, hs, q6⟩ := second_frac_inv q5
    obtain ⟨F, n, r7, rfl, hF, q7⟩ := frac3_inv q6
    have hH2 : IsDigits 2 hh H := by
      rcases hH with hH | ⟨-, hc⟩
      · exact hH
      · obtain ⟨c, h1, h2⟩ := head_digit_append (r := S ++ (F ++ r7)) hI
        rw [hc c h1] at h2; cases h2
    exact key hh mi s n (H ++ I ++ S ++ F) r7 (by simp) (Or.inr (Or.inr (Or.inr ⟨H, I, S, F, rfl, hH2, hI, hS, hF⟩))) hh24 hmi hs q7
  · simp only [List.cons_append, List.nil_append] at q3
    obtain ⟨hh, H, r4, hH, rfl, hh24, q8⟩ := hour_inv q3
    obtain ⟨mi, I, r5, hI, rfl, hmi, q9⟩ := minute_inv q8
    obtain ⟨s, S, F, n, r6, hS, rfl, hs, hF, q10⟩ := second_inv q9
    have hH2 : IsDigits 2 hh H := by
      rcases hH with hH | ⟨-, hc⟩
      · exact hH
      · obtain ⟨c, h1, h2⟩ := head_digit_append (r := S ++ F ++ r6) hI
        rw [hc c h1] at h2; cases h2
    exact key hh mi s n (H ++ I ++ S ++ F) r6 (by simp) (Or.inr (Or.inr (Or.inr ⟨H, I, S, F, rfl, hH2, hI, hS, hF⟩))) hh24 hmi hs q10
  · simp only [List.cons_append, List.nil_append] at q3
    obtain ⟨hh, H, r4, hH, rfl, hh24, q11⟩ := hour_inv q3
    obtain ⟨mi, I, r5, hI, rfl, hmi, q12⟩ := minute_inv q11
    have hH2 : IsDigits 2 hh H := by
      rcases hH with hH | ⟨-, hc⟩
      · exact hH
      · obtain ⟨c, h1, h2⟩ := head_digit_append (r := r5) hI
        rw [hc c h1] at h2; cases h2
    exact key hh mi 0 0 (H ++ I) r5 (by simp) (Or.inr (Or.inr (Or.inl ⟨H, I, rfl, hH2, hI, rfl, rfl⟩))) hh24 hmi (by omega) q12
  · simp only [List.cons_append, List.nil_append] at q3
    obtain ⟨hh, H, r4, hH, rfl, hh24, q13⟩ := hour_inv q3
    refine key hh 0 0 0 H r4 rfl (Or.inr (Or.inl ⟨?_, rfl, rfl, rfl⟩)) hh24 (by omega) (by omega) q13
    rcases hH with hH | ⟨hH, -⟩
    · exact Or.inr hH
    · exact Or.inl hH
  · exact key 0 0 0 0 [] r3 rfl (Or.inl ⟨rfl, rfl, rfl, rfl, rfl⟩) (by omega) (by omega) (by omega) q3

/-! ### Every such text is accepted by a layout -/

section fw
variable {cs : List Chunk} {st : PState} {D r : Str} {n : Nat}

theorem year_fw (h : IsDigits 4 n D) : parseChunks (.year :: cs) st (D ++ r) = parseChunks cs { st with year := n } r := by
  obtain ⟨a, b, c, d, rfl, ha, hb, hc, hd, rfl⟩ := isDigits_four h
  exact pc_year ha hb hc hd

theorem month_fw (h : IsDigits 2 n D) (hn : ¬ (n = 0 ∨ 12 < n)) :
    parseChunks (.month :: cs) st (D ++ r) = parseChunks cs { st with month := n } r := by
  rw [parseChunks]; simp only [parseChunk, getnum_fw h, if_neg hn]

theorem day_fw (h : IsDigits 2 n D) : parseChunks (.day :: cs) st (D ++ r) = parseChunks cs { st with day := n } r := by
  rw [parseChunks]; simp only [parseChunk, getnum_fw h]

theorem hour_fw (h : IsDigits 2 n D) (hn : n < 24) : parseChunks (.hour :: cs) st (D ++ r) = parseChunks cs { st with hour := n } r := by
  rw [parseChunks]; simp only [parseChunk, getnum_fw h, if_neg (show ¬ 24 ≤ n by omega)]

theorem hour_fw1 (h : IsDigits 1 n D) (hn : n < 24) (hr : ∀ c, r.head? = some c → isDigit c = false) :
    parseChunks (.hour :: cs) st (D ++ r) = parseChunks cs { st with hour := n } r := by
  rw [parseChunks]; simp only [parseChunk, getnum_fw1 h hr, if_neg (show ¬ 24 ≤ n by omega)]

theorem minute_fw (h : IsDigits 2 n D) (hn : n < 60) : parseChunks (.minute :: cs) st (D ++ r) = parseChunks cs { st with minute := n } r := by
  rw [parseChunks]; simp only [parseChunk, getnum_fw h, if_neg (show ¬ 60 ≤ n by omega)]

theorem second_frac_fw (h : IsDigits 2 n D) (hn : n < 60) :
    parseChunks (.second :: .frac3 :: cs) st (D ++ r) = parseChunks (.frac3 :: cs) { st with second := n } r := by
  rw [parseChunks]
  simp only [parseChunk, getnum_fw h, if_neg (show ¬ 60 ≤ n by omega), List.head?_cons, decide_true, if_true]

theorem second_fw {k : Nat} {r' : Str} (h : IsDigits 2 n D) (hn : n < 60) (hi : implicitFrac r = some (k, r')) :
    parseChunks (.second :: .blank :: cs) st (D ++ r) = parseChunks (.blank :: cs) { st with second := n, nsec := k } r' := by
  rw [parseChunks]
  have hf : (decide ((Chunk.blank :: cs).head? = some Chunk.frac3)) = false := by simp
  simp only [parseChunk, getnum_fw h, if_neg (show ¬ 60 ≤ n by omega), hf, Bool.false_eq_true, if_false, hi, Option.map_some]

end fw

theorem implicitFrac_digits {c : Char} {ds r : Str} (hc : c = '.' ∨ c = ',') (hd : IsNumeral ds) (hr : ∀ x, r.head? = some x → isDigit x = false) :
    implicitFrac (c :: ds ++ r) = some (value (ds.take 9) * 10 ^ (9 - (ds.take 9).length), r) := by
  obtain ⟨hne, hdig⟩ := (isNumeral_iff ds).mp hd
  obtain ⟨h1, h2⟩ := takeWhile_append_stop (p := isDigit) hdig hr
  cases ds with
  | nil => exact absurd rfl hne
  | cons d t =>
    have hd0 := hdig d (by simp)
    have hcd : (commaOrPeriod c && isDigit d) = true := by rw [(sep_iff c).mpr hc, hd0]; rfl
    simp only [List.cons_append] at h1 h2 ⊢
    simp only [implicitFrac, if_pos hcd, h1, h2, parseNanos_digits hdig hne, Option.map_some]

/-- Every date and time is accepted by one of the layouts. -/
theorem layout_fw {c : Civil} {n : Nat} {D : Str} (h : MomentText c n D) (hf : fieldsOk c.month c.hour c.minute c.second)
    (zf : List Chunk) (r : Str) :
    ∃ f ∈ ofxDateFormats, parseChunks (f ++ .blank :: zf) {} (D ++ ' ' :: r) = parseChunks (.blank :: zf) (stN c n) (' ' :: r) := by
  obtain ⟨Y, M, D, T, rfl, hY, hM, hD, hT⟩ := h
  obtain ⟨hm, hh, hmi, hs⟩ := hf
  have hbl : ∀ x, (' ' :: r).head? = some x → isDigit x = false := by simp; decide
  have hpre : ∀ g, parseChunks (.year :: .month :: .day :: g) {} (Y ++ M ++ D ++ T ++ ' ' :: r) =
      parseChunks g { year := c.year, month := c.month, day := c.day } (T ++ ' ' :: r) := by
    intro g
    simp only [List.append_assoc]
    rw [year_fw hY, month_fw hM hm, day_fw hD]
  rcases hT with ⟨rfl, e1, e2, e3, e4⟩ | ⟨hH, e2, e3, e4⟩ | ⟨H, I, rfl, hH, hI, e3, e4⟩ | ⟨H, I, S, F, rfl, hH, hI, hS, hF⟩
  · refine ⟨[.year, .month, .day], by simp [ofxDateFormats], ?_⟩
    simp only [List.cons_append, List.nil_append]
    rw [hpre, stN, e1, e2, e3, e4]; rfl
  · refine ⟨[.year, .month, .day, .hour], by simp [ofxDateFormats], ?_⟩
    simp only [List.cons_append, List.nil_append]
    rw [hpre]
    rcases hH with hH | hH
    · rw [hour_fw1 hH hh hbl, stN, e2, e3, e4]
    · rw [hour_fw hH hh, stN, e2, e3, e4]
  · refine ⟨[.year, .month, .day, .hour, .minute], by simp [ofxDateFormats], ?_⟩
    simp only [List.cons_append, List.nil_append]
    rw [hpre, List.append_assoc, hour_fw hH hh, minute_fw hI hmi, stN, e3, e4]
  · have himp : implicitFrac (F ++ ' ' :: r) = some (n, ' ' :: r) →
        ∃ f ∈ ofxDateFormats, parseChunks (f ++ .blank :: zf) {} (Y ++ M ++ D ++ (H ++ I ++ S ++ F) ++ ' ' :: r) =
          parseChunks (.blank :: zf) (stN c n) (' ' :: r) := by
      intro hi
      refine ⟨[.year, .month, .day, .hour, .minute, .second], by simp [ofxDateFormats], ?_⟩
      simp only [List.cons_append, List.nil_append]
      rw [hpre, List.append_assoc, List.append_assoc, List.append_assoc, hour_fw hH hh, minute_fw hI hmi, second_fw hS hs hi, stN]
    have hexp : ∀ a b d : Char, ∀ sep, F = [sep, a, b, d] → commaOrPeriod sep = true → parseNanos [a, b, d] = some n →
        ∃ f ∈ ofxDateFormats, parseChunks (f ++ .blank :: zf) {} (Y ++ M ++ D ++ (H ++ I ++ S ++ F) ++ ' ' :: r) =
          parseChunks (.blank :: zf) (stN c n) (' ' :: r) := by
      intro a b d sep e hsep hp
      refine ⟨[.year, .month, .day, .hour, .minute, .second, .frac3], by simp [ofxDateFormats], ?_⟩
      simp only [List.cons_append, List.nil_append]
      rw [hpre, List.append_assoc, List.append_assoc, List.append_assoc, hour_fw hH hh, minute_fw hI hmi, second_frac_fw hS hs, e]
      rw [parseChunks]
      simp only [parseChunk, List.cons_append, List.nil_append, if_pos hsep, hp, Option.map_some, stN]
    rcases hF with ⟨rfl, e4⟩ | ⟨sep, d, rfl, hsep, hd | ⟨m, e, rfl, he, hn⟩ | ⟨e, rfl, he, hn⟩⟩
    · apply himp
      rw [e4]
      cases r with
      | nil => rfl
      | cons x xs => simp [implicitFrac, commaOrPeriod]
    · apply himp
      rw [hd.2]
      exact implicitFrac_digits hsep hd.1 hbl
    · obtain ⟨a, b, rfl, ha, hb, hv⟩ := isDigits_two he
      refine hexp '+' a b sep rfl ((sep_iff sep).mpr hsep) ?_
      rw [hn, ← hv]
      simp [parseNanos, atoiNonneg, ha, hb, num2, digitsVal]
    · obtain ⟨a, b, rfl, ha, hb, hv⟩ := isDigits_two he
      refine hexp '-' a b sep rfl ((sep_iff sep).mpr hsep) ?_
      rw [hn]
      have hv' : digitV a = 0 ∧ digitV b = 0 := by unfold num2 at hv; omega
      simp [parseNanos, atoiNonneg, ha, hb, digitsVal, hv']

end Ofx
