import Verif.Model.Amount
import Verif.Spec.Decimal
import Verif.Lemmas.Leaf
import Mathlib.Tactic.FieldSimp
import Mathlib.Tactic.Linarith
import Mathlib.Tactic.Positivity
import Mathlib.Tactic.NormNum
import Mathlib.Algebra.Order.Field.Rat
/- Lemmas for the Amount properties. -/
namespace Ofx
open Spec

theorem bigDigit_digit {c : Char} (h : isDigit c = true) : bigDigit c = some (digitV c) := by
  simp [isDigit] at h
  simp [bigDigit, digitV, h]

theorem digit_ne {c x : Char} (h : isDigit c = true) (hx : isDigit x = false) : c ≠ x := by
  rintro rfl; rw [h] at hx; cases hx

theorem scanLoop_digits (ds rest : Str) (st : Scan) (h : ∀ c ∈ ds, isDigit c = true) :
    scanLoop 10 st (ds ++ rest) =
      scanLoop 10 { st with prev := if ds = [] then st.prev else .dig,
                            count := st.count + ds.length,
                            val := st.val * 10 ^ ds.length + digitsVal ds } rest := by
  induction ds generalizing st with
  | nil => simp [digitsVal]
  | cons c cs ih =>
    have hc := h c (by simp)
    rw [List.cons_append, scanLoop, if_neg, if_neg (digit_ne hc (by decide)), bigDigit_digit hc]
    · simp only [digitV_lt hc, if_true]
      rw [ih _ (fun x hx => h x (by simp [hx]))]
      congr 2
      · split <;> simp
      · simp; omega
      · rw [digitsVal_cons, List.length_cons, Nat.pow_succ]; ring
    · rintro ⟨h1, _⟩; exact digit_ne hc (by decide) h1

theorem scanLoop_stop (b : Nat) (st : Scan) (s : Str)
    (h : ∀ c, s.head? = some c → ¬ (c = '.' ∧ st.fracOk = true) ∧ c ≠ '_' ∧ (∀ d, bigDigit c = some d → ¬ d < b)) :
    scanLoop b st s = (st, s) := by
  cases s with
  | nil => rfl
  | cons c cs =>
    obtain ⟨h1, h2, h3⟩ := h c rfl
    rw [scanLoop, if_neg h1, if_neg h2]
    split
    · next d hd => rw [if_neg (h3 d hd)]
    · rfl

/-- Second characters that would make a base prefix. -/
def prefixChar (c : Char) : Prop := c = 'b' ∨ c = 'B' ∨ c = 'o' ∨ c = 'O' ∨ c = 'x' ∨ c = 'X'

theorem natScan_plain (s : Str) (h : ∀ c ∈ s, ¬ prefixChar c) :
    natScan true s = scanFinish 10 false (scanLoop 10 (scanInit true .other 0) s) := by
  unfold natScan
  split
  · next c cs =>
    have hc := h c (by simp)
    unfold prefixChar at hc
    rw [if_neg (by tauto), if_neg (by tauto), if_neg (by tauto)]
    simp only [Bool.not_true, Bool.false_eq_true, if_false]
    congr 1
  · simp [scanLoop, scanInit, bigDigit]
  · rfl

theorem natScan_decimal (ip fp : Str) (hip : ∀ c ∈ ip, isDigit c = true)
    (hfp : ∀ c ∈ fp, isDigit c = true) (hne : ip ++ fp ≠ []) :
    natScan true (ip ++ '.' :: fp) = some ⟨digitsVal (ip ++ fp), 10, -(fp.length : Int), []⟩ := by
  rw [natScan_plain, scanLoop_digits ip _ _ hip, scanLoop, if_pos ⟨rfl, rfl⟩]
  · have := scanLoop_digits fp [] { (scanInit true Prev.other 0) with
        prev := .other, count := ip.length, val := digitsVal ip, fracOk := false, dp := some ip.length,
        invalSep := false } hfp
    rw [List.append_nil] at this
    have hl : 0 < ip.length + fp.length := by
      rcases ip with _ | ⟨_, _⟩ <;> rcases fp with _ | ⟨_, _⟩ <;> simp_all
    have e : (decide ((if ip = [] then Prev.other else Prev.dig) = Prev.us)) = false := by
      split <;> rfl
    have e2 : (decide ((if fp = [] then Prev.other else Prev.dig) = Prev.us)) = false := by
      split <;> rfl
    simp only [scanInit, Nat.zero_add, Nat.zero_mul] at this ⊢
    have e' : (false || decide ((if ip = [] then Prev.other else Prev.dig) = Prev.us)) = false := by
      split <;> rfl
    erw [e', this]
    rw [scanLoop, scanFinish]
    rw [if_neg (Nat.ne_of_gt hl)]
    have e3 : (false || decide ((if fp = [] then Prev.other else Prev.dig) = Prev.us)) = false := by
      split <;> rfl
    erw [if_neg (by rw [e3]; exact Bool.false_ne_true)]
    simp [digitsVal_append]
  · intro c hc
    rcases List.mem_append.mp hc with h | h
    · have := hip c h
      unfold prefixChar; rintro (rfl | rfl | rfl | rfl | rfl | rfl) <;> exact absurd this (by decide)
    · rcases List.mem_cons.mp h with rfl | h
      · unfold prefixChar; decide
      · have := hfp c h
        unfold prefixChar; rintro (rfl | rfl | rfl | rfl | rfl | rfl) <;> exact absurd this (by decide)

theorem natScan_integer (ip : Str) (hip : ∀ c ∈ ip, isDigit c = true) (hne : ip ≠ []) :
    natScan true ip = some ⟨digitsVal ip, 10, ip.length, []⟩ := by
  rw [natScan_plain]
  · have := scanLoop_digits ip [] (scanInit true .other 0) hip
    rw [List.append_nil] at this
    rw [this]
    have hl : 0 < ip.length := List.length_pos_iff.mpr hne
    simp only [scanInit, scanLoop, scanFinish, if_neg hne]
    rw [if_neg (by omega)]
    simp
  · intro c hc
    have := hip c hc
    unfold prefixChar; rintro (rfl | rfl | rfl | rfl | rfl | rfl) <;> exact absurd this (by decide)

theorem splitC_notMem {c : Char} {s : Str} (h : c ∉ s) : splitC c s = (s, none) := by
  induction s with
  | nil => rfl
  | cons x xs ih =>
    simp only [List.mem_cons, not_or] at h
    rw [splitC, if_neg (fun e => h.1 e.symm), ih h.2]

theorem scale_neg (x : ℚ) (n : Nat) : scale x (-(n : Int)) (-(n : Int)) = x / 10 ^ n := by
  have h10 : (10 : ℚ) = 2 * 5 := by norm_num
  rw [scale, zpow_neg, zpow_neg, zpow_natCast, zpow_natCast, h10, mul_pow]
  field_simp

/-- `SetString` on a decimal numeral with point. -/
theorem ratSetString_decimal (sign ip fp : Str) (hs : sign = [] ∨ sign = ['+'] ∨ sign = ['-'])
    (hip : ∀ c ∈ ip, isDigit c = true) (hfp : ∀ c ∈ fp, isDigit c = true) (hne : ip ++ fp ≠ [])
    (hk : fp.length ≤ 1000000) (body : Str) (hb : body = ip ++ '.' :: fp ∨ (body = ip ∧ fp = [])) :
    ratSetString (sign ++ body) = some ((if sign = ['-'] then -1 else 1) *
      ((digitsVal (ip ++ fp) : ℚ) / 10 ^ fp.length)) := by
  have hchars : ∀ c ∈ body, isDigit c = true ∨ c = '.' := by
    rcases hb with rfl | ⟨rfl, rfl⟩
    · intro c hc
      rcases List.mem_append.mp hc with h | h
      · exact Or.inl (hip c h)
      · rcases List.mem_cons.mp h with rfl | h
        · exact Or.inr rfl
        · exact Or.inl (hfp c h)
    · intro c hc; exact Or.inl (hip c hc)
  have hnil : body ≠ [] := by
    rcases hb with rfl | ⟨rfl, rfl⟩
    · simp
    · simpa using hne
  have hslash : '/' ∉ sign ++ body := by
    intro h
    rcases List.mem_append.mp h with h | h
    · rcases hs with rfl | rfl | rfl <;> simp at h
    · rcases hchars _ h with h | h
      · exact absurd h (by decide)
      · exact absurd h (by decide)
  have hscan : natScan true body = some ⟨digitsVal (ip ++ fp), 10,
      (if fp.length = 0 then (if body = ip then (ip.length : Int) else 0) else -(fp.length : Int)), []⟩ := by
    rcases hb with hb | ⟨hb, hf⟩
    · rw [hb, natScan_decimal ip fp hip hfp hne]
      congr 2
      have : ip ++ '.' :: fp ≠ ip := by
        intro h; have := congrArg List.length h; simp at this
      rw [if_neg this]
      split <;> simp_all
    · subst hf
      rw [hb, natScan_integer ip hip (by simpa using hne)]
      simp
  have hsign : scanSign (sign ++ body) = some (decide (sign = ['-']), body) := by
    cases body with
    | nil => exact absurd rfl hnil
    | cons x xs =>
      rcases hs with rfl | rfl | rfl
      · have hx := hchars x (by simp)
        have h1 : x ≠ '-' := by rcases hx with h | rfl <;> [exact digit_ne h (by decide); decide]
        have h2 : x ≠ '+' := by rcases hx with h | rfl <;> [exact digit_ne h (by decide); decide]
        simp [scanSign, h1, h2]
      · simp [scanSign]
      · simp [scanSign]
  unfold ratSetString
  rw [if_neg (by simp [hnil]), splitC_notMem hslash]
  simp only [hsign, hscan, scanExponent]
  by_cases hv : digitsVal (ip ++ fp) = 0
  · simp [hv]
  · simp only [ne_eq, not_true_eq_false, if_false, hv, if_true, decide_eq_true_eq]
    have hd : (if (if fp.length = 0 then (if body = ip then (ip.length : Int) else 0) else -(fp.length : Int)) < 0
        then (if fp.length = 0 then (if body = ip then (ip.length : Int) else 0) else -(fp.length : Int)) else 0)
        = -(fp.length : Int) := by
      split_ifs <;> omega
    rw [hd]
    simp only [Int.add_zero]
    rw [if_neg (by omega), if_neg (by omega), scale_neg]
    congr 1
    split <;> ring

theorem replaceFirst_notMem {a b : Char} {s : Str} (h : a ∉ s) : replaceFirst a b s = s := by
  induction s with
  | nil => rfl
  | cons x xs ih =>
    simp only [List.mem_cons, not_or] at h
    rw [replaceFirst, if_neg (fun e => h.1 e.symm), ih h.2]

theorem replaceFirst_append {a b : Char} {s t : Str} (h : a ∉ s) :
    replaceFirst a b (s ++ a :: t) = s ++ b :: t := by
  induction s with
  | nil => simp [replaceFirst]
  | cons x xs ih =>
    simp only [List.mem_cons, not_or] at h
    rw [List.cons_append, replaceFirst, if_neg (fun e => h.1 e.symm), ih h.2, List.cons_append]


/-! ### Converse: plain texts that are accepted -/

theorem span_digits (s : Str) : ∃ d r, s = d ++ r ∧ (∀ c ∈ d, isDigit c = true) ∧
    (∀ c, r.head? = some c → isDigit c = false) := by
  refine ⟨s.takeWhile isDigit, s.dropWhile isDigit, (List.takeWhile_append_dropWhile).symm, ?_, ?_⟩
  · intro c hc; exact mem_takeWhile_imp hc
  · intro c hc
    have := head_dropWhile (p := isDigit) s c hc
    simpa using this

/-- Characters allowed in a plain amount after replacing the comma. -/
def plainC (c : Char) : Prop := isDigit c = true ∨ c = '+' ∨ c = '-' ∨ c = '.' ∨ c = ','

theorem plainC_nondigit {c : Char} (h : plainC c) (hd : isDigit c = false) :
    bigDigit c = none ∧ c ≠ '_' ∧ ¬ prefixChar c ∧ ¬ (c = 'e' ∨ c = 'E' ∨ c = 'p' ∨ c = 'P') ∧ c ≠ '/' := by
  rcases h with h | rfl | rfl | rfl | rfl
  · rw [h] at hd; cases hd
  all_goals unfold prefixChar; decide

theorem plainC_notprefix {c : Char} (h : plainC c) : ¬ prefixChar c ∧ c ≠ '/' := by
  by_cases hd : isDigit c = true
  · refine ⟨?_, digit_ne hd (by decide)⟩
    unfold prefixChar; rintro (rfl | rfl | rfl | rfl | rfl | rfl) <;> exact absurd hd (by decide)
  · have := plainC_nondigit h (by simpa using hd)
    exact ⟨this.2.2.1, this.2.2.2.2⟩

theorem scanExponent_plain (s : Str) (h : ∀ c ∈ s, plainC c)
    (hh : ∀ c, s.head? = some c → isDigit c = false) : scanExponent s = some (0, 10, s) := by
  cases s with
  | nil => rfl
  | cons c cs =>
    have := plainC_nondigit (h c (by simp)) (hh c rfl)
    rw [scanExponent, if_neg this.2.2.2.1]

theorem scanFinish_some {b : Nat} {r : Scan × Str} {m : ScanResult} (h : scanFinish b false r = some m) :
    r.1.count ≠ 0 ∧ m = ⟨r.1.val, b, match r.1.dp with
      | some dp => (dp : Int) - r.1.count
      | none => r.1.count, r.2⟩ := by
  unfold scanFinish at h
  simp only [Bool.false_eq_true, if_false] at h
  split at h
  · cases h
  · next hc =>
    split at h
    · cases h
    · exact ⟨hc, (Option.some.inj h).symm⟩

theorem negpart_sub (a b : Nat) :
    (if (a : Int) - ((a + b : Nat) : Int) < 0 then (a : Int) - ((a + b : Nat) : Int) else 0) = -(b : Int) := by
  split <;> omega

theorem negpart_nat (a : Nat) : (if (a : Int) < 0 then (a : Int) else 0) = -((([] : Str).length : Nat) : Int) := by
  split <;> simp; omega

theorem natScan_plain_rest (s : Str) (h : ∀ c ∈ s, plainC c) (m : ScanResult) (hm : natScan true s = some m) :
    (∀ c ∈ m.rest, plainC c) ∧ (∀ c, m.rest.head? = some c → isDigit c = false) ∧
    ∃ ip fp, (∀ c ∈ ip, isDigit c = true) ∧ (∀ c ∈ fp, isDigit c = true) ∧ ip ++ fp ≠ [] ∧
      m.val = digitsVal (ip ++ fp) ∧ m.base = 10 ∧ (if m.fcount < 0 then m.fcount else 0) = -(fp.length : Int) ∧
      (s = ip ++ '.' :: fp ++ m.rest ∨ (s = ip ++ m.rest ∧ fp = [])) := by
  rw [natScan_plain s (fun c hc => (plainC_notprefix (h c hc)).1)] at hm
  obtain ⟨ip, r, rfl, hip, hr⟩ := span_digits s
  rw [scanLoop_digits _ _ _ hip] at hm
  have hrp : ∀ c ∈ r, plainC c := fun c hc => h c (by simp [hc])
  by_cases hdot : ∃ r', r = '.' :: r'
  · obtain ⟨r', rfl⟩ := hdot
    obtain ⟨fp, t, rfl, hfp, ht⟩ := span_digits r'
    have htp : ∀ c ∈ t, plainC c := fun c hc => hrp c (by simp [hc])
    rw [scanLoop, if_pos ⟨rfl, rfl⟩, scanLoop_digits _ _ _ hfp, scanLoop_stop] at hm
    · obtain ⟨hc, rfl⟩ := scanFinish_some hm
      refine ⟨htp, ht, ip, fp, hip, hfp, ?_, ?_, rfl, ?_, Or.inl ?_⟩
      · intro h0; apply hc
        have := congrArg List.length h0
        simp [scanInit] at this ⊢; exact this
      · simp [digitsVal_append, scanInit]
      · exact negpart_sub _ _
      · simp
    · intro c hc
      have hp := plainC_nondigit (htp c (List.mem_of_mem_head? hc)) (ht c hc)
      refine ⟨by simp, hp.2.1, by simp [hp.1]⟩
  · rw [scanLoop_stop] at hm
    · obtain ⟨hc, rfl⟩ := scanFinish_some hm
      refine ⟨hrp, hr, ip, [], hip, by simp, ?_, by simp [scanInit], rfl, ?_, Or.inr ⟨by simp, rfl⟩⟩
      · intro h0; apply hc
        have := congrArg List.length h0
        simp [scanInit] at this ⊢; exact this
      · exact negpart_nat _
    · intro c hc
      have hp := plainC_nondigit (hrp c (List.mem_of_mem_head? hc)) (hr c hc)
      refine ⟨?_, hp.2.1, by simp [hp.1]⟩
      rintro ⟨rfl, -⟩
      apply hdot
      cases r with
      | nil => simp at hc
      | cons x xs => simp at hc; exact ⟨xs, by rw [hc]⟩

theorem scanSign_cases {s : Str} {neg : Bool} {t : Str} (h : scanSign s = some (neg, t)) :
    ∃ sign, s = sign ++ t ∧ (sign = [] ∨ sign = ['+'] ∨ sign = ['-']) ∧ (neg = true ↔ sign = ['-']) := by
  cases s with
  | nil => simp [scanSign] at h
  | cons c cs =>
    rw [scanSign] at h
    split at h
    · next hc => simp at h; obtain ⟨rfl, rfl⟩ := h; exact ⟨['-'], by simp [hc], by simp, by simp⟩
    · split at h
      · next hc => simp at h; obtain ⟨rfl, rfl⟩ := h; exact ⟨['+'], by simp [hc], by simp, by simp⟩
      · simp at h; obtain ⟨rfl, rfl⟩ := h; exact ⟨[], by simp, by simp, by simp⟩

/-- Inversion of `SetString` on plain texts. -/
theorem ratSetString_plain_inv {s : Str} {q : ℚ} (hp : ∀ c ∈ s, plainC c) (h : ratSetString s = some q) :
    ∃ sign ip fp body, s = sign ++ body ∧ (sign = [] ∨ sign = ['+'] ∨ sign = ['-']) ∧
      (∀ c ∈ ip, isDigit c = true) ∧ (∀ c ∈ fp, isDigit c = true) ∧ ip ++ fp ≠ [] ∧
      (body = ip ++ '.' :: fp ∨ (body = ip ∧ fp = [])) ∧
      (fp.length ≤ 1000000 ∨ digitsVal (ip ++ fp) = 0) ∧
      q = (if sign = ['-'] then -1 else 1) * ((digitsVal (ip ++ fp) : ℚ) / 10 ^ fp.length) := by
  have hslash : '/' ∉ s := fun hc => (plainC_notprefix (hp _ hc)).2 rfl
  unfold ratSetString at h
  split at h
  · cases h
  · rw [splitC_notMem hslash] at h
    simp only at h
    split at h
    · cases h
    · next neg t hsg =>
      obtain ⟨sign, rfl, hs, hneg⟩ := scanSign_cases hsg
      have htp : ∀ c ∈ t, plainC c := fun c hc => hp c (by simp [hc])
      split at h
      · cases h
      · next m hm =>
        obtain ⟨hr1, hr2, ip, fp, hip, hfp, hne, hval, hbase, hfc, hbody⟩ := natScan_plain_rest t htp m hm
        rw [scanExponent_plain _ hr1 hr2] at h
        simp only at h
        split at h
        · cases h
        · next hrest =>
          simp only [ne_eq, not_not] at hrest
          rw [hrest] at hbody
          simp only [List.append_nil] at hbody
          refine ⟨sign, ip, fp, t, rfl, hs, hip, hfp, hne, hbody, ?_⟩
          split at h
          · next hz =>
            simp only [Option.some.injEq] at h
            rw [← hval, hz]
            exact ⟨Or.inr rfl, by rw [← h]; simp⟩
          · simp only [hfc, hbase, if_true, Int.add_zero] at h
            split at h
            · cases h
            · next hk =>
              split at h
              · cases h
              · simp only [Option.some.injEq] at h
                refine ⟨Or.inl (by omega), ?_⟩
                rw [← h, scale_neg, hval]
                by_cases hn : neg = true
                · rw [if_pos hn, if_pos (hneg.mp hn)]; ring
                · rw [if_neg hn, if_neg (fun h => hn (hneg.mpr h))]; ring

theorem replaceFirst_inv {a b : Char} {s : Str} (h : a ∈ s) :
    ∃ u v, a ∉ u ∧ s = u ++ a :: v ∧ replaceFirst a b s = u ++ b :: v := by
  induction s with
  | nil => simp at h
  | cons x xs ih =>
    by_cases hx : x = a
    · subst hx; exact ⟨[], xs, by simp, rfl, by simp [replaceFirst]⟩
    · have : a ∈ xs := by
        rcases List.mem_cons.mp h with h | h
        · exact absurd h.symm hx
        · exact h
      obtain ⟨u, v, hu, he, hr⟩ := ih this
      refine ⟨x :: u, v, ?_, by simp [he], by simp [replaceFirst, hx, hr]⟩
      simp only [List.mem_cons, not_or]
      exact ⟨fun e => hx e.symm, hu⟩

/-! ### Separator counting -/

/-- Separator test. -/
def isSep (c : Char) : Bool := c = '.' || c = ','

/-- Separators in a text. -/
def seps (s : Str) : Nat := s.countP isSep

@[simp] theorem seps_nil : seps [] = 0 := rfl
theorem seps_cons (c : Char) (s : Str) : seps (c :: s) = seps s + (if isSep c then 1 else 0) := by
  simp [seps, List.countP_cons]
theorem seps_append (a b : Str) : seps (a ++ b) = seps a + seps b := by simp [seps]

theorem bigDigit_sep {c : Char} {d : Nat} (h : bigDigit c = some d) : isSep c = false := by
  by_cases hc : isSep c = true
  · simp only [isSep, Bool.or_eq_true, decide_eq_true_eq] at hc
    rcases hc with rfl | rfl <;> simp [bigDigit] at h
  · simpa using hc

theorem scanLoop_seps (b : Nat) (s : Str) (st : Scan) :
    seps s ≤ seps (scanLoop b st s).2 + (if st.fracOk then 1 else 0) := by
  induction s generalizing st with
  | nil => simp [scanLoop]
  | cons c cs ih =>
    rw [scanLoop]
    split
    · next h =>
      have := ih { st with fracOk := false, prev := .other, dp := some st.count,
                           invalSep := st.invalSep || decide (st.prev = .us) }
      rw [seps_cons, h.2]
      simp only [Bool.false_eq_true, if_false] at this
      rw [if_pos rfl]
      split <;> omega
    · split
      · next h _ => have := ih { st with prev := .us, invalSep := st.invalSep || decide (st.prev ≠ .dig) }
                    rw [seps_cons]; rename_i h'; subst h'; simpa [isSep] using this
      · split
        · next d hd =>
          split
          · rw [seps_cons, bigDigit_sep hd]; simpa using ih _
          · simp
        · simp

theorem scanFinish_rest {b : Nat} {o : Bool} {r : Scan × Str} {m : ScanResult} (h : scanFinish b o r = some m) :
    m.rest = r.2 := by
  unfold scanFinish at h
  simp only at h
  split at h
  · split at h
    · split at h
      · cases h
      · cases h; rfl
    · cases h
  · split at h
    · cases h
    · cases h; rfl

theorem natScan_seps {f : Bool} {s : Str} {m : ScanResult} (h : natScan f s = some m) :
    seps s ≤ seps m.rest + (if f then 1 else 0) := by
  unfold natScan at h
  split at h
  · next c cs =>
    have key : ∀ b o p n t, scanFinish b o (scanLoop b (scanInit f p n) t) = some m →
        seps t ≤ seps m.rest + (if f then 1 else 0) := by
      intro b o p n t hh
      rw [scanFinish_rest hh]; exact scanLoop_seps b t (scanInit f p n)
    have h0 : seps ('0' :: c :: cs) = seps (c :: cs) := by rw [seps_cons]; simp [isSep]
    rw [h0]
    split at h
    · next hc =>
      rw [seps_cons]
      have : isSep c = false := by rcases hc with rfl | rfl <;> rfl
      simpa [this] using key _ _ _ _ _ h
    · split at h
      · next hc =>
        rw [seps_cons]
        have : isSep c = false := by rcases hc with rfl | rfl <;> rfl
        simpa [this] using key _ _ _ _ _ h
      · split at h
        · next hc =>
          rw [seps_cons]
          have : isSep c = false := by rcases hc with rfl | rfl <;> rfl
          simpa [this] using key _ _ _ _ _ h
        · split at h
          · exact key _ _ _ _ _ h
          · exact key _ _ _ _ _ h
  · simp [seps, isSep]
  · rw [scanFinish_rest h]; exact scanLoop_seps _ _ (scanInit f .other 0)

theorem expLoop_seps (acc : Str) (p : Prev) (i : Bool) (s : Str) :
    seps s ≤ seps (expLoop acc p i s).2.2.2 := by
  induction s generalizing acc p i with
  | nil => simp [expLoop]
  | cons c cs ih =>
    rw [expLoop]
    split
    · next h =>
      have : isSep c = false := by
        by_cases hc : isSep c = true
        · simp only [isSep, Bool.or_eq_true, decide_eq_true_eq] at hc
          rcases hc with rfl | rfl <;> exact absurd h (by decide)
        · simpa using hc
      rw [seps_cons, this]; simpa using ih _ _ _
    · split
      · next h => subst h; rw [seps_cons]; simpa [isSep] using ih _ _ _
      · simp

theorem splitSign_seps (s : Str) : seps s ≤ seps (splitSign s).2 := by
  unfold splitSign
  split
  · simp [seps_cons, isSep]
  · simp [seps_cons, isSep]
  · simp

theorem scanExponent_seps {s : Str} {e : Int} {b : Nat} {r : Str} (h : scanExponent s = some (e, b, r)) :
    seps s ≤ seps r := by
  cases s with
  | nil => simp
  | cons c cs =>
    rw [scanExponent] at h
    split at h
    · next hc =>
      have hcs : isSep c = false := by rcases hc with rfl | rfl | rfl | rfl <;> rfl
      have h1 := splitSign_seps cs
      rcases hsp : splitSign cs with ⟨neg, ds⟩
      have h2 := expLoop_seps [] .other false ds
      rcases hel : expLoop [] .other false ds with ⟨dg, pv, iv, rest⟩
      rw [hsp] at h1; rw [hel] at h2
      simp only [hsp, hel] at h
      rw [seps_cons, hcs]
      split at h
      · cases h
      · split at h
        · cases h
        · split at h
          · cases h
          · simp only [Option.some.injEq, Prod.mk.injEq] at h
            obtain ⟨-, -, rfl⟩ := h
            simp at h1 h2 ⊢; omega
    · cases h; simp

theorem scanSign_seps {s : Str} {n : Bool} {t : Str} (h : scanSign s = some (n, t)) : seps s = seps t := by
  obtain ⟨sg, rfl, hs, -⟩ := scanSign_cases h
  rw [seps_append]
  rcases hs with rfl | rfl | rfl <;> simp [seps, isSep]

theorem splitC_some {c : Char} {s a b : Str} (h : splitC c s = (a, some b)) : s = a ++ c :: b := by
  induction s generalizing a with
  | nil => simp [splitC] at h
  | cons x xs ih =>
    rw [splitC] at h
    split at h
    · next hx => simp at h; obtain ⟨rfl, rfl⟩ := h; simp [hx]
    · rcases hsp : splitC c xs with ⟨u, v⟩
      rw [hsp] at h
      simp at h
      obtain ⟨rfl, rfl⟩ := h
      simp [ih hsp]

theorem ratSetString_seps {s : Str} {q : ℚ} (h : ratSetString s = some q) : seps s ≤ 1 := by
  unfold ratSetString at h
  split at h
  · cases h
  · split at h
    · next num den hsp =>
      have hs := splitC_some hsp
      split at h
      · cases h
      · next neg num' hsg =>
        split at h
        · cases h
        · next a ha =>
          split at h
          · cases h
          · next har =>
            split at h
            · cases h
            · next b hb =>
              split at h
              · cases h
              · next hbr =>
                have h1 := natScan_seps ha
                have h2 := natScan_seps hb
                simp only [ne_eq, not_not, not_or] at har hbr
                rw [har] at h1; rw [hbr.1] at h2
                have h3 := scanSign_seps hsg
                rw [hs, seps_append, seps_cons]
                simp [isSep] at h1 h2 ⊢; omega
    · split at h
      · cases h
      · next neg t hsg =>
        split at h
        · cases h
        · next m hm =>
          split at h
          · cases h
          · next ex eb rest hex =>
            split at h
            · cases h
            · next hr =>
              simp only [ne_eq, not_not] at hr
              have h1 := natScan_seps hm
              have h2 := scanExponent_seps hex
              have h3 := scanSign_seps hsg
              rw [hr] at h2
              simp at h1 h2; omega

theorem seps_replaceFirst (s : Str) : seps (replaceFirst ',' '.' s) = seps s := by
  induction s with
  | nil => rfl
  | cons c cs ih =>
    rw [replaceFirst]
    split
    · next h => subst h; simp [seps_cons, isSep]
    · simp [seps_cons, ih]

end Ofx
