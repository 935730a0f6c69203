import Verif.Lemmas.Amount
import Mathlib.Algebra.Order.Ring.Rat
import Mathlib.Algebra.Order.AbsoluteValue.Basic
/- Printing of amounts: shape and value of the printed text. -/
namespace Ofx
open Spec

theorem trimRightP_decomp (p : Char → Bool) (s : Str) :
    ∃ w, (∀ c ∈ w, p c = true) ∧ s = trimRightP p s ++ w ∧
      (∀ c, (trimRightP p s).getLast? = some c → p c = false) := by
  refine ⟨(s.reverse.takeWhile p).reverse, ?_, ?_, ?_⟩
  · intro c hc; exact mem_takeWhile_imp (s := s.reverse) (by simpa using hc)
  · unfold trimRightP
    rw [← List.reverse_append, List.takeWhile_append_dropWhile, List.reverse_reverse]
  · intro c hc
    unfold trimRightP at hc
    exact head_dropWhile (p := p) s.reverse c (by simpa using hc)

theorem padZero_zero {w : Nat} (h : 0 < w) : padZero w (natStr 0) = List.replicate w '0' := by
  rw [natStr_lt10 (by omega)]
  obtain ⟨k, rfl⟩ : ∃ k, w = k + 1 := ⟨w - 1, by omega⟩
  show List.replicate (k + 1 - 1) '0' ++ ['0'] = _
  rw [Nat.add_sub_cancel, List.replicate_succ']

/-- `FloatString` prints the nearest multiple of `10^-prec`. -/
theorem floatString_shape (x : ℚ) (prec : Nat) (hp : 0 < prec) :
    ∃ K : Nat, floatString x prec = (if x.num < 0 then ['-'] else []) ++ natStr (K / 10 ^ prec) ++
        '.' :: padZero prec (natStr (K % 10 ^ prec)) ∧
      2 * (K * x.den) ≤ 2 * (x.num.natAbs * 10 ^ prec) + x.den ∧
      2 * (x.num.natAbs * 10 ^ prec) ≤ 2 * (K * x.den) + x.den := by
  have hP : 0 < 10 ^ prec := Nat.pow_pos (by omega)
  have hb : 0 < x.den := x.den_pos
  generalize hPd : 10 ^ prec = P at hP ⊢
  unfold floatString
  simp only [hPd]
  generalize x.num.natAbs = a
  generalize x.den = b at hb ⊢
  generalize (if x.num < 0 then ['-'] else []) = sg
  by_cases h1 : b = 1
  · subst h1
    refine ⟨a * P, ?_, by omega, by omega⟩
    rw [if_pos rfl, Nat.mul_div_cancel _ hP, Nat.mul_mod_left, padZero_zero hp]
    simp
  · rw [if_neg h1]
    have hd : a * P = b * (a / b * P + (a % b) * P / b) + (a % b) * P % b := by
      have e1 := Nat.div_add_mod a b
      have e2 := Nat.div_add_mod ((a % b) * P) b
      calc a * P = (b * (a / b) + a % b) * P := by rw [e1]
        _ = b * (a / b * P) + (a % b) * P := by ring
        _ = b * (a / b * P) + (b * ((a % b) * P / b) + (a % b) * P % b) := by rw [e2]
        _ = _ := by ring
    have hr : (a % b) * P / b < P := by
      apply Nat.div_lt_of_lt_mul
      rw [Nat.mul_comm b P, Nat.mul_comm]
      exact Nat.mul_lt_mul_of_pos_left (Nat.mod_lt _ hb) hP
    have hr2 : (a % b) * P % b < b := Nat.mod_lt _ hb
    generalize a / b = q at *
    generalize (a % b) * P / b = r at *
    generalize (a % b) * P % b = r2 at *
    have key : ∀ k, k < P → (q * P + k) / P = q ∧ (q * P + k) % P = k := by
      intro k hk
      rw [Nat.mul_comm q P]
      exact ⟨by rw [Nat.mul_add_div hP, Nat.div_eq_of_lt hk]; rfl, by rw [Nat.mul_add_mod, Nat.mod_eq_of_lt hk]⟩
    by_cases hb2 : b ≤ 2 * r2
    · simp only [if_pos hb2]
      have hmul : (q * P + r + 1) * b = b * (q * P + r) + b := by ring
      by_cases hP1 : P ≤ r + 1
      · simp only [if_pos hP1]
        refine ⟨q * P + r + 1, ?_, ?_, ?_⟩
        · have e : q * P + r + 1 = (q + 1) * P := by
            have : r + 1 = P := by omega
            rw [Nat.add_mul, Nat.add_assoc, this]; omega
          have e' : r + 1 - P = 0 := by omega
          rw [e, Nat.mul_div_cancel _ hP, Nat.mul_mod_left, e']
          simp
        · rw [hmul, hd]; omega
        · rw [hmul, hd]; omega
      · simp only [if_neg hP1]
        refine ⟨q * P + r + 1, ?_, ?_, ?_⟩
        · have := key (r + 1) (by omega)
          rw [← Nat.add_assoc] at this
          rw [this.1, this.2]; simp
        · rw [hmul, hd]; omega
        · rw [hmul, hd]; omega
    · simp only [if_neg hb2]
      have hmul : (q * P + r) * b = b * (q * P + r) := by ring
      refine ⟨q * P + r, ?_, ?_, ?_⟩
      · rw [(key r hr).1, (key r hr).2]; simp
      · rw [hmul, hd]; omega
      · rw [hmul, hd]; omega

theorem getLast?_digits {s : Str} (h : ∀ c ∈ s, isDigit c = true) {c : Char} (hc : s.getLast? = some c) :
    isDigit c = true := h c (List.mem_of_getLast? hc)

theorem digitsVal_zeros_right (s w : Str) (hw : ∀ c ∈ w, (c == '0') = true) :
    digitsVal (s ++ w) = digitsVal s * 10 ^ w.length := by
  have : w = List.replicate w.length '0' := by
    apply List.eq_replicate_iff.mpr
    exact ⟨rfl, fun c hc => by simpa using hw c hc⟩
  rw [digitsVal_append, this, digitsVal_replicate_zero]; simp

/-- Trimming zeros then the point off `pre ++ "." ++ fp`. -/
theorem trim_fraction (pre fp : Str) (hpre : ∃ c, pre.getLast? = some c ∧ isDigit c = true)
    (hfp : ∀ c ∈ fp, isDigit c = true) :
    ∃ frac fp' : Str, trimRightC '.' (trimRightC '0' (pre ++ '.' :: fp)) = pre ++ frac ∧
      ((frac = [] ∧ fp' = []) ∨ (frac = '.' :: fp' ∧ fp' ≠ [])) ∧ (∀ c ∈ fp', isDigit c = true) ∧
      fp'.getLast? ≠ some '0' ∧ fp'.length ≤ fp.length ∧
      digitsVal fp = digitsVal fp' * 10 ^ (fp.length - fp'.length) := by
  obtain ⟨w, hw, hdec, hlast⟩ := trimRightP_decomp (· == '0') fp
  generalize hf : trimRightP (· == '0') fp = f at *
  have h1 : trimRightC '0' (pre ++ '.' :: fp) = pre ++ '.' :: f := by
    unfold trimRightC
    rw [hdec]
    have : pre ++ '.' :: (f ++ w) = (pre ++ '.' :: f) ++ w := by simp
    rw [this, trimRightP_append_all hw, trimRightP_eq_self]
    intro c hc
    rw [List.getLast?_append] at hc
    cases f with
    | nil => simp at hc; subst hc; decide
    | cons y ys =>
      apply hlast
      rw [← hc]
      simp [List.getLast?_cons_cons, List.getLast?_cons]
  have hfd : ∀ c ∈ f, isDigit c = true := fun c hc => hfp c (by rw [hdec]; simp [hc])
  rw [h1]
  have hlen : f.length ≤ fp.length := by rw [hdec]; simp
  have hval : digitsVal fp = digitsVal f * 10 ^ (fp.length - f.length) := by
    have : fp.length - f.length = w.length := by rw [hdec]; simp
    rw [this, ← digitsVal_zeros_right f w hw, ← hdec]
  have hnz : f.getLast? ≠ some '0' := by
    intro h; have := hlast _ h; simp at this
  cases f with
  | nil =>
    refine ⟨[], [], ?_, Or.inl ⟨rfl, rfl⟩, by simp, by simp, by simp, hval⟩
    unfold trimRightC
    rw [trimRightP_append_all (by intro c hc; simp at hc; simp [hc]), List.append_nil, trimRightP_eq_self]
    intro c hc
    obtain ⟨d, hd, hdd⟩ := hpre
    rw [hd] at hc
    cases hc
    have := digit_ne hdd (x := '.') (by decide)
    simpa using this
  | cons y ys =>
    refine ⟨'.' :: y :: ys, y :: ys, ?_, Or.inr ⟨rfl, by simp⟩, hfd, hnz, hlen, hval⟩
    unfold trimRightC
    rw [trimRightP_eq_self]
    intro c hc
    have hc' : (y :: ys).getLast? = some c := by
      rw [List.getLast?_append] at hc
      rw [List.getLast?_cons_cons] at hc
      simpa [List.getLast?_cons] using hc
    have := digit_ne (getLast?_digits hfd hc') (x := '.') (by decide)
    simpa using this

theorem natStr_head (n : Nat) : natStr n = ['0'] ∨ (natStr n).head? ≠ some '0' := by
  induction n using Nat.strongRecOn with
  | _ n ih =>
    by_cases h : n < 10
    · rw [natStr_lt10 h]
      by_cases h0 : n = 0
      · left; subst h0; rfl
      · right
        intro hh
        simp at hh
        have := digitV_digitC h
        rw [hh] at this
        simp [digitV] at this; omega
    · right
      rw [natStr_ge10 h]
      rcases ih (n / 10) (by omega) with h0 | h0
      · exfalso
        have := digitsVal_natStr (n / 10)
        rw [h0] at this
        simp [digitsVal, digitV] at this; omega
      · intro hh
        apply h0
        rw [List.head?_append] at hh
        cases hn : natStr (n / 10) with
        | nil => exact absurd hn (natStr_ne_nil _)
        | cons a b => rw [hn] at hh; simpa using hh

/-- Shape and value of a printed amount. -/
theorem amountString_shape (x : ℚ) :
    ∃ (K : Nat) (frac fp : Str), Amount.string x =
        (if x.num < 0 then ['-'] else []) ++ (natStr (K / 10 ^ 100) ++ frac) ∧
      ((frac = [] ∧ fp = []) ∨ (frac = '.' :: fp ∧ fp ≠ [])) ∧ (∀ c ∈ fp, isDigit c = true) ∧
      fp.getLast? ≠ some '0' ∧ fp.length ≤ 100 ∧
      (digitsVal (natStr (K / 10 ^ 100) ++ fp) : ℚ) / 10 ^ fp.length = (K : ℚ) / 10 ^ 100 ∧
      2 * (K * x.den) ≤ 2 * (x.num.natAbs * 10 ^ 100) + x.den ∧
      2 * (x.num.natAbs * 10 ^ 100) ≤ 2 * (K * x.den) + x.den := by
  obtain ⟨K, hK, h1, h2⟩ := floatString_shape x 100 (by omega)
  have hP : 0 < 10 ^ 100 := Nat.pow_pos (by omega)
  have hlt : K % 10 ^ 100 < 10 ^ 100 := Nat.mod_lt _ hP
  have hlen : (padZero 100 (natStr (K % 10 ^ 100))).length = 100 :=
    padZero_length (natStr_length_le hlt (by omega))
  obtain ⟨frac, fp, hs, hfrac, hd, hnz, hle, hv⟩ := trim_fraction
    ((if x.num < 0 then ['-'] else []) ++ natStr (K / 10 ^ 100)) (padZero 100 (natStr (K % 10 ^ 100)))
    (by
      cases hl : (natStr (K / 10 ^ 100)).getLast? with
      | none => rw [List.getLast?_eq_none_iff] at hl; exact absurd hl (natStr_ne_nil _)
      | some c =>
        refine ⟨c, ?_, getLast?_digits (natStr_digits _) hl⟩
        rw [List.getLast?_append, hl]; rfl)
    (padZero_digits (natStr_digits _))
  rw [hlen] at hle hv
  refine ⟨K, frac, fp, ?_, hfrac, hd, hnz, hle, ?_, h1, h2⟩
  · rw [Amount.string, hK, hs, List.append_assoc]
  · rw [digitsVal_padZero, digitsVal_natStr] at hv
    rw [digitsVal_append, digitsVal_natStr]
    have hKe : (K : ℚ) = (10 : ℚ) ^ 100 * (K / 10 ^ 100 : Nat) + (K % 10 ^ 100 : Nat) := by
      exact_mod_cast (Nat.div_add_mod K (10 ^ 100)).symm
    have hpw : (10 : ℚ) ^ 100 = 10 ^ fp.length * 10 ^ (100 - fp.length) := by
      rw [← pow_add]; congr 1; omega
    have hvq : ((K % 10 ^ 100 : Nat) : ℚ) = (digitsVal fp : ℚ) * 10 ^ (100 - fp.length) := by
      exact_mod_cast hv
    generalize (K / 10 ^ 100 : Nat) = q at *
    generalize (K % 10 ^ 100 : Nat) = r at *
    rw [hKe, hvq, hpw]
    have p1 : (10 : ℚ) ^ fp.length ≠ 0 := by positivity
    have p2 : (10 : ℚ) ^ (100 - fp.length) ≠ 0 := by positivity
    push_cast
    field_simp

/-- The value that parsing the printed text gives. -/
theorem amount_print_parse (x : ℚ) :
    ∃ K : Nat, Amount.unmarshal (Amount.string x) =
        .ok ((if x.num < 0 then -1 else 1) * ((K : ℚ) / 10 ^ 100)) ∧
      2 * (K * x.den) ≤ 2 * (x.num.natAbs * 10 ^ 100) + x.den ∧
      2 * (x.num.natAbs * 10 ^ 100) ≤ 2 * (K * x.den) + x.den := by
  obtain ⟨K, frac, fp, hs, hfrac, hd, hnz, hle, hv, h1, h2⟩ := amountString_shape x
  refine ⟨K, ?_, h1, h2⟩
  have hip := natStr_digits (K / 10 ^ 100)
  have hne := natStr_ne_nil (K / 10 ^ 100)
  generalize hipd : natStr (K / 10 ^ 100) = ip at *
  generalize hsgd : (if x.num < 0 then ['-'] else [] : Str) = sg at *
  have hsg : sg = [] ∨ sg = ['+'] ∨ sg = ['-'] := by
    rw [← hsgd]; split <;> simp
  have hsg' : (sg = ['-']) ↔ x.num < 0 := by
    rw [← hsgd]; split <;> simp_all
  have hmem : ∀ c ∈ sg ++ (ip ++ frac), plainC c ∧ c ≠ ',' ∧ isSpace c = false := by
    intro c hc
    have hdig : ∀ c, isDigit c = true → plainC c ∧ c ≠ ',' ∧ isSpace c = false := fun c h =>
      ⟨Or.inl h, digit_ne h (by decide), isDigit_not_space h⟩
    rcases List.mem_append.mp hc with hc | hc
    · rcases hsg with rfl | rfl | rfl <;> simp at hc <;> subst hc <;> unfold plainC <;> decide
    · rcases List.mem_append.mp hc with hc | hc
      · exact hdig c (hip c hc)
      · rcases hfrac with ⟨rfl, -⟩ | ⟨rfl, -⟩
        · simp at hc
        · rcases List.mem_cons.mp hc with rfl | hc
          · unfold plainC; decide
          · exact hdig c (hd c hc)
  have htr : trimSpace (Amount.string x) = Amount.string x := by
    apply trimSpace_of_trimmed
    rw [hs]
    exact ⟨fun c hc => (hmem c (List.mem_of_mem_head? hc)).2.2,
      fun c hc => (hmem c (List.mem_of_getLast? hc)).2.2⟩
  unfold Amount.unmarshal
  rw [htr, hs]
  simp only
  rw [replaceFirst_notMem (fun h => (hmem _ h).2.1 rfl)]
  rw [ratSetString_decimal sg ip fp hsg hip hd (by simp [hne]) (by omega) (ip ++ frac)]
  · rw [hv]
    simp only [hsg']
  · rcases hfrac with ⟨rfl, rfl⟩ | ⟨rfl, -⟩
    · right; simp
    · left; rfl

end Ofx
