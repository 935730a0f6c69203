import Verif.Lemmas.AmountPrint
/-
Properties C02-C05 of OFX amounts.
-/
namespace Ofx.Props
open Ofx Spec

theorem isDecDigit_all {s : Str} : (∀ c ∈ s, IsDecDigit c) ↔ (∀ c ∈ s, isDigit c = true) := by
  simp only [isDecDigit_iff]

theorem decimal_value (ip fp : Str) (hip : ∀ c ∈ ip, isDigit c = true) (hfp : ∀ c ∈ fp, isDigit c = true) :
    (digitsVal (ip ++ fp) : ℚ) / 10 ^ fp.length = (value ip : ℚ) + (value fp : ℚ) / 10 ^ fp.length := by
  rw [digitsVal_append, value_eq hip, value_eq hfp]
  have : (10 : ℚ) ^ fp.length ≠ 0 := by positivity
  push_cast
  field_simp

theorem sign_no_comma {sign : Str} (hs : sign = [] ∨ sign = ['+'] ∨ sign = ['-']) : ',' ∉ sign := by
  rcases hs with rfl | rfl | rfl <;> decide

theorem digits_no_comma {s : Str} (h : ∀ c ∈ s, isDigit c = true) : ',' ∉ s :=
  fun hc => absurd (h _ hc) (by decide)

/-- C02: every plain decimal numeral (sign, digits, at most one '.' or ',' as fractional
separator, any white space around it) decodes to exactly the rational it denotes. -/
theorem C02_decimal_exact (text core : Str) (k : Nat) (q : ℚ) (ht : TrimsTo text core)
    (hd : DecimalText core k q) (hk : k ≤ 1000000) : Amount.unmarshal text = .ok q := by
  obtain ⟨sign, ip, frac, fp, rfl, hs, hip, hfp, hne, hfrac, rfl, rfl⟩ := hd
  rw [isDecDigit_all] at hip hfp
  rw [trimsTo_iff] at ht
  unfold Amount.unmarshal
  rw [ht]
  simp only
  have hc1 : ',' ∉ sign ++ ip := by
    simp only [List.mem_append, not_or]
    exact ⟨sign_no_comma hs, digits_no_comma hip⟩
  have hrep : ∃ body, replaceFirst ',' '.' (sign ++ ip ++ frac) = sign ++ body ∧
      (body = ip ++ '.' :: fp ∨ (body = ip ∧ fp = [])) := by
    rcases hfrac with ⟨rfl, rfl⟩ | rfl | rfl
    · refine ⟨ip, ?_, Or.inr ⟨rfl, rfl⟩⟩
      rw [List.append_nil, replaceFirst_notMem hc1]
    · refine ⟨ip ++ '.' :: fp, ?_, Or.inl rfl⟩
      rw [replaceFirst_notMem, List.append_assoc]
      intro h
      rcases List.mem_append.mp h with h | h
      · exact hc1 h
      · rcases List.mem_cons.mp h with h | h
        · cases h
        · exact digits_no_comma hfp h
    · exact ⟨ip ++ '.' :: fp, by rw [replaceFirst_append hc1, List.append_assoc], Or.inl rfl⟩
  obtain ⟨body, hr, hb⟩ := hrep
  rw [hr, ratSetString_decimal sign ip fp hs hip hfp hne hk body hb, decimal_value ip fp hip hfp]

example : Amount.unmarshal " -12,50\n".toList = .ok (-25/2) :=
  C02_decimal_exact _ "-12,50".toList 2 _ ⟨[' '], ['\n'], by decide, by decide, rfl, by decide, by decide⟩
    ⟨['-'], "12".toList, ",50".toList, "50".toList, rfl, by decide, by decide, by decide, by decide,
      by decide, rfl, by
        rw [show value "12".toList = 12 from by decide, show value "50".toList = 50 from by decide,
          show "50".toList.length = 2 from rfl]; norm_num⟩ (by omega)

/-- C02, converse: a text made of digits, signs, points and commas only is accepted only
if it is a decimal numeral, and then as its value. -/
theorem C02_plain_accepted_only (text core : Str) (q : ℚ) (ht : TrimsTo text core)
    (hc : ∀ c ∈ core, IsPlainAmountChar c) (h : Amount.unmarshal text = .ok q) :
    ∃ k, DecimalText core k q := by
  rw [trimsTo_iff] at ht
  unfold Amount.unmarshal at h
  rw [ht] at h
  simp only at h
  have hpl : ∀ c ∈ core, plainC c := fun c hm => by
    have := hc c hm
    unfold IsPlainAmountChar at this
    rw [isDecDigit_iff] at this
    exact this
  by_cases hcomma : ',' ∈ core
  · obtain ⟨u, v, hu, he, hr⟩ := replaceFirst_inv (b := '.') hcomma
    rw [hr] at h
    split at h
    · next r hr' =>
      cases h
      obtain ⟨sign, ip, fp, body, hsb, hs, hip, hfp, hne, hb, -, hq⟩ := ratSetString_plain_inv (s := u ++ '.' :: v)
        (fun c hm => by
          rcases List.mem_append.mp hm with hm | hm
          · exact hpl c (by rw [he]; simp [hm])
          · rcases List.mem_cons.mp hm with rfl | hm
            · exact Or.inr (Or.inr (Or.inr (Or.inl rfl)))
            · exact hpl c (by rw [he]; simp [hm])) hr'
      have hnd : '.' ∉ sign ++ ip := by
        simp only [List.mem_append, not_or]
        exact ⟨by rcases hs with rfl | rfl | rfl <;> decide, fun hm => absurd (hip _ hm) (by decide)⟩
      have hnf : '.' ∉ fp := fun hm => absurd (hfp _ hm) (by decide)
      rcases hb with rfl | ⟨rfl, rfl⟩
      · have hlen : u = sign ++ ip ∧ v = fp := by
          have heq : u ++ '.' :: v = (sign ++ ip) ++ '.' :: fp := by rw [hsb, List.append_assoc]
          have hnu : '.' ∉ u := by
            intro hm
            have h2 : 2 ≤ (u ++ '.' :: v).count '.' := by
              rw [List.count_append, List.count_cons_self]
              have := List.count_pos_iff.mpr hm
              omega
            rw [heq, List.count_append, List.count_cons_self, List.count_eq_zero.mpr hnd,
              List.count_eq_zero.mpr hnf] at h2
            omega
          have h1 : ∀ (a b c d : Str), '.' ∉ a → '.' ∉ c → a ++ '.' :: b = c ++ '.' :: d → a = c ∧ b = d := by
            intro a
            induction a with
            | nil =>
              intro b c d _ hcn he
              cases c with
              | nil => simpa using he
              | cons x xs => simp at he; exact absurd he.1 (fun e => hcn (by rw [e]; simp))
            | cons y ys ih =>
              intro b c d han hcn he
              cases c with
              | nil => simp at he; exact absurd he.1.symm (fun e => han (by rw [e]; simp))
              | cons x xs =>
                simp at he
                have := ih b xs d (fun h => han (by simp [h])) (fun h => hcn (by simp [h])) he.2
                exact ⟨by rw [he.1, this.1], this.2⟩
          exact h1 _ _ _ _ hnu hnd heq
        obtain ⟨rfl, rfl⟩ := hlen
        refine ⟨v.length, sign, ip, ',' :: v, v, he, hs, isDecDigit_all.mpr hip, isDecDigit_all.mpr hfp,
          hne, Or.inr (Or.inr rfl), rfl, ?_⟩
        rw [hq, decimal_value ip v hip hfp]
      · exfalso
        apply hnd
        rw [← hsb]; simp
    · cases h
  · rw [replaceFirst_notMem hcomma] at h
    split at h
    · next r hr' =>
      cases h
      obtain ⟨sign, ip, fp, body, hsb, hs, hip, hfp, hne, hb, -, hq⟩ := ratSetString_plain_inv hpl hr'
      rw [decimal_value ip fp hip hfp] at hq
      rcases hb with rfl | ⟨rfl, rfl⟩
      · exact ⟨fp.length, sign, ip, '.' :: fp, fp, by rw [hsb, List.append_assoc], hs,
          isDecDigit_all.mpr hip, isDecDigit_all.mpr hfp, hne, Or.inr (Or.inl rfl), rfl, hq⟩
      · exact ⟨0, sign, body, [], [], by rw [hsb, List.append_nil], hs,
          isDecDigit_all.mpr hip, by simp, hne, Or.inl ⟨rfl, rfl⟩, rfl, hq⟩
    · cases h

example : ∃ k, DecimalText "1,234".toList k (617/500) :=
  C02_plain_accepted_only "1,234".toList "1,234".toList _ ⟨[], [], by decide, by decide, rfl, by decide, by decide⟩
    (by unfold IsPlainAmountChar; decide)
    (C02_decimal_exact _ "1,234".toList 3 _ ⟨[], [], by decide, by decide, rfl, by decide, by decide⟩
      ⟨[], ['1'], ",234".toList, "234".toList, rfl, by decide, by decide, by decide, by decide,
      by decide, rfl, by
        rw [show value ['1'] = 1 from by decide, show value "234".toList = 234 from by decide,
          show "234".toList.length = 3 from rfl]; norm_num⟩ (by omega))

/-- C03: parsing a printed amount gives a value within half a unit of the 100th decimal,
and exactly the amount iff that is a multiple of 10^-100. -/
theorem C03_roundtrip (x : ℚ) :
    ∃ y, Amount.unmarshal (Amount.marshal x) = .ok y ∧ |y - x| ≤ 1 / 2 * (1 / 10 ^ 100) ∧
      (y = x ↔ ∃ n : ℤ, x = (n : ℚ) / 10 ^ 100) := by
  obtain ⟨K, hK, h1, h2⟩ := amount_print_parse x
  refine ⟨_, hK, ?_⟩
  have hx : x = (if x.num < 0 then -1 else 1) * ((x.num.natAbs : ℚ) / x.den) := by
    conv_lhs => rw [← Rat.num_div_den x]
    split
    · next h =>
      have : (x.num : ℚ) = -(x.num.natAbs : ℚ) := by
        have h' : x.num = -(x.num.natAbs : ℤ) := by omega
        have := congrArg (fun z : ℤ => (z : ℚ)) h'
        simpa only [Int.cast_neg, Int.cast_natCast] using this
      rw [this]; ring
    · next h =>
      have : (x.num : ℚ) = (x.num.natAbs : ℚ) := by
        have h' : x.num = (x.num.natAbs : ℤ) := by omega
        have := congrArg (fun z : ℤ => (z : ℚ)) h'
        simpa only [Int.cast_natCast] using this
      rw [this]; ring
  have hb : 0 < x.den := x.den_pos
  have hP : 0 < 10 ^ 100 := Nat.pow_pos (n := 100) (show 0 < 10 by omega)
  have hPq : (10 : ℚ) ^ 100 = ((10 ^ 100 : Nat) : ℚ) := by push_cast; rfl
  rw [hPq]
  generalize (10 ^ 100 : Nat) = P at *
  have hsg : ((if x.num < 0 then -1 else 1 : ℚ) = -1) ∨ ((if x.num < 0 then -1 else 1 : ℚ) = 1) := by
    split <;> simp
  generalize (if x.num < 0 then -1 else 1 : ℚ) = sg at *
  generalize x.num.natAbs = a at *
  generalize x.den = b at *
  have hbq : (0 : ℚ) < b := by exact_mod_cast hb
  have hPq : (0 : ℚ) < P := by exact_mod_cast hP
  have h1q : 2 * ((K : ℚ) * b) ≤ 2 * ((a : ℚ) * P) + b := by exact_mod_cast h1
  have h2q : 2 * ((a : ℚ) * P) ≤ 2 * ((K : ℚ) * b) + b := by exact_mod_cast h2
  constructor
  · have e : sg * ((K : ℚ) / P) - x = sg * (((K : ℚ) * b - a * P) / (P * b)) := by
      rw [hx]; field_simp
    have hab : |sg| = 1 := by rcases hsg with h | h <;> rw [h] <;> simp
    rw [e, abs_mul, hab, one_mul, abs_div, abs_of_pos (mul_pos hPq hbq), div_le_iff₀ (mul_pos hPq hbq)]
    have : 1 / 2 * (1 / (P : ℚ)) * (P * b) = b / 2 := by field_simp
    rw [this, abs_le]
    constructor <;> linarith
  · constructor
    · intro h
      rcases hsg with hs | hs
      · exact ⟨-(K : ℤ), by rw [← h, hs]; push_cast; ring⟩
      · exact ⟨(K : ℤ), by rw [← h, hs]; push_cast; ring⟩
    · rintro ⟨n, hn⟩
      have hmul : (a : ℚ) * P = (n.natAbs : ℚ) * b := by
        have hm : (a : ℚ) / b = sg * ((n : ℚ) / P) := by
          rw [← hn, hx]
          rcases hsg with hs | hs <;> rw [hs] <;> ring
        have hnn : (0 : ℚ) ≤ (a : ℚ) / b := div_nonneg (by positivity) (le_of_lt hbq)
        have hm2 : (a : ℚ) * P = sg * n * b := by
          field_simp at hm
          linarith
        have hsn : sg * (n : ℚ) = (n.natAbs : ℚ) := by
          have hge : 0 ≤ sg * (n : ℚ) := by
            rw [hm] at hnn
            have : sg * (n : ℚ) = sg * ((n : ℚ) / P) * P := by field_simp
            rw [this]; exact mul_nonneg hnn (le_of_lt hPq)
          have habs : ((n.natAbs : ℕ) : ℚ) = |(n : ℚ)| := by
            rw [Nat.cast_natAbs]; push_cast; rfl
          rw [habs]
          rcases hsg with hs | hs
          · rw [hs] at hge ⊢
            rw [abs_of_nonpos (by linarith)]; ring
          · rw [hs] at hge ⊢
            rw [abs_of_nonneg (by linarith)]; ring
        rw [hm2, hsn]
      have hmulN : a * P = n.natAbs * b := by exact_mod_cast hmul
      rw [hmulN] at h1 h2
      have hKn : K = n.natAbs := by
        rcases Nat.lt_trichotomy K n.natAbs with h | h | h
        · exfalso
          have : (K + 1) * b ≤ n.natAbs * b := Nat.mul_le_mul_right b h
          rw [Nat.add_mul] at this; omega
        · exact h
        · exfalso
          have : (n.natAbs + 1) * b ≤ K * b := Nat.mul_le_mul_right b h
          rw [Nat.add_mul] at this; omega
      rw [hx, hKn]
      congr 1
      field_simp
      linarith

example : ∃ n : ℤ, (1234567/1000 : ℚ) = (n : ℚ) / 10 ^ 100 := ⟨1234567 * 10 ^ 97, by norm_num⟩
example : ¬ ∃ n : ℤ, (1/3 : ℚ) = (n : ℚ) / 10 ^ 100 := by
  rintro ⟨n, hn⟩
  have h3 : (3 * n : ℚ) = 10 ^ 100 := by
    field_simp at hn; linarith
  have : (3 * n : ℤ) = 10 ^ 100 := by exact_mod_cast h3
  omega

/-- C04: printed amounts are canonical decimals; the sign is '-' exactly for negative
amounts. -/
theorem C04_canonical (x : ℚ) :
    CanonicalDecimal (Amount.string x) ∧ ((Amount.string x).head? = some '-' ↔ x < 0) := by
  obtain ⟨K, frac, fp, hs, hfrac, hd, hnz, -⟩ := amountString_shape x
  have hip := natStr_digits (K / 10 ^ 100)
  have hne := natStr_ne_nil (K / 10 ^ 100)
  have hnum : (x.num < 0) ↔ x < 0 := Rat.num_neg
  constructor
  · refine ⟨_, natStr (K / 10 ^ 100), frac, by rw [hs, List.append_assoc], by split <;> simp,
      (isNumeral_iff _).mpr ⟨hne, hip⟩, natStr_head _, ?_⟩
    rcases hfrac with ⟨rfl, -⟩ | ⟨rfl, hfn⟩
    · left; rfl
    · right; exact ⟨fp, rfl, (isNumeral_iff _).mpr ⟨hfn, hd⟩, hnz⟩
  · rw [hs, ← hnum]
    by_cases h : x.num < 0
    · simp [h]
    · simp only [h, if_false, List.nil_append, iff_false]
      cases hn : natStr (K / 10 ^ 100) with
      | nil => exact absurd hn hne
      | cons c cs =>
        simp
        have := hip c (by rw [hn]; simp)
        exact digit_ne this (by decide)

example : Amount.string (-1/4) = "-0.25".toList := by decide +kernel
example : Amount.string 1200 = "1200".toList := by decide +kernel

/-- C04: amounts that are multiples of 10^-100 print the same text only if equal. -/
theorem C04_injective (x y : ℚ) (hx : ∃ n : ℤ, x = (n : ℚ) / 10 ^ 100) (hy : ∃ n : ℤ, y = (n : ℚ) / 10 ^ 100)
    (h : Amount.string x = Amount.string y) : x = y := by
  obtain ⟨a, ha, -, hai⟩ := C03_roundtrip x
  obtain ⟨b, hb, -, hbi⟩ := C03_roundtrip y
  rw [hai.mpr hx] at ha
  rw [hbi.mpr hy] at hb
  unfold Amount.marshal at ha hb
  rw [h, hb] at ha
  cases ha; rfl

example : ∃ x y : ℚ, (∃ n : ℤ, x = (n : ℚ) / 10 ^ 100) ∧ (∃ n : ℤ, y = (n : ℚ) / 10 ^ 100) ∧ x ≠ y :=
  ⟨1, 2, ⟨10 ^ 100, by norm_num⟩, ⟨2 * 10 ^ 100, by norm_num⟩, by norm_num⟩

/-- C05: a text with two or more separators is rejected. -/
theorem C05_two_separators_rejected (text : Str) (h : 2 ≤ separators text) :
    ∃ e, Amount.unmarshal text = .error e := by
  have hs : ∀ s : Str, separators s = seps s := by
    intro s; unfold separators seps
    apply List.countP_congr
    intro c _; simp [isSep]
  rw [hs] at h
  obtain ⟨w, w', hw, hw', ht⟩ := trimSpace_decomp text
  have hz : ∀ w, AllSpace w → seps w = 0 := by
    intro w hw
    unfold seps
    rw [List.countP_eq_zero]
    intro c hc
    have := hw c hc
    by_cases hcs : isSep c = true
    · simp only [isSep, Bool.or_eq_true, decide_eq_true_eq] at hcs
      rcases hcs with rfl | rfl <;> exact absurd this (by decide)
    · exact hcs
  rw [ht, seps_append, seps_append, hz w hw, hz w' hw'] at h
  unfold Amount.unmarshal
  cases hr : ratSetString (replaceFirst ',' '.' (trimSpace text)) with
  | none => simp [hr]
  | some q =>
    have := ratSetString_seps hr
    rw [seps_replaceFirst] at this
    omega

example : ∃ e, Amount.unmarshal "1,234.56".toList = .error e := C05_two_separators_rejected _ (by decide)

/-- C05: a single comma is read as the decimal point. -/
theorem C05_comma_is_point (ip fp : Str) (hip : IsNumeral ip) (hfp : IsNumeral fp) (hk : fp.length ≤ 1000000) :
    Amount.unmarshal (ip ++ ',' :: fp) = .ok ((value ip : ℚ) + (value fp : ℚ) / 10 ^ fp.length) := by
  apply C02_decimal_exact _ (ip ++ ',' :: fp) fp.length _ _ _ hk
  · rw [trimsTo_iff]
    apply trimSpace_of_trimmed
    have : ∀ c ∈ ip ++ ',' :: fp, isSpace c = false := by
      intro c hc
      rcases List.mem_append.mp hc with hc | hc
      · exact isDigit_not_space ((isDecDigit_iff c).mp (hip.2 c hc))
      · rcases List.mem_cons.mp hc with rfl | hc
        · decide
        · exact isDigit_not_space ((isDecDigit_iff c).mp (hfp.2 c hc))
    exact ⟨fun c hc => this c (List.mem_of_mem_head? hc), fun c hc => this c (List.mem_of_getLast? hc)⟩
  · exact ⟨[], ip, ',' :: fp, fp, by simp, by simp, hip.2, hfp.2, by simp [hip.1], Or.inr (Or.inr rfl), rfl, by simp⟩

end Ofx.Props
