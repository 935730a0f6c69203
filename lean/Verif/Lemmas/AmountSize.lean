import Verif.Lemmas.AmountText
import Verif.Lemmas.AmountPrint
import Mathlib.Algebra.Order.Field.Power
/-
How large an amount can be, and its text, given the text it was read from.
-/
namespace Ofx
open Spec

theorem valueIn_lt {b : Nat} {s : Str} (h : ∀ c ∈ s, digitIn c < b) : valueIn b s < b ^ s.length := by
  induction s with
  | nil => simp [valueIn]
  | cons c s ih =>
    have h1 := h c (List.mem_cons_self ..)
    have h2 := ih (fun x hx => h x (List.mem_cons_of_mem _ hx))
    rw [valueIn, List.length_cons, Nat.pow_succ]
    have : (digitIn c + 1) * b ^ s.length ≤ b * b ^ s.length := Nat.mul_le_mul_right _ h1
    rw [Nat.add_mul] at this
    rw [Nat.mul_comm (b ^ s.length) b]
    omega

theorem intersperse_flatten_length (x : Str) (gs : List Str) : gs.flatten.length ≤ (gs.intersperse x).flatten.length := by
  induction gs with
  | nil => simp
  | cons g gs ih =>
    cases gs with
    | nil => simp
    | cons g' gs => simp only [List.intersperse_cons_cons, List.flatten_cons, List.length_append] at *; omega

theorem grouped_bound {b : Nat} {s ds : Str} (h : Grouped b s ds) : ds.length ≤ s.length ∧ ∀ c ∈ ds, digitIn c < b := by
  obtain ⟨gs, -, h1, rfl, rfl⟩ := h
  refine ⟨intersperse_flatten_length _ _, fun c hc => ?_⟩
  obtain ⟨g, hg, hc⟩ := List.mem_flatten.mp hc
  exact (h1 g hg).2 c hc

theorem prefix_base {b : Nat} {pre it : Str} (h : Prefix b pre it) : b = 2 ∨ b = 8 ∨ b = 10 ∨ b = 16 := by
  rcases h with ⟨rfl, -⟩ | ⟨p, hp, -⟩
  · simp
  · simp only [basePrefixes, List.mem_cons, Prod.mk.injEq, List.not_mem_nil, or_false] at hp
    omega

theorem pow_bound {b n m : Nat} (hb : b ≤ 16) (h : n ≤ m) : b ^ n ≤ 2 ^ (4 * m) := by
  calc b ^ n ≤ 16 ^ n := Nat.pow_le_pow_left hb n
    _ ≤ 16 ^ m := Nat.pow_le_pow_right (by omega) h
    _ = 2 ^ (4 * m) := by rw [Nat.pow_mul]

theorem value_bound {b : Nat} {ds : Str} {m : Nat} (hb : b = 2 ∨ b = 8 ∨ b = 10 ∨ b = 16) (hd : ∀ c ∈ ds, digitIn c < b)
    (hl : ds.length ≤ m) : valueIn b ds ≤ 2 ^ (4 * m) :=
  Nat.le_trans (Nat.le_of_lt (valueIn_lt hd)) (pow_bound (by omega) hl)

theorem whole_bound {s : Str} {n : Nat} (h : WholeText s n) : n ≤ 2 ^ (4 * s.length) := by
  rcases h with ⟨rfl, rfl⟩ | ⟨ds, hg, -, rfl⟩ | ⟨t, ds, hs, hg, rfl⟩ | ⟨b, pre, t, ds, -, rfl, hp, hg, rfl⟩
  · exact Nat.zero_le _
  · obtain ⟨h1, h2⟩ := grouped_bound hg
    exact value_bound (by omega) h2 h1
  · obtain ⟨h1, h2⟩ := grouped_bound hg
    refine value_bound (by omega) h2 (Nat.le_trans h1 ?_)
    rcases hs with rfl | rfl <;> simp
    omega
  · obtain ⟨h1, h2⟩ := grouped_bound hg
    refine value_bound (prefix_base hp) h2 (Nat.le_trans h1 ?_)
    simp

/-- A power of two and one of five instead of a power of the base and one of ten. -/
theorem scaled {b k ebase : Nat} {e : Int} (hb : b = 2 ∨ b = 8 ∨ b = 10 ∨ b = 16) (he : ebase = 10 ∨ ebase = 2) (v : ℚ) :
    v / b ^ k * (ebase : ℚ) ^ e = v * (2 : ℚ) ^ powerOfTwo b k e * (5 : ℚ) ^ powerOfFive b k ebase e := by
  have h2 : (2 : ℚ) ≠ 0 := by norm_num
  have h5 : (5 : ℚ) ≠ 0 := by norm_num
  have hbk : (1 : ℚ) / (b : ℚ) ^ k = (2 : ℚ) ^ (if b = 8 then -3 * (k : Int) else if b = 16 then -4 * (k : Int) else -(k : Int)) *
      (5 : ℚ) ^ (if b = 10 then -(k : Int) else 0) := by
    rcases hb with rfl | rfl | rfl | rfl
    · simp [zpow_neg]
    · have : ((8 : Nat) : ℚ) = 2 ^ 3 := by norm_num
      rw [this, ← pow_mul]
      simp only [if_true, show ¬ (8 : Nat) = 10 by omega, if_false, zpow_zero, mul_one]
      rw [show (-3 * (k : Int)) = -((3 * k : Nat) : Int) by push_cast; ring, zpow_neg, zpow_natCast, one_div]
    · have : ((10 : Nat) : ℚ) = 2 * 5 := by norm_num
      rw [this, mul_pow]
      simp [zpow_neg, mul_comm]
    · have : ((16 : Nat) : ℚ) = 2 ^ 4 := by norm_num
      rw [this, ← pow_mul]
      simp only [if_true, show ¬ (16 : Nat) = 10 by omega, show ¬ (16 : Nat) = 8 by omega, if_false, zpow_zero, mul_one]
      rw [show (-4 * (k : Int)) = -((4 * k : Nat) : Int) by push_cast; ring, zpow_neg, zpow_natCast, one_div]
  have hee : (ebase : ℚ) ^ e = (2 : ℚ) ^ e * (5 : ℚ) ^ (if ebase = 10 then e else 0) := by
    rcases he with rfl | rfl
    · have : ((10 : Nat) : ℚ) = 2 * 5 := by norm_num
      rw [this, mul_zpow, if_pos rfl]
    · simp
  rw [powerOfTwo, powerOfFive, zpow_add₀ h2, zpow_add₀ h5, hee, div_eq_mul_one_div, hbk]
  ring

theorem zpow_bound {x : ℚ} (hx : 1 ≤ x) {e : Int} {m : Nat} (h : |e| ≤ m) : x ^ e ≤ x ^ m := by
  rw [← zpow_natCast]
  exact zpow_le_zpow_right₀ hx (le_trans (le_abs_self e) h)

theorem exponent_bases {s : Str} {base : Nat} {e : Int} (h : ExponentText s base e) : base = 10 ∨ base = 2 := by
  rcases h with ⟨-, rfl, -⟩ | ⟨-, -, -, -, -, ⟨rfl, -⟩ | ⟨rfl, -⟩, -⟩ <;> simp

theorem point_bound {s : Str} {q : ℚ} (h : PointText s q) (m2 m5 : Nat) (hm2 : m2 = 10000000) (hm5 : m5 = 1000000) :
    0 ≤ q ∧ q ≤ 2 ^ (4 * s.length) * 2 ^ m2 * 5 ^ m5 := by
  obtain ⟨b, pre, it, ip, frac, ft, fp, ex, ebase, e, rfl, hp, hi, hf, -, hex, -, hr, rfl⟩ := h
  have hb := prefix_base hp
  have hip : ip.length ≤ it.length ∧ ∀ c ∈ ip, digitIn c < b := by
    rcases hi with ⟨rfl, rfl⟩ | hi
    · simp
    · exact grouped_bound hi
  have hfp : fp.length ≤ frac.length ∧ ∀ c ∈ fp, digitIn c < b := by
    rcases hf with ⟨rfl, rfl⟩ | ⟨hfr, ⟨rfl, rfl⟩ | hg⟩
    · simp
    · simp
    · have := grouped_bound hg
      refine ⟨?_, this.2⟩
      rcases hfr with rfl | rfl <;> simp <;> omega
  have hv : valueIn b (ip ++ fp) ≤ 2 ^ (4 * (pre ++ it ++ frac ++ ex).length) := by
    refine value_bound hb ?_ ?_
    · intro c hc
      rcases List.mem_append.mp hc with hc | hc
      · exact hip.2 c hc
      · exact hfp.2 c hc
    · simp only [List.length_append]; omega
  have p2 : (0 : ℚ) ≤ 2 ^ (4 * (pre ++ it ++ frac ++ ex).length) * 2 ^ m2 * 5 ^ m5 := by positivity
  refine ⟨by positivity, ?_⟩
  rcases hr with h0 | ⟨h5, h2⟩
  · rw [h0]; simp
  · rw [scaled hb (exponent_bases hex)]
    have h2' := zpow_bound (x := 2) (by norm_num) (m := m2) (by rw [hm2]; exact_mod_cast h2)
    have h5' := zpow_bound (x := 5) (by norm_num) (m := m5) (by rw [hm5]; exact_mod_cast h5)
    have hv' : (valueIn b (ip ++ fp) : ℚ) ≤ 2 ^ (4 * (pre ++ it ++ frac ++ ex).length) := by exact_mod_cast hv
    gcongr

theorem amount_bound {s : Str} {q : ℚ} (h : AmountText s q) (m : Nat) (hm : m = 13000000) : |q| ≤ 2 ^ (4 * s.length + m) := by
  obtain ⟨sign, t, x, rfl, -, ht, rfl⟩ := h
  have h0 : |(if sign = ['-'] then -1 else 1) * x| = |x| := by
    by_cases hs : sign = ['-']
    · rw [if_pos hs]; simp
    · rw [if_neg hs]; simp
  rw [h0]
  have hx : 0 ≤ x ∧ x ≤ 2 ^ (4 * t.length + m) := by
    rcases ht with hp | ⟨a, b, n, d, rfl, ha, hb, hd, rfl⟩
    · obtain ⟨h1, h2⟩ := point_bound hp 10000000 1000000 rfl rfl
      refine ⟨h1, le_trans h2 ?_⟩
      obtain ⟨m2, e2⟩ : ∃ m2, m2 = 10000000 := ⟨_, rfl⟩
      obtain ⟨m5, e5⟩ : ∃ m5, m5 = 1000000 := ⟨_, rfl⟩
      rw [← e2, ← e5]
      have : (5 : ℚ) ^ m5 ≤ 2 ^ (3 * m5) := by
        rw [pow_mul]
        gcongr
        norm_num
      have hm' : m = m2 + 3 * m5 := by omega
      rw [hm', pow_add, pow_add, ← mul_assoc]
      gcongr
    · have h1 := whole_bound ha
      refine ⟨by positivity, ?_⟩
      have hd' : (1 : ℚ) ≤ d := by exact_mod_cast Nat.one_le_iff_ne_zero.mpr hd
      have h1' : (n : ℚ) ≤ 2 ^ (4 * a.length) := by exact_mod_cast h1
      calc (n : ℚ) / d ≤ n := div_le_self (by positivity) hd'
        _ ≤ 2 ^ (4 * a.length) := h1'
        _ ≤ 2 ^ (4 * (a ++ '/' :: b).length + m) := by
          refine pow_le_pow_right₀ (by norm_num) ?_
          simp only [List.length_append]; omega
  rw [abs_of_nonneg hx.1]
  refine le_trans hx.2 (pow_le_pow_right₀ (by norm_num) ?_)
  simp only [List.length_append]; omega

/-- The length of a printed amount. -/
theorem amount_print_length {q : ℚ} {k : Nat} (h : |q| ≤ 2 ^ k) : (Amount.string q).length ≤ k + 103 := by
  obtain ⟨K, frac, fp, hs, hf, -, -, hfp, -, h1, -⟩ := amountString_shape q
  have hd := q.den_pos
  have hq : q.num.natAbs ≤ 2 ^ k * q.den := by
    have e : |q| = (q.num.natAbs : ℚ) / q.den := by
      rw [← Rat.num_div_den q, abs_div, Rat.num_div_den]
      simp
    rw [e, div_le_iff₀ (by exact_mod_cast hd)] at h
    exact_mod_cast h
  have hK : K / 10 ^ 100 < 10 ^ (k + 1) := by
    rw [Nat.div_lt_iff_lt_mul (Nat.pow_pos (by omega))]
    have hP : 1 ≤ 10 ^ 100 := Nat.pow_pos (by omega)
    generalize 10 ^ 100 = P at *
    have h3 : K * q.den ≤ (2 ^ k * P + 1) * q.den := by
      have : q.num.natAbs * P ≤ 2 ^ k * q.den * P := Nat.mul_le_mul_right _ hq
      have e : (2 ^ k * P + 1) * q.den = 2 ^ k * q.den * P + q.den := by ring
      rw [e]; omega
    have h4 : K ≤ 2 ^ k * P + 1 := Nat.le_of_mul_le_mul_right h3 hd
    have h5 : 2 ^ k ≤ 10 ^ k := Nat.pow_le_pow_left (by omega) k
    have h6 : 2 ^ k * P ≤ 10 ^ k * P := Nat.mul_le_mul_right _ h5
    have h7 : 1 ≤ 10 ^ k * P := Nat.mul_pos (Nat.pow_pos (by omega)) hP
    have e : 10 ^ (k + 1) * P = 10 * (10 ^ k * P) := by rw [Nat.pow_succ]; ring
    rw [e]; omega
  have h8 := natStr_length_le hK (by omega)
  have h9 : frac.length ≤ 101 := by
    rcases hf with ⟨rfl, -⟩ | ⟨rfl, -⟩ <;> simp
    omega
  rw [hs]
  have h10 : (if q.num < 0 then ['-'] else ([] : Str)).length ≤ 1 := by split <;> simp
  simp only [List.length_append]
  omega

end Ofx
