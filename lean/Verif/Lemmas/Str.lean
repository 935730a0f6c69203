import Verif.Go.Str
import Mathlib.Tactic.Ring
/- Helper lemmas about the string and number models. -/
namespace Ofx

/-- All characters are white space. -/
def AllSpace (s : Str) : Prop := ∀ c ∈ s, isSpace c = true

/-- No leading or trailing white space. -/
def Trimmed (s : Str) : Prop :=
  (∀ c, s.head? = some c → isSpace c = false) ∧ (∀ c, s.getLast? = some c → isSpace c = false)

instance (s : Str) : Decidable (AllSpace s) := by unfold AllSpace; infer_instance

theorem dropWhile_append_all {α} {p : α → Bool} {w s : List α} (h : ∀ c ∈ w, p c = true) :
    (w ++ s).dropWhile p = s.dropWhile p := by
  induction w with
  | nil => rfl
  | cons x xs ih =>
    have hx := h x (by simp)
    simp [hx]
    exact ih (fun c hc => h c (by simp [hc]))

theorem dropWhile_eq_self {α} {p : α → Bool} {s : List α}
    (h : ∀ c, s.head? = some c → p c = false) : s.dropWhile p = s := by
  cases s with
  | nil => rfl
  | cons x xs => simp [h x (by simp)]

theorem dropWhile_all {α} {p : α → Bool} {w : List α} (h : ∀ c ∈ w, p c = true) :
    w.dropWhile p = [] := by
  have := dropWhile_append_all (s := []) h
  simpa using this

theorem trimRightP_append_all {p : Char → Bool} {w s : Str} (h : ∀ c ∈ w, p c = true) :
    trimRightP p (s ++ w) = trimRightP p s := by
  unfold trimRightP
  rw [List.reverse_append, dropWhile_append_all]
  intro c hc; exact h c (by simpa using hc)

theorem trimRightP_eq_self {p : Char → Bool} {s : Str}
    (h : ∀ c, s.getLast? = some c → p c = false) : trimRightP p s = s := by
  unfold trimRightP
  rw [dropWhile_eq_self, List.reverse_reverse]
  intro c hc; exact h c (by simpa using hc)

theorem trimSpace_pad {w s w' : Str} (h : AllSpace w) (h' : AllSpace w') (hs : Trimmed s) :
    trimSpace (w ++ s ++ w') = s := by
  unfold trimSpace trimLeftP
  rw [List.append_assoc, dropWhile_append_all h]
  by_cases he : s = []
  · subst he
    simp only [List.nil_append]
    rw [dropWhile_all h']; rfl
  · rw [dropWhile_eq_self, trimRightP_append_all h', trimRightP_eq_self hs.2]
    intro c hc
    apply hs.1
    cases s with
    | nil => exact absurd rfl he
    | cons x xs => simpa using hc

theorem trimSpace_of_trimmed {s : Str} (hs : Trimmed s) : trimSpace s = s := by
  have := trimSpace_pad (w := []) (w' := []) (s := s) (by intro c h; cases h) (by intro c h; cases h) hs
  simpa using this

theorem mem_takeWhile_imp {α} {p : α → Bool} {s : List α} {c : α}
    (h : c ∈ s.takeWhile p) : p c = true := by
  induction s with
  | nil => simp at h
  | cons x xs ih =>
    rw [List.takeWhile_cons] at h
    split at h
    · rcases List.mem_cons.mp h with h | h
      · subst h; assumption
      · exact ih h
    · simp at h

/-- Every string is white space, then its trimmed core, then white space. -/
theorem trimSpace_decomp (s : Str) :
    ∃ w w', AllSpace w ∧ AllSpace w' ∧ s = w ++ trimSpace s ++ w' := by
  refine ⟨s.takeWhile isSpace, ((s.dropWhile isSpace).reverse.takeWhile isSpace).reverse, ?_, ?_, ?_⟩
  · intro c hc; exact mem_takeWhile_imp hc
  · intro c hc
    have : c ∈ (s.dropWhile isSpace).reverse.takeWhile isSpace := by simpa using hc
    exact mem_takeWhile_imp this
  · unfold trimSpace trimRightP trimLeftP
    rw [List.append_assoc, ← List.reverse_append, List.takeWhile_append_dropWhile,
      List.reverse_reverse, List.takeWhile_append_dropWhile]

theorem head_dropWhile {α} {p : α → Bool} (s : List α) (c : α)
    (h : (s.dropWhile p).head? = some c) : p c = false := by
  induction s with
  | nil => simp at h
  | cons x xs ih =>
    rw [List.dropWhile_cons] at h
    split at h
    · exact ih h
    · next hx => simp at h; subst h; simpa using hx

theorem trimSpace_trimmed (s : Str) : Trimmed (trimSpace s) := by
  constructor
  · intro c hc
    unfold trimSpace trimRightP at hc
    have hpre : (List.dropWhile isSpace (trimLeftP isSpace s).reverse).reverse <+: trimLeftP isSpace s := by
      have := (List.dropWhile_suffix (l := (trimLeftP isSpace s).reverse) isSpace)
      have := List.reverse_prefix.mpr this
      simpa using this
    obtain ⟨t, ht⟩ := hpre
    apply head_dropWhile s c
    change (trimLeftP isSpace s).head? = some c
    rw [← ht, List.head?_append, hc]; rfl
  · intro c hc
    unfold trimSpace trimRightP at hc
    apply head_dropWhile (p := isSpace) (trimLeftP isSpace s).reverse c
    simpa using hc

theorem trimSpace_idem (s : Str) : trimSpace (trimSpace s) = trimSpace s :=
  trimSpace_of_trimmed (trimSpace_trimmed s)

theorem AllSpace.append {a b : Str} (ha : AllSpace a) (hb : AllSpace b) : AllSpace (a ++ b) := by
  intro c hc
  rcases List.mem_append.mp hc with h | h
  · exact ha c h
  · exact hb c h

theorem trimSpace_pad' (w s w' : Str) (h : AllSpace w) (h' : AllSpace w') :
    trimSpace (w ++ s ++ w') = trimSpace s := by
  obtain ⟨u, u', hu, hu', he⟩ := trimSpace_decomp s
  have : w ++ s ++ w' = (w ++ u) ++ trimSpace s ++ (u' ++ w') := by
    rw [he]; simp only [List.append_assoc]
    congr 2
    rw [← List.append_assoc, ← List.append_assoc u, ← he]
    simp
  rw [this, trimSpace_pad (h.append hu) (hu'.append h') (trimSpace_trimmed s)]

/-! ### Digits -/

theorem Char.toNat_ofNat_of_lt {n : Nat} (h : n < 0xd800) : (Char.ofNat n).toNat = n := by
  have hv : n.isValidChar := Or.inl h
  simp [Char.ofNat, hv, Char.toNat, Char.ofNatAux, UInt32.toNat]

theorem digitC_toNat {d : Nat} (h : d < 10) : (digitC d).toNat = 48 + d :=
  Char.toNat_ofNat_of_lt (by omega)

theorem isDigit_digitC {d : Nat} (h : d < 10) : isDigit (digitC d) = true := by
  simp [isDigit, digitC_toNat h]; omega

theorem digitV_digitC {d : Nat} (h : d < 10) : digitV (digitC d) = d := by
  simp [digitV, digitC_toNat h]

theorem digitV_lt {c : Char} (h : isDigit c = true) : digitV c < 10 := by
  simp [isDigit] at h; simp [digitV]; omega

theorem digitC_digitV {c : Char} (h : isDigit c = true) : digitC (digitV c) = c := by
  simp [isDigit] at h
  apply Char.toNat_inj.mp
  rw [digitC_toNat (by simp [digitV]; omega)]
  simp [digitV]; omega

theorem decAux_fuel (f g n : Nat) (hf : n < f) (hg : n < g) : decAux f n = decAux g n := by
  induction f generalizing g n with
  | zero => omega
  | succ f ih =>
    cases g with
    | zero => omega
    | succ g =>
      rw [decAux, decAux]
      split
      · rfl
      · rw [ih g (n / 10) (by omega) (by omega)]

theorem natStr_lt10 {n : Nat} (h : n < 10) : natStr n = [digitC n] := by
  simp [natStr, decAux, h]

theorem natStr_ge10 {n : Nat} (h : ¬ n < 10) : natStr n = natStr (n / 10) ++ [digitC (n % 10)] := by
  rw [natStr, decAux, if_neg h, natStr, decAux_fuel n (n / 10 + 1) (n / 10) (by omega) (by omega)]

theorem natStr_digits (n : Nat) : ∀ c ∈ natStr n, isDigit c = true := by
  induction n using Nat.strongRecOn with
  | ind n ih =>
    by_cases h : n < 10
    · rw [natStr_lt10 h]; intro c hc; simp at hc; subst hc; exact isDigit_digitC h
    · rw [natStr_ge10 h]; intro c hc
      rcases List.mem_append.mp hc with hc | hc
      · exact ih (n / 10) (by omega) c hc
      · simp at hc; subst hc; exact isDigit_digitC (by omega)

theorem natStr_ne_nil (n : Nat) : natStr n ≠ [] := by
  by_cases h : n < 10
  · rw [natStr_lt10 h]; simp
  · rw [natStr_ge10 h]; simp

theorem digitsVal_append (a b : Str) :
    digitsVal (a ++ b) = digitsVal a * 10 ^ b.length + digitsVal b := by
  have gen : ∀ (b : Str) (x : Nat), b.foldl (fun a c => a * 10 + digitV c) x
      = x * 10 ^ b.length + digitsVal b := by
    intro b
    induction b with
    | nil => intro x; simp [digitsVal]
    | cons c cs ih =>
      intro x
      simp only [List.foldl_cons, digitsVal, List.length_cons]
      rw [ih, ih (0 * 10 + digitV c), Nat.pow_succ]
      ring
  unfold digitsVal
  rw [List.foldl_append, gen]; rfl

theorem digitsVal_singleton (c : Char) : digitsVal [c] = digitV c := by simp [digitsVal]

theorem digitsVal_cons (c : Char) (s : Str) :
    digitsVal (c :: s) = digitV c * 10 ^ s.length + digitsVal s := by
  have := digitsVal_append [c] s
  simpa [digitsVal_singleton] using this

theorem digitsVal_natStr (n : Nat) : digitsVal (natStr n) = n := by
  induction n using Nat.strongRecOn with
  | ind n ih =>
    by_cases h : n < 10
    · rw [natStr_lt10 h, digitsVal_singleton, digitV_digitC h]
    · rw [natStr_ge10 h, digitsVal_append, ih (n / 10) (by omega), digitsVal_singleton,
        digitV_digitC (by omega)]
      simp; omega

theorem digitsVal_replicate_zero (k : Nat) : digitsVal (List.replicate k '0') = 0 := by
  induction k with
  | zero => rfl
  | succ k ih =>
    rw [List.replicate_succ, digitsVal_cons, ih]; simp [digitV]

theorem digitsVal_padZero (w : Nat) (s : Str) : digitsVal (padZero w s) = digitsVal s := by
  simp [padZero, digitsVal_append, digitsVal_replicate_zero]

theorem digitsVal_lt {s : Str} (h : ∀ c ∈ s, isDigit c = true) : digitsVal s < 10 ^ s.length := by
  induction s with
  | nil => simp [digitsVal]
  | cons c cs ih =>
    rw [digitsVal_cons, List.length_cons, Nat.pow_succ]
    have h1 := ih (fun x hx => h x (by simp [hx]))
    have h2 := digitV_lt (h c (by simp))
    have : digitV c * 10 ^ cs.length ≤ 9 * 10 ^ cs.length := Nat.mul_le_mul_right _ (by omega)
    omega

theorem natStr_length_le {n k : Nat} (h : n < 10 ^ k) (hk : 0 < k) : (natStr n).length ≤ k := by
  induction k generalizing n with
  | zero => omega
  | succ k ih =>
    by_cases h10 : n < 10
    · rw [natStr_lt10 h10]; simp
    · rw [natStr_ge10 h10]
      have hk : 0 < k := by
        rcases k with _ | k
        · simp at h; omega
        · omega
      have : n / 10 < 10 ^ k := by
        rw [Nat.pow_succ] at h; omega
      have := ih this hk
      simp; omega

theorem padZero_length {w : Nat} {s : Str} (h : s.length ≤ w) : (padZero w s).length = w := by
  simp [padZero]; omega

theorem padZero_digits {w : Nat} {s : Str} (h : ∀ c ∈ s, isDigit c = true) :
    ∀ c ∈ padZero w s, isDigit c = true := by
  intro c hc
  rcases List.mem_append.mp hc with hc | hc
  · rw [List.mem_replicate] at hc; rw [hc.2]; decide
  · exact h c hc

/-- Two digit strings of equal length with the same value are equal. -/
theorem digitsVal_inj {a b : Str} (ha : ∀ c ∈ a, isDigit c = true) (hb : ∀ c ∈ b, isDigit c = true)
    (hl : a.length = b.length) (hv : digitsVal a = digitsVal b) : a = b := by
  induction a generalizing b with
  | nil => cases b with
    | nil => rfl
    | cons _ _ => simp at hl
  | cons x xs ih =>
    cases b with
    | nil => simp at hl
    | cons y ys =>
      simp at hl
      rw [digitsVal_cons, digitsVal_cons, hl] at hv
      have h1 := digitsVal_lt (s := xs) (fun c hc => ha c (by simp [hc]))
      have h2 := digitsVal_lt (s := ys) (fun c hc => hb c (by simp [hc]))
      rw [hl] at h1
      have hp : 0 < 10 ^ ys.length := Nat.pow_pos (by omega)
      have hq : digitV x = digitV y := by
        have e1 : (digitV x * 10 ^ ys.length + digitsVal xs) / 10 ^ ys.length = digitV x := by
          rw [Nat.mul_comm, Nat.mul_add_div hp, Nat.div_eq_of_lt h1]; rfl
        have e2 : (digitV y * 10 ^ ys.length + digitsVal ys) / 10 ^ ys.length = digitV y := by
          rw [Nat.mul_comm, Nat.mul_add_div hp, Nat.div_eq_of_lt h2]; rfl
        rw [← e1, hv, e2]
      have hx : x = y := by
        rw [← digitC_digitV (ha x (by simp)), hq, digitC_digitV (hb y (by simp))]
      subst hx
      have : digitsVal xs = digitsVal ys := by omega
      rw [ih (fun c hc => ha c (by simp [hc])) (fun c hc => hb c (by simp [hc])) hl this]

theorem isDigit_not_space {c : Char} (h : isDigit c = true) : isSpace c = false := by
  simp [isDigit] at h
  simp [isSpace]
  omega

end Ofx
