import Verif.Spec.Number
import Verif.Model.Main

/-!
Which words strconv.ParseUint reads as numbers.
-/
namespace Ofx
open Spec

instance (c : Char) (d : Nat) : Decidable (NumberDigit c d) := by unfold NumberDigit; infer_instance

theorem numberDigit_ascii {c : Char} {d : Nat} (h : NumberDigit c d) : c.toNat < 128 := by
  have key : ∀ d : _root_.Fin 36, ("0123456789abcdefghijklmnopqrstuvwxyz".toList[d.1]?).all (·.toNat < 128) = true ∧
      ("0123456789ABCDEFGHIJKLMNOPQRSTUVWXYZ".toList[d.1]?).all (·.toNat < 128) = true := by decide +kernel
  obtain ⟨hd, h | h⟩ := h
  · have := (key ⟨d, hd⟩).1
    simp only [h, Option.all_some, decide_eq_true_eq] at this
    exact this
  · have := (key ⟨d, hd⟩).2
    simp only [h, Option.all_some, decide_eq_true_eq] at this
    exact this

theorem digitOf_ascii : ∀ k : _root_.Fin 128, (∀ d : _root_.Fin 36, digitOf (Char.ofNat k) = some d.1 ↔ NumberDigit (Char.ofNat k) d) ∧
    (digitOf (Char.ofNat k)).all (· < 36) = true := by decide +kernel

theorem digitOf_iff (c : Char) (d : Nat) : digitOf c = some d ↔ NumberDigit c d := by
  by_cases hc : c.toNat < 128
  · have e : c = Char.ofNat c.toNat := (Char.ofNat_toNat c).symm
    obtain ⟨h1, h2⟩ := digitOf_ascii ⟨c.toNat, hc⟩
    simp only [← e] at h1 h2
    constructor
    · intro h
      rw [h] at h2
      exact (h1 ⟨d, by simpa using h2⟩).mp h
    · intro h
      exact (h1 ⟨d, h.1⟩).mpr h
  · have hn : digitOf c = none := by
      have l : lowerC c = c := by
        unfold lowerC
        rw [if_neg]
        rintro ⟨-, h⟩
        have : c.toNat ≤ 90 := UInt32.le_iff_toNat_le.mp h
        omega
      unfold digitOf
      rw [if_neg, if_neg]
      · rw [l]
        rintro ⟨-, h⟩
        have : c.toNat ≤ 122 := UInt32.le_iff_toNat_le.mp h
        omega
      · rintro ⟨-, h⟩
        have : c.toNat ≤ 57 := UInt32.le_iff_toNat_le.mp h
        omega
    rw [hn]
    exact ⟨fun h => (by cases h), fun h => absurd (numberDigit_ascii h) hc⟩

theorem not_digit_underscore (d : Nat) : ¬ NumberDigit '_' d := by
  rw [← digitOf_iff]
  have : digitOf '_' = none := by decide
  rw [this]
  exact fun h => by cases h

/-- Digits with underscores anywhere. -/
inductive LooseDigits (b : Nat) : List Nat → Str → Prop
  | nil : LooseDigits b [] []
  | digit {c : Char} {d : Nat} {ds : List Nat} {s : Str} (h : NumberDigit c d) (hd : d < b) (hs : LooseDigits b ds s) :
      LooseDigits b (d :: ds) (c :: s)
  | skip {ds : List Nat} {s : Str} (hs : LooseDigits b ds s) : LooseDigits b ds ('_' :: s)

theorem fold_ge {b : Nat} (hb : 1 ≤ b) : ∀ (ds : List Nat) (n : Nat), n ≤ ds.foldl (fun n d => n * b + d) n
  | [], n => Nat.le_refl n
  | d :: ds, n => by
    have h1 := fold_ge hb ds (n * b + d)
    have h2 : n ≤ n * b := Nat.le_mul_of_pos_right n hb
    simp only [List.foldl_cons]
    omega

theorem parseDigits_iff {b : Nat} (hb : 1 ≤ b) : ∀ (s : Str) (n m : Nat), n < 2 ^ 64 →
    (parseDigits b n s = some m ↔ ∃ ds, LooseDigits b ds s ∧ m = ds.foldl (fun n d => n * b + d) n ∧ m < 2 ^ 64)
  | [], n, m, hn => by
    constructor
    · intro h
      cases h
      exact ⟨[], .nil, rfl, hn⟩
    · rintro ⟨ds, h, rfl, -⟩
      cases h
      rfl
  | c :: s, n, m, hn => by
    rw [parseDigits]
    by_cases hu : c = '_'
    · subst hu
      rw [if_pos rfl, parseDigits_iff hb s n m hn]
      constructor
      · rintro ⟨ds, h, h2⟩
        exact ⟨ds, .skip h, h2⟩
      · rintro ⟨ds, h, h2⟩
        cases h with
        | digit h => exact absurd h (not_digit_underscore _)
        | skip h => exact ⟨ds, h, h2⟩
    · rw [if_neg hu]
      cases hd : digitOf c with
      | none =>
        refine ⟨fun h => (by cases h), ?_⟩
        rintro ⟨ds, h, -⟩
        cases h with
        | digit h => rw [(digitOf_iff _ _).mpr h] at hd; cases hd
        | skip h => exact absurd rfl hu
      | some d =>
        simp only
        by_cases h1 : d ≥ b
        · rw [if_pos h1]
          refine ⟨fun h => (by cases h), ?_⟩
          rintro ⟨ds, h, -⟩
          cases h with
          | digit h h' => rw [(digitOf_iff _ _).mpr h] at hd; cases hd; omega
          | skip h => exact absurd rfl hu
        · rw [if_neg h1]
          by_cases h2 : n * b + d ≥ 2 ^ 64
          · rw [if_pos h2]
            refine ⟨fun h => (by cases h), ?_⟩
            rintro ⟨ds, h, rfl, hm⟩
            cases h with
            | digit h h' =>
              rw [(digitOf_iff _ _).mpr h] at hd; cases hd
              rename_i ds hs
              have := fold_ge hb ds (n * b + d)
              simp only [List.foldl_cons] at hm
              omega
            | skip h => exact absurd rfl hu
          · rw [if_neg h2, parseDigits_iff hb s (n * b + d) m (by omega)]
            constructor
            · rintro ⟨ds, h, h3, h4⟩
              exact ⟨d :: ds, .digit ((digitOf_iff _ _).mp hd) (by omega) h, h3, h4⟩
            · rintro ⟨ds, h, h3, h4⟩
              cases h with
              | digit h h' hs => rw [(digitOf_iff _ _).mpr h] at hd; cases hd; exact ⟨_, hs, h3, h4⟩
              | skip h => exact absurd rfl hu

/-- The loop takes the digits of the base for digits. -/
theorem digit_seen {b : Nat} {hex : Bool} (hb : b = 16 ∧ hex = true ∨ b ≤ 10) {c : Char} {d : Nat} (h : NumberDigit c d) (hd : d < b) :
    ('0' ≤ c ∧ c ≤ '9') ∨ (hex = true ∧ 'a' ≤ lowerC c ∧ lowerC c ≤ 'f') := by
  have key : ∀ k : _root_.Fin 128, ∀ d : _root_.Fin 16, NumberDigit (Char.ofNat k) d →
      (('0' ≤ Char.ofNat k ∧ Char.ofNat k ≤ '9') ∨ (d.1 ≥ 10 ∧ 'a' ≤ lowerC (Char.ofNat k) ∧ lowerC (Char.ofNat k) ≤ 'f')) := by
    decide +kernel
  have := key ⟨c.toNat, numberDigit_ascii h⟩ ⟨d, by omega⟩
  simp only [Char.ofNat_toNat] at this
  rcases this h with h1 | ⟨h1, h2⟩
  · exact .inl h1
  · rcases hb with ⟨rfl, hx⟩ | hb
    · exact .inr ⟨hx, h2⟩
    · omega

theorem spaced_head {b : Nat} {ds : List Nat} {s : Str} (h : SpacedDigits b ds ('_' :: s)) : False := by
  cases h with
  | one h => exact not_digit_underscore _ h
  | next h => exact not_digit_underscore _ h
  | apart h => exact not_digit_underscore _ h

theorem underscore_loop {b : Nat} {hex : Bool} (hb : b = 16 ∧ hex = true ∨ b ≤ 10) {ds : List Nat} {s : Str} (h : LooseDigits b ds s) :
    (underscoreLoop hex .digit s = true ↔ s = [] ∨ SpacedDigits b ds s ∨ ∃ t, s = '_' :: t ∧ SpacedDigits b ds t) ∧
    (underscoreLoop hex .underscore s = true ↔ SpacedDigits b ds s) ∧
    (underscoreLoop hex .start s = true ↔ s = [] ∨ SpacedDigits b ds s) := by
  have hnil : ¬ SpacedDigits b [] [] := fun h => by cases h
  induction h with
  | nil => refine ⟨?_, ?_, ?_⟩ <;> simp [underscoreLoop, hnil]
  | @digit c d ds s h hd hs ih =>
    have hseen := digit_seen hb h hd
    have hstep : ∀ i, underscoreLoop hex i (c :: s) = underscoreLoop hex .digit s := fun i => by
      rw [underscoreLoop, if_pos hseen]
    have hne : c ≠ '_' := fun e => not_digit_underscore d (e ▸ h)
    have hsp : SpacedDigits b (d :: ds) (c :: s) ↔ (s = [] ∨ SpacedDigits b ds s ∨ ∃ t, s = '_' :: t ∧ SpacedDigits b ds t) := by
      constructor
      · intro h
        cases h with
        | one => exact .inl rfl
        | next _ _ h => exact .inr (.inl h)
        | apart _ _ h => exact .inr (.inr ⟨_, rfl, h⟩)
      · rintro (rfl | h' | ⟨t, rfl, h'⟩)
        · cases hs
          exact .one h hd
        · exact .next h hd h'
        · exact .apart h hd h'
    simp only [hstep, ih.1, hsp]
    refine ⟨?_, trivial, ?_⟩
    · constructor
      · exact fun h => .inr (.inl h)
      · rintro (h | h | ⟨t, h, -⟩)
        · cases h
        · exact h
        · exact absurd (List.cons.inj h).1 hne
    · simp
  | @skip ds s hs ih =>
    have hnd : ¬ (('0' ≤ '_' ∧ '_' ≤ '9') ∨ (hex = true ∧ 'a' ≤ lowerC '_' ∧ lowerC '_' ≤ 'f')) := by
      have h1 : ¬ ('0' ≤ '_' ∧ '_' ≤ '9') := by decide
      have h2 : ¬ ('a' ≤ lowerC '_' ∧ lowerC '_' ≤ 'f') := by decide
      simp only [h1, h2, and_false, or_self, not_false_eq_true]
    have hstep : ∀ i, underscoreLoop hex i ('_' :: s) = if i = .digit then underscoreLoop hex .underscore s else false := fun i => by
      rw [underscoreLoop, if_neg hnd, if_pos rfl]
    have hno : ∀ ds', ¬ SpacedDigits b ds' ('_' :: s) := fun _ h => spaced_head h
    simp only [hstep, hno]
    refine ⟨?_, ?_, ?_⟩
    · rw [if_pos trivial, ih.2.1]
      simp
    · simp
    · simp

theorem spaced_of_plain {b : Nat} {ds : List Nat} {s : Str} (h : LooseDigits b ds s) (hu : '_' ∉ s) (hne : s ≠ []) : SpacedDigits b ds s := by
  induction h with
  | nil => exact absurd rfl hne
  | @digit c d ds s h hd hs ih =>
    by_cases he : s = []
    · subst he
      cases hs
      exact .one h hd
    · exact .next h hd (ih (fun h => hu (by simp [h])) he)
  | skip => exact absurd (by simp) hu

theorem loose_of_spaced {b : Nat} {ds : List Nat} {s : Str} (h : SpacedDigits b ds s) : LooseDigits b ds s := by
  induction h with
  | one h hd => exact .digit h hd .nil
  | next h hd _ ih => exact .digit h hd ih
  | apart h hd _ ih => exact .digit h hd (.skip ih)

theorem digit_zero {c : Char} : NumberDigit c 0 ↔ c = '0' := by
  unfold NumberDigit
  simp only [show "0123456789abcdefghijklmnopqrstuvwxyz".toList[0]? = some '0' from rfl,
    show "0123456789ABCDEFGHIJKLMNOPQRSTUVWXYZ".toList[0]? = some '0' from rfl, Option.some.injEq]
  constructor
  · rintro ⟨-, h | h⟩ <;> exact h.symm
  · rintro rfl
    exact ⟨by omega, .inl rfl⟩

/-- Loose digits of a word without prefix are well spaced exactly if they pass the check. -/
theorem check_plain {b : Nat} (hb : b ≤ 10) {ds : List Nat} {s : Str} (h : LooseDigits b ds s) (hne : s ≠ []) :
    ('_' ∉ s ∨ underscoreLoop false .start s = true) ↔ SpacedDigits b ds s := by
  constructor
  · rintro (h1 | h1)
    · exact spaced_of_plain h h1 hne
    · rcases (underscore_loop (.inr hb) h).2.2.mp h1 with h2 | h2
      · exact absurd h2 hne
      · exact h2
  · exact fun h1 => .inr ((underscore_loop (.inr hb) h).2.2.mpr (.inr h1))

/-- And so are those after a prefix. -/
theorem check_prefix {b : Nat} {hex : Bool} (hb : b = 16 ∧ hex = true ∨ b ≤ 10) {ds : List Nat} {s : Str} (h : LooseDigits b ds s) (hne : s ≠ []) :
    ('_' ∉ s ∨ underscoreLoop hex .digit s = true) ↔ SpacedDigits b ds s ∨ ∃ u, s = '_' :: u ∧ SpacedDigits b ds u := by
  constructor
  · rintro (h1 | h1)
    · exact .inl (spaced_of_plain h h1 hne)
    · rcases (underscore_loop hb h).1.mp h1 with h2 | h2
      · exact absurd h2 hne
      · exact h2
  · exact fun h1 => .inr ((underscore_loop hb h).1.mpr (.inr h1))

theorem parseUint_step {s : Str} (hne : s ≠ []) (n : Nat) : parseUint s = some n ↔
    parseDigits (baseOf s).1 0 (baseOf s).2 = some n ∧ ('_' ∉ s ∨ underscoreOK s = true) := by
  unfold parseUint
  rw [if_neg hne]
  cases parseDigits (baseOf s).1 0 (baseOf s).2 with
  | none => simp
  | some m =>
    simp only [Bool.and_eq_true, Bool.not_eq_true', List.contains_iff_mem]
    by_cases hu : '_' ∈ s
    · cases underscoreOK s <;> simp [hu]
    · simp [hu]

theorem lower_ascii : ∀ k : _root_.Fin 128, ∀ c ∈ ['b', 'o', 'x'], lowerC (Char.ofNat k) = c ↔
    (c = 'b' ∧ (Char.ofNat k = 'b' ∨ Char.ofNat k = 'B') ∨ c = 'o' ∧ (Char.ofNat k = 'o' ∨ Char.ofNat k = 'O') ∨
      c = 'x' ∧ (Char.ofNat k = 'x' ∨ Char.ofNat k = 'X')) := by decide +kernel

theorem lower_prefix (x : Char) : (lowerC x = 'b' ↔ x = 'b' ∨ x = 'B') ∧ (lowerC x = 'o' ↔ x = 'o' ∨ x = 'O') ∧
    (lowerC x = 'x' ↔ x = 'x' ∨ x = 'X') := by
  by_cases hc : x.toNat < 128
  · have key := lower_ascii ⟨x.toNat, hc⟩
    simp only [Char.ofNat_toNat] at key
    refine ⟨?_, ?_, ?_⟩
    · simpa using key 'b' (by simp)
    · simpa using key 'o' (by simp)
    · simpa using key 'x' (by simp)
  · have l : lowerC x = x := by
      unfold lowerC
      rw [if_neg]
      rintro ⟨-, h⟩
      have : x.toNat ≤ 90 := UInt32.le_iff_toNat_le.mp h
      omega
    have ne : ∀ c : Char, c.toNat < 128 → x ≠ c := fun c h e => hc (e ▸ h)
    rw [l]
    simp [ne 'b' (by decide), ne 'B' (by decide), ne 'o' (by decide), ne 'O' (by decide), ne 'x' (by decide), ne 'X' (by decide)]

/-- The base that goes with a letter. -/
def PrefixOf (b : Nat) (x : Char) : Prop :=
  b = 2 ∧ (x = 'b' ∨ x = 'B') ∨ b = 8 ∧ (x = 'o' ∨ x = 'O') ∨ b = 16 ∧ (x = 'x' ∨ x = 'X')

theorem prefix_lower {b : Nat} {x : Char} (h : PrefixOf b x) : b = 2 ∧ lowerC x = 'b' ∨ b = 8 ∧ lowerC x = 'o' ∨ b = 16 ∧ lowerC x = 'x' := by
  obtain ⟨h1, h2, h3⟩ := lower_prefix x
  rwa [h1, h2, h3]

theorem prefix_not_digit {b : Nat} {x : Char} (h : PrefixOf b x) {d : Nat} (hd : NumberDigit x d) : 10 ≤ d := by
  rw [← digitOf_iff] at hd
  rcases h with ⟨-, rfl | rfl⟩ | ⟨-, rfl | rfl⟩ | ⟨-, rfl | rfl⟩ <;>
    (simp only [show digitOf 'b' = some 11 by decide, show digitOf 'B' = some 11 by decide, show digitOf 'o' = some 24 by decide,
      show digitOf 'O' = some 24 by decide, show digitOf 'x' = some 33 by decide, show digitOf 'X' = some 33 by decide,
      Option.some.injEq] at hd; omega)

theorem prefix_not_underscore {b : Nat} {x : Char} (h : PrefixOf b x) : x ≠ '_' := by
  rcases h with ⟨-, rfl | rfl⟩ | ⟨-, rfl | rfl⟩ | ⟨-, rfl | rfl⟩ <;> decide

theorem letter_base {b : Nat} {x : Char} (h : PrefixOf b x) (y : Char) (r : Str) : baseOf ('0' :: x :: y :: r) = (b, y :: r) ∧
    underscoreOK ('0' :: x :: y :: r) = underscoreLoop (decide (b = 16)) .digit (y :: r) := by
  rcases prefix_lower h with ⟨rfl, hx⟩ | ⟨rfl, hx⟩ | ⟨rfl, hx⟩ <;> simp [baseOf, underscoreOK, hx]

theorem digitsIn_zero (ds : List Nat) : digitsIn 8 (0 :: ds) = digitsIn 8 ds := by simp [digitsIn]

theorem literal_prefix {b : Nat} {x : Char} (h : PrefixOf b x) (t : Str) (n : Nat) : GoLiteral ('0' :: x :: t) n ↔
    ∃ ds, (SpacedDigits b ds t ∨ ∃ u, t = '_' :: u ∧ SpacedDigits b ds u) ∧ n = digitsIn b ds := by
  have hno : ∀ b', b' ≤ 10 → ∀ ds, ¬ SpacedDigits b' ds ('0' :: x :: t) := by
    intro b' hb' ds hs
    cases hs with
    | next _ _ hs =>
      cases hs with
      | one h1 h2 => have := prefix_not_digit h h1; omega
      | next h1 h2 => have := prefix_not_digit h h1; omega
      | apart h1 h2 => have := prefix_not_digit h h1; omega
    | apart => exact prefix_not_underscore h rfl
  constructor
  · rintro (⟨ds, h1, -⟩ | ⟨ds, h1, -⟩ | ⟨b', x', t', ds, h1, h2, h3, h4⟩)
    · exact absurd h1 (hno 10 (by omega) ds)
    · exact absurd h1 (hno 8 (by omega) _)
    · simp only [List.cons.injEq, true_and] at h1
      obtain ⟨rfl, rfl⟩ := h1
      have hb : b = b' := by
        have g1 := prefix_lower h
        have g2 := prefix_lower (b := b') (x := x) h2
        rcases g1 with ⟨rfl, e1⟩ | ⟨rfl, e1⟩ | ⟨rfl, e1⟩ <;> rcases g2 with ⟨rfl, e2⟩ | ⟨rfl, e2⟩ | ⟨rfl, e2⟩ <;>
          first | rfl | (rw [e1] at e2; exact absurd e2 (by decide))
      subst hb
      exact ⟨ds, h3, h4⟩
  · rintro ⟨ds, h1, h2⟩
    exact .inr (.inr ⟨b, x, t, ds, rfl, h, h1, h2⟩)

/-- The integer literals of Go below 2^64, and no others. -/
theorem parseUint_iff (s : Str) (n : Nat) : parseUint s = some n ↔ GoLiteral s n ∧ n < 2 ^ 64 := by
  by_cases hne : s = []
  · subst hne
    refine ⟨fun h => (by cases h), ?_⟩
    rintro ⟨⟨ds, h, -⟩ | ⟨ds, h, -⟩ | ⟨b, x, t, ds, h, -⟩, -⟩ <;> cases h
  rw [parseUint_step hne]
  by_cases hp : ∃ b x y r, s = '0' :: x :: y :: r ∧ PrefixOf b x
  · obtain ⟨b, x, y, r, rfl, hx⟩ := hp
    obtain ⟨e1, e2⟩ := letter_base hx y r
    have hb : b = 16 ∧ decide (b = 16) = true ∨ b ≤ 10 := by
      rcases hx with ⟨rfl, -⟩ | ⟨rfl, -⟩ | ⟨rfl, -⟩ <;> simp
    have hu : '_' ∉ '0' :: x :: y :: r ↔ '_' ∉ y :: r := by
      have := prefix_not_underscore hx
      simp [this.symm]
    rw [e1, e2, literal_prefix hx, hu, parseDigits_iff (by rcases hx with ⟨rfl, -⟩ | ⟨rfl, -⟩ | ⟨rfl, -⟩ <;> omega) _ _ _ (by omega)]
    constructor
    · rintro ⟨⟨ds, h1, h2, h3⟩, h4⟩
      exact ⟨⟨ds, (check_prefix hb h1 (by simp)).mp h4, h2⟩, h3⟩
    · rintro ⟨⟨ds, h1, h2⟩, h3⟩
      have hl : LooseDigits b ds (y :: r) := by
        rcases h1 with h1 | ⟨u, h1, h4⟩
        · exact loose_of_spaced h1
        · rw [h1]; exact .skip (loose_of_spaced h4)
      exact ⟨⟨ds, hl, h2, h3⟩, (check_prefix hb hl (by simp)).mpr h1⟩
  have hnp : ∀ b x t ds, s = '0' :: x :: t → PrefixOf b x → ¬ (SpacedDigits b ds t ∨ ∃ u, t = '_' :: u ∧ SpacedDigits b ds u) := by
    rintro b x t ds rfl hx hs
    cases t with
    | nil =>
      rcases hs with hs | ⟨u, hs, -⟩ <;> cases hs
    | cons y r => exact hp ⟨b, x, y, r, rfl, hx⟩
  have hlow : ∀ x y r, s = '0' :: x :: y :: r → lowerC x ≠ 'b' ∧ lowerC x ≠ 'o' ∧ lowerC x ≠ 'x' := by
    intro x y r e
    obtain ⟨l1, l2, l3⟩ := lower_prefix x
    refine ⟨fun h => hp ⟨2, x, y, r, e, .inl ⟨rfl, l1.mp h⟩⟩, fun h => hp ⟨8, x, y, r, e, .inr (.inl ⟨rfl, l2.mp h⟩)⟩,
      fun h => hp ⟨16, x, y, r, e, .inr (.inr ⟨rfl, l3.mp h⟩)⟩⟩
  by_cases h0 : ∃ t, s = '0' :: t
  · obtain ⟨t, rfl⟩ := h0
    have e1 : baseOf ('0' :: t) = (8, t) := by
      match t, hlow with
      | [], _ => rfl
      | [x], _ => rfl
      | x :: y :: r, hlow =>
        obtain ⟨g1, g2, g3⟩ := hlow x y r rfl
        simp [baseOf, g1, g2, g3]
    have e2 : '_' ∉ '0' :: t ∨ underscoreOK ('0' :: t) = underscoreLoop false .start ('0' :: t) := by
      match t, hlow with
      | [], _ => exact .inr rfl
      | [x], _ =>
        by_cases hx : x = '_'
        · subst hx; exact .inr (by decide)
        · left; simp [Ne.symm hx]
      | x :: y :: r, hlow =>
        obtain ⟨g1, g2, g3⟩ := hlow x y r rfl
        right
        simp [underscoreOK, g1, g2, g3]
    have e3 : ('_' ∉ '0' :: t ∨ underscoreOK ('0' :: t) = true) ↔ ('_' ∉ '0' :: t ∨ underscoreLoop false .start ('0' :: t) = true) := by
      rcases e2 with e2 | e2
      · simp only [e2, not_false_eq_true, true_or]
      · rw [e2]
    have e4 : GoLiteral ('0' :: t) n ↔ ∃ ds, SpacedDigits 8 (0 :: ds) ('0' :: t) ∧ n = digitsIn 8 ds := by
      constructor
      · rintro (⟨ds, h1, h2, -⟩ | h | ⟨b, x, u, ds, h1, h2, h3, -⟩)
        · exfalso
          have : ∀ d, NumberDigit '0' d → d = 0 := fun d hd => by
            rw [← digitOf_iff, show digitOf '0' = some 0 by decide] at hd
            exact (Option.some.inj hd).symm
          cases h1 with
          | one h1 => exact h2 (by rw [this _ h1]; rfl)
          | next h1 => exact h2 (by rw [this _ h1]; rfl)
          | apart h1 => exact h2 (by rw [this _ h1]; rfl)
        · exact h
        · exact absurd h3 (hnp b x u ds h1 h2)
      · exact fun h => .inr (.inl h)
    rw [e1, e3, e4, parseDigits_iff (by omega) _ _ _ (by omega)]
    constructor
    · rintro ⟨⟨ds, h1, h2, h3⟩, h4⟩
      exact ⟨⟨ds, (check_plain (by omega) (.digit (digit_zero.mpr rfl) (by omega) h1) (by simp)).mp h4, h2⟩, h3⟩
    · rintro ⟨⟨ds, h1, h2⟩, h3⟩
      have hl := loose_of_spaced h1
      refine ⟨?_, (check_plain (by omega) hl (by simp)).mpr h1⟩
      cases hl with
      | digit _ _ hl => exact ⟨ds, hl, h2, h3⟩
  · have e1 : baseOf s = (10, s) := by
      unfold baseOf
      split
      · exact absurd ⟨_, rfl⟩ h0
      · exact absurd ⟨_, rfl⟩ h0
      · rfl
    have e2 : underscoreOK s = underscoreLoop false .start s := by
      unfold underscoreOK
      split
      · exact absurd ⟨_, rfl⟩ h0
      · rfl
    have e4 : GoLiteral s n ↔ ∃ ds, SpacedDigits 10 ds s ∧ n = digitsIn 10 ds := by
      constructor
      · rintro (⟨ds, h1, -, h2⟩ | ⟨ds, h1, -⟩ | ⟨b, x, u, ds, h1, -⟩)
        · exact ⟨ds, h1, h2⟩
        · exfalso
          cases h1 with
          | one h1 => exact h0 ⟨_, by rw [digit_zero.mp h1]⟩
          | next h1 => exact h0 ⟨_, by rw [digit_zero.mp h1]⟩
          | apart h1 => exact h0 ⟨_, by rw [digit_zero.mp h1]⟩
        · exact absurd ⟨_, h1⟩ h0
      · rintro ⟨ds, h1, h2⟩
        refine .inl ⟨ds, h1, ?_, h2⟩
        intro h3
        cases h1 with
        | one h1 => cases h3; exact h0 ⟨_, by rw [digit_zero.mp h1]⟩
        | next h1 => cases h3; exact h0 ⟨_, by rw [digit_zero.mp h1]⟩
        | apart h1 => cases h3; exact h0 ⟨_, by rw [digit_zero.mp h1]⟩
    rw [e1, e2, e4, parseDigits_iff (by omega) _ _ _ (by omega)]
    constructor
    · rintro ⟨⟨ds, h1, h2, h3⟩, h4⟩
      exact ⟨⟨ds, (check_plain (by omega) h1 hne).mp h4, h2⟩, h3⟩
    · rintro ⟨⟨ds, h1, h2⟩, h3⟩
      have hl := loose_of_spaced h1
      exact ⟨⟨ds, hl, h2, h3⟩, (check_plain (by omega) hl hne).mpr h1⟩

end Ofx
