import Verif.Spec.Grammar
import Verif.Lemmas.Prefix
import Verif.Lemmas.Written
import Verif.Lemmas.Numeral
import Mathlib.Data.List.Induction
/-
Names, white space and character data: the functions of the lexer against the grammar.
-/
namespace Ofx
open Spec

/-! ### Runs of characters -/

theorem while_iff {P : Char → Prop} {p : Char → Bool} (hp : ∀ c, p c = true ↔ P c) {s a r : Str} :
    (s.takeWhile p = a ∧ s.dropWhile p = r) ↔ s = a ++ r ∧ (∀ c ∈ a, P c) ∧ StartsNot P r := by
  constructor
  · rintro ⟨rfl, rfl⟩
    refine ⟨(List.takeWhile_append_dropWhile).symm, ?_⟩
    induction s with
    | nil => exact ⟨by simp, fun c hc => by cases hc⟩
    | cons d s ih =>
      by_cases hd : p d = true
      · rw [List.takeWhile_cons, if_pos hd, List.dropWhile_cons, if_pos hd]
        refine ⟨fun c hc => ?_, ih.2⟩
        rcases List.mem_cons.mp hc with rfl | hc
        · exact (hp _).mp hd
        · exact ih.1 c hc
      · rw [List.takeWhile_cons, if_neg hd, List.dropWhile_cons, if_neg hd]
        refine ⟨by simp, fun c hc h => ?_⟩
        cases hc
        exact hd ((hp _).mpr h)
  · rintro ⟨rfl, h1, h2⟩
    have h3 : ∀ c ∈ a, p c = true := fun c hc => (hp c).mpr (h1 c hc)
    cases r with
    | nil =>
      simp only [List.append_nil]
      clear h1 h2
      induction a with
      | nil => exact ⟨rfl, rfl⟩
      | cons d a ih =>
        obtain ⟨i1, i2⟩ := ih fun c hc => h3 c (List.mem_cons_of_mem _ hc)
        have hd := h3 d (List.mem_cons_self ..)
        rw [List.takeWhile_cons, if_pos hd, List.dropWhile_cons, if_pos hd]
        exact ⟨by rw [i1], i2⟩
    | cons c r =>
      have hc : p c = false := by rw [Bool.eq_false_iff]; intro h; exact h2 c rfl ((hp c).mp h)
      exact ⟨takeWhile_stop h3 hc, dropWhile_stop h3 hc⟩

theorem isNameByte_iff (c : Char) : isNameByte c = true ↔ NameChar c := by
  simp [isNameByte, NameChar, or_assoc]

theorem isXmlSpace_iff (c : Char) : isXmlSpace c = true ↔ TagSpace c := by
  simp [isXmlSpace, TagSpace, or_assoc]

theorem isFirst_iff (nt : NameTable) (c : Char) : nt.isFirst c = true ↔
    (c.toNat < 128 ∧ (c.isAlpha = true ∨ c = '_')) ∨ (128 ≤ c.toNat ∧ nt.first c = true) := by
  unfold NameTable.isFirst
  by_cases h : c.toNat < 128
  · have h' : ¬ 128 ≤ c.toNat := by omega
    rw [if_pos h]; simp [h, h']
  · have h' : 128 ≤ c.toNat := by omega
    rw [if_neg h]; simp [h, h']

theorem isNext_iff (nt : NameTable) (c : Char) : nt.isNext c = true ↔
    (c.toNat < 128 ∧ (c.isAlphanum = true ∨ c = '_' ∨ c = '.' ∨ c = '-')) ∨
      (128 ≤ c.toNat ∧ (nt.first c = true ∨ nt.second c = true)) := by
  unfold NameTable.isNext
  by_cases h : c.toNat < 128
  · have h' : ¬ 128 ≤ c.toNat := by omega
    rw [if_pos h]; simp [h, h', or_assoc]
  · have h' : 128 ≤ c.toNat := by omega
    rw [if_neg h]; simp [h, h']

theorem isName_iff (nt : NameTable) (n : Str) : nt.isName n = true ↔ NameText nt n := by
  cases n with
  | nil =>
    simp only [NameTable.isName, NameText]
    constructor
    · intro h; cases h
    · rintro ⟨c, cs, h, _⟩; cases h
  | cons c cs =>
    simp only [NameTable.isName, Bool.and_eq_true, List.all_eq_true, isFirst_iff, isNext_iff, NameText]
    constructor
    · rintro ⟨h1, h2⟩; exact ⟨c, cs, rfl, h1, h2⟩
    · rintro ⟨d, ds, h, h1, h2⟩; cases h; exact ⟨h1, h2⟩

theorem nameText_chars {nt : NameTable} {n : Str} (h : NameText nt n) : ∀ c ∈ n, NameChar c := by
  obtain ⟨c, cs, rfl, h1, h2⟩ := h
  intro d hd
  rcases List.mem_cons.mp hd with rfl | hd
  · rcases h1 with ⟨_, h | h⟩ | ⟨h, _⟩
    · exact .inl (by simp [Char.isAlphanum, h])
    · exact .inr (.inl h)
    · exact .inr (.inr (.inr (.inr (.inr h))))
  · rcases h2 d hd with ⟨_, h | h | h | h⟩ | ⟨h, _⟩
    · exact .inl h
    · exact .inr (.inl h)
    · exact .inr (.inr (.inr (.inl h)))
    · exact .inr (.inr (.inr (.inr (.inl h))))
    · exact .inr (.inr (.inr (.inr (.inr h))))

theorem nameText_ne {nt : NameTable} {n : Str} (h : NameText nt n) : n ≠ [] := by
  obtain ⟨c, cs, rfl, -⟩ := h; simp

theorem lexName_iff {nt : NameTable} {s n r : Str} :
    lexName nt s = some (n, r) ↔ s = n ++ r ∧ NameText nt n ∧ StartsNot NameChar r := by
  have hw := while_iff isNameByte_iff (s := s) (a := n) (r := r)
  unfold lexName
  by_cases h : nt.isName (s.takeWhile isNameByte) = true
  · rw [if_pos h]
    simp only [Option.some.injEq, Prod.mk.injEq]
    rw [hw]
    constructor
    · rintro ⟨rfl, h1, h2⟩
      rw [(hw.mpr ⟨rfl, h1, h2⟩).1] at h
      exact ⟨rfl, (isName_iff nt n).mp h, h2⟩
    · rintro ⟨rfl, h1, h2⟩
      exact ⟨rfl, nameText_chars h1, h2⟩
  · rw [if_neg h]
    constructor
    · intro h'; cases h'
    · rintro ⟨rfl, h1, h2⟩
      rw [(hw.mpr ⟨rfl, nameText_chars h1, h2⟩).1] at h
      exact absurd ((isName_iff nt n).mpr h1) h

theorem skipSpace_iff {s r : Str} : skipSpace s = r ↔ ∃ w, s = w ++ r ∧ TagSpaces w ∧ StartsNot TagSpace r := by
  constructor
  · intro h
    exact ⟨_, (while_iff isXmlSpace_iff).mp ⟨rfl, h⟩⟩
  · rintro ⟨w, h⟩
    exact ((while_iff isXmlSpace_iff).mpr h).2

/-! ### First occurrences -/

theorem contains_iff {sub s : Str} : contains sub s = true ↔ sub <:+: s := by
  induction s with
  | nil => simp [contains, List.isEmpty_iff]
  | cons c s ih =>
    simp only [contains, Bool.or_eq_true, List.isPrefixOf_iff_prefix, ih]
    rw [List.infix_cons_iff]

/-- `a` is what comes before the first `sep`. -/
theorem cut_iff {sep s a b : Str} (hs : sep ≠ []) :
    cut sep s = some (a, b) ↔ s = a ++ sep ++ b ∧ ¬ sep <:+: a ++ sep.dropLast := by
  induction s generalizing a with
  | nil =>
    unfold cut
    rw [if_neg (by simpa using hs)]
    constructor
    · intro h; cases h
    · rintro ⟨h, -⟩
      have := congrArg List.length h
      have h2 := List.length_pos_iff.mpr hs
      simp at this
      omega
  | cons c s ih =>
    unfold cut
    by_cases hp : sep.isPrefixOf (c :: s) = true
    · rw [if_pos hp]
      obtain ⟨t, ht⟩ := List.isPrefixOf_iff_prefix.mp hp
      constructor
      · intro h
        simp only [Option.some.injEq, Prod.mk.injEq] at h
        obtain ⟨rfl, rfl⟩ := h
        refine ⟨by rw [← ht]; simp, ?_⟩
        intro hi
        have h1 := hi.length_le
        have h2 := List.length_pos_iff.mpr hs
        simp at h1
        omega
      · rintro ⟨h1, h2⟩
        cases a with
        | nil =>
          rw [h1]; simp
        | cons d a =>
          exfalso
          apply h2
          have h3 : sep <+: d :: a ++ sep ++ b := by rw [← h1]; exact List.isPrefixOf_iff_prefix.mp hp
          have h4 : (d :: a) ++ sep.dropLast <+: (d :: a) ++ sep ++ b := by
            rw [List.append_assoc]
            exact (List.prefix_append_right_inj _).mpr ((List.dropLast_prefix sep).trans (List.prefix_append _ _))
          exact (List.prefix_of_prefix_length_le h3 h4 (by simp; omega)).isInfix
    · rw [if_neg hp]
      constructor
      · intro h
        cases hc : cut sep s with
        | none => rw [hc] at h; cases h
        | some y =>
          obtain ⟨a', b'⟩ := y
          rw [hc] at h
          cases h
          obtain ⟨h1, h2⟩ := ih.mp hc
          refine ⟨by rw [h1]; simp, ?_⟩
          intro hi
          rw [List.cons_append, List.infix_cons_iff] at hi
          rcases hi with hi | hi
          · apply hp
            rw [List.isPrefixOf_iff_prefix, h1]
            refine hi.trans ?_
            rw [List.append_assoc, ← List.cons_append, ← List.cons_append]
            exact (List.prefix_append_right_inj _).mpr ((List.dropLast_prefix sep).trans (List.prefix_append _ _))
          · exact h2 hi
      · rintro ⟨h1, h2⟩
        cases a with
        | nil =>
          exfalso
          apply hp
          rw [List.isPrefixOf_iff_prefix, h1]
          exact ⟨b, by simp⟩
        | cons d a =>
          simp only [List.cons_append, List.cons.injEq] at h1
          obtain ⟨rfl, rfl⟩ := h1
          have : cut sep (a ++ sep ++ b) = some (a, b) := ih.mpr ⟨rfl, fun hi => h2 (by
            rw [List.cons_append]; exact List.infix_cons hi)⟩
          rw [this]

/-! ### References -/

theorem hexV_iff (d : Char) (v : Nat) : (d, v) ∈ hexDigits ↔ isHex d = true ∧ hexV d = v := by
  constructor
  · intro h
    simp only [hexDigits, List.mem_cons, List.not_mem_nil, or_false, Prod.mk.injEq] at h
    rcases h with h | h | h | h | h | h | h | h | h | h | h | h | h | h | h | h | h | h | h | h | h | h <;>
      (obtain ⟨rfl, rfl⟩ := h; decide)
  · rintro ⟨h, rfl⟩
    have hd : d = Char.ofNat d.toNat := (Char.ofNat_toNat d).symm
    simp only [isHex, isDigit, Bool.or_eq_true, Bool.and_eq_true, decide_eq_true_eq] at h
    have hb : d.toNat < 103 := by omega
    generalize d.toNat = k at h hd hb
    subst hd
    have : ∀ k < 103, ((48 ≤ k ∧ k ≤ 57) ∨ (97 ≤ k ∧ k ≤ 102)) ∨ (65 ≤ k ∧ k ≤ 70) →
        (Char.ofNat k, hexV (Char.ofNat k)) ∈ hexDigits := by decide
    exact this k hb h

theorem hexNumber_iff (ds : Str) (n : Nat) :
    HexNumber ds n ↔ (∀ d ∈ ds, isHex d = true) ∧ ds.foldl (fun a c => a * 16 + hexV c) 0 = n := by
  constructor
  · intro h
    induction h with
    | nil => exact ⟨by simp, rfl⟩
    | @snoc ds n v d _ hd ih =>
      obtain ⟨h1, h2⟩ := (hexV_iff d v).mp hd
      refine ⟨fun c hc => ?_, by rw [List.foldl_append, ih.2]; simp [h2]⟩
      rcases List.mem_append.mp hc with hc | hc
      · exact ih.1 c hc
      · rw [List.mem_singleton.mp hc]; exact h1
  · rintro ⟨h, rfl⟩
    induction ds using List.reverseRecOn with
    | nil => exact .nil
    | append_singleton ds d ih =>
      rw [List.foldl_append]
      exact .snoc (ih fun c hc => h c (List.mem_append_left _ hc)) ((hexV_iff d _).mpr ⟨h d (by simp), rfl⟩)

theorem runeOf_iff {n : Nat} (h : n ≤ 0x10FFFF) (c : Char) : runeOf n = c ↔ CodePoint n c := by
  unfold runeOf CodePoint
  by_cases hv : n.isValidChar
  · rw [dif_pos hv]
    have h1 : (Char.ofNatAux n hv).toNat = n := rfl
    constructor
    · rintro rfl; exact .inl h1
    · rintro (h2 | ⟨h2, h3, _⟩)
      · exact Char.toNat_inj.mp (h1.trans h2.symm)
      · rcases hv with hv | ⟨hv, _⟩ <;> omega
  · rw [dif_neg hv]
    have hs : 0xD800 ≤ n ∧ n ≤ 0xDFFF := by
      unfold Nat.isValidChar at hv
      omega
    constructor
    · rintro rfl; exact .inr ⟨hs.1, hs.2, by decide⟩
    · rintro (h2 | ⟨_, _, h4⟩)
      · exfalso; apply hv; rw [← h2]; exact c.valid
      · exact Char.toNat_inj.mp (by rw [h4]; decide)

theorem namedEntity_iff (n : Str) (c : Char) : namedEntity n = some c ↔ ∃ e, (e, c) ∈ entities ∧ n = e.toList := by
  constructor
  · intro h
    unfold namedEntity at h
    by_cases h1 : n = "lt".toList
    · rw [if_pos h1] at h; cases h; exact ⟨"lt", by decide, h1⟩
    rw [if_neg h1] at h
    by_cases h2 : n = "gt".toList
    · rw [if_pos h2] at h; cases h; exact ⟨"gt", by decide, h2⟩
    rw [if_neg h2] at h
    by_cases h3 : n = "amp".toList
    · rw [if_pos h3] at h; cases h; exact ⟨"amp", by decide, h3⟩
    rw [if_neg h3] at h
    by_cases h4 : n = "apos".toList
    · rw [if_pos h4] at h; cases h; exact ⟨"apos", by decide, h4⟩
    rw [if_neg h4] at h
    by_cases h5 : n = "quot".toList
    · rw [if_pos h5] at h; cases h; exact ⟨"quot", by decide, h5⟩
    rw [if_neg h5] at h
    cases h
  · rintro ⟨e, h, rfl⟩
    simp only [entities, List.mem_cons, List.not_mem_nil, or_false, Prod.mk.injEq] at h
    rcases h with ⟨rfl, rfl⟩ | ⟨rfl, rfl⟩ | ⟨rfl, rfl⟩ | ⟨rfl, rfl⟩ | ⟨rfl, rfl⟩ <;> decide

theorem charRef_iff {digits s r : Str} {base : Nat} {value : Char → Nat} {c : Char} :
    charRef digits base value s = some (c, r) ↔ s = ';' :: r ∧ digits ≠ [] ∧
      digits.foldl (fun a c => a * base + value c) 0 ≤ 0x10FFFF ∧
      CodePoint (digits.foldl (fun a c => a * base + value c) 0) c := by
  cases s with
  | nil => simp [charRef]
  | cons d s =>
    by_cases hd : d = ';'
    · subst hd
      simp only [charRef]
      by_cases h : (digits.isEmpty || decide (0x10FFFF < digits.foldl (fun a c => a * base + value c) 0)) = true
      · rw [if_pos h]
        constructor
        · intro h'; cases h'
        · rintro ⟨-, h1, h2, -⟩
          simp only [Bool.or_eq_true, List.isEmpty_iff, decide_eq_true_eq] at h
          rcases h with h | h
          · exact absurd h h1
          · omega
      · rw [if_neg h]
        simp only [Bool.or_eq_true, List.isEmpty_iff, decide_eq_true_eq, not_or, not_lt] at h
        simp only [Option.some.injEq, Prod.mk.injEq, List.cons.injEq, true_and]
        rw [runeOf_iff h.2]
        constructor
        · rintro ⟨h1, rfl⟩; exact ⟨rfl, h.1, h.2, h1⟩
        · rintro ⟨rfl, _, _, h1⟩; exact ⟨h1, rfl⟩
    · constructor
      · intro h
        unfold charRef at h
        split at h
        · rename_i heq; cases heq; exact absurd rfl hd
        · cases h
      · rintro ⟨h, -⟩
        cases h
        exact absurd rfl hd

end Ofx
