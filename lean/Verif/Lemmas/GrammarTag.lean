import Verif.Lemmas.GrammarData
/-
Comments, directives and the inside of start tags: the lexer against the grammar.
-/
namespace Ofx
open Spec

/-! ### Comments -/

theorem pair_prefix {x : Char} {s : Str} : [x, x] <+: x :: s ↔ s.head? = some x := by
  constructor
  · rintro ⟨t, ht⟩
    simp only [List.cons_append, List.nil_append, List.cons.injEq, true_and] at ht
    rw [← ht]; rfl
  · intro h
    cases s with
    | nil => cases h
    | cons y s => cases h; exact ⟨s, rfl⟩

theorem afterComment_iff {s r : Str} : afterComment s = some r ↔
    ∃ a, s = a ++ ['-', '-', '>'] ++ r ∧ ¬ ['-', '-'] <:+: a ++ ['-'] := by
  induction s with
  | nil =>
    constructor
    · intro h; cases h
    · rintro ⟨a, h, -⟩
      have := congrArg List.length h
      simp at this
  | cons c s ih =>
    by_cases hc : c = '-'
    · subst hc
      by_cases h1 : ∃ t, s = '-' :: t
      · obtain ⟨t, rfl⟩ := h1
        by_cases h2 : ∃ u, t = '>' :: u
        · obtain ⟨u, rfl⟩ := h2
          have e : afterComment ('-' :: '-' :: '>' :: u) = some u := rfl
          rw [e]
          constructor
          · intro h; cases h
            exact ⟨[], by simp, by
              intro hi; have := hi.length_le; simp at this⟩
          · rintro ⟨a, h, hn⟩
            cases a with
            | nil => simp at h; rw [h]
            | cons d a =>
              exfalso
              simp only [List.cons_append, List.cons.injEq] at h
              obtain ⟨rfl, h⟩ := h
              apply hn
              rw [List.cons_append, List.infix_cons_iff]
              left
              rw [pair_prefix]
              cases a with
              | nil => rfl
              | cons d a => simp at h; simp [← h.1]
        · have e : afterComment ('-' :: '-' :: t) = none := by
            unfold afterComment
            simp only [if_true]
            split
            · rename_i heq; cases heq; exact absurd ⟨_, rfl⟩ h2
            · rfl
            · rename_i h3 h4; exact absurd rfl (h4 t)
          rw [e]
          constructor
          · intro h; cases h
          · rintro ⟨a, h, hn⟩
            exfalso
            cases a with
            | nil =>
              simp only [List.nil_append, List.cons_append, List.cons.injEq, true_and] at h
              exact h2 ⟨_, h⟩
            | cons d a =>
              simp only [List.cons_append, List.cons.injEq] at h
              obtain ⟨rfl, h⟩ := h
              apply hn
              rw [List.cons_append, List.infix_cons_iff]
              left
              rw [pair_prefix]
              cases a with
              | nil => rfl
              | cons d a => simp at h; simp [← h.1]
      · have e : afterComment ('-' :: s) = afterComment s := by
          conv_lhs => unfold afterComment
          simp only [if_true]
          split
          · exact absurd ⟨_, rfl⟩ h1
          · exact absurd ⟨_, rfl⟩ h1
          · rfl
        rw [e, ih]
        constructor
        · rintro ⟨a, rfl, hn⟩
          refine ⟨'-' :: a, rfl, ?_⟩
          rw [List.cons_append, List.infix_cons_iff, pair_prefix]
          rintro (h | h)
          · cases a with
            | nil => exact h1 ⟨_, rfl⟩
            | cons d a => cases h; exact h1 ⟨_, rfl⟩
          · exact hn h
        · rintro ⟨a, h, hn⟩
          cases a with
          | nil =>
            simp only [List.nil_append, List.cons_append, List.cons.injEq, true_and] at h
            exact absurd ⟨_, h⟩ h1
          | cons d a =>
            simp only [List.cons_append, List.cons.injEq] at h
            obtain ⟨rfl, h⟩ := h
            exact ⟨a, by simpa using h, fun hi => hn (by rw [List.cons_append]; exact List.infix_cons hi)⟩
    · have e : afterComment (c :: s) = afterComment s := by
        conv_lhs => unfold afterComment
        rw [if_neg hc]
      rw [e, ih]
      constructor
      · rintro ⟨a, rfl, hn⟩
        refine ⟨c :: a, rfl, ?_⟩
        rw [List.cons_append, List.infix_cons_iff]
        rintro (⟨t, ht⟩ | h)
        · simp only [List.cons_append, List.cons.injEq] at ht
          exact hc ht.1.symm
        · exact hn h
      · rintro ⟨a, h, hn⟩
        cases a with
        | nil =>
          simp only [List.nil_append, List.cons_append, List.cons.injEq] at h
          exact absurd h.1 hc
        | cons d a =>
          simp only [List.cons_append, List.cons.injEq] at h
          obtain ⟨rfl, h⟩ := h
          exact ⟨a, by simpa using h, fun hi => hn (by rw [List.cons_append]; exact List.infix_cons hi)⟩

/-! ### Directives -/

/-- The rest after leaving `d` angle brackets and the directive. -/
inductive Unnest : Nat → Str → Str → Prop
  | zero {t r : Str} : Nested t → Unnest 0 (t ++ '>' :: r) r
  | succ {d : Nat} {t s r : Str} : Nested t → Unnest d s r → Unnest (d + 1) (t ++ '>' :: s) r

theorem Unnest.prepend {d : Nat} {u s r : Str} (hu : ∀ t, Nested t → Nested (u ++ t)) (h : Unnest d s r) : Unnest d (u ++ s) r := by
  cases h with
  | zero ht => rw [← List.append_assoc]; exact .zero (hu _ ht)
  | succ ht hs => rw [← List.append_assoc]; exact .succ (hu _ ht) hs

theorem directive_cons {m : DirMode} {d : Nat} {c : Char} {s : Str} {m' : DirMode} {d' : Nat}
    (h : dirStep m d c = some (m', d')) : afterDirective m d (c :: s) = afterDirective m' d' s := by
  conv_lhs => unfold afterDirective
  rw [h]

/-- The rest after the first "-->". -/
def afterArrow : Str → Option Str
  | [] => none
  | c :: s => if ['-', '-', '>'].isPrefixOf (c :: s) then some ((c :: s).drop 3) else afterArrow s

theorem arrow_cut (s : Str) : afterArrow s = (cut ['-', '-', '>'] s).map Prod.snd := by
  induction s with
  | nil => rfl
  | cons c s ih =>
    unfold afterArrow cut
    by_cases h : ['-', '-', '>'].isPrefixOf (c :: s) = true
    · rw [if_pos h, if_pos h]; rfl
    · rw [if_neg h, if_neg h, ih]
      cases cut ['-', '-', '>'] s <;> rfl

theorem arrow_skip {c : Char} {s : Str} (h : ¬ ['-', '-', '>'] <+: c :: s) : afterArrow (c :: s) = afterArrow s := by
  conv_lhs => unfold afterArrow
  rw [if_neg (by rwa [List.isPrefixOf_iff_prefix])]

theorem directive_comments (d : Nat) (s : Str) :
    afterDirective (.comment 0) d s = (afterArrow s).bind (afterDirective .plain d) ∧
    afterDirective (.comment 1) d s = (afterArrow ('-' :: s)).bind (afterDirective .plain d) ∧
    afterDirective (.comment 2) d s = (afterArrow ('-' :: '-' :: s)).bind (afterDirective .plain d) := by
  induction s with
  | nil => exact ⟨rfl, rfl, rfl⟩
  | cons c s ih =>
    obtain ⟨ih0, ih1, ih2⟩ := ih
    refine ⟨?_, ?_, ?_⟩
    · by_cases hc : c = '-'
      · subst hc
        rw [directive_cons (m' := .comment 1) (d' := d) rfl, ih1]
      · rw [directive_cons (m' := .comment 0) (d' := d) (by simp [dirStep, hc]), ih0, arrow_skip]
        rintro ⟨v, hv⟩; exact hc (List.cons.inj hv).1.symm
    · by_cases hc : c = '-'
      · subst hc
        rw [directive_cons (m' := .comment 2) (d' := d) rfl, ih2]
      · rw [directive_cons (m' := .comment 0) (d' := d) (by simp [dirStep, hc]), ih0, arrow_skip, arrow_skip]
        · rintro ⟨v, hv⟩; exact hc (List.cons.inj hv).1.symm
        · rintro ⟨v, hv⟩; exact hc (List.cons.inj (List.cons.inj hv).2).1.symm
    · by_cases hg : c = '>'
      · subst hg
        rw [directive_cons (m' := .plain) (d' := d) rfl]
        have : afterArrow ('-' :: '-' :: '>' :: s) = some s := by
          unfold afterArrow
          rw [if_pos (by rw [List.isPrefixOf_iff_prefix]; exact ⟨s, rfl⟩)]
          rfl
        rw [this]
        rfl
      · have e : afterArrow ('-' :: '-' :: c :: s) = afterArrow ('-' :: c :: s) := by
          apply arrow_skip
          rintro ⟨v, hv⟩; exact hg (List.cons.inj (List.cons.inj (List.cons.inj hv).2).2).1.symm
        by_cases hc : c = '-'
        · subst hc
          rw [directive_cons (m' := .comment 2) (d' := d) rfl, ih2, e]
        · rw [directive_cons (m' := .comment 0) (d' := d) (by simp [dirStep, hg, hc]), ih0, e, arrow_skip, arrow_skip]
          · rintro ⟨v, hv⟩; exact hc (List.cons.inj hv).1.symm
          · rintro ⟨v, hv⟩; exact hc (List.cons.inj (List.cons.inj hv).2).1.symm

theorem directive_opened2 (d : Nat) {s : Str} (h : ¬ ['-'] <+: s) :
    afterDirective (.opened 2) d s = afterDirective .plain (d + 1) s := by
  cases s with
  | nil => rfl
  | cons c s =>
    have hc : c ≠ '-' := fun e => h (by subst e; exact ⟨s, rfl⟩)
    unfold afterDirective
    have : dirStep (.opened 2) d c = dirStep .plain (d + 1) c := by
      simp [dirStep, hc]
    rw [this]

theorem directive_opened1 (d : Nat) {s : Str} (h : ¬ ['-', '-'] <+: s) :
    afterDirective (.opened 1) d s = afterDirective .plain (d + 1) s := by
  cases s with
  | nil => rfl
  | cons c s =>
    by_cases hc : c = '-'
    · subst hc
      rw [directive_cons (m' := .opened 2) (d' := d) rfl, directive_cons (m' := .plain) (d' := d + 1) rfl,
        directive_opened2]
      rintro ⟨v, hv⟩; exact h ⟨v, by rw [← hv]; rfl⟩
    · unfold afterDirective
      have : dirStep (.opened 1) d c = dirStep .plain (d + 1) c := by
        simp [dirStep, hc]
      rw [this]

theorem directive_opened (d : Nat) {s : Str} (h : ¬ ['!', '-', '-'] <+: s) :
    afterDirective (.opened 0) d s = afterDirective .plain (d + 1) s := by
  cases s with
  | nil => rfl
  | cons c s =>
    by_cases hc : c = '!'
    · subst hc
      rw [directive_cons (m' := .opened 1) (d' := d) rfl, directive_cons (m' := .plain) (d' := d + 1) rfl,
        directive_opened1]
      rintro ⟨v, hv⟩; exact h ⟨v, by rw [← hv]; rfl⟩
    · unfold afterDirective
      have : dirStep (.opened 0) d c = dirStep .plain (d + 1) c := by
        simp [dirStep, hc]
      rw [this]

theorem directive_comment (d : Nat) (s : Str) :
    afterDirective (.opened 0) d ('!' :: '-' :: '-' :: s) = (afterArrow s).bind (afterDirective .plain d) := by
  rw [directive_cons (m' := .opened 1) (d' := d) rfl, directive_cons (m' := .opened 2) (d' := d) rfl,
    directive_cons (m' := .comment 0) (d' := d) rfl]
  exact (directive_comments d s).1

theorem Unnest.not_comment {d : Nat} {s r : Str} (h : Unnest (d + 1) s r) (hn : ¬ ['!', '-', '-'] <+: s) :
    ∃ t s', s = t ++ '>' :: s' ∧ ¬ ['!', '-', '-'] <+: t ∧ Nested t ∧ Unnest d s' r := by
  cases h with
  | @succ _ t s' _ ht hs => exact ⟨t, s', rfl, fun hp => hn (hp.trans (List.prefix_append ..)), ht, hs⟩

theorem directive_unnest (n : Nat) : ∀ {s r : Str} (d : Nat), s.length ≤ n →
    (afterDirective .plain d s = some r → Unnest d s r) ∧
    (∀ q, (q = '"' ∨ q = '\'') → afterDirective (.quoted q) d s = some r → ∃ t s', s = t ++ q :: s' ∧ q ∉ t ∧ Unnest d s' r) := by
  induction n with
  | zero =>
    intro s r d hl
    have : s = [] := List.length_eq_zero_iff.mp (by omega)
    subst this
    exact ⟨fun h => (by cases h), fun q _ h => (by cases h)⟩
  | succ n ih =>
    intro s r d hl
    cases s with
    | nil => exact ⟨fun h => (by cases h), fun q _ h => (by cases h)⟩
    | cons c s =>
    have hl' : s.length ≤ n := by simpa using hl
    clear hl
    constructor
    · intro h
      by_cases h1 : c = '>'
      · subst h1
        cases d with
        | zero => cases h; exact .zero (t := []) .nil
        | succ d => exact .succ (t := []) .nil ((ih d hl').1 h)
      · by_cases h2 : c = '<'
        · subst h2
          rw [directive_cons (m' := .opened 0) (d' := d) rfl] at h
          by_cases hp : ['!', '-', '-'] <+: s
          · obtain ⟨v, rfl⟩ := hp
            replace h : afterDirective (.opened 0) d ('!' :: '-' :: '-' :: v) = some r := h
            rw [directive_comment] at h
            cases ha : afterArrow v with
            | none => rw [ha] at h; cases h
            | some w =>
              rw [ha] at h
              replace h : afterDirective .plain d w = some r := h
              rw [arrow_cut] at ha
              cases hc : cut ['-', '-', '>'] v with
              | none => rw [hc] at ha; cases ha
              | some p =>
                obtain ⟨t, w'⟩ := p
                rw [hc] at ha
                cases ha
                obtain ⟨rfl, hn⟩ := (cut_iff (by simp)).mp hc
                have hu := (ih d (by simp at hl' ⊢; omega)).1 h
                have := hu.prepend (u := ['<', '!', '-', '-'] ++ t ++ ['-', '-', '>']) (fun t' ht' => .comment hn ht')
                simpa using this
          · rw [directive_opened d hp] at h
            obtain ⟨t, s', rfl, hn, ht, hs⟩ := ((ih (d + 1) hl').1 h).not_comment hp
            have := hs.prepend (u := ['<'] ++ t ++ ['>']) (fun t' ht' => .angle hn ht ht')
            simpa using this
        · by_cases h3 : c = '\'' ∨ c = '"'
          · rw [directive_cons (m' := .quoted c) (d' := d) (by unfold dirStep dirPlain; simp only [if_neg h1, if_neg h2, if_pos h3])] at h
            obtain ⟨t, s', rfl, hq, hu⟩ := (ih d hl').2 c h3.symm h
            have := hu.prepend (u := [c] ++ t ++ [c]) (fun t' ht' => .quoted h3.symm hq ht')
            simpa using this
          · rw [directive_cons (m' := .plain) (d' := d) (by unfold dirStep dirPlain; simp only [if_neg h1, if_neg h2, if_neg h3])] at h
            rw [not_or] at h3
            exact ((ih d hl').1 h).prepend (u := [c]) (fun t' ht' => .char h2 h1 h3.2 h3.1 ht')
    · intro q hq h
      by_cases hc : c = q
      · rw [directive_cons (m' := .plain) (d' := d) (by simp [dirStep, hc])] at h
        subst hc
        exact ⟨[], s, rfl, by simp, (ih d hl').1 h⟩
      · rw [directive_cons (m' := .quoted q) (d' := d) (by simp [dirStep, hc])] at h
        obtain ⟨t, s', rfl, h1, h2⟩ := (ih d hl').2 q hq h
        exact ⟨c :: t, s', rfl, by simp [h1, Ne.symm hc], h2⟩

theorem directive_quote {q : Char} {t s : Str} (hq : q ∉ t) (d : Nat) :
    afterDirective (.quoted q) d (t ++ q :: s) = afterDirective .plain d s := by
  induction t with
  | nil => exact directive_cons (by simp [dirStep])
  | cons c t ih =>
    have hc : c ≠ q := fun e => hq (by simp [e])
    rw [List.cons_append, directive_cons (m' := .quoted q) (d' := d) (by simp [dirStep, hc])]
    exact ih fun h => hq (by simp [h])

theorem directive_nested {t : Str} (h : Nested t) : ∀ (d : Nat) (s : Str), afterDirective .plain d (t ++ s) = afterDirective .plain d s := by
  induction h with
  | nil => intro d s; rfl
  | @char c t h1 h2 h3 h4 _ ih =>
    intro d s
    rw [List.cons_append, directive_cons (m' := .plain) (d' := d)
      (by unfold dirStep dirPlain; simp only [if_neg h1, if_neg h2, if_neg (show ¬ (c = '\'' ∨ c = '"') from not_or.mpr ⟨h4, h3⟩)])]
    exact ih d s
  | @quoted q t u hq hn _ ih =>
    intro d s
    have e : [q] ++ t ++ [q] ++ u ++ s = q :: (t ++ q :: (u ++ s)) := by simp
    rw [e, directive_cons (m' := .quoted q) (d' := d) (by rcases hq with rfl | rfl <;> rfl), directive_quote hn]
    exact ih d s
  | @comment t u hn _ ih =>
    intro d s
    have e : ['<', '!', '-', '-'] ++ t ++ ['-', '-', '>'] ++ u ++ s =
      '<' :: '!' :: '-' :: '-' :: (t ++ ['-', '-', '>'] ++ (u ++ s)) := by simp
    rw [e, directive_cons (m' := .opened 0) (d' := d) rfl, directive_comment, arrow_cut,
      (cut_iff (sep := ['-', '-', '>']) (a := t) (b := u ++ s) (by simp)).mpr ⟨rfl, hn⟩]
    exact ih d s
  | @angle t u hn _ _ ih ih' =>
    intro d s
    have e : ['<'] ++ t ++ ['>'] ++ u ++ s = '<' :: (t ++ '>' :: (u ++ s)) := by simp
    rw [e, directive_cons (m' := .opened 0) (d' := d) rfl, directive_opened, ih,
      directive_cons (m' := .plain) (d' := d) rfl]
    · exact ih' d s
    · intro hp
      apply hn
      have : ∀ (p t : Str) (c : Char) (v : Str), p <+: t ++ c :: v → c ∉ p → p <+: t := by
        intro p
        induction p with
        | nil => intro t c v _ _; exact List.nil_prefix
        | cons x p ih =>
          rintro t c v ⟨w, hw⟩ hc
          cases t with
          | nil =>
            have := (List.cons.inj hw).1
            exact absurd (by simp [this]) hc
          | cons y t =>
            have h1 := (List.cons.inj hw).1
            subst h1
            obtain ⟨z, hz⟩ := ih t c v ⟨w, (List.cons.inj hw).2⟩ (fun h => hc (by simp [h]))
            exact ⟨z, by rw [← hz]; rfl⟩
      exact this _ _ _ _ hp (by decide)

theorem afterDirective_iff {s r : Str} : afterDirective .plain 0 s = some r ↔ ∃ t, s = t ++ '>' :: r ∧ Nested t := by
  constructor
  · intro h
    have := (directive_unnest s.length 0 (le_refl _)).1 h
    cases this with
    | @zero t _ ht => exact ⟨t, rfl, ht⟩
  · rintro ⟨t, rfl, ht⟩
    rw [directive_nested ht]
    rfl

/-! ### Attributes -/

theorem isBare_iff (c : Char) : (c.isAlphanum || c == '_' || c == ':' || c == '-') = true ↔ BareChar c := by
  simp [BareChar, or_assoc]

theorem startsNot_append {P : Char → Prop} {a b : Str} (ha : a ≠ []) : StartsNot P (a ++ b) ↔ StartsNot P a := by
  cases a with
  | nil => exact absurd rfl ha
  | cons c a => rfl

theorem quoted_iff {strict : Bool} {q : Char} {t r : Str} (hq : q = '"' ∨ q = '\'') :
    afterAttrVal strict (q :: t) = some r ↔ ∃ v, q :: t = v ++ r ∧ Quoted (!strict) v := by
  have hw := fun (a r : Str) => while_iff (p := fun c => c != q && c != '<') (P := fun c => c ≠ q ∧ c ≠ '<')
    (fun c => by simp) (s := t) (a := a) (r := r)
  conv_lhs => unfold afterAttrVal
  simp only
  rw [if_pos hq]
  constructor
  · intro h
    obtain ⟨h1, h2, h3⟩ := (hw _ _).mp ⟨rfl, rfl⟩
    cases hd : t.dropWhile (fun c => c != q && c != '<') with
    | nil => rw [hd] at h; cases h
    | cons c r' =>
      rw [hd] at h
      simp only at h
      by_cases hc : c = q
      · rw [if_pos hc] at h
        subst hc
        cases ht : textToken strict (t.takeWhile (fun d => d != c && d != '<')) with
        | none => rw [ht] at h; cases h
        | some s =>
          rw [ht] at h
          simp only [Option.map_some, Option.some.injEq] at h
          subst h
          rw [hd] at h1
          refine ⟨[c] ++ t.takeWhile (fun d => d != c && d != '<') ++ [c], ?_, c, _, s, hq, rfl, ?_, ?_, textToken_iff.mp ht⟩
          · simp [← h1]
          · intro hm; exact (h2 _ hm).1 rfl
          · intro hm; exact (h2 _ hm).2 rfl
      · rw [if_neg hc] at h; cases h
  · rintro ⟨v, h, q', raw, s, hq', rfl, h1, h2, h3⟩
    simp only [List.cons_append, List.nil_append, List.append_assoc, List.cons.injEq] at h
    obtain ⟨rfl, h⟩ := h
    obtain ⟨g1, g2⟩ := (hw raw (q :: r)).mpr ⟨h, fun c hc => ⟨fun e => h1 (e ▸ hc), fun e => h2 (e ▸ hc)⟩,
      fun c hc hx => by cases hc; exact hx.1 rfl⟩
    rw [g1, g2]
    simp only [if_true]
    rw [textToken_iff.mpr h3]
    rfl

theorem bare_iff {strict : Bool} {s r : Str} (hs : s ≠ []) (hq : StartsNot (fun c => c = '"' ∨ c = '\'') s) :
    afterAttrVal strict s = some r ↔ strict = false ∧ ∃ v, s = v ++ r ∧ (∀ c ∈ v, BareChar c) ∧ StartsNot BareChar r := by
  cases s with
  | nil => exact absurd rfl hs
  | cons q t =>
    conv_lhs => unfold afterAttrVal
    simp only
    have hq' : ¬ (q = '"' ∨ q = '\'') := hq q rfl
    rw [if_neg hq']
    cases strict with
    | true => simp
    | false =>
      simp only [Bool.false_eq_true, if_false, Option.some.injEq, true_and]
      constructor
      · intro h
        exact ⟨_, (while_iff isBare_iff).mp ⟨rfl, h⟩⟩
      · rintro ⟨v, h⟩
        exact ((while_iff isBare_iff).mpr h).2

/-- What the rest of a start tag starts with. -/
theorem tagEnd_head {sgml : Bool} {nt : NameTable} {s : Str} {e : Bool} (h : TagEnd sgml nt s e) :
    ∃ w c t, s = w ++ c :: t ∧ TagSpaces w ∧ (c = '>' ∨ c = '/' ∨ NameChar c) := by
  have nm : ∀ {a : Str}, NameText nt a → ∃ c t, a = c :: t ∧ NameChar c := by
    intro a ha
    obtain ⟨c, cs, rfl, -⟩ := id ha
    exact ⟨c, cs, rfl, nameText_chars ha c (List.mem_cons_self ..)⟩
  cases h with
  | close hw => exact ⟨_, '>', [], rfl, hw, .inl rfl⟩
  | empty hw => exact ⟨_, '/', ['>'], rfl, hw, .inr (.inl rfl)⟩
  | attr hw ha _ _ _ _ =>
    obtain ⟨c, t, rfl, hc⟩ := nm ha
    exact ⟨_, c, _, by simp only [List.append_assoc, List.cons_append]; rfl, hw, .inr (.inr hc)⟩
  | bare _ hw ha _ _ _ _ _ _ =>
    obtain ⟨c, t, rfl, hc⟩ := nm ha
    exact ⟨_, c, _, by simp only [List.append_assoc, List.cons_append]; rfl, hw, .inr (.inr hc)⟩
  | missing _ hw ha _ _ =>
    obtain ⟨c, t, rfl, hc⟩ := nm ha
    exact ⟨_, c, _, by simp only [List.append_assoc, List.cons_append]; rfl, hw, .inr (.inr hc)⟩

theorem tagEnd_ne {sgml : Bool} {nt : NameTable} {s : Str} {e : Bool} (h : TagEnd sgml nt s e) : s ≠ [] := by
  obtain ⟨w, c, t, rfl, -⟩ := tagEnd_head h
  simp

theorem tagSpaces_append {w w' : Str} (h : TagSpaces w) (h' : TagSpaces w') : TagSpaces (w ++ w') :=
  fun c hc => (List.mem_append.mp hc).elim (h c) (h' c)

/-- White space may be added in front. -/
theorem tagEnd_space {sgml : Bool} {nt : NameTable} {w s : Str} {e : Bool} (hw : TagSpaces w) (h : TagEnd sgml nt s e) :
    TagEnd sgml nt (w ++ s) e := by
  cases h with
  | close h => rw [← List.append_assoc]; exact .close (tagSpaces_append hw h)
  | empty h => rw [← List.append_assoc]; exact .empty (tagSpaces_append hw h)
  | attr h ha h' h'' hv hs =>
    have := TagEnd.attr (tagSpaces_append hw h) ha h' h'' hv hs
    simpa only [List.append_assoc] using this
  | bare hsg h ha h' h'' hv hb hn hs =>
    have := TagEnd.bare hsg (tagSpaces_append hw h) ha h' h'' hv hb hn hs
    simpa only [List.append_assoc] using this
  | missing hsg h ha hn hs =>
    have := TagEnd.missing hsg (tagSpaces_append hw h) ha hn hs
    simpa only [List.append_assoc] using this

theorem nameChar_ne {c : Char} (h : NameChar c) : ¬ TagSpace c ∧ c ≠ '>' ∧ c ≠ '/' ∧ c ≠ '=' ∧ c ≠ '"' ∧ c ≠ '\'' ∧ c ≠ '?' ∧ c ≠ '!' ∧ c ≠ '<' := by
  rw [← isNameByte_iff] at h
  refine ⟨?_, ?_, ?_, ?_, ?_, ?_, ?_, ?_, ?_⟩
  · rintro (rfl | rfl | rfl | rfl) <;> exact absurd h (by decide)
  all_goals (rintro rfl; exact absurd h (by decide))

theorem skipSpace_at {w s : Str} (hw : TagSpaces w) (hs : StartsNot TagSpace s) : skipSpace (w ++ s) = s :=
  skipSpace_iff.mpr ⟨w, rfl, hw, hs⟩

theorem startsNot_cons {P : Char → Prop} {c : Char} {s : Str} (h : ¬ P c) : StartsNot P (c :: s) := by
  intro d hd; cases hd; exact h

theorem startsNot_space {w s : Str} (hw : TagSpaces w) (hs : StartsNot NameChar s) : StartsNot NameChar (w ++ s) := by
  cases w with
  | nil => exact hs
  | cons c w =>
    refine startsNot_cons (s := w ++ s) fun h => ?_
    exact (nameChar_ne h).1 (hw c (List.mem_cons_self ..))

theorem skipSpace_idem (s : Str) : skipSpace (skipSpace s) = skipSpace s := by
  obtain ⟨w, h1, h2, h3⟩ := skipSpace_iff.mp (rfl : skipSpace s = skipSpace s)
  exact skipSpace_at (w := []) (fun c hc => by cases hc) h3

theorem afterAttrs_skip (strict : Bool) (nt : NameTable) (fuel : Nat) (s : Str) :
    afterAttrs strict nt fuel (skipSpace s) = afterAttrs strict nt fuel s := by
  cases fuel with
  | zero => rfl
  | succ fuel => unfold afterAttrs; rw [skipSpace_idem]

theorem afterAttrs_tagEnd {strict : Bool} {nt : NameTable} : ∀ (fuel : Nat) (s r : Str) (e : Bool),
    afterAttrs strict nt fuel s = some (e, r) → ∃ u, s = u ++ r ∧ TagEnd (!strict) nt u e := by
  intro fuel
  induction fuel with
  | zero => intro s r e h; cases h
  | succ fuel ih =>
    intro s r e h
    unfold afterAttrs at h
    cases hsk : skipSpace s with
    | nil => rw [hsk] at h; cases h
    | cons c t =>
      rw [hsk] at h
      simp only at h
      obtain ⟨w, rfl, hw, hsp⟩ := skipSpace_iff.mp hsk
      by_cases h1 : c = '/'
      · rw [if_pos h1] at h
        subst h1
        cases t with
        | nil => cases h
        | cons d t =>
          by_cases hd : d = '>'
          · subst hd
            cases h
            exact ⟨w ++ ['/', '>'], by simp, .empty hw⟩
          · exfalso
            split at h
            · rename_i heq; cases heq; exact hd rfl
            · cases h
      · rw [if_neg h1] at h
        by_cases h2 : c = '>'
        · rw [if_pos h2] at h
          subst h2
          cases h
          exact ⟨w ++ ['>'], by simp, .close hw⟩
        · rw [if_neg h2] at h
          cases hn : lexName nt (c :: t) with
          | none => rw [hn] at h; cases h
          | some x =>
            obtain ⟨a, r1⟩ := x
            rw [hn] at h
            simp only at h
            obtain ⟨he, ha, hb⟩ := lexName_iff.mp hn
            rw [he]
            cases hs1 : skipSpace r1 with
            | nil => rw [hs1] at h; cases h
            | cons x r2 =>
              rw [hs1] at h
              simp only at h
              obtain ⟨w', rfl, hw', hsp'⟩ := skipSpace_iff.mp hs1
              by_cases hx : x = '='
              · rw [if_pos hx] at h
                subst hx
                cases hv : afterAttrVal strict (skipSpace r2) with
                | none => rw [hv] at h; cases h
                | some r3 =>
                  rw [hv] at h
                  simp only at h
                  obtain ⟨u, rfl, hu⟩ := ih _ _ _ h
                  obtain ⟨w'', hr2, hw'', hsp''⟩ := skipSpace_iff.mp (rfl : skipSpace r2 = skipSpace r2)
                  generalize skipSpace r2 = y at hv hr2 hsp''
                  subst hr2
                  by_cases hq : StartsNot (fun c => c = '"' ∨ c = '\'') y
                  · have hy : y ≠ [] := by rintro rfl; cases hv
                    obtain ⟨hst, v, rfl, hv1, hv2⟩ := (bare_iff hy hq).mp hv
                    refine ⟨w ++ a ++ w' ++ ['='] ++ w'' ++ v ++ u, by simp, ?_⟩
                    refine .bare (by simp [hst]) hw ha hw' hw'' hv1 ((startsNot_append (tagEnd_ne hu)).mp hv2) ?_ hu
                    rw [← List.append_assoc] at hsp''
                    exact (startsNot_append (by simp [tagEnd_ne hu])).mp hsp''
                  · have : ∃ q t, y = q :: t ∧ (q = '"' ∨ q = '\'') := by
                      cases y with
                      | nil => cases hv
                      | cons q t =>
                        refine ⟨q, t, rfl, ?_⟩
                        by_contra hc
                        exact hq (startsNot_cons hc)
                    obtain ⟨q, t', rfl, hq'⟩ := this
                    obtain ⟨v, hv1, hv2⟩ := (quoted_iff hq').mp hv
                    refine ⟨w ++ a ++ w' ++ ['='] ++ w'' ++ v ++ u, by rw [hv1]; simp, ?_⟩
                    exact .attr hw ha hw' hw'' hv2 hu
              · rw [if_neg hx] at h
                cases strict with
                | true => cases h
                | false =>
                  simp only [Bool.false_eq_true, if_false] at h
                  obtain ⟨u, hu1, hu2⟩ := ih _ _ _ h
                  refine ⟨w ++ a ++ (w' ++ u), by rw [hu1]; simp, ?_⟩
                  refine .missing rfl hw ha ?_ (tagEnd_space hw' hu2)
                  rw [hu1, ← List.append_assoc] at hb
                  exact (startsNot_append (by simp [tagEnd_ne hu2])).mp hb

theorem quoted_head {sgml : Bool} {v : Str} (h : Quoted sgml v) : ∃ q t, v = q :: t ∧ (q = '"' ∨ q = '\'') := by
  obtain ⟨q, raw, s, hq, rfl, -⟩ := h
  exact ⟨q, raw ++ [q], rfl, hq⟩

theorem tagEnd_afterAttrs {strict : Bool} {nt : NameTable} {u : Str} {e : Bool} (h : TagEnd (!strict) nt u e) :
    ∀ (fuel : Nat) (r : Str), u.length < fuel → afterAttrs strict nt fuel (u ++ r) = some (e, r) := by
  have nm : ∀ {a : Str}, NameText nt a → ∃ c t, a = c :: t ∧ NameChar c := by
    intro a ha
    obtain ⟨c, cs, rfl, -⟩ := id ha
    exact ⟨c, cs, rfl, nameText_chars ha c (List.mem_cons_self ..)⟩
  have hEq : ∀ s : Str, StartsNot NameChar ('=' :: s) := fun s =>
    startsNot_cons fun h => (nameChar_ne h).2.2.2.1 rfl
  have hEq' : ∀ s : Str, StartsNot TagSpace ('=' :: s) := fun s =>
    startsNot_cons (by rintro (h | h | h | h) <;> cases h)
  induction h with
  | @close w hw =>
    intro fuel r hf
    cases fuel with
    | zero => omega
    | succ fuel =>
      unfold afterAttrs
      rw [show w ++ ['>'] ++ r = w ++ '>' :: r from by simp, skipSpace_at hw (startsNot_cons (by rintro (h | h | h | h) <;> cases h))]
      simp
  | @empty w hw =>
    intro fuel r hf
    cases fuel with
    | zero => omega
    | succ fuel =>
      unfold afterAttrs
      rw [show w ++ ['/', '>'] ++ r = w ++ '/' :: '>' :: r from by simp, skipSpace_at hw (startsNot_cons (by rintro (h | h | h | h) <;> cases h))]
      simp
  | @attr w a w' w'' v s e hw ha hw' hw'' hv _ ih =>
    intro fuel r hf
    cases fuel with
    | zero => omega
    | succ fuel =>
      obtain ⟨c, t, hct, hc⟩ := nm ha
      obtain ⟨n1, n2, n3, -⟩ := nameChar_ne hc
      have e1 : w ++ a ++ w' ++ ['='] ++ w'' ++ v ++ s ++ r = w ++ (a ++ (w' ++ '=' :: (w'' ++ (v ++ (s ++ r))))) := by simp
      have e2 : skipSpace (w ++ (a ++ (w' ++ '=' :: (w'' ++ (v ++ (s ++ r)))))) = a ++ (w' ++ '=' :: (w'' ++ (v ++ (s ++ r)))) :=
        skipSpace_at hw (by rw [hct]; exact startsNot_cons n1)
      have e3 : lexName nt (a ++ (w' ++ '=' :: (w'' ++ (v ++ (s ++ r))))) = some (a, w' ++ '=' :: (w'' ++ (v ++ (s ++ r)))) :=
        lexName_iff.mpr ⟨rfl, ha, startsNot_space hw' (hEq _)⟩
      have e4 : skipSpace (w' ++ '=' :: (w'' ++ (v ++ (s ++ r)))) = '=' :: (w'' ++ (v ++ (s ++ r))) := skipSpace_at hw' (hEq' _)
      obtain ⟨q, t', hqt, hq⟩ := quoted_head hv
      have e5 : skipSpace (w'' ++ (v ++ (s ++ r))) = v ++ (s ++ r) :=
        skipSpace_at hw'' (by rw [hqt]; exact startsNot_cons (by rcases hq with rfl | rfl <;> (rintro (h | h | h | h) <;> cases h)))
      have e6 : afterAttrVal strict (v ++ (s ++ r)) = some (s ++ r) := by
        rw [hqt, List.cons_append, quoted_iff hq]
        exact ⟨v, by rw [hqt]; simp, hv⟩
      have hlen : s.length < fuel := by simp at hf; omega
      unfold afterAttrs
      rw [e1, e2, hct, List.cons_append]
      simp only
      rw [if_neg n3, if_neg n2, ← List.cons_append, ← hct, e3]
      simp only
      rw [e4]
      simp only [if_true]
      rw [e5, e6]
      exact ih fuel r hlen
  | @bare w a w' w'' v s e hsg hw ha hw' hw'' hv hb hn hs ih =>
    intro fuel r hf
    have hst : strict = false := by simpa using hsg
    cases fuel with
    | zero => omega
    | succ fuel =>
      obtain ⟨c, t, hct, hc⟩ := nm ha
      obtain ⟨n1, n2, n3, -⟩ := nameChar_ne hc
      have hne := tagEnd_ne hs
      have e1 : w ++ a ++ w' ++ ['='] ++ w'' ++ v ++ s ++ r = w ++ (a ++ (w' ++ '=' :: (w'' ++ (v ++ (s ++ r))))) := by simp
      have e2 : skipSpace (w ++ (a ++ (w' ++ '=' :: (w'' ++ (v ++ (s ++ r)))))) = a ++ (w' ++ '=' :: (w'' ++ (v ++ (s ++ r)))) :=
        skipSpace_at hw (by rw [hct]; exact startsNot_cons n1)
      have e3 : lexName nt (a ++ (w' ++ '=' :: (w'' ++ (v ++ (s ++ r))))) = some (a, w' ++ '=' :: (w'' ++ (v ++ (s ++ r)))) :=
        lexName_iff.mpr ⟨rfl, ha, startsNot_space hw' (hEq _)⟩
      have e4 : skipSpace (w' ++ '=' :: (w'' ++ (v ++ (s ++ r)))) = '=' :: (w'' ++ (v ++ (s ++ r))) := skipSpace_at hw' (hEq' _)
      have e5 : skipSpace (w'' ++ (v ++ (s ++ r))) = v ++ (s ++ r) :=
        skipSpace_at hw'' (by rw [← List.append_assoc, startsNot_append (by simp [hne])]; exact hn)
      have e6 : afterAttrVal strict (v ++ (s ++ r)) = some (s ++ r) := by
        refine (bare_iff (by simp [hne]) ?_).mpr ⟨hst, v, rfl, hv, (startsNot_append hne).mpr hb⟩
        cases v with
        | cons d v =>
          refine startsNot_cons ?_
          have hd := hv d (List.mem_cons_self ..)
          rw [← isBare_iff] at hd
          rintro (rfl | rfl) <;> exact absurd hd (by decide)
        | nil =>
          obtain ⟨w3, d, t3, rfl, hw3, hd⟩ := tagEnd_head hs
          cases w3 with
          | cons x w3 =>
            exact absurd (hw3 x (List.mem_cons_self ..)) (hn x rfl)
          | nil =>
            refine startsNot_cons ?_
            rcases hd with rfl | rfl | hd
            · decide
            · decide
            · have := nameChar_ne hd
              rintro (h | h)
              · exact this.2.2.2.2.1 h
              · exact this.2.2.2.2.2.1 h
      have hlen : s.length < fuel := by simp at hf; omega
      unfold afterAttrs
      rw [e1, e2, hct, List.cons_append]
      simp only
      rw [if_neg n3, if_neg n2, ← List.cons_append, ← hct, e3]
      simp only
      rw [e4]
      simp only [if_true]
      rw [e5, e6]
      exact ih fuel r hlen
  | @missing w a s e hsg hw ha hn hs ih =>
    intro fuel r hf
    have hst : strict = false := by simpa using hsg
    cases fuel with
    | zero => omega
    | succ fuel =>
      obtain ⟨c, t, hct, hc⟩ := nm ha
      obtain ⟨n1, n2, n3, -⟩ := nameChar_ne hc
      have hne := tagEnd_ne hs
      have e1 : w ++ a ++ s ++ r = w ++ (a ++ (s ++ r)) := by simp
      have e2 : skipSpace (w ++ (a ++ (s ++ r))) = a ++ (s ++ r) := skipSpace_at hw (by rw [hct]; exact startsNot_cons n1)
      have e3 : lexName nt (a ++ (s ++ r)) = some (a, s ++ r) := lexName_iff.mpr ⟨rfl, ha, (startsNot_append hne).mpr hn⟩
      have e4 : ∃ d r2, skipSpace (s ++ r) = d :: r2 ∧ d ≠ '=' := by
        obtain ⟨w3, d, t3, rfl, hw3, hd⟩ := tagEnd_head hs
        have hds : ¬ TagSpace d ∧ d ≠ '=' := by
          rcases hd with rfl | rfl | hd
          · exact ⟨(by rintro (h | h | h | h) <;> cases h), by decide⟩
          · exact ⟨(by rintro (h | h | h | h) <;> cases h), by decide⟩
          · have := nameChar_ne hd; exact ⟨this.1, this.2.2.2.1⟩
        refine ⟨d, t3 ++ r, ?_, hds.2⟩
        rw [show w3 ++ d :: t3 ++ r = w3 ++ d :: (t3 ++ r) from by simp]
        exact skipSpace_at hw3 (startsNot_cons hds.1)
      obtain ⟨d, r2, e5, hd⟩ := e4
      have hapos := List.length_pos_iff.mpr (nameText_ne ha)
      have hlen : s.length < fuel := by simp at hf; omega
      unfold afterAttrs
      rw [e1, e2, hct, List.cons_append]
      simp only
      rw [if_neg n3, if_neg n2, ← List.cons_append, ← hct, e3]
      simp only
      rw [e5]
      simp only
      rw [if_neg hd, hst]
      simp only [Bool.false_eq_true, if_false]
      rw [← e5, ← hst, afterAttrs_skip]
      exact ih fuel r hlen

end Ofx
