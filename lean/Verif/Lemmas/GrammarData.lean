import Verif.Lemmas.GrammarChars
/-
Character data: `textToken` and CDATA sections against the grammar.
-/
namespace Ofx
open Spec

theorem entity_other {s : Str} (h : s.head? ≠ some '#') : entity s =
    (match s.dropWhile isNameByte with
    | ';' :: r =>
      match namedEntity (s.takeWhile isNameByte) with
      | some c => some (c, r)
      | none => none
    | _ => none) := by
  unfold entity
  split
  · exact absurd rfl h
  · exact absurd rfl h
  · rfl

theorem isDigit_semicolon (r : Str) : StartsNot (fun c => isDigit c = true) (';' :: r) := by
  intro c hc h; cases hc; exact absurd h (by decide)

theorem entity_named {s r : Str} {c : Char} (hs : s.head? ≠ some '#') :
    entity s = some (c, r) ↔ ∃ n : String, (n, c) ∈ entities ∧ s = n.toList ++ ';' :: r := by
  rw [entity_other hs]
  constructor
  · intro h
    obtain ⟨h1, h2, h3⟩ := (while_iff isNameByte_iff (s := s)).mp ⟨rfl, rfl⟩
    cases hd : s.dropWhile isNameByte with
    | nil => rw [hd] at h; cases h
    | cons d t =>
      rw [hd] at h
      by_cases hsc : d = ';'
      · subst hsc
        simp only at h
        cases hn : namedEntity (s.takeWhile isNameByte) with
        | none => rw [hn] at h; cases h
        | some x =>
          rw [hn] at h
          cases h
          obtain ⟨e, he, h4⟩ := (namedEntity_iff _ _).mp hn
          refine ⟨e, he, ?_⟩
          rw [← h4, ← hd]
          exact h1
      · exfalso
        split at h
        · rename_i heq; cases heq; exact hsc rfl
        · cases h
  · rintro ⟨n, hn, rfl⟩
    have hc : ∀ c ∈ n.toList, NameChar c := by
      intro c hc
      rw [← isNameByte_iff]
      revert c
      simp only [entities, List.mem_cons, List.not_mem_nil, or_false, Prod.mk.injEq] at hn
      rcases hn with ⟨rfl, rfl⟩ | ⟨rfl, rfl⟩ | ⟨rfl, rfl⟩ | ⟨rfl, rfl⟩ | ⟨rfl, rfl⟩ <;> decide
    obtain ⟨h1, h2⟩ := (while_iff isNameByte_iff (s := n.toList ++ ';' :: r)).mpr ⟨rfl, hc, by
      intro d hd h; cases hd; rw [← isNameByte_iff] at h; exact absurd h (by decide)⟩
    rw [h1, h2]
    simp only
    rw [(namedEntity_iff _ _).mpr ⟨n, hn, rfl⟩]

theorem entity_hex {s r : Str} {c : Char} :
    entity ('#' :: 'x' :: s) = some (c, r) ↔ ∃ ds n, ds ≠ [] ∧ HexNumber ds n ∧ n ≤ 0x10FFFF ∧ CodePoint n c ∧ s = ds ++ ';' :: r := by
  have e : entity ('#' :: 'x' :: s) = charRef (s.takeWhile isHex) 16 hexV (s.dropWhile isHex) := rfl
  rw [e, charRef_iff]
  have hw := fun (ds r : Str) => while_iff (p := isHex) (P := fun c => isHex c = true) (fun c => Iff.rfl) (s := s) (a := ds) (r := r)
  constructor
  · rintro ⟨h1, h2, h3, h4⟩
    obtain ⟨g1, g2, -⟩ := (hw _ _).mp ⟨rfl, h1⟩
    exact ⟨_, _, h2, (hexNumber_iff _ _).mpr ⟨g2, rfl⟩, h3, h4, g1⟩
  · rintro ⟨ds, n, h1, h2, h3, h4, rfl⟩
    obtain ⟨h5, rfl⟩ := (hexNumber_iff _ _).mp h2
    obtain ⟨g1, g2⟩ := (hw ds (';' :: r)).mpr ⟨rfl, h5, fun c hc h => by cases hc; exact absurd h (by decide)⟩
    rw [g1, g2]
    exact ⟨rfl, h1, h3, h4⟩

theorem entity_decimal {s r : Str} {c : Char} (hs : s.head? ≠ some 'x') :
    entity ('#' :: s) = some (c, r) ↔ ∃ ds, IsNumeral ds ∧ value ds ≤ 0x10FFFF ∧ CodePoint (value ds) c ∧ s = ds ++ ';' :: r := by
  have e : entity ('#' :: s) = charRef (s.takeWhile isDigit) 10 digitV (s.dropWhile isDigit) := by
    unfold entity
    split
    · rename_i heq; cases heq; exact absurd rfl hs
    · rename_i heq; cases heq; rfl
    · rename_i h1 h2; exact absurd rfl (h2 s)
  rw [e, charRef_iff]
  have hw := fun (ds r : Str) => while_iff (p := isDigit) (P := fun c => isDigit c = true) (fun c => Iff.rfl) (s := s) (a := ds) (r := r)
  constructor
  · rintro ⟨h1, h2, h3, h4⟩
    obtain ⟨g1, g2, -⟩ := (hw _ _).mp ⟨rfl, h1⟩
    have hv := value_eq g2
    unfold digitsVal at hv
    rw [← hv] at h3 h4
    exact ⟨_, (isNumeral_iff _).mpr ⟨h2, g2⟩, h3, h4, g1⟩
  · rintro ⟨ds, h1, h3, h4, rfl⟩
    obtain ⟨h5, h6⟩ := (isNumeral_iff _).mp h1
    obtain ⟨g1, g2⟩ := (hw ds (';' :: r)).mpr ⟨rfl, h6, isDigit_semicolon r⟩
    rw [g1, g2]
    have hv := value_eq h6
    unfold digitsVal at hv
    rw [hv] at h3 h4
    exact ⟨rfl, h5, h3, h4⟩

theorem entity_iff {s r : Str} {c : Char} : entity s = some (c, r) ↔ ∃ e, Reference ('&' :: e) c ∧ s = e ++ r := by
  have hnum : ∀ {ds : Str}, IsNumeral ds → ds.head? ≠ some 'x' := by
    intro ds h hx
    obtain ⟨h1, h2⟩ := (isNumeral_iff _).mp h
    cases ds with
    | nil => exact h1 rfl
    | cons d ds => cases hx; exact absurd (h2 'x' (List.mem_cons_self ..)) (by decide)
  have hinv : ∀ {e : Str} {c : Char}, Reference ('&' :: e) c →
      (∃ n : String, (n, c) ∈ entities ∧ e = n.toList ++ [';']) ∨
      (∃ ds, IsNumeral ds ∧ value ds ≤ 0x10FFFF ∧ CodePoint (value ds) c ∧ e = '#' :: ds ++ [';']) ∨
      (∃ ds n, ds ≠ [] ∧ HexNumber ds n ∧ n ≤ 0x10FFFF ∧ CodePoint n c ∧ e = '#' :: 'x' :: ds ++ [';']) := by
    intro e c h
    generalize hx : '&' :: e = x at h
    cases h with
    | named hn => simp at hx; exact .inl ⟨_, hn, hx⟩
    | decimal h1 h2 h3 => simp at hx; exact .inr (.inl ⟨_, h1, h2, h3, hx⟩)
    | hex h1 h2 h3 h4 => simp at hx; exact .inr (.inr ⟨_, _, h1, h2, h3, h4, hx⟩)
  constructor
  · intro h
    by_cases hs : s.head? = some '#'
    · cases s with
      | nil => cases hs
      | cons d s =>
        cases hs
        by_cases hx : s.head? = some 'x'
        · cases s with
          | nil => cases hx
          | cons d s =>
            cases hx
            obtain ⟨ds, n, h1, h2, h3, h4, rfl⟩ := entity_hex.mp h
            exact ⟨_, .hex h1 h2 h3 h4, by simp⟩
        · obtain ⟨ds, h1, h2, h3, rfl⟩ := (entity_decimal hx).mp h
          exact ⟨_, .decimal h1 h2 h3, by simp⟩
    · obtain ⟨n, hn, rfl⟩ := (entity_named hs).mp h
      exact ⟨_, .named hn, by simp⟩
  · rintro ⟨e, he, rfl⟩
    rcases hinv he with ⟨n, hn, rfl⟩ | ⟨ds, h1, h2, h3, rfl⟩ | ⟨ds, n, h1, h2, h3, h4, rfl⟩
    · have hh : (n.toList ++ [';'] ++ r).head? ≠ some '#' := by
        simp only [entities, List.mem_cons, List.not_mem_nil, or_false, Prod.mk.injEq] at hn
        rcases hn with ⟨rfl, rfl⟩ | ⟨rfl, rfl⟩ | ⟨rfl, rfl⟩ | ⟨rfl, rfl⟩ | ⟨rfl, rfl⟩ <;> simp
      exact (entity_named hh).mpr ⟨n, hn, by simp⟩
    · rw [show '#' :: ds ++ [';'] ++ r = '#' :: (ds ++ ';' :: r) from by simp]
      refine (entity_decimal ?_).mpr ⟨ds, h1, h2, h3, rfl⟩
      have := hnum h1
      have hne := h1.1
      cases ds with
      | nil => exact absurd rfl hne
      | cons d ds => exact this
    · rw [show '#' :: 'x' :: ds ++ [';'] ++ r = '#' :: 'x' :: (ds ++ ';' :: r) from by simp]
      exact entity_hex.mpr ⟨ds, n, h1, h2, h3, h4, rfl⟩

theorem reference_amp {e : Str} {c : Char} (h : Reference e c) : ∃ e', e = '&' :: e' := by
  cases h <;> exact ⟨_, rfl⟩

theorem reference_plain {e : Str} {c : Char} (h : Reference e c) : ∀ d ∈ e, d ≠ '\n' ∧ d ≠ '\r' := by
  have hdig : ∀ d, isDigit d = true → d ≠ '\n' ∧ d ≠ '\r' := by
    intro d hd
    constructor <;> rintro rfl <;> exact absurd hd (by decide)
  have hhex : ∀ d, isHex d = true → d ≠ '\n' ∧ d ≠ '\r' := by
    intro d hd
    constructor <;> rintro rfl <;> exact absurd hd (by decide)
  cases h with
  | named hn =>
    simp only [entities, List.mem_cons, List.not_mem_nil, or_false, Prod.mk.injEq] at hn
    rcases hn with ⟨rfl, rfl⟩ | ⟨rfl, rfl⟩ | ⟨rfl, rfl⟩ | ⟨rfl, rfl⟩ | ⟨rfl, rfl⟩ <;> decide
  | decimal h1 _ _ =>
    have h2 := ((isNumeral_iff _).mp h1).2
    intro d hd
    simp only [List.mem_append, List.mem_singleton] at hd
    rcases hd with (hd | hd) | rfl
    · revert d; decide
    · exact hdig d (h2 d hd)
    · decide
  | hex _ h1 _ _ =>
    have h2 := ((hexNumber_iff _ _).mp h1).1
    intro d hd
    simp only [List.mem_append, List.mem_singleton] at hd
    rcases hd with (hd | hd) | rfl
    · revert d; decide
    · exact hhex d (h2 d hd)
    · decide

/-- Characters other than line ends stay where they are. -/
theorem normLines_split {e r r' : Str} (he : ∀ d ∈ e, d ≠ '\n') (h : normLines r = e ++ r') :
    ∃ r'', r = e ++ r'' ∧ normLines r'' = r' := by
  induction e generalizing r with
  | nil => exact ⟨r, rfl, h⟩
  | cons d e ih =>
    have hd := he d (List.mem_cons_self ..)
    cases r with
    | nil => cases h
    | cons x r =>
      by_cases hx : x = '\r'
      · subst hx
        exfalso
        unfold normLines at h
        split at h
        · rename_i heq; cases heq
        · rename_i heq; cases heq; exact hd (List.cons.inj h).1.symm
        · rename_i heq; cases heq; exact hd (List.cons.inj h).1.symm
        · rename_i h1 h2 heq; cases heq; exact h2 rfl
      · rw [normLines_cons hx] at h
        obtain ⟨rfl, h3⟩ := List.cons.inj h
        obtain ⟨r'', rfl, h2⟩ := ih (fun d hd => he d (List.mem_cons_of_mem _ hd)) h3
        exact ⟨r'', rfl, h2⟩

theorem normLines_cr {r : Str} (h : StartsNot (· = '\n') r) : normLines ('\r' :: r) = '\n' :: normLines r := by
  cases r with
  | nil => rfl
  | cons c r =>
    have : c ≠ '\n' := h c rfl
    conv_lhs => unfold normLines
    split
    · rename_i heq; cases heq
    · rename_i heq; cases heq; exact absurd rfl this
    · rename_i heq; cases heq; rfl
    · rename_i h1 h2 heq; cases heq; exact absurd rfl h2

theorem entity_norm {raw : Str} {x : Char} {r' : Str} : entity (normLines raw) = some (x, r') ↔
    ∃ e r'', Reference ('&' :: e) x ∧ raw = e ++ r'' ∧ normLines r'' = r' := by
  rw [entity_iff]
  constructor
  · rintro ⟨e, he, h⟩
    obtain ⟨r'', h1, h2⟩ := normLines_split (fun d hd => (reference_plain he d (List.mem_cons_of_mem _ hd)).1) h
    exact ⟨e, r'', he, h1, h2⟩
  · rintro ⟨e, r'', he, rfl, rfl⟩
    refine ⟨e, he, ?_⟩
    exact normLines_append (fun hc => (reference_plain he _ (List.mem_cons_of_mem _ hc)).2 rfl) r''

theorem unescape_chars {strict : Bool} : ∀ (k : Nat) (raw s : Str), raw.length ≤ k →
    unescape strict (normLines raw) = some s → (∀ c ∈ s, XmlChar c) → Chars (!strict) raw s := by
  intro k
  induction k with
  | zero =>
    intro raw s hk h _
    obtain rfl : raw = [] := List.length_eq_zero_iff.mp (by omega)
    have : s = [] := by
      have h : unescape strict [] = some s := h
      unfold unescape at h
      cases h; rfl
    subst this
    exact .nil
  | succ k ih =>
    intro raw s hk h hx
    cases raw with
    | nil =>
      have : s = [] := by
        have h : unescape strict [] = some s := h
        unfold unescape at h
        cases h; rfl
      subst this
      exact .nil
    | cons c raw =>
      simp only [List.length_cons] at hk
      have step : ∀ {d : Char} {r : Str}, d ≠ '&' → unescape strict (d :: normLines r) = some s → r.length ≤ k →
          ∃ s', s = d :: s' ∧ Chars (!strict) r s' ∧ XmlChar d := by
        intro d r hd h hr
        rw [unescape_cons hd] at h
        cases hu : unescape strict (normLines r) with
        | none => rw [hu] at h; cases h
        | some s' =>
          rw [hu] at h
          cases h
          exact ⟨s', rfl, ih r s' hr hu (fun c hc => hx c (List.mem_cons_of_mem _ hc)), hx d (List.mem_cons_self ..)⟩
      by_cases hcr : c = '\r'
      · subst hcr
        by_cases hn : ∃ r, raw = '\n' :: r
        · obtain ⟨r, rfl⟩ := hn
          rw [normLines_crlf] at h
          simp only [List.length_cons] at hk
          obtain ⟨s', rfl, h1, -⟩ := step (by decide) h (by omega)
          exact .crlf h1
        · have hs : StartsNot (· = '\n') raw := by
            intro d hd e
            subst e
            cases raw with
            | nil => cases hd
            | cons x r => cases hd; exact hn ⟨r, rfl⟩
          rw [normLines_cr hs] at h
          obtain ⟨s', rfl, h1, -⟩ := step (by decide) h (by omega)
          exact .cr hs h1
      · rw [normLines_cons hcr] at h
        by_cases hamp : c = '&'
        · subst hamp
          unfold unescape at h
          simp only [if_true] at h
          cases he : entity (normLines raw) with
          | some y =>
            obtain ⟨x, r'⟩ := y
            rw [he] at h
            simp only at h
            obtain ⟨e, r'', h1, rfl, rfl⟩ := entity_norm.mp he
            by_cases hl : (normLines r'').length < (normLines (e ++ r'')).length + 1
            · rw [if_pos hl] at h
              cases hu : unescape strict (normLines r'') with
              | none => rw [hu] at h; cases h
              | some s' =>
                rw [hu] at h
                cases h
                simp only [List.length_append] at hk
                have h2 := ih r'' s' (by omega) hu (fun c hc => hx c (List.mem_cons_of_mem _ hc))
                exact Chars.ref h1 (hx x (List.mem_cons_self ..)) h2
            · rw [if_neg hl] at h; cases h
          | none =>
            rw [he] at h
            simp only at h
            cases strict with
            | true => cases h
            | false =>
              simp only [Bool.false_eq_true, if_false] at h
              cases hu : unescape false (normLines raw) with
              | none => rw [hu] at h; cases h
              | some s' =>
                rw [hu] at h
                cases h
                refine .amp rfl ?_ (ih raw s' (by omega) hu (fun c hc => hx c (List.mem_cons_of_mem _ hc)))
                rintro e c hr ⟨t, ht⟩
                obtain ⟨e', rfl⟩ := reference_amp hr
                simp only [List.cons_append, List.cons.injEq, true_and] at ht
                rw [entity_norm.mpr ⟨e', t, hr, ht.symm, rfl⟩] at he
                cases he
        · obtain ⟨s', rfl, h1, h2⟩ := step hamp h (by omega)
          exact .plain hamp hcr h2 h1

theorem chars_unescape {strict : Bool} {raw s : Str} (h : Chars (!strict) raw s) :
    unescape strict (normLines raw) = some s ∧ ∀ c ∈ s, XmlChar c := by
  induction h with
  | nil =>
    refine ⟨?_, by simp⟩
    show unescape strict [] = some []
    unfold unescape
    rfl
  | @plain c raw s h1 h2 h3 _ ih =>
    rw [normLines_cons h2, unescape_cons h1, ih.1]
    exact ⟨rfl, fun d hd => (List.mem_cons.mp hd).elim (fun e => e ▸ h3) (ih.2 d)⟩
  | @crlf raw s _ ih =>
    rw [normLines_crlf, unescape_cons (by decide), ih.1]
    exact ⟨rfl, fun d hd => (List.mem_cons.mp hd).elim (fun e => e ▸ by decide) (ih.2 d)⟩
  | @cr raw s h _ ih =>
    rw [normLines_cr h, unescape_cons (by decide), ih.1]
    exact ⟨rfl, fun d hd => (List.mem_cons.mp hd).elim (fun e => e ▸ by decide) (ih.2 d)⟩
  | @ref e raw s c h1 h2 _ ih =>
    obtain ⟨e', rfl⟩ := reference_amp h1
    have he : entity (normLines (e' ++ raw)) = some (c, normLines raw) := entity_norm.mpr ⟨e', raw, h1, rfl, rfl⟩
    rw [List.cons_append, normLines_cons (by decide)]
    have hl : (normLines raw).length < (normLines (e' ++ raw)).length + 1 := by
      rw [normLines_append (fun hc => (reference_plain h1 _ (List.mem_cons_of_mem _ hc)).2 rfl)]
      simp only [List.length_append]; omega
    rw [unescape_amp he hl, ih.1]
    exact ⟨rfl, fun d hd => (List.mem_cons.mp hd).elim (fun e => e ▸ h2) (ih.2 d)⟩
  | @amp raw s h1 h2 _ ih =>
    have hs : strict = false := by simpa using h1
    subst hs
    rw [normLines_cons (by decide)]
    have he : entity (normLines raw) = none := by
      cases he : entity (normLines raw) with
      | none => rfl
      | some y =>
        obtain ⟨x, r'⟩ := y
        obtain ⟨e, r'', h3, rfl, -⟩ := entity_norm.mp he
        exact absurd (List.prefix_append ('&' :: e) r'') (h2 _ _ h3)
    refine ⟨?_, fun d hd => (List.mem_cons.mp hd).elim (fun e => e ▸ by decide) (ih.2 d)⟩
    unfold unescape
    simp only [if_true, he]
    simp [ih.1]

theorem textToken_iff {strict : Bool} {raw s : Str} : textToken strict raw = some s ↔ CharData (!strict) raw s := by
  unfold textToken CharData
  by_cases hc : contains "]]>".toList raw = true
  · rw [if_pos hc]
    constructor
    · intro h; cases h
    · rintro ⟨h, -⟩; exact absurd (contains_iff.mp hc) h
  · rw [if_neg hc]
    have hx : ∀ t : Str, t.all isXmlChar = true ↔ ∀ c ∈ t, XmlChar c := by
      intro t; simp [xmlChar_iff]
    constructor
    · intro h
      refine ⟨fun hi => hc (contains_iff.mpr hi), ?_⟩
      cases hu : unescape strict (normLines raw) with
      | none => rw [hu] at h; cases h
      | some t =>
        rw [hu] at h
        simp only at h
        by_cases ha : t.all isXmlChar = true
        · rw [if_pos ha] at h
          cases h
          exact unescape_chars _ raw s (Nat.le_refl _) hu ((hx s).mp ha)
        · rw [if_neg ha] at h; cases h
    · rintro ⟨-, h⟩
      obtain ⟨h1, h2⟩ := chars_unescape h
      rw [h1]
      simp only
      rw [if_pos ((hx s).mpr h2)]

theorem cdata_iff {raw s : Str} : CDataText raw s ↔ normLines raw = s ∧ ∀ c ∈ s, XmlChar c := by
  constructor
  · intro h
    induction h with
    | nil => exact ⟨rfl, by simp⟩
    | @plain c raw s h2 h3 _ ih =>
      rw [normLines_cons h2, ih.1]
      exact ⟨rfl, fun d hd => (List.mem_cons.mp hd).elim (fun e => e ▸ h3) (ih.2 d)⟩
    | @crlf raw s _ ih =>
      rw [normLines_crlf, ih.1]
      exact ⟨rfl, fun d hd => (List.mem_cons.mp hd).elim (fun e => e ▸ by decide) (ih.2 d)⟩
    | @cr raw s h _ ih =>
      rw [normLines_cr h, ih.1]
      exact ⟨rfl, fun d hd => (List.mem_cons.mp hd).elim (fun e => e ▸ by decide) (ih.2 d)⟩
  · rintro ⟨rfl, h⟩
    have gen : ∀ (k : Nat) (raw : Str), raw.length ≤ k → (∀ c ∈ normLines raw, XmlChar c) → CDataText raw (normLines raw) := by
      intro k
      induction k with
      | zero =>
        intro raw hk _
        obtain rfl : raw = [] := List.length_eq_zero_iff.mp (by omega)
        exact .nil
      | succ k ih =>
        intro raw hk hx
        cases raw with
        | nil => exact .nil
        | cons c raw =>
          simp only [List.length_cons] at hk
          by_cases hcr : c = '\r'
          · subst hcr
            by_cases hn : ∃ r, raw = '\n' :: r
            · obtain ⟨r, rfl⟩ := hn
              rw [normLines_crlf] at hx ⊢
              simp only [List.length_cons] at hk
              exact .crlf (ih r (by omega) fun c hc => hx c (List.mem_cons_of_mem _ hc))
            · have hs : StartsNot (· = '\n') raw := by
                intro d hd e
                subst e
                cases raw with
                | nil => cases hd
                | cons x r => cases hd; exact hn ⟨r, rfl⟩
              rw [normLines_cr hs] at hx ⊢
              exact .cr hs (ih raw (by omega) fun c hc => hx c (List.mem_cons_of_mem _ hc))
          · rw [normLines_cons hcr] at hx ⊢
            exact .plain hcr (hx c (List.mem_cons_self ..)) (ih raw (by omega) fun c hc => hx c (List.mem_cons_of_mem _ hc))
    exact gen _ raw (Nat.le_refl _) h

end Ofx
