import Verif.Lemmas.GrammarTag
import Verif.Lemmas.Lexer
/-
Markup and pieces: the lexer against the grammar.
-/
namespace Ofx
open Spec

/-! ### Instructions -/

theorem infix_snoc {sep a : Str} {x y : Char} (h : sep.getLast? = some y) (hxy : x ≠ y) : sep <:+: a ++ [x] ↔ sep <:+: a := by
  rw [List.infix_concat_iff]
  constructor
  · rintro (⟨t, ht⟩ | h')
    · exfalso
      have := congrArg List.getLast? ht
      rw [List.getLast?_append, h] at this
      simp at this
      exact hxy this.symm
    · exact h'
  · exact Or.inr

theorem procParam_value {inst a v b : Str} {q : Char} (h : inst = a ++ "version=".toList ++ [q] ++ v ++ [q] ++ b)
    (hq : q = '"' ∨ q = '\'') (hv : q ∉ v) (ha : ¬ "version=".toList <:+: a ++ "version".toList) :
    procParam "version".toList inst = v := by
  have e1 : cut "version=".toList inst = some (a, q :: (v ++ [q] ++ b)) := by
    rw [cut_iff (by decide)]
    exact ⟨by rw [h]; simp, ha⟩
  have e2 : cut [q] (v ++ [q] ++ b) = some (v, b) := by
    rw [cut_iff (by simp)]
    refine ⟨rfl, ?_⟩
    rw [show v ++ [q].dropLast = v by simp]
    rintro ⟨x, y, hxy⟩
    exact hv (by rw [← hxy]; simp)
  unfold procParam
  rw [show "version".toList ++ ['='] = "version=".toList from rfl, e1]
  simp only
  rw [if_pos hq, e2]

theorem procOk_iff {target inst : Str} : procOk target inst = true ↔ (target = "xml".toList → Version10 inst) := by
  unfold procOk
  by_cases ht : target = "xml".toList
  · rw [if_pos ht]
    simp only [ht, true_imp_iff, Bool.or_eq_true, beq_iff_eq]
    constructor
    · intro h a q v b hi hq hv ha
      rw [procParam_value hi hq hv ha] at h
      exact h
    · intro h
      cases hc : cut "version=".toList inst with
      | none => left; unfold procParam; rw [show "version".toList ++ ['='] = "version=".toList from rfl, hc]
      | some x =>
        obtain ⟨a, y⟩ := x
        obtain ⟨h1, h2⟩ := (cut_iff (by decide)).mp hc
        cases y with
        | nil => left; unfold procParam; rw [show "version".toList ++ ['='] = "version=".toList from rfl, hc]
        | cons q y =>
          by_cases hq : q = '"' ∨ q = '\''
          · cases hc2 : cut [q] y with
            | none =>
              left; unfold procParam; rw [show "version".toList ++ ['='] = "version=".toList from rfl, hc]
              simp only
              rw [if_pos hq, hc2]
            | some z =>
              obtain ⟨v, b⟩ := z
              obtain ⟨h3, h4⟩ := (cut_iff (by simp)).mp hc2
              rw [show v ++ [q].dropLast = v by simp] at h4
              have hv : q ∉ v := fun hm => by
                obtain ⟨x, y, rfl⟩ := List.append_of_mem hm
                exact h4 ⟨x, y, by simp⟩
              have hi : inst = a ++ "version=".toList ++ [q] ++ v ++ [q] ++ b := by rw [h1, h3]; simp
              rw [procParam_value hi hq hv h2]
              exact h a q v b hi hq hv h2
          · left; unfold procParam; rw [show "version".toList ++ ['='] = "version=".toList from rfl, hc]
            simp only
            rw [if_neg hq]
  · rw [if_neg ht]
    exact ⟨fun _ h => absurd h ht, fun _ => rfl⟩

theorem lexStop_iff {nt : NameTable} {s r : Str} {ts : List Tok} :
    lexStop nt s = some (ts, r) ↔ ∃ n w, s = n ++ w ++ ['>'] ++ r ∧ NameText nt n ∧ TagSpaces w ∧ ts = [.stop n] := by
  constructor
  · intro h
    unfold lexStop at h
    cases hn : lexName nt s with
    | none => rw [hn] at h; cases h
    | some x =>
      obtain ⟨n, r1⟩ := x
      rw [hn] at h
      simp only at h
      obtain ⟨rfl, ha, hb⟩ := lexName_iff.mp hn
      cases hs : skipSpace r1 with
      | nil => rw [hs] at h; cases h
      | cons c r2 =>
        rw [hs] at h
        obtain ⟨w, rfl, hw, -⟩ := skipSpace_iff.mp hs
        split at h
        · rename_i r' heq
          cases heq
          cases h
          exact ⟨n, w, by simp, ha, hw, rfl⟩
        · cases h
  · rintro ⟨n, w, rfl, ha, hw, rfl⟩
    have e1 : lexName nt (n ++ w ++ ['>'] ++ r) = some (n, w ++ '>' :: r) :=
      lexName_iff.mpr ⟨by simp, ha, startsNot_space hw (startsNot_cons fun h => (nameChar_ne h).2.1 rfl)⟩
    have e2 : skipSpace (w ++ '>' :: r) = '>' :: r := skipSpace_at hw (startsNot_cons (by rintro (h | h | h | h) <;> cases h))
    unfold lexStop
    rw [e1]
    simp only
    rw [e2]
    rfl

theorem lexProc_iff {nt : NameTable} {s r : Str} {ts : List Tok} :
    lexProc nt s = some (ts, r) ↔ ∃ n w inst, s = n ++ w ++ inst ++ ['?', '>'] ++ r ∧ NameText nt n ∧ TagSpaces w ∧
      StartsNot NameChar (w ++ inst ++ ['?']) ∧ StartsNot TagSpace inst ∧ ¬ "?>".toList <:+: inst ∧
      (n = "xml".toList → Version10 inst) ∧ ts = [.proc n inst] := by
  constructor
  · intro h
    unfold lexProc at h
    cases hn : lexName nt s with
    | none => rw [hn] at h; cases h
    | some x =>
      obtain ⟨n, r1⟩ := x
      rw [hn] at h
      simp only at h
      obtain ⟨rfl, ha, hb⟩ := lexName_iff.mp hn
      obtain ⟨w, hr1, hw, hsp⟩ := skipSpace_iff.mp (rfl : skipSpace r1 = skipSpace r1)
      generalize skipSpace r1 = y at h hr1 hsp
      subst hr1
      cases hc : cut "?>".toList y with
      | none => rw [hc] at h; cases h
      | some x =>
        obtain ⟨inst, r'⟩ := x
        rw [hc] at h
        simp only at h
        obtain ⟨rfl, hno⟩ := (cut_iff (by decide)).mp hc
        by_cases hp : procOk n inst = true
        · rw [if_pos hp] at h
          cases h
          refine ⟨n, w, inst, by simp, ha, hw, ?_, ?_, ?_, procOk_iff.mp hp, rfl⟩
          · have : w ++ (inst ++ "?>".toList ++ r) = (w ++ inst ++ ['?']) ++ ('>' :: r) := by simp
            rw [this] at hb
            exact (startsNot_append (by simp)).mp hb
          · cases inst with
            | nil => intro c hc; cases hc
            | cons c inst => exact startsNot_cons (hsp c rfl)
          · exact fun hi => hno (hi.trans (List.prefix_append _ _).isInfix)
        · rw [if_neg hp] at h; cases h
  · rintro ⟨n, w, inst, rfl, ha, hw, hsn, hst, hno, hp, rfl⟩
    have e1 : lexName nt (n ++ w ++ inst ++ ['?', '>'] ++ r) = some (n, w ++ (inst ++ ['?', '>'] ++ r)) := by
      refine lexName_iff.mpr ⟨by simp, ha, ?_⟩
      have : w ++ (inst ++ ['?', '>'] ++ r) = (w ++ inst ++ ['?']) ++ ('>' :: r) := by simp
      rw [this]
      exact (startsNot_append (by simp)).mpr hsn
    have e2 : skipSpace (w ++ (inst ++ ['?', '>'] ++ r)) = inst ++ ['?', '>'] ++ r := by
      refine skipSpace_at hw ?_
      cases inst with
      | nil => exact startsNot_cons (by rintro (h | h | h | h) <;> cases h)
      | cons c inst => exact startsNot_cons (hst c rfl)
    have e3 : cut "?>".toList (inst ++ ['?', '>'] ++ r) = some (inst, r) := by
      rw [cut_iff (by decide)]
      refine ⟨rfl, ?_⟩
      rw [show "?>".toList.dropLast = ['?'] from rfl, infix_snoc (y := '>') rfl (by decide)]
      exact hno
    unfold lexProc
    rw [e1]
    simp only
    rw [e2, e3]
    simp only
    rw [if_pos (procOk_iff.mpr hp)]

/-! ### Comments, CDATA sections and directives -/

theorem infix_ket {raw : Str} : "]]>".toList <:+: raw ++ [']', ']'] ↔ "]]>".toList <:+: raw := by
  rw [show raw ++ [']', ']'] = (raw ++ [']']) ++ [']'] by simp, infix_snoc (y := '>') rfl (by decide),
    infix_snoc (y := '>') rfl (by decide)]

theorem lexBang_iff {s r : Str} {ts : List Tok} :
    lexBang s = some (ts, r) ↔
      (∃ b, s = ['-', '-'] ++ b ++ ['-', '-', '>'] ++ r ∧ ¬ "--".toList <:+: b ++ ['-'] ∧ ts = [.misc]) ∨
      (∃ raw t, s = "[CDATA[".toList ++ raw ++ "]]>".toList ++ r ∧ ¬ "]]>".toList <:+: raw ∧ CDataText raw t ∧ ts = [.text t]) ∨
      (∃ c b, s = [c] ++ b ++ ['>'] ++ r ∧ c ≠ '-' ∧ c ≠ '[' ∧ Nested b ∧ ts = [.misc]) := by
  constructor
  · intro h
    unfold lexBang at h
    cases s with
    | nil => cases h
    | cons c s =>
      simp only at h
      by_cases h1 : c = '-'
      · rw [if_pos h1] at h
        subst h1
        split at h
        · rename_i r'
          cases ha : afterComment r' with
          | none => rw [ha] at h; cases h
          | some x =>
            rw [ha] at h
            cases h
            obtain ⟨b, rfl, hb⟩ := afterComment_iff.mp ha
            exact .inl ⟨b, rfl, hb, rfl⟩
        · cases h
      · rw [if_neg h1] at h
        by_cases h2 : c = '['
        · rw [if_pos h2] at h
          subst h2
          split at h
          · rename_i r' hc
            obtain ⟨rfl, -⟩ := (cut_iff (by decide)).mp hc
            cases hk : cut "]]>".toList r' with
            | none => rw [hk] at h; cases h
            | some x =>
              obtain ⟨raw, rest⟩ := x
              rw [hk] at h
              simp only at h
              obtain ⟨rfl, hno⟩ := (cut_iff (by decide)).mp hk
              by_cases hx : (normLines raw).all isXmlChar = true
              · rw [if_pos hx] at h
                cases h
                refine .inr (.inl ⟨raw, _, by simp, ?_, cdata_iff.mpr ⟨rfl, ?_⟩, rfl⟩)
                · exact fun hi => hno (hi.trans (List.prefix_append _ _).isInfix)
                · intro c hc
                  exact (xmlChar_iff c).mpr (List.all_eq_true.mp hx c hc)
              · rw [if_neg hx] at h; cases h
          · cases h
        · rw [if_neg h2] at h
          cases ha : afterDirective .plain 0 s with
          | none => rw [ha] at h; cases h
          | some x =>
            rw [ha] at h
            cases h
            obtain ⟨b, rfl, hb⟩ := afterDirective_iff.mp ha
            exact .inr (.inr ⟨c, b, by simp, h1, h2, hb, rfl⟩)
  · rintro (⟨b, rfl, hb, rfl⟩ | ⟨raw, t, rfl, hno, ht, rfl⟩ | ⟨c, b, rfl, h1, h2, hb, rfl⟩)
    · have : afterComment (b ++ ['-', '-', '>'] ++ r) = some r := afterComment_iff.mpr ⟨b, rfl, hb⟩
      show lexBang ('-' :: '-' :: (b ++ ['-', '-', '>'] ++ r)) = _
      unfold lexBang
      simp only [if_true]
      rw [this]
      rfl
    · have e1 : cut "CDATA[".toList ("CDATA[".toList ++ (raw ++ "]]>".toList ++ r)) = some ([], raw ++ "]]>".toList ++ r) := by
        rw [cut_iff (by decide)]
        exact ⟨rfl, by decide⟩
      have e2 : cut "]]>".toList (raw ++ "]]>".toList ++ r) = some (raw, r) := by
        rw [cut_iff (by decide)]
        exact ⟨rfl, by rw [show "]]>".toList.dropLast = [']', ']'] from rfl, infix_ket]; exact hno⟩
      obtain ⟨rfl, hx⟩ := cdata_iff.mp ht
      show lexBang ('[' :: ("CDATA[".toList ++ (raw ++ "]]>".toList ++ r))) = _
      unfold lexBang
      simp only
      rw [if_neg (by decide), if_pos trivial, e1]
      simp only
      rw [e2]
      simp only
      rw [if_pos (List.all_eq_true.mpr fun c hc => (xmlChar_iff c).mp (hx c hc))]
    · have : afterDirective .plain 0 (b ++ '>' :: r) = some r := afterDirective_iff.mpr ⟨b, rfl, hb⟩
      show lexBang (c :: (b ++ ['>'] ++ r)) = _
      rw [show b ++ ['>'] ++ r = b ++ '>' :: r by simp]
      unfold lexBang
      simp only
      rw [if_neg h1, if_neg h2, this]
      rfl

/-! ### Tokens -/

theorem lexStart_iff {strict : Bool} {nt : NameTable} {s r : Str} {ts : List Tok} :
    lexStart strict nt s = some (ts, r) ↔ ∃ n u e, s = n ++ u ++ r ∧ NameText nt n ∧ StartsNot NameChar u ∧
      TagEnd (!strict) nt u e ∧ ts = if e then [.start n, .stop n] else [.start n] := by
  constructor
  · intro h
    unfold lexStart at h
    cases hn : lexName nt s with
    | none => rw [hn] at h; cases h
    | some x =>
      obtain ⟨n, r1⟩ := x
      rw [hn] at h
      simp only at h
      obtain ⟨rfl, ha, hb⟩ := lexName_iff.mp hn
      cases hx : afterAttrs strict nt (r1.length + 1) r1 with
      | none => rw [hx] at h; cases h
      | some x =>
        obtain ⟨e, r'⟩ := x
        rw [hx] at h
        obtain ⟨u, rfl, hu⟩ := afterAttrs_tagEnd _ _ _ _ hx
        have hu' := (startsNot_append (tagEnd_ne hu)).mp hb
        cases e <;> (cases h; exact ⟨n, u, _, by simp, ha, hu', hu, rfl⟩)
  · rintro ⟨n, u, e, rfl, ha, hb, hu, rfl⟩
    have e1 : lexName nt (n ++ u ++ r) = some (n, u ++ r) :=
      lexName_iff.mpr ⟨by simp, ha, (startsNot_append (tagEnd_ne hu)).mpr hb⟩
    unfold lexStart
    rw [e1]
    simp only
    rw [tagEnd_afterAttrs hu ((u ++ r).length + 1) r (by simp; omega)]
    cases e <;> rfl

/-- A token is markup, or character data up to markup or the end. -/
theorem lexOne_iff {strict : Bool} {nt : NameTable} {s r : Str} {ts : List Tok} :
    lexOne strict nt s = some (ts, r) ↔
      (∃ m, s = m ++ r ∧ Markup (!strict) nt m ts) ∨
      (∃ raw t, s = raw ++ r ∧ raw ≠ [] ∧ '<' ∉ raw ∧ StartsNot (· ≠ '<') r ∧ CharData (!strict) raw t ∧ ts = [.text t]) := by
  constructor
  · intro h
    cases s with
    | nil => cases h
    | cons c s =>
      unfold lexOne at h
      simp only at h
      by_cases hc : c = '<'
      · rw [if_pos hc] at h
        subst hc
        left
        split at h
        · rename_i r'
          obtain ⟨n, w, rfl, ha, hw, rfl⟩ := lexStop_iff.mp h
          exact ⟨_, by simp, .stop ha hw⟩
        · rename_i r'
          obtain ⟨n, w, inst, rfl, ha, hw, h1, h2, h3, h4, rfl⟩ := lexProc_iff.mp h
          exact ⟨_, by simp, .instruction ha hw h1 h2 h3 h4⟩
        · rename_i r'
          rcases lexBang_iff.mp h with ⟨b, rfl, h1, rfl⟩ | ⟨raw, t, rfl, h1, h2, rfl⟩ | ⟨c, b, rfl, h1, h2, h3, rfl⟩
          · exact ⟨_, by simp, .comment h1⟩
          · exact ⟨_, by simp, .cdata h1 h2⟩
          · exact ⟨_, by simp, .directive h1 h2 h3⟩
        · obtain ⟨n, u, e, rfl, ha, hb, hu, rfl⟩ := lexStart_iff.mp h
          cases e with
          | true => exact ⟨_, by simp, .empty ha hb hu⟩
          | false => exact ⟨_, by simp, .start ha hb hu⟩
      · rw [if_neg hc] at h
        right
        have hw := (while_iff (p := fun c => c != '<') (P := fun c => c ≠ '<') (fun c => by simp) (s := c :: s)).mp ⟨rfl, rfl⟩
        have hne : (c :: s).takeWhile (fun c => c != '<') ≠ [] := by
          rw [List.takeWhile_cons_of_pos (by simp [hc])]; simp
        cases ht : textToken strict ((c :: s).takeWhile (fun c => c != '<')) with
        | none => rw [ht] at h; cases h
        | some t =>
          rw [ht] at h
          cases h
          exact ⟨_, t, hw.1, hne, fun hm => hw.2.1 _ hm rfl, hw.2.2, textToken_iff.mp ht, rfl⟩
  · rintro (⟨m, rfl, hm⟩ | ⟨raw, t, rfl, hne, hno, hr, hd, rfl⟩)
    · have start : ∀ {n u : Str} {e : Bool}, NameText nt n → StartsNot NameChar u → TagEnd (!strict) nt u e →
          lexOne strict nt (['<'] ++ n ++ u ++ r) = some (if e then [.start n, .stop n] else [.start n], r) := by
        intro n u e ha hb hu
        have h1 := lexStart_iff.mpr ⟨n, u, e, (rfl : n ++ u ++ r = n ++ u ++ r), ha, hb, hu, rfl⟩
        obtain ⟨c, cs, rfl, -⟩ := id ha
        have hc := nameChar_ne (nameText_chars ha c (List.mem_cons_self ..))
        refine Eq.trans ?_ h1
        show lexOne strict nt ('<' :: c :: (cs ++ u ++ r)) = lexStart strict nt (c :: (cs ++ u ++ r))
        conv_lhs => unfold lexOne
        simp only [if_true]
        split
        · rename_i heq; exact absurd (List.cons.inj heq).1 hc.2.2.1
        · rename_i heq; exact absurd (List.cons.inj heq).1 hc.2.2.2.2.2.2.1
        · rename_i heq; exact absurd (List.cons.inj heq).1 hc.2.2.2.2.2.2.2.1
        · rfl
      cases hm with
      | start ha hb hu => exact start ha hb hu
      | empty ha hb hu => exact start ha hb hu
      | @stop n w ha hw =>
        exact lexStop_iff.mpr ⟨n, w, (rfl : _ = n ++ w ++ ['>'] ++ r), ha, hw, rfl⟩
      | @instruction n w inst ha hw h1 h2 h3 h4 =>
        exact lexProc_iff.mpr ⟨n, w, inst, rfl, ha, hw, h1, h2, h3, h4, rfl⟩
      | @comment b h1 =>
        exact lexBang_iff.mpr (.inl ⟨b, rfl, h1, rfl⟩)
      | @cdata raw t h1 h2 =>
        exact lexBang_iff.mpr (.inr (.inl ⟨raw, t, rfl, h1, h2, rfl⟩))
      | @directive c b h1 h2 h3 =>
        exact lexBang_iff.mpr (.inr (.inr ⟨c, b, rfl, h1, h2, h3, rfl⟩))
    · obtain ⟨g1, g2⟩ := (while_iff (p := fun c => c != '<') (P := fun c => c ≠ '<') (fun c => by simp) (s := raw ++ r)).mpr
        ⟨rfl, fun c hc e => hno (e ▸ hc), hr⟩
      cases raw with
      | nil => exact absurd rfl hne
      | cons c raw =>
        have hc : c ≠ '<' := fun e => hno (by simp [e])
        rw [List.cons_append] at g1 g2 ⊢
        unfold lexOne
        simp only
        rw [if_neg hc, g1, g2, textToken_iff.mpr hd]

/-! ### Pieces -/

theorem markup_ne {sgml : Bool} {nt : NameTable} {m : Str} {ts : List Tok} (h : Markup sgml nt m ts) : m ≠ [] := by
  cases h <;> simp

theorem pieces_lex {strict : Bool} {nt : NameTable} {s : Str} {ts : List Tok} (h : Pieces (!strict) nt s ts) :
    ∀ r, lex strict nt (s ++ r) = ts ++ lex strict nt r := by
  induction h with
  | nil => intro r; rfl
  | @chars raw t s ts hne hno hd hs _ ih =>
    intro r
    have h1 : lexOne strict nt (raw ++ (s ++ r)) = some ([.text t], s ++ r) := by
      refine lexOne_iff.mpr (.inr ⟨raw, t, rfl, hne, hno, ?_, hd, rfl⟩)
      cases s with
      | nil => cases hs
      | cons c s => cases hs; exact startsNot_cons fun h => h rfl
    have hl := List.length_pos_iff.mpr hne
    rw [List.append_assoc, lex_step h1 (by simp; omega), ih]
    rfl
  | @markup m s us ts hm _ ih =>
    intro r
    have h1 : lexOne strict nt (m ++ (s ++ r)) = some (us, s ++ r) := lexOne_iff.mpr (.inl ⟨m, rfl, hm⟩)
    have hl := List.length_pos_iff.mpr (markup_ne hm)
    rw [List.append_assoc, lex_step h1 (by simp; omega), ih, List.append_assoc]

theorem pieces_ne {sgml : Bool} {nt : NameTable} {s : Str} {ts : List Tok} (h : Pieces sgml nt s ts) (ht : ts ≠ []) : s ≠ [] := by
  cases h with
  | nil => exact absurd rfl ht
  | chars hne _ _ _ _ => simp [hne]
  | markup hm _ => simp [markup_ne hm]

/-- What has been read up to a piece of markup makes up pieces. -/
theorem lex_pieces {strict : Bool} {nt : NameTable} : ∀ (k : Nat) (s : Str), s.length ≤ k → ∀ (p q : List Tok) (t : Tok),
    lex strict nt s = p ++ t :: q → (∀ x, t ≠ .text x) →
    ∃ s1 r q', s = s1 ++ r ∧ Pieces (!strict) nt s1 (p ++ t :: q') ∧ q = q' ++ lex strict nt r := by
  intro k
  induction k with
  | zero =>
    intro s hk p q t h _
    have : s = [] := List.length_eq_zero_iff.mp (Nat.le_zero.mp hk)
    subst this
    rw [lex] at h
    simp [lexOne] at h
  | succ k ih =>
    intro s hk p q t h ht
    rw [lex] at h
    cases ho : lexOne strict nt s with
    | none => rw [ho] at h; simp at h
    | some x =>
      obtain ⟨us, r⟩ := x
      rw [ho] at h
      simp only at h
      by_cases hl : r.length < s.length
      · rw [if_pos hl] at h
        rcases List.append_eq_append_iff.mp h with ⟨p', hp, hr⟩ | ⟨q', hu, hq⟩
        · obtain ⟨s1, r', q', hs1, hp1, hq1⟩ := ih r (by omega) p' q t hr ht
          rcases lexOne_iff.mp ho with ⟨m, rfl, hm⟩ | ⟨raw, t', rfl, hne, hno, hst, hd, rfl⟩
          · refine ⟨m ++ s1, r', q', by rw [hs1, List.append_assoc], ?_, hq1⟩
            rw [hp, List.append_assoc]
            exact .markup hm hp1
          · refine ⟨raw ++ s1, r', q', by rw [hs1, List.append_assoc], ?_, hq1⟩
            rw [hp]
            refine .chars hne hno hd ?_ hp1
            cases s1 with
            | nil => exact absurd rfl (pieces_ne hp1 (by simp))
            | cons c s1 =>
              rw [hs1] at hst
              have := hst c rfl
              simp only [ne_eq, not_not] at this
              rw [this]; rfl
        · cases q' with
          | nil =>
            simp only [List.append_nil, List.nil_append] at hu hq
            obtain ⟨s1, r', q', hs1, hp1, hq1⟩ := ih r (by omega) [] q t hq.symm ht
            rcases lexOne_iff.mp ho with ⟨m, rfl, hm⟩ | ⟨raw, t', rfl, hne, hno, hst, hd, rfl⟩
            · refine ⟨m ++ s1, r', q', by rw [hs1, List.append_assoc], ?_, hq1⟩
              rw [← hu]
              exact .markup hm hp1
            · refine ⟨raw ++ s1, r', q', by rw [hs1, List.append_assoc], ?_, hq1⟩
              rw [← hu]
              refine .chars hne hno hd ?_ hp1
              cases s1 with
              | nil => exact absurd rfl (pieces_ne hp1 (by simp))
              | cons c s1 =>
                rw [hs1] at hst
                have := hst c rfl
                simp only [ne_eq, not_not] at this
                rw [this]; rfl
          | cons t' q' =>
            obtain ⟨rfl, rfl⟩ := List.cons.inj hq
            rcases lexOne_iff.mp ho with ⟨m, rfl, hm⟩ | ⟨raw, t', rfl, hne, hno, hst, hd, hu'⟩
            · refine ⟨m, r, q', rfl, ?_, rfl⟩
              have := Pieces.markup hm (.nil (sgml := !strict) (nt := nt))
              rw [List.append_nil, List.append_nil, hu] at this
              exact this
            · exfalso
              rw [hu'] at hu
              cases p with
              | nil => exact ht _ (List.cons.inj hu).1.symm
              | cons a p => have := congrArg List.length hu; simp at this
      · rw [if_neg hl] at h; simp at h

end Ofx
