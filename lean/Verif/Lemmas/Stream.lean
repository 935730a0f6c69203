import Verif.Model.Stream
import Verif.Lemmas.Reader
/-
Where reading a document stops.
-/
open Ofx.Spec
namespace Ofx

/-! ### Tokens -/

theorem lexAfter_step {strict : Bool} {nt : NameTable} {n : Nat} {s r : Str} {ts : List Tok} (hn : n ≠ 0)
    (h : lexOne strict nt s = some (ts, r)) (hl : r.length < s.length) :
    lexAfter strict nt n s = lexAfter strict nt (n - ts.length) r := by
  rw [lexAfter, if_neg hn]
  simp only [h]
  rw [if_pos hl]

theorem lexAfter_zero (strict : Bool) (nt : NameTable) (s : Str) : lexAfter strict nt 0 s = s := by
  rw [lexAfter, if_pos rfl]

theorem lexAfter_markup {strict : Bool} {nt : NameTable} {u x : Str} {ts : List Tok} (n : Nat)
    (h : ∀ x : Str, lexOne strict nt ('<' :: u ++ x) = some (ts, x)) (hts : ts ≠ []) :
    lexAfter strict nt (ts.length + n) ('<' :: u ++ x) = lexAfter strict nt n x := by
  have : 0 < ts.length := List.length_pos_of_ne_nil hts
  rw [lexAfter_step (by omega) (h x) (by simp only [List.length_append, List.length_cons]; omega), Nat.add_sub_cancel_left]

/-- The text up to and including a given end tag, and what is after it. -/
theorem lexAfter_upto {strict : Bool} {nt : NameTable} {m : Str} (n : Nat) (s : Str) (p : List Tok) (hn : s.length ≤ n)
    (h : p ++ [.stop m] <+: lex strict nt s) (hp : ∀ p0, p ≠ p0 ++ [.start m]) :
    ∃ u r, s = u ++ r ∧ (∀ x, lex strict nt (u ++ x) = p ++ .stop m :: lex strict nt x) ∧
      (∀ x, lexAfter strict nt (p.length + 1) (u ++ x) = x) ∧
      ∃ v w, (∀ c ∈ w, isXmlSpace c = true) ∧ u = v ++ ('<' :: '/' :: (m ++ w ++ ['>'])) := by
  induction n generalizing s p with
  | zero =>
    have : s = [] := List.length_eq_zero_iff.mp (Nat.le_zero.mp hn)
    subst this
    rw [lex_nil] at h
    have := List.prefix_nil.mp h
    simp at this
  | succ n ih =>
    rcases chars_split s with rfl | ⟨z, rfl⟩ | ⟨c, w, x, hc, hw, rfl, hx⟩
    · rw [lex_nil] at h
      have := List.prefix_nil.mp h
      simp at this
    · cases h1 : lexOne strict nt ('<' :: z) with
      | none =>
        rw [lex_none h1] at h
        have := List.prefix_nil.mp h
        simp at this
      | some q =>
        obtain ⟨ts, r⟩ := q
        obtain ⟨u, e, hu, hstop, hshape⟩ := lexOne_exact h1
        rw [e] at hn h ⊢
        rw [lex_markup hu] at h
        have later : ts ≠ [] → ∀ p', p = ts ++ p' → ∃ u1 r1, '<' :: u ++ r = u1 ++ r1 ∧
            (∀ x, lex strict nt (u1 ++ x) = p ++ .stop m :: lex strict nt x) ∧
            (∀ x, lexAfter strict nt (p.length + 1) (u1 ++ x) = x) ∧
            ∃ v w, (∀ c ∈ w, isXmlSpace c = true) ∧ u1 = v ++ ('<' :: '/' :: (m ++ w ++ ['>'])) := by
          intro hts p' hp'
          subst hp'
          rw [List.append_assoc, List.prefix_append_right_inj] at h
          obtain ⟨u2, r2, e2, hl2, ha2, v, w, hw, hv⟩ := ih r p' (by simp only [List.length_append, List.length_cons] at hn; omega) h
            (fun p0 e => hp (ts ++ p0) (by rw [e, List.append_assoc]))
          refine ⟨'<' :: u ++ u2, r2, by rw [e2, List.append_assoc], fun x => ?_, fun x => ?_, '<' :: u ++ v, w, hw,
            by rw [hv]; simp only [List.append_assoc]⟩
          · rw [List.append_assoc, lex_markup hu, hl2, List.append_assoc]
          · rw [List.append_assoc, List.length_append, Nat.add_assoc, lexAfter_markup _ hu hts, ha2]
        rcases hshape with ⟨t, rfl⟩ | ⟨k, rfl⟩
        · cases p with
          | nil =>
            obtain ⟨h2, _⟩ := (List.cons_prefix_cons (a := Tok.stop m)).mp h
            subst h2
            obtain ⟨w, hw, e2⟩ := hstop m rfl
            refine ⟨'<' :: u, r, rfl, fun x => by rw [lex_markup hu]; rfl, fun x => ?_, [], w, hw, by rw [e2]; rfl⟩
            have := lexAfter_markup (x := x) 0 hu (by simp)
            rw [lexAfter_zero] at this
            exact this
          | cons a p' =>
            obtain ⟨h2, _⟩ := (List.cons_prefix_cons (a := a)).mp h
            subst h2
            exact later (by simp) p' rfl
        · cases p with
          | nil =>
            obtain ⟨h2, _⟩ := (List.cons_prefix_cons (a := Tok.stop m)).mp h
            cases h2
          | cons a p' =>
            obtain ⟨h2, h3⟩ := (List.cons_prefix_cons (a := a)).mp h
            subst h2
            cases p' with
            | nil =>
              obtain ⟨h4, _⟩ := (List.cons_prefix_cons (a := Tok.stop m)).mp h3
              cases h4
              exact absurd rfl (hp [])
            | cons b p'' =>
              obtain ⟨h4, _⟩ := (List.cons_prefix_cons (a := b)).mp h3
              subst h4
              exact later (by simp) p'' rfl
    · have h1 := lexOne_chars (strict := strict) (nt := nt) hc hw hx
      cases ht : textToken strict (c :: w) with
      | none =>
        rw [ht] at h1
        rw [lex_none h1] at h
        have := List.prefix_nil.mp h
        simp at this
      | some t =>
        rw [ht] at h1
        have h2 := lex_step h1 (by simp only [List.length_append, List.length_cons]; omega)
        rw [h2] at h
        cases p with
        | nil =>
          obtain ⟨h2, _⟩ := (List.cons_prefix_cons (a := Tok.stop m)).mp h
          cases h2
        | cons a p' =>
          obtain ⟨h3, h4⟩ := (List.cons_prefix_cons (a := a)).mp h
          subst h3
          obtain ⟨u, r, e, hl, ha, v, w', hw', hv⟩ := ih x p' (by simp only [List.length_append, List.length_cons] at hn; omega) h4
            (fun p0 e => hp (.text t :: p0) (by rw [e]; rfl))
          have hu : ∃ y, u = '<' :: y := by
            cases u with
            | nil => cases v <;> cases hv
            | cons d u =>
              rcases hx with rfl | ⟨y, rfl⟩
              · cases e
              · cases e; exact ⟨u, rfl⟩
          obtain ⟨y, hy⟩ := hu
          have h5 : ∀ x, lexOne strict nt (c :: w ++ (u ++ x)) = some ([Tok.text t], u ++ x) := by
            intro x
            rw [lexOne_chars hc hw (.inr ⟨y ++ x, by rw [hy]; rfl⟩), ht]
            rfl
          refine ⟨c :: w ++ u, r, by rw [e, List.append_assoc], fun x => ?_, fun x => ?_, c :: w ++ v, w', hw', by rw [hv]; simp only [List.append_assoc]⟩
          · rw [List.append_assoc, lex_step (h5 x) (by simp only [List.length_append, List.length_cons]; omega), hl]
            rfl
          · rw [List.append_assoc, lexAfter_step (by simp) (h5 x) (by simp only [List.length_append, List.length_cons]; omega)]
            exact ha x

/-! ### Elements -/

theorem buildUnread_cons {strict : Bool} {top : Str × List Node} {ps : List (Str × List Node)} {t : Tok} (rest : List Tok) :
    (∀ c root, buildStep strict top ps t = some (c, .inl root) → buildUnread strict top.1 (ps.map (·.1)) (t :: rest) = rest) ∧
    (∀ c top' ps', buildStep strict top ps t = some (c, .inr (top', ps')) →
      buildUnread strict top.1 (ps.map (·.1)) (t :: rest) = buildUnread strict top'.1 (ps'.map (·.1)) (if c then rest else t :: rest)) := by
  unfold buildStep
  have hb := buildUnread.eq_def strict top.1 (ps.map (·.1)) (t :: rest)
  simp only at hb
  by_cases hc : closes strict top.1 t = true
  · rw [if_pos hc]
    rw [if_pos hc] at hb
    cases ps with
    | nil => exact ⟨fun _ _ _ => hb, (fun _ _ _ h => by cases h)⟩
    | cons p ps =>
      refine ⟨(fun _ _ h => by cases h), fun c top' ps' h => ?_⟩
      cases h
      rw [hb]
      simp only [List.map_cons]
      by_cases ht : t = .stop top.1
      · rw [if_pos ht, if_pos (decide_eq_true ht)]
      · rw [if_neg ht, if_neg (by simpa using ht)]
  · rw [if_neg hc]
    rw [if_neg hc] at hb
    cases t with
    | start n => exact ⟨(fun _ _ h => by cases h), fun c t' p' h => by cases h; exact hb⟩
    | stop n => exact ⟨(fun _ _ h => by cases h), (fun _ _ _ h => by cases h)⟩
    | text s => exact ⟨(fun _ _ h => by cases h), fun c t' p' h => by cases h; exact hb⟩
    | proc a b => exact ⟨(fun _ _ h => by cases h), fun c t' p' h => by cases h; exact hb⟩
    | misc => exact ⟨(fun _ _ h => by cases h), fun c t' p' h => by cases h; exact hb⟩

/-- The tokens read are the fewest with which the element is complete. -/
theorem buildUnread_spec {strict : Bool} (n : Nat) {top : Str × List Node} {ps : List (Str × List Node)} {toks : List Tok} {root : Node}
    {left : List Tok} (hn : 2 * toks.length + ps.length ≤ n) (h : build strict top ps toks = .ok (root, left)) :
    ∃ pre, toks = pre ++ buildUnread strict top.1 (ps.map (·.1)) toks ∧ pre ≠ [] ∧ (∃ l, build strict top ps pre = .ok (root, l)) ∧
      ∀ j < pre.length, ∃ e, build strict top ps (pre.take j) = .error e := by
  induction n generalizing top ps toks with
  | zero =>
    have : toks = [] := List.length_eq_zero_iff.mp (by omega)
    subst this
    rw [build_nil] at h
    cases h
  | succ n ih =>
    cases toks with
    | nil => rw [build_nil] at h; cases h
    | cons t toks =>
      obtain ⟨h1, h2, h3⟩ := build_cons (strict := strict) (top := top) (ps := ps) (t := t) toks
      obtain ⟨u2, u3⟩ := buildUnread_cons (strict := strict) (top := top) (ps := ps) (t := t) toks
      cases hs : buildStep strict top ps t with
      | none => obtain ⟨e, he⟩ := h1 hs; rw [he] at h; cases h
      | some a =>
        obtain ⟨c, a⟩ := a
        cases a with
        | inl r =>
          rw [h2 c r hs] at h
          cases h
          refine ⟨[t], by rw [u2 c root hs]; rfl, by simp, ⟨_, (build_cons []).2.1 c root hs⟩, fun j hj => ?_⟩
          have : j = 0 := by simpa using hj
          subst this
          exact ⟨_, build_nil ..⟩
        | inr q =>
          obtain ⟨top', ps'⟩ := q
          rw [h3 c top' ps' hs] at h
          rw [u3 c top' ps' hs]
          obtain ⟨pre, e1, e2, ⟨l, e3⟩, e4⟩ := ih (by have := buildStep_less hs toks; omega) h
          cases c with
          | true =>
            simp only [if_true] at e1 ⊢
            refine ⟨t :: pre, ?_, by simp, ⟨l, ?_⟩, ?_⟩
            · rw [List.cons_append, ← e1]
            · rw [(build_cons pre).2.2 true top' ps' hs]
              exact e3
            · intro j hj
              cases j with
              | zero => exact ⟨_, build_nil ..⟩
              | succ j =>
                rw [List.take_succ_cons, (build_cons _).2.2 true top' ps' hs]
                exact e4 j (by simpa using hj)
          | false =>
            simp only [Bool.false_eq_true, if_false] at e1 ⊢
            cases pre with
            | nil => exact absurd rfl e2
            | cons t' pre =>
              have ht : t' = t := by rw [List.cons_append] at e1; exact (List.cons.inj e1).1.symm
              subst ht
              refine ⟨t' :: pre, e1, by simp, ⟨l, ?_⟩, ?_⟩
              · rw [(build_cons pre).2.2 false top' ps' hs]
                exact e3
              · intro j hj
                cases j with
                | zero => exact ⟨_, build_nil ..⟩
                | succ j =>
                  rw [List.take_succ_cons, (build_cons _).2.2 false top' ps' hs]
                  have := e4 (j + 1) hj
                  rwa [List.take_succ_cons] at this

/-! ### Documents as tokens -/

/-- Blank texts at the beginning. -/
theorem skipBlank_blanks {toks rest : List Tok} {t : Tok} (h : skipBlank toks = t :: rest) :
    ∃ bl, toks = bl ++ t :: rest ∧ (∀ x, skipBlank (bl ++ x) = skipBlank x) ∧ ∀ j, skipBlank (bl.take j) = [] := by
  induction toks with
  | nil => cases h
  | cons a toks ih =>
    cases a with
    | text s =>
      simp only [skipBlank] at h
      by_cases hs : (trimSpace s).isEmpty = true
      · rw [if_pos hs] at h
        obtain ⟨bl, e1, e2, e3⟩ := ih h
        refine ⟨.text s :: bl, by rw [e1]; rfl, fun x => ?_, fun j => ?_⟩
        · rw [List.cons_append]
          simp only [skipBlank]
          rw [if_pos hs, e2]
        · cases j with
          | zero => rfl
          | succ j =>
            rw [List.take_succ_cons]
            simp only [skipBlank]
            rw [if_pos hs, e3]
      · rw [if_neg hs] at h
        cases h
        exact ⟨[], rfl, fun _ => rfl, fun j => by rw [List.take_nil]; rfl⟩
    | start n => cases h; exact ⟨[], rfl, fun _ => rfl, fun j => by rw [List.take_nil]; rfl⟩
    | stop n => cases h; exact ⟨[], rfl, fun _ => rfl, fun j => by rw [List.take_nil]; rfl⟩
    | proc a b => cases h; exact ⟨[], rfl, fun _ => rfl, fun j => by rw [List.take_nil]; rfl⟩
    | misc => cases h; exact ⟨[], rfl, fun _ => rfl, fun j => by rw [List.take_nil]; rfl⟩

theorem skipBlank_take {toks bl rest : List Tok} {t : Tok} (ht : skipBlank (t :: rest) = t :: rest) (h1 : ∀ x, skipBlank (bl ++ x) = skipBlank x)
    (h2 : ∀ j, skipBlank (bl.take j) = []) (h : toks = bl ++ t :: rest) (j : Nat) :
    skipBlank (toks.take j) = [] ∨ ∃ k, skipBlank (toks.take j) = t :: rest.take k ∧ j = bl.length + 1 + k := by
  subst h
  by_cases hj : j ≤ bl.length
  · rw [List.take_append_of_le_length hj]
    exact .inl (h2 j)
  · obtain ⟨k, rfl⟩ : ∃ k, j = bl.length + (k + 1) := ⟨j - bl.length - 1, by omega⟩
    rw [List.take_length_add_append, h1, List.take_succ_cons]
    refine .inr ⟨k, ?_, by omega⟩
    cases t with
    | text s =>
      simp only [skipBlank] at ht ⊢
      by_cases hs : (trimSpace s).isEmpty = true
      · rw [if_pos hs] at ht
        have := congrArg List.length ht
        have h3 := (skipBlank_suffix rest).length_le
        simp only [List.length_cons] at this
        omega
      · rw [if_neg hs]
    | start n => rfl
    | stop n => rfl
    | proc a b => rfl
    | misc => rfl

theorem skipBlank_idem {toks rest : List Tok} {t : Tok} (h : skipBlank toks = t :: rest) : skipBlank (t :: rest) = t :: rest := by
  obtain ⟨bl, e1, e2, _⟩ := skipBlank_blanks h
  rw [← e2, ← e1, h]

theorem bodyUnread_spec {env : Env} {strict : Bool} {v : Nat} {toks : List Tok} {r : Response Message}
    (h : decodeBody env strict v toks = .ok r) :
    ∃ pre, toks = pre ++ bodyUnread strict toks ∧ decodeBody env strict v pre = .ok r ∧
      ∀ j < pre.length, ∀ r', decodeBody env strict v (pre.take j) ≠ .ok r' := by
  obtain ⟨rest, root, left, h1, h2, h3⟩ := decodeBody_iff.mp h
  obtain ⟨pre, e1, e2, ⟨l, e3⟩, e4⟩ := buildUnread_spec _ (Nat.le_refl _) h2
  obtain ⟨bl, b1, b2, b3⟩ := skipBlank_blanks h1
  have hu : bodyUnread strict toks = buildUnread strict "OFX".toList [] rest := by
    unfold bodyUnread
    rw [h1]
  refine ⟨bl ++ .start "OFX".toList :: pre, ?_, ?_, ?_⟩
  · rw [hu]
    conv_lhs => rw [b1, e1]
    simp
  · refine decodeBody_iff.mpr ⟨pre, root, l, ?_, e3, h3⟩
    rw [b2]
    rfl
  · intro j hj r' hr
    obtain ⟨rest', root', left', g1, g2, _⟩ := decodeBody_iff.mp hr
    rcases skipBlank_take (t := .start "OFX".toList) (rest := pre) rfl b2 b3 rfl j with h4 | ⟨k, h4, rfl⟩
    · rw [h4] at g1; cases g1
    · rw [h4] at g1
      cases g1
      obtain ⟨e, he⟩ := e4 k (by simp only [List.length_append, List.length_cons] at hj; omega)
      rw [he] at g2
      cases g2

theorem xmlUnread_spec {env : Env} {toks rest : List Tok} {v : Nat} {r : Response Message} (h1 : readXMLHeaders toks = .ok (v, rest))
    (h : decodeBody env true v rest = .ok r) :
    ∃ pre, toks = pre ++ bodyUnread true rest ∧ decodeXML env pre = .ok r ∧
      ∀ j < pre.length, ∀ r', decodeXML env (pre.take j) ≠ .ok r' := by
  obtain ⟨pre, e1, e2, e3⟩ := bodyUnread_spec h
  obtain ⟨i, r1, inst, g1, g2, g3⟩ := readXML_iff.mp h1
  obtain ⟨bl, b1, b2, b3⟩ := skipBlank_blanks g1
  obtain ⟨bl', c1, c2, c3⟩ := skipBlank_blanks g2
  refine ⟨bl ++ .proc "xml".toList i :: (bl' ++ .proc "OFX".toList inst :: pre), ?_, ?_, ?_⟩
  · conv_lhs => rw [b1, c1, e1]
    simp
  · refine decodeXML_iff.mpr ⟨v, pre, readXML_iff.mpr ⟨i, bl' ++ .proc "OFX".toList inst :: pre, inst, ?_, ?_, g3⟩, e2⟩
    · rw [b2]; rfl
    · rw [c2]; rfl
  · intro j hj r' hr
    obtain ⟨v', rest', k1, k2⟩ := decodeXML_iff.mp hr
    obtain ⟨i', r1', inst', k3, k4, k5⟩ := readXML_iff.mp k1
    rcases skipBlank_take (t := .proc "xml".toList i) (rest := bl' ++ .proc "OFX".toList inst :: pre) rfl b2 b3 rfl j with h4 | ⟨k, h4, rfl⟩
    · rw [h4] at k3; cases k3
    · rw [h4] at k3
      cases k3
      rcases skipBlank_take (t := .proc "OFX".toList inst) (rest := pre) rfl c2 c3 rfl k with h5 | ⟨k', h5, rfl⟩
      · rw [h5] at k4; cases k4
      · rw [h5] at k4
        cases k4
        rw [g3] at k5
        cases k5
        exact e3 k' (by simp only [List.length_append, List.length_cons] at hj; omega) _ k2

/-! ### Documents as characters and bytes -/

/-- The text read is the shortest that is complete. -/
theorem char_end {strict : Bool} {nt : NameTable} (F : List Tok → Except String (Response Message)) (h0 : ∀ r, F [] ≠ .ok r)
    (hdrop : ∀ toks tl r, Inert strict tl → F (toks ++ tl) = .ok r → F toks = .ok r) (hext : ∀ a x r, F a = .ok r → F (a ++ x) = .ok r)
    {s : Str} {pre un : List Tok} {r : Response Message} (hs : lex strict nt s = pre ++ un) (h : F pre = .ok r)
    (hmin : ∀ j < pre.length, ∀ r', F (pre.take j) ≠ .ok r') :
    ∃ u v m w, s = u ++ lexAfter strict nt ((lex strict nt s).length - un.length) s ∧ F (lex strict nt u) = .ok r ∧
      (∀ c ∈ w, isXmlSpace c = true) ∧ u = v ++ ('<' :: '/' :: (m ++ w ++ ['>'])) ∧
      ∀ u' y r', u = u' ++ y → F (lex strict nt u') = .ok r' → y = [] := by
  have short : ∀ q r', F q = .ok r' → q <+: pre → q = pre := by
    intro q r' hq hp
    have hl : ¬ q.length < pre.length := fun hl => hmin q.length hl r' (by rw [← List.prefix_iff_eq_take.mp hp]; exact hq)
    exact hp.eq_of_length (by have := hp.length_le; omega)
  obtain ⟨p, m, h1, h2, _, h4⟩ := shortest_tokens F h0 hdrop h hext
  have hp := short _ _ h2 h1
  subst hp
  obtain ⟨u, rest, e, hu, ha, v, w, hw, hv⟩ := lexAfter_upto _ s p (Nat.le_refl _) (by rw [hs]; exact List.prefix_append ..) h4
  have hlen : (lex strict nt s).length - un.length = p.length + 1 := by
    rw [hs]
    simp only [List.length_append, List.length_cons, List.length_nil]
    omega
  have hlu : lex strict nt u = p ++ [.stop m] := by
    have := hu []
    rwa [List.append_nil, lex_nil] at this
  refine ⟨u, v, m, w, ?_, by rw [hlu]; exact h, hw, hv, ?_⟩
  · rw [hlen]
    conv_rhs => rw [e, ha]
    exact e
  · intro u' y r' e' hu'
    obtain ⟨p', m', g1, g2, _, g4⟩ := shortest_tokens F h0 hdrop hu' hext
    obtain ⟨u2, x, k1, k2, k3, _⟩ := lexAfter_upto _ u' p' (Nat.le_refl _) g1 g4
    have e2 : u = u2 ++ (x ++ y) := by rw [e', k1, List.append_assoc]
    have k4 := k2 (x ++ y)
    rw [← e2, hlu] at k4
    have k5 := short _ _ g2 ⟨lex strict nt (x ++ y), by rw [k4]; simp⟩
    have k6 := k3 (x ++ y)
    have hpl : p'.length + 1 = p.length + 1 := by
      have := congrArg List.length k5
      simpa using this
    have k7 := ha []
    rw [List.append_nil] at k7
    rw [← e2, hpl, k7] at k6
    have := (List.append_eq_nil_iff.mp k6.symm).2
    exact this

/-- The bytes taken are the shortest beginning that is complete. -/
theorem byte_end {strict : Bool} {nt : NameTable} (F : List Tok → Except String (Response Message)) (h0 : ∀ r, F [] ≠ .ok r)
    (hdrop : ∀ toks tl r, Inert strict tl → F (toks ++ tl) = .ok r → F toks = .ok r) (hext : ∀ a x r, F a = .ok r → F (a ++ x) = .ok r)
    {bs : List UInt8} {pre un : List Tok} {r : Response Message} (hs : lex strict nt (utf8Decode bs) = pre ++ un) (h : F pre = .ok r)
    (hmin : ∀ j < pre.length, ∀ r', F (pre.take j) ≠ .ok r') :
    ∃ d after v m w, bs = d ++ after ∧ taken strict nt bs un = d.length ∧ F (lex strict nt (utf8Decode d)) = .ok r ∧
      (∀ c ∈ w, isXmlSpace c = true) ∧ d = v ++ toBytes ("</".toList ++ m ++ w ++ ">".toList) ∧
      ∀ n < d.length, ∀ r', F (lex strict nt (utf8Decode (d.take n))) ≠ .ok r' := by
  obtain ⟨u, v, m, w, h1, h2, h3, h4, h5⟩ := char_end (nt := nt) F h0 hdrop hext hs h hmin
  obtain ⟨junk, e2, _⟩ := utf8Decode_split bs (Nat.le_refl _)
  unfold taken
  simp only
  generalize lexAfter strict nt ((lex strict nt (utf8Decode bs)).length - un.length) (utf8Decode bs) = rest at h1
  have hlen : (utf8Decode bs).take ((utf8Decode bs).length - rest.length) = u := by
    rw [h1, List.length_append, Nat.add_sub_cancel, List.take_left]
  refine ⟨toBytes u, toBytes rest ++ junk, toBytes v, m, w, ?_, by rw [hlen], by rw [utf8Decode_toBytes]; exact h2, h3, ?_, ?_⟩
  · conv_lhs => rw [e2, h1, toBytes_append, List.append_assoc]
  · rw [h4, toBytes_append]
    rfl
  · intro n hn r' hr
    obtain ⟨y, hy⟩ := utf8Decode_grow ((toBytes u).take n) ((toBytes u).drop n)
    rw [List.take_append_drop, utf8Decode_toBytes] at hy
    have hy0 := h5 _ y r' hy hr
    subst hy0
    rw [List.append_nil] at hy
    obtain ⟨junk', e3, _⟩ := utf8Decode_split ((toBytes u).take n) (Nat.le_refl _)
    rw [← hy] at e3
    have := congrArg List.length e3
    rw [List.length_take, List.length_append] at this
    omega

theorem body_end {env : Env} {nt : NameTable} {bs : List UInt8} {v : Nat} {r : Response Message}
    (h : decodeBody env false v (lex false nt (utf8Decode bs)) = .ok r) :
    ∃ d after a m w, bs = d ++ after ∧ taken false nt bs (bodyUnread false (lex false nt (utf8Decode bs))) = d.length ∧
      decodeBody env false v (lex false nt (utf8Decode d)) = .ok r ∧
      (∀ c ∈ w, isXmlSpace c = true) ∧ d = a ++ toBytes ("</".toList ++ m ++ w ++ ">".toList) ∧
      ∀ n < d.length, ∀ r', decodeBody env false v (lex false nt (utf8Decode (d.take n))) ≠ .ok r' := by
  obtain ⟨pre, e1, e2, e3⟩ := bodyUnread_spec h
  exact byte_end (decodeBody env false v) (fun r h => by cases h) (fun _ _ _ hi h => decodeBody_drop hi h) (fun _ x _ h => decodeBody_ext h x) e1 e2 e3

theorem xml_end {env : Env} {nt : NameTable} {bs : List UInt8} {v : Nat} {rest : List Tok} {r : Response Message}
    (h1 : readXMLHeaders (lex true nt (utf8Decode bs)) = .ok (v, rest)) (h : decodeBody env true v rest = .ok r) :
    ∃ d after a m w, bs = d ++ after ∧ taken true nt bs (bodyUnread true rest) = d.length ∧
      decodeXML env (lex true nt (utf8Decode d)) = .ok r ∧
      (∀ c ∈ w, isXmlSpace c = true) ∧ d = a ++ toBytes ("</".toList ++ m ++ w ++ ">".toList) ∧
      ∀ n < d.length, ∀ r', decodeXML env (lex true nt (utf8Decode (d.take n))) ≠ .ok r' := by
  obtain ⟨pre, e1, e2, e3⟩ := xmlUnread_spec h1 h
  exact byte_end (decodeXML env) (fun r h => by cases h) (fun _ _ _ hi h => decodeXML_drop hi h) (fun _ x _ h => decodeXML_ext h x) e1 e2 e3

/-! ### The reader -/

theorem skip_spec (n : Nat) (b : Bufio) (hb : b.Ready) (hs : 0 < b.size) (hn : n ≤ b.all.length) :
    (b.skip n).Ready ∧ (b.skip n).size = b.size ∧ (b.skip n).all = b.all.drop n := by
  induction n generalizing b with
  | zero => exact ⟨hb, rfl, rfl⟩
  | succ n ih =>
    unfold Bufio.skip
    rcases readByte_spec b hb hs with ⟨h1, e, h2⟩ | ⟨c, b', h1, h2, h3, h4⟩
    · rw [h1] at hn; simp at hn
    · rw [h1]
      simp only
      obtain ⟨k1, k2, k3⟩ := ih b' h2 (by omega) (by rw [h3] at hn; simpa using hn)
      exact ⟨k1, k2.trans h4, by rw [k3, h3]; rfl⟩

/-- The model with the reader afterwards gives the same responses. -/
theorem decodeNext_fst (env : Env) (nt : NameTable) (b : Bufio) (r : Response Message) :
    (∃ b', decodeNext env nt b = .ok (r, b')) ↔ decodeReader env nt b = .ok r := by
  have fin : ∀ strict v toks bytes (b : Bufio), (∃ b', finish env nt strict v toks bytes b = .ok (r, b')) ↔ decodeBody env strict v toks = .ok r := by
    intro strict v toks bytes b
    unfold finish
    cases decodeBody env strict v toks with
    | error e => exact ⟨(fun ⟨_, h⟩ => by cases h), (fun h => by cases h)⟩
    | ok r' => exact ⟨(fun ⟨_, h⟩ => by cases h; rfl), (fun h => by cases h; exact ⟨_, rfl⟩)⟩
  unfold decodeNext decodeReader
  simp only
  by_cases hg : guessVersion (latin1 (b.peek 1024).1) = true
  · rw [if_pos hg, if_pos hg]
    cases readXMLHeaders (lex true nt (utf8Decode ((b.peek 1024).2.drain ((b.peek 1024).2.buf.length + (b.peek 1024).2.src.bytes.length)))) with
    | error e => exact ⟨(fun ⟨_, h⟩ => by cases h), (fun h => by cases h)⟩
    | ok p => exact fin ..
  · rw [if_neg hg, if_neg hg]
    cases (b.peek 1024).2.readSlice 60 with
    | error e => exact ⟨(fun ⟨_, h⟩ => by cases h), (fun h => by cases h)⟩
    | ok p =>
      obtain ⟨s, b1⟩ := p
      simp only
      cases b1.unreadByte with
      | error e => exact ⟨(fun ⟨_, h⟩ => by cases h), (fun h => by cases h)⟩
      | ok b2 =>
        simp only
        cases checkSGMLHeader (latin1 s) with
        | error e => exact ⟨(fun ⟨_, h⟩ => by cases h), (fun h => by cases h)⟩
        | ok v => exact fin ..

end Ofx
