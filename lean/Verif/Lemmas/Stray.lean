import Verif.Lemmas.Cut
import Verif.Lemmas.Written
/-
End tags of another name at the end of an SGML document.
-/
open Ofx.Spec
namespace Ofx

theorem lexOne_started {strict : Bool} {nt : NameTable} {s r m : Str} {ts : List Tok} (h : lexOne strict nt s = some (ts, r))
    (hm : Tok.start m ∈ ts) : '<' :: m <:+: s := by
  cases s with
  | nil => cases h
  | cons c s =>
    by_cases hc : c = '<'
    · subst hc
      cases s with
      | nil => cases h
      | cons c s =>
        by_cases h1 : c = '/'
        · subst h1
          obtain ⟨n, w, hn, hw, e, ht, hx⟩ := lexStop_exact (show lexStop nt s = some (ts, r) from h)
          rw [ht] at hm
          simp at hm
        · by_cases h2 : c = '?'
          · subst h2
            have h : lexProc nt s = some (ts, r) := h
            unfold lexProc at h
            cases hn : lexName nt s with
            | none => rw [hn] at h; cases h
            | some p =>
              obtain ⟨n, r1⟩ := p
              rw [hn] at h
              simp only at h
              cases hc : cut "?>".toList (skipSpace r1) with
              | none => rw [hc] at h; cases h
              | some q =>
                obtain ⟨i, r2⟩ := q
                rw [hc] at h
                simp only at h
                by_cases hp : procOk n i = true
                · rw [if_pos hp] at h
                  cases h
                  simp at hm
                · rw [if_neg hp] at h; cases h
          · by_cases h3 : c = '!'
            · subst h3
              have h : lexBang s = some (ts, r) := h
              exfalso
              unfold lexBang at h
              split at h
              · cases h
              · split at h
                · split at h
                  · generalize afterComment _ = o at h
                    cases o with
                    | none => cases h
                    | some y => cases h; simp at hm
                  · cases h
                · split at h
                  · split at h
                    · split at h
                      · split at h
                        · cases h; simp at hm
                        · cases h
                      · cases h
                    · cases h
                  · generalize afterDirective .plain 0 _ = o at h
                    cases o with
                    | none => cases h
                    | some y => cases h; simp at hm
            · rw [lexOne_start h1 h2 h3] at h
              obtain ⟨u, n, hu, e, ht, hx, hp⟩ := lexStart_exact h
              have : m = n := by rcases ht with ht | ht <;> (rw [ht] at hm; simpa using hm)
              subst this
              rw [e]
              obtain ⟨z, hz⟩ := hp
              exact ⟨[], z ++ r, by rw [← hz]; simp⟩
    · rw [lexOne_text hc] at h
      cases ht : textToken strict ((c :: s).takeWhile (· != '<')) with
      | none => rw [ht] at h; cases h
      | some t => rw [ht] at h; cases h; simp at hm

theorem lex_started {strict : Bool} {nt : NameTable} {m : Str} (n : Nat) (s : Str) (hn : s.length ≤ n)
    (hm : Tok.start m ∈ lex strict nt s) : '<' :: m <:+: s := by
  induction n generalizing s with
  | zero =>
    have : s = [] := List.length_eq_zero_iff.mp (Nat.le_zero.mp hn)
    subst this
    rw [lex_nil] at hm
    cases hm
  | succ n ih =>
    rw [lex] at hm
    cases h : lexOne strict nt s with
    | none => rw [h] at hm; cases hm
    | some p =>
      obtain ⟨ts, r⟩ := p
      rw [h] at hm
      simp only at hm
      by_cases hl : r.length < s.length
      · rw [if_pos hl] at hm
        rcases List.mem_append.mp hm with hm | hm
        · exact lexOne_started h hm
        · refine (ih r (by omega) hm).trans ?_
          exact (lexOne_suffix h).isInfix
      · rw [if_neg hl] at hm
        cases hm

/-- One end tag is as good as another, unless it is that of an open element. -/
theorem build_close_all {top : Str × List Node} {ps : List (Str × List Node)} {k m : Str} {root : Node} {left : List Tok}
    (ht : top.1 ≠ m) (hps : ∀ q ∈ ps, q.1 ≠ m) (h : build false top ps [.stop k] = .ok (root, left)) :
    ∃ left, build false top ps [.stop m] = .ok (root, left) := by
  have hc : ∀ (a b : Str), closes false a (.stop b) = true := fun a b => by simp [closes]
  induction ps generalizing top with
  | nil =>
    obtain ⟨_, h2, _⟩ := build_cons (strict := false) (top := top) (ps := []) (t := .stop k) []
    obtain ⟨_, k2, _⟩ := build_cons (strict := false) (top := top) (ps := []) (t := .stop m) []
    rw [h2 _ _ (by unfold buildStep; rw [if_pos (hc ..)])] at h
    cases h
    exact ⟨_, k2 _ _ (by unfold buildStep; rw [if_pos (hc ..)])⟩
  | cons q ps ih =>
    obtain ⟨_, _, h3⟩ := build_cons (strict := false) (top := top) (ps := q :: ps) (t := .stop k) []
    obtain ⟨_, _, k3⟩ := build_cons (strict := false) (top := top) (ps := q :: ps) (t := .stop m) []
    rw [h3 _ _ _ (by unfold buildStep; rw [if_pos (hc ..)])] at h
    rw [k3 _ _ _ (by unfold buildStep; rw [if_pos (hc ..)])]
    rw [if_neg (by simpa using fun e => ht e.symm)]
    by_cases hk : Tok.stop k = .stop top.1
    · rw [if_pos (by simpa using hk), build_nil] at h
      cases h
    · rw [if_neg (by simpa using hk)] at h
      exact ih (hps q (by simp)) (fun a ha => hps a (by simp [ha])) h

/-- In an SGML document, the last end tag may have any name that no element has. -/
theorem build_stray (n : Nat) {top : Str × List Node} {ps : List (Str × List Node)} {p : List Tok} {k m : Str} {root : Node} {left : List Tok}
    (hn : 2 * p.length + ps.length ≤ n) (hp : ∀ e, .start e ∈ p → e ≠ m) (ht : top.1 ≠ m) (hps : ∀ q ∈ ps, q.1 ≠ m)
    (h : build false top ps (p ++ [.stop k]) = .ok (root, left)) :
    ∃ left, build false top ps (p ++ [.stop m]) = .ok (root, left) := by
  induction n generalizing top ps p with
  | zero =>
    have : p = [] := List.length_eq_zero_iff.mp (by omega)
    subst this
    exact build_close_all ht hps h
  | succ n ih =>
    cases p with
    | nil => exact build_close_all ht hps h
    | cons t p =>
      obtain ⟨h1, h2, h3⟩ := build_cons (strict := false) (top := top) (ps := ps) (t := t) (p ++ [.stop k])
      obtain ⟨k1, k2, k3⟩ := build_cons (strict := false) (top := top) (ps := ps) (t := t) (p ++ [.stop m])
      rw [List.cons_append] at h ⊢
      cases hs : buildStep false top ps t with
      | none => obtain ⟨e, he⟩ := h1 hs; rw [he] at h; cases h
      | some a =>
        obtain ⟨c, a⟩ := a
        cases a with
        | inl r =>
          rw [h2 c r hs] at h
          cases h
          exact ⟨_, k2 c root hs⟩
        | inr q =>
          obtain ⟨top', ps'⟩ := q
          rw [h3 c top' ps' hs] at h
          rw [k3 c top' ps' hs]
          have hnames : top'.1 ≠ m ∧ ∀ q ∈ ps', q.1 ≠ m := by
            unfold buildStep at hs
            by_cases hc : closes false top.1 t = true
            · rw [if_pos hc] at hs
              cases ps with
              | nil => cases hs
              | cons q ps =>
                cases hs
                exact ⟨hps q (by simp), fun a ha => hps a (by simp [ha])⟩
            · rw [if_neg hc] at hs
              cases t with
              | start e =>
                cases hs
                refine ⟨hp e (by simp), fun q hq => ?_⟩
                rcases List.mem_cons.mp hq with rfl | hq
                · exact ht
                · exact hps q hq
              | stop e => cases hs
              | text e => cases hs; exact ⟨ht, hps⟩
              | proc a b => cases hs; exact ⟨ht, hps⟩
              | misc => cases hs; exact ⟨ht, hps⟩
          have hl := buildStep_less hs p
          cases c with
          | true =>
            exact ih (p := p) (by simpa using Nat.lt_succ_iff.mp (Nat.lt_of_lt_of_le hl hn)) (fun e he => hp e (by simp [he])) hnames.1 hnames.2 h
          | false =>
            exact ih (p := t :: p) (by simpa using Nat.lt_succ_iff.mp (Nat.lt_of_lt_of_le hl hn)) hp hnames.1 hnames.2 h

theorem decodeBody_stray {env : Env} {v : Nat} {p : List Tok} {k m : Str} {r : Response Message} (hp : ∀ e, .start e ∈ p → e ≠ m)
    (h : decodeBody env false v (p ++ [.stop k]) = .ok r) : decodeBody env false v (p ++ [.stop m]) = .ok r := by
  obtain ⟨rest, root, left, h3, h4, h5⟩ := decodeBody_iff.mp h
  rcases skipBlank_cases p [.stop k] with ⟨_, h2⟩ | ⟨h1, h2⟩
  · rw [h2] at h3
    cases h3
  · rw [h2] at h3
    cases hs : skipBlank p with
    | nil => exact absurd hs h1
    | cons t rest' =>
      rw [hs] at h3
      cases h3
      have hm : "OFX".toList ≠ m := hp _ ((skipBlank_suffix p).subset (by rw [hs]; simp))
      have hsub : ∀ e, .start e ∈ rest' → e ≠ m := fun e he =>
        hp e ((skipBlank_suffix p).subset (by rw [hs]; simp [he]))
      obtain ⟨left', h6⟩ := build_stray _ (Nat.le_refl _) hsub hm (fun q hq => by cases hq) h4
      refine decodeBody_iff.mpr ⟨rest' ++ [.stop m], root, left', ?_, h6, h5⟩
      rcases skipBlank_cases p [.stop m] with ⟨g1, _⟩ | ⟨_, g2⟩
      · exact absurd g1 h1
      · rw [g2, hs]; rfl

/-- An SGML document decodes also when it ends, in place of the end tag of the outermost
element, with an end tag of some name that no element has. -/
theorem ends_with_any_tag {env : Env} {nt : NameTable} {bs : List UInt8} {r : Response Message} (h : decodeResponse env nt bs = .ok r)
    (hr : r.version < 5) :
    ∃ v x m w, bs = v ++ toBytes ("</".toList ++ m ++ w ++ ">".toList) ++ x ∧ (∀ c ∈ w, isXmlSpace c = true) ∧
      ∀ n, AsciiName n → ¬ toBytes ('<' :: n) <:+: bs → decodeResponse env nt (v ++ toBytes ("</".toList ++ n ++ ">".toList)) = .ok r := by
  rcases decodeResponse_iff.mp h with ⟨hg, h⟩ | ⟨head, tail, v, rfl, h2, h3, hc, h⟩
  · exfalso
    obtain ⟨v, rest, h1, h2⟩ := decodeXML_iff.mp h
    obtain ⟨_, _, inst, _, _, h3⟩ := readXML_iff.mp h1
    obtain ⟨n, _, rfl, _⟩ := (checkXML_iff ..).mp h3
    have := decodeBody_version h2
    omega
  · obtain ⟨p, m, h1, h2', _, h4⟩ := shortest_tokens (strict := false) (decodeBody env false v) (fun r h => by cases h)
      (fun _ _ _ hi h => decodeBody_drop hi h) h (fun _ x _ h => decodeBody_ext h x)
    obtain ⟨u, rest, e, hu, hend⟩ := lex_upto _ _ p (Nat.le_refl _) h1
    rcases hend with ⟨v', w, hw, hv, hz⟩ | ⟨p0, hp0⟩
    · obtain ⟨junk, e2, _⟩ := utf8Decode_split (ltByte :: tail) (Nat.le_refl _)
      have e3 : ltByte :: tail = toBytes u ++ (toBytes rest ++ junk) := by
        conv_lhs => rw [e2, e, toBytes_append, List.append_assoc]
      refine ⟨head ++ toBytes v', toBytes rest ++ junk, m, w, ?_, hw, ?_⟩
      · rw [e3, hv, toBytes_append]
        simp only [List.append_assoc]
        rfl
      intro n hn hi
      have hbody : decodeBody env false v (p ++ [.stop n]) = .ok r := by
        refine decodeBody_stray ?_ h2'
        rintro e' he rfl
        apply hi
        have h6 : '<' :: e' <:+: u := lex_started (strict := false) (nt := nt) _ u (Nat.le_refl _) (by rw [hu]; simp [he])
        obtain ⟨a, b, hab⟩ := h6
        refine ⟨head ++ toBytes a, toBytes b ++ (toBytes rest ++ junk), ?_⟩
        rw [e3, ← hab, toBytes_append, toBytes_append]
        simp only [List.append_assoc]
      have e4 : "</".toList ++ n ++ ">".toList = '<' :: ('/' :: n ++ ['>']) := rfl
      have hlt : ∃ y, toBytes (v' ++ '<' :: ('/' :: n ++ ['>'])) = ltByte :: y := by
        cases hb : toBytes v' with
        | nil => rw [toBytes_append, hb]; exact ⟨toBytes ('/' :: n ++ ['>']), rfl⟩
        | cons b y =>
          have : ltByte = b := by
            rw [hv, toBytes_append, hb] at e3
            cases e3
            rfl
          rw [toBytes_append, hb, this]
          exact ⟨_, rfl⟩
      obtain ⟨y, hy⟩ := hlt
      rw [e4, List.append_assoc, ← toBytes_append, hy]
      refine decodeResponse_iff.mpr (.inr ⟨head, y, v, rfl, h2, h3, hc, ?_⟩)
      rw [← hy, utf8Decode_toBytes, hz]
      have := lex_stop false nt hn []
      simp only [List.append_nil, lex_nil] at this
      rw [show '<' :: ('/' :: n ++ ['>']) = ['<', '/'] ++ n ++ ['>'] from rfl, this]
      exact hbody
    · exact absurd hp0 (h4 p0)

end Ofx
