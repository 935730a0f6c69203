import Verif.Lemmas.Written
import Verif.Lemmas.Pad
import Verif.Model.Decode
/-
Text laid out for an element tree is read as that tree, up to white space.
-/
namespace Ofx
open Spec

/-- The name of an element that is not closed by the next tag. -/
def StaysOpen (strict : Bool) (n : Str) : Prop := strict = false → n ∉ leafElements

theorem build_start {strict : Bool} {top : Str × List Node} {parents : List (Str × List Node)} {n : Str} {rest : List Tok}
    (ht : StaysOpen strict top.1) : build strict top parents (.start n :: rest) = build strict (n, []) (top :: parents) rest := by
  conv_lhs => unfold build
  simp only
  have : closes strict top.1 (.start n) = false := by
    simp only [closes]
    cases strict with
    | true => rfl
    | false =>
      simp only [Bool.not_false, Bool.true_and]
      rw [Bool.eq_false_iff]
      intro hc
      exact ht rfl (List.contains_iff_mem.mp hc)
  rw [if_neg (by rw [this]; decide)]

theorem build_text {strict : Bool} {top : Str × List Node} {parents : List (Str × List Node)} {s : Str} {rest : List Tok} :
    build strict top parents (.text s :: rest) = build strict (top.1, .text s :: top.2) parents rest := by
  conv_lhs => unfold build
  simp only
  rw [if_neg (by simp [closes])]

theorem build_txt {strict : Bool} {top : Str × List Node} {parents : List (Str × List Node)} {s : Str} {rest : List Tok} :
    build strict top parents ((if s = [] then [] else [.text s]) ++ rest) =
    build strict (top.1, (txt s).reverse ++ top.2) parents rest := by
  unfold txt
  by_cases hs : s = []
  · rw [if_pos hs, if_pos hs]; rfl
  · rw [if_neg hs, if_neg hs]
    exact build_text

theorem build_stop {strict : Bool} {n : Str} {cs : List Node} {p : Str × List Node} {ps : List (Str × List Node)} {rest : List Tok} :
    build strict (n, cs) (p :: ps) (.stop n :: rest) = build strict (p.1, .elem n cs.reverse :: p.2) ps rest := by
  rw [build]
  rw [if_pos (by simp [closes]), if_pos rfl]

theorem build_last {strict : Bool} {n : Str} {cs : List Node} {rest : List Tok} :
    build strict (n, cs) [] (.stop n :: rest) = .ok (.elem n cs.reverse, rest) := by
  rw [build]
  rw [if_pos (by simp [closes]), if_pos rfl]

/-- The next tag closes a leaf element. -/
theorem build_close {n : Str} {cs : List Node} {p : Str × List Node} {ps : List (Str × List Node)} {t : Tok} {rest : List Tok}
    (hn : n ∈ leafElements) (ht : (∃ m, t = .start m) ∨ (∃ m, t = .stop m ∧ m ≠ n)) :
    build false (n, cs) (p :: ps) (t :: rest) = build false (p.1, .elem n cs.reverse :: p.2) ps (t :: rest) := by
  conv_lhs => unfold build
  simp only
  rcases ht with ⟨m, rfl⟩ | ⟨m, rfl, hm⟩
  · rw [if_pos (by simp [closes, hn]), if_neg (by simp)]
  · rw [if_pos (by simp [closes]), if_neg (by simpa using hm)]

/-- A tag comes next that closes a leaf inside the element `top`. -/
def TagNext (strict : Bool) (nt : NameTable) (top : Str) (r : Str) : Prop :=
  (∃ r', r = '<' :: r') ∧ ∃ t ts, lex strict nt r = t :: ts ∧ ((∃ m, t = .start m) ∨ t = .stop top)

theorem tagNext_stop (strict : Bool) (nt : NameTable) {n : Str} (hn : AsciiName n) (r : Str) :
    TagNext strict nt n (['<', '/'] ++ n ++ ['>'] ++ r) :=
  ⟨⟨'/' :: (n ++ ['>'] ++ r), by simp⟩, _, _, lex_stop strict nt hn r, .inr rfl⟩

theorem tagNext_start (strict : Bool) (nt : NameTable) {n : Str} (hn : AsciiName n) (m r : Str) :
    TagNext strict nt m (['<'] ++ n ++ ['>'] ++ r) :=
  ⟨⟨n ++ ['>'] ++ r, by simp⟩, _, _, lex_start strict nt hn r, .inl ⟨n, rfl⟩⟩

theorem lex_written' (strict : Bool) (nt : NameTable) {raw s : Str} (h : Written raw s) {r : Str} (hr : ∃ r', r = '<' :: r') :
    lex strict nt (raw ++ r) = (if s = [] then [] else [.text s]) ++ lex strict nt r := by
  obtain ⟨r', rfl⟩ := hr
  exact lex_written strict nt h r'

theorem tagNext_layout {strict : Bool} {sgml : Bool} (nt : NameTable) {c : Node} {t : Str} (h : Layout sgml c t) (m r : Str) :
    TagNext strict nt m (t ++ r) := by
  cases h with
  | leaf hn hw =>
    rename_i n raw s
    have := tagNext_start strict nt hn m (raw ++ (['<', '/'] ++ n ++ ['>'] ++ r))
    simpa only [List.append_assoc] using this
  | openLeaf hg hl hn hw =>
    rename_i n raw s
    have := tagNext_start strict nt hn m (raw ++ r)
    simpa only [List.append_assoc] using this
  | node hn hl hc =>
    rename_i n cs t
    have := tagNext_start strict nt hn m (t ++ (['<', '/'] ++ n ++ ['>'] ++ r))
    simpa only [List.append_assoc] using this

mutual
/-- An element inside `top`, then white space, then a tag. -/
theorem layout_build {strict : Bool} (nt : NameTable) : {c : Node} → {t : Str} → Layout (!strict) c t →
    ∀ (top : Str × List Node) (parents : List (Str × List Node)) (w s r : Str), StaysOpen strict top.1 →
      Written w s → IsPadding s → TagNext strict nt top.1 r →
      ∃ ys, Forest [c] ys ∧ build strict top parents (lex strict nt (t ++ (w ++ r))) =
        build strict (top.1, ys.reverse ++ top.2) parents (lex strict nt r)
  | _, _, .leaf (n := n) (raw := raw) (s := s0) hn hw0, top, parents, w, s, r, ht, hw, hs, hr => by
    refine ⟨.elem n (txt s0) :: txt s, .elem (.text rfl) (forest_txt hs), ?_⟩
    have e : (['<'] ++ n ++ ['>'] ++ raw ++ ['<', '/'] ++ n ++ ['>']) ++ (w ++ r) =
      ['<'] ++ n ++ ['>'] ++ (raw ++ (['<', '/'] ++ n ++ ['>'] ++ (w ++ r))) := by simp only [List.append_assoc]
    rw [e, lex_start strict nt hn, lex_written' strict nt hw0 ⟨_, by simp; rfl⟩, lex_stop strict nt hn, build_start ht, build_txt,
      build_stop, lex_written' strict nt hw hr.1, build_txt]
    simp
  | _, _, .openLeaf (n := n) (raw := raw) (s := s0) hg hl hn hw0, top, parents, w, s, r, ht, hw, hs, hr => by
    have hst : strict = false := by simpa using hg
    subst hst
    refine ⟨[.elem n (txt (s0 ++ s))], .elem (.text ?_) .nil, ?_⟩
    · rw [allSpace_trim_right ((isPadding_iff s).mp hs)]
    have e : (['<'] ++ n ++ ['>'] ++ raw) ++ (w ++ r) =
      ['<'] ++ n ++ ['>'] ++ ((raw ++ w) ++ r) := by simp only [List.append_assoc]
    obtain ⟨hr1, t, ts, h1, h2⟩ := hr
    rw [e, lex_start false nt hn, lex_written' false nt (Ofx.Written.append hw0 hw) hr1, build_start ht, build_txt, h1, build_close hl]
    · simp
    · rcases h2 with h2 | rfl
      · exact .inl h2
      · exact .inr ⟨_, rfl, fun h => ht rfl (h ▸ hl)⟩
  | _, _, .node (n := n) (cs := cs) (t := t) hn hl hc, top, parents, w, s, r, ht, hw, hs, hr => by
    have hold : StaysOpen strict n := by
      intro h; exact hl (by rw [h]; rfl)
    obtain ⟨w1, s1, Y, rfl, h2, h3, h4, h5⟩ := layouts_build nt hc
    obtain ⟨ys, g1, g2⟩ := h5 (n, (txt s1).reverse) (top :: parents) (w ++ r) hold hn
    refine ⟨.elem n (txt s1 ++ ys) :: txt s, .elem (.forest ((forest_txt h3).append g1)) (forest_txt hs), ?_⟩
    have e : (['<'] ++ n ++ ['>'] ++ (w1 ++ Y) ++ ['<', '/'] ++ n ++ ['>']) ++ (w ++ r) =
      ['<'] ++ n ++ ['>'] ++ (w1 ++ (Y ++ (['<', '/'] ++ n ++ ['>'] ++ (w ++ r)))) := by simp only [List.append_assoc]
    rw [e, lex_start strict nt hn, lex_written' strict nt h2 (h4 _ hn _).1, build_start ht, build_txt]
    simp only [List.append_nil]
    rw [g2, lex_stop strict nt hn, build_stop, lex_written' strict nt hw hr.1, build_txt]
    simp
/-- The elements inside `top`, after white space, then its end tag. -/
theorem layouts_build {strict : Bool} (nt : NameTable) : {cs : List Node} → {t : Str} → Layouts (!strict) cs t →
    ∃ w s Y, t = w ++ Y ∧ Written w s ∧ IsPadding s ∧
      (∀ n, AsciiName n → ∀ r, TagNext strict nt n (Y ++ (['<', '/'] ++ n ++ ['>'] ++ r))) ∧
      ∀ (top : Str × List Node) (parents : List (Str × List Node)) (r : Str), StaysOpen strict top.1 → AsciiName top.1 →
        ∃ ys, Forest cs ys ∧ build strict top parents (lex strict nt (Y ++ (['<', '/'] ++ top.1 ++ ['>'] ++ r))) =
          build strict (top.1, ys.reverse ++ top.2) parents (lex strict nt (['<', '/'] ++ top.1 ++ ['>'] ++ r))
  | _, _, .nil (w := w) ⟨s, hw, hs⟩ => by
    refine ⟨w, s, [], by simp, hw, hs, fun n hn r => tagNext_stop strict nt hn r, ?_⟩
    intro top parents r ht hn
    exact ⟨[], .nil, by simp⟩
  | _, _, .cons (w := w) (t := t) (t' := t') (c := c) (cs := cs) ⟨s, hw, hs⟩ h1 h2 => by
    refine ⟨w, s, t ++ t', by simp, hw, hs, ?_, ?_⟩
    · intro n hn r
      have := tagNext_layout (strict := strict) nt h1 n (t' ++ (['<', '/'] ++ n ++ ['>'] ++ r))
      simpa only [List.append_assoc] using this
    · intro top parents r ht hn
      obtain ⟨w1, s1, Y, rfl, g2, g3, g4, g5⟩ := layouts_build nt h2
      obtain ⟨ys, k1, k2⟩ := layout_build nt h1 top parents w1 s1 (Y ++ (['<', '/'] ++ top.1 ++ ['>'] ++ r)) ht g2 g3 (g4 _ hn _)
      obtain ⟨zs, l1, l2⟩ := g5 (top.1, ys.reverse ++ top.2) parents r ht hn
      refine ⟨ys ++ zs, k1.append l1, ?_⟩
      have e : (t ++ (w1 ++ Y)) ++ (['<', '/'] ++ top.1 ++ ['>'] ++ r) =
        t ++ (w1 ++ (Y ++ (['<', '/'] ++ top.1 ++ ['>'] ++ r))) := by simp only [List.append_assoc]
      rw [e, k2, l2]
      simp
end

/-- The body of a document. -/
theorem layout_body {strict : Bool} (env : Env) (version : Nat) (nt : NameTable) {n : Str} {cs : List Node} {w t : Str}
    (hw : Gap w) (h : Layout (!strict) (.elem n cs) t) (hl : StaysOpen strict n) (rest : Str) (r : Response Message) :
    decodeBody env strict version (lex strict nt (w ++ (t ++ rest))) = .ok r ↔ decodeOfx env version (.elem n cs) = .ok r := by
  obtain ⟨s, hw, hs⟩ := hw
  rw [lex_written' strict nt hw (tagNext_layout (strict := strict) nt h [] rest).1]
  have hskip : ∀ ts, skipBlank ((if s = [] then [] else [.text s]) ++ .start n :: ts) = .start n :: ts := by
    intro ts
    by_cases h0 : s = []
    · rw [if_pos h0]; rfl
    · rw [if_neg h0]
      simp [skipBlank, trimSpace_eq_nil.mpr hs]
  unfold decodeBody
  cases h with
  | leaf hn hw0 =>
    rename_i raw s0
    have e : (['<'] ++ n ++ ['>'] ++ raw ++ ['<', '/'] ++ n ++ ['>']) ++ rest =
      ['<'] ++ n ++ ['>'] ++ (raw ++ (['<', '/'] ++ n ++ ['>'] ++ rest)) := by simp only [List.append_assoc]
    rw [e, lex_start strict nt hn, lex_written' strict nt hw0 ⟨_, by simp; rfl⟩, lex_stop strict nt hn, hskip]
    simp only
    rw [build_txt, build_last]
    simp [txt]
  | openLeaf hg hl' hn hw0 =>
    exact absurd hl' (hl (by simpa using hg))
  | node hn hl' hc =>
    rename_i t
    obtain ⟨w1, s1, Y, rfl, h2, h3, h4, h5⟩ := layouts_build nt hc
    obtain ⟨ys, g1, g2⟩ := h5 (n, (txt s1).reverse) [] rest hl hn
    have e : (['<'] ++ n ++ ['>'] ++ (w1 ++ Y) ++ ['<', '/'] ++ n ++ ['>']) ++ rest =
      ['<'] ++ n ++ ['>'] ++ (w1 ++ (Y ++ (['<', '/'] ++ n ++ ['>'] ++ rest))) := by simp only [List.append_assoc]
    rw [e, lex_start strict nt hn, lex_written' strict nt h2 (h4 _ hn _).1, hskip]
    simp only
    rw [build_txt]
    simp only [List.append_nil]
    rw [g2, lex_stop strict nt hn, build_last]
    simp only
    have := pad_ofx env version n (.forest ((forest_txt h3).append g1)) r
    simp only [List.nil_append] at this
    rw [this]
    simp

end Ofx
