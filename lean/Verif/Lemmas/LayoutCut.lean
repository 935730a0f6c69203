import Verif.Lemmas.Layout
import Verif.Lemmas.Stray
/-
The tokens of text that lays out elements, up to the tag that follows.
-/
open Ofx.Spec
namespace Ofx

/-- What is written as characters, as tokens. -/
def textToks (s : Str) : List Tok := if s = [] then [] else [.text s]

mutual
theorem layout_lex (strict : Bool) (nt : NameTable) {sg : Bool} : {c : Node} → {t : Str} → Layout sg c t →
    ∀ w s : Str, Written w s → ∃ q, ∀ z, lex strict nt (t ++ (w ++ '<' :: z)) = q ++ lex strict nt ('<' :: z)
  | _, _, .leaf (n := n) (raw := raw) (s := s0) hn hw0, w, s, hw => by
    refine ⟨.start n :: (textToks s0 ++ (.stop n :: textToks s)), fun z => ?_⟩
    have e : (['<'] ++ n ++ ['>'] ++ raw ++ ['<', '/'] ++ n ++ ['>']) ++ (w ++ '<' :: z) =
      ['<'] ++ n ++ ['>'] ++ (raw ++ '<' :: ('/' :: n ++ ['>'] ++ (w ++ '<' :: z))) := by simp
    have e2 : '<' :: ('/' :: n ++ ['>'] ++ (w ++ '<' :: z)) = ['<', '/'] ++ n ++ ['>'] ++ (w ++ '<' :: z) := by simp
    rw [e, lex_start strict nt hn, lex_written strict nt hw0, e2, lex_stop strict nt hn, lex_written strict nt hw]
    simp [textToks]
  | _, _, .openLeaf (n := n) (raw := raw) (s := s0) _ _ hn hw0, w, s, hw => by
    refine ⟨.start n :: textToks (s0 ++ s), fun z => ?_⟩
    have e : (['<'] ++ n ++ ['>'] ++ raw) ++ (w ++ '<' :: z) = ['<'] ++ n ++ ['>'] ++ ((raw ++ w) ++ '<' :: z) := by
      simp only [List.append_assoc]
    rw [e, lex_start strict nt hn, lex_written strict nt (Ofx.Written.append hw0 hw)]
    simp [textToks]
  | _, _, .node (n := n) (cs := cs) (t := t) hn hl hc, w, s, hw => by
    obtain ⟨w1, s1, Y, rfl, h2, h3, q, h4⟩ := layouts_lex strict nt hc
    refine ⟨.start n :: (textToks s1 ++ q ++ (.stop n :: textToks s)), fun z => ?_⟩
    have e : (['<'] ++ n ++ ['>'] ++ (w1 ++ Y) ++ ['<', '/'] ++ n ++ ['>']) ++ (w ++ '<' :: z) =
      ['<'] ++ n ++ ['>'] ++ (w1 ++ (Y ++ '<' :: ('/' :: n ++ ['>'] ++ (w ++ '<' :: z)))) := by simp
    have e2 : '<' :: ('/' :: n ++ ['>'] ++ (w ++ '<' :: z)) = ['<', '/'] ++ n ++ ['>'] ++ (w ++ '<' :: z) := by simp
    obtain ⟨y, hy⟩ := h3 ('/' :: n ++ ['>'] ++ (w ++ '<' :: z))
    rw [e, lex_start strict nt hn, hy, lex_written strict nt h2, ← hy, h4, e2, lex_stop strict nt hn, lex_written strict nt hw]
    simp [textToks]
theorem layouts_lex (strict : Bool) (nt : NameTable) {sg : Bool} : {cs : List Node} → {t : Str} → Layouts sg cs t →
    ∃ w s Y, t = w ++ Y ∧ Written w s ∧ (∀ z : Str, ∃ y, Y ++ '<' :: z = '<' :: y) ∧
      ∃ q, ∀ z, lex strict nt (Y ++ '<' :: z) = q ++ lex strict nt ('<' :: z)
  | _, _, .nil (w := w) ⟨s, hw, hs⟩ => ⟨w, s, [], by simp, hw, fun z => ⟨z, rfl⟩, [], fun z => rfl⟩
  | _, _, .cons (w := w) (t := t) (t' := t') (c := c) (cs := cs) ⟨s, hw, hs⟩ h1 h2 => by
    obtain ⟨w1, s1, Y, rfl, g2, g3, q, g4⟩ := layouts_lex strict nt h2
    obtain ⟨q1, k1⟩ := layout_lex strict nt h1 w1 s1 g2
    refine ⟨w, s, t ++ (w1 ++ Y), by simp, hw, ?_, q1 ++ q, ?_⟩
    · intro z
      obtain ⟨y, hy⟩ := (tagNext_layout (strict := true) nt h1 [] (w1 ++ (Y ++ '<' :: z))).1
      exact ⟨y, by rw [← hy]; simp only [List.append_assoc]⟩
    · intro z
      obtain ⟨y, hy⟩ := g3 z
      have e : t ++ (w1 ++ Y) ++ '<' :: z = t ++ (w1 ++ '<' :: y) := by rw [← hy]; simp only [List.append_assoc]
      rw [e, k1, ← hy, g4, List.append_assoc]
end

/-- Without the end tag at its end, text that lays out an element does not decode. -/
theorem layout_unfinished (strict : Bool) (env : Env) (version : Nat) (nt : NameTable) {n : Str} {cs : List Node} {t : Str}
    (h : Layout (!strict) (.elem n cs) t) (hl : n ∉ leafElements) :
    ∃ Y, t = '<' :: Y ++ (['<', '/'] ++ n ++ ['>']) ∧ ∀ r, decodeBody env strict version (lex strict nt ('<' :: Y ++ ['<'])) ≠ .ok r := by
  have hnil : lex strict nt ['<'] = [] := by
    rw [lex]
    rfl
  have key : ∀ (q : List Tok) (left : List Tok), (∃ top, build strict (n, []) [] (q ++ [.stop n]) = .ok (top, [])) →
      ∀ r, decodeBody env strict version (.start n :: q) ≠ .ok r := by
    rintro q left ⟨top, h1⟩ r hr
    obtain ⟨rest, root, left, h3, h4, h5⟩ := decodeBody_iff.mp hr
    cases h3
    have := build_ext _ (Nat.le_refl _) h4 [.stop "OFX".toList]
    rw [h1] at this
    cases left <;> cases this
  cases h with
  | leaf hn hw0 =>
    rename_i raw s0
    refine ⟨n ++ ['>'] ++ raw, by simp, ?_⟩
    have e : '<' :: (n ++ ['>'] ++ raw) ++ ['<'] = ['<'] ++ n ++ ['>'] ++ (raw ++ '<' :: []) := by simp
    rw [e, lex_start strict nt hn, lex_written strict nt hw0, hnil]
    refine key _ [] ⟨.elem n (txt s0), ?_⟩
    rw [List.append_nil, build_txt, build_last]
    simp
  | openLeaf hg hl' hn hw0 => exact absurd hl' hl
  | node hn hl' hc =>
    rename_i t
    obtain ⟨w1, s1, Y1, e1, h2, h3, q, h4⟩ := layouts_lex strict nt hc
    obtain ⟨w2, s2, Y2, e2, k2, k3, k4, k5⟩ := layouts_build nt hc
    refine ⟨n ++ ['>'] ++ t, by simp, ?_⟩
    have hlex : ∀ z, lex strict nt (t ++ '<' :: z) = (textToks s1 ++ q) ++ lex strict nt ('<' :: z) := by
      intro z
      obtain ⟨y, hy⟩ := h3 z
      rw [e1, List.append_assoc, hy, lex_written strict nt h2, ← hy, h4, List.append_assoc]
      rfl
    have e : '<' :: (n ++ ['>'] ++ t) ++ ['<'] = ['<'] ++ n ++ ['>'] ++ (t ++ '<' :: []) := by simp
    rw [e, lex_start strict nt hn, hlex, hnil, List.append_nil]
    obtain ⟨ys, g1, g2⟩ := k5 (n, (txt s2).reverse) [] [] (fun _ => hl) hn
    refine key _ [] ⟨.elem n (ys.reverse ++ (txt s2).reverse).reverse, ?_⟩
    have e3 : lex strict nt (['<', '/'] ++ n ++ ['>'] ++ []) = [.stop n] := by
      rw [lex_stop strict nt hn, lex_nil]
    have e4 : (textToks s1 ++ q) ++ [.stop n] = lex strict nt (w2 ++ (Y2 ++ (['<', '/'] ++ n ++ ['>'] ++ []))) := by
      rw [← e3, ← List.append_assoc w2, ← e2]
      exact (hlex ('/' :: n ++ ['>'] ++ [])).symm
    rw [e4, lex_written' strict nt k2 (k4 _ hn _).1, build_txt]
    simp only [List.append_nil] at g2 e3 ⊢
    rw [g2, e3, build_last]

end Ofx
