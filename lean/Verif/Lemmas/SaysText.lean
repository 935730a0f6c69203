import Verif.Lemmas.SaysDoc
import Verif.Props.Text
/-
The head of XML documents, and what whole documents say.
-/
namespace Ofx
open Spec Props

theorem gap_blank {s : Str} (hs : IsPadding s) : BlankTexts (if s = [] then [] else [.text s]) := by
  intro t ht
  by_cases h : s = []
  · rw [if_pos h] at ht; cases ht
  · rw [if_neg h] at ht
    exact ⟨s, List.mem_singleton.mp ht, hs⟩

theorem procOk_10 (more : Str) : procOk "xml".toList ("version=\"1.0\"".toList ++ more) = true := by
  have h1 : procParam "version".toList ("version=\"1.0\"".toList ++ more) = "1.0".toList := by
    unfold procParam
    have e : "version=\"1.0\"".toList ++ more = [] ++ ('v' :: "ersion=".toList) ++ ("\"1.0\"".toList ++ more) := by simp
    rw [show "version".toList ++ ['='] = 'v' :: "ersion=".toList from rfl, e, cut_first (by simp)]
    have e2 : "\"1.0\"".toList ++ more = '"' :: ("1.0".toList ++ ['"'] ++ more) := by simp
    rw [e2]
    simp only [true_or, if_true]
    rw [cut_first (by decide)]
  unfold procOk
  rw [if_pos rfl, h1]
  decide

theorem xmlHead_lex (nt : NameTable) {n : Nat} {head : Str} (h : XMLHead n head) (r : Str) :
    ∃ w w' i inst attrs gap, lex true nt (head ++ r) =
        w ++ .proc "xml".toList i :: (w' ++ .proc "OFX".toList inst :: lex true nt (gap ++ r)) ∧
      BlankTexts w ∧ BlankTexts w' ∧ Gap gap ∧ AttrText attrs inst ∧ XMLHeader n attrs := by
  obtain ⟨w, w', w'', more, inst, attrs, rfl, ⟨s, hw, hs⟩, ⟨s', hw', hs'⟩, ⟨s'', hw'', hs''⟩, hq, hq', hsp, ha, hx⟩ := h
  have hi : inst ≠ [] := by
    rintro rfl
    obtain ⟨-, ⟨a, ha', -⟩, -⟩ := hx
    cases attrs with
    | nil => cases ha'
    | cons a attrs =>
      obtain ⟨w, rest, h, -⟩ := ha
      have := congrArg List.length h
      simp at this
  have e : w ++ "<?xml version=\"1.0\"".toList ++ more ++ "?>".toList ++ w' ++ "<?OFX ".toList ++ inst ++ "?>".toList ++ w'' ++ r =
      w ++ ("<?".toList ++ "xml".toList ++ [' '] ++ ("version=\"1.0\"".toList ++ more) ++ "?>".toList ++
        (w' ++ ("<?".toList ++ "OFX".toList ++ [' '] ++ inst ++ "?>".toList ++ (w'' ++ r)))) := by
    simp
  rw [e, lex_written' true nt hw ⟨_, by simp; rfl⟩, lex_proc true nt (by decide +kernel) ?_ ?_ ?_ (procOk_10 more),
    lex_written' true nt hw' ⟨_, by simp; rfl⟩, lex_proc true nt (by decide +kernel) ?_ hi hq' ?_]
  · exact ⟨_, _, _, _, attrs, _, rfl, gap_blank hs, gap_blank hs', ⟨s'', hw'', hs''⟩, ha, hx⟩
  · intro c hc
    have := hsp c hc
    by_contra h
    apply this
    rw [Bool.not_eq_false] at h
    intro d hd
    rw [List.mem_singleton] at hd
    subst hd
    simp only [isXmlSpace, Bool.or_eq_true, beq_iff_eq] at h
    rcases h with ((rfl | rfl) | rfl) | rfl <;> decide
  · unfold procOk
    rw [if_neg (by decide)]
  · intro c hc
    simp at hc
    subst hc
    decide
  · simp
  · simp [hq]

theorem xmlDoc_reads (env : Env) (nt : NameTable) {v : Nat} {head t : Str} {n : Str} {cs : List Node} {tail : List UInt8}
    (h0 : ¬ "OFXHEADER:".toList <:+: latin1 ((toBytes (head ++ t) ++ tail).take 1024)) (h1 : XMLHead v head)
    (ht : Layout false (.elem n cs) t) (r : Response Message) :
    decodeResponse env nt (toBytes (head ++ t) ++ tail) = .ok r ↔ decodeOfx env (v + 5) (.elem n cs) = .ok r := by
  obtain ⟨w, w', i, inst, attrs, gap, hl, k1, k2, k3, k4, k5⟩ := xmlHead_lex nt h1 (t ++ utf8Decode tail)
  have hb : utf8Decode (toBytes (head ++ t) ++ tail) = head ++ (t ++ utf8Decode tail) := by
    rw [utf8Decode_append, List.append_assoc]
  rw [C30_reads env nt h0 (by rw [hb]; exact hl) k1 k2 k4 k5]
  exact layout_body (strict := true) env (v + 5) nt k3 ht (fun h => by cases h) _ r

end Ofx
