import Verif.Spec.Layout
import Verif.Lemmas.Lexer
import Verif.Lemmas.Numeral
/-
Character data reads back as the text it was written for.
-/
namespace Ofx
open Ofx.Spec

theorem xmlChar_iff (c : Char) : XmlChar c ↔ isXmlChar c = true := by
  unfold XmlChar isXmlChar
  simp only [Bool.or_eq_true, Bool.and_eq_true, beq_iff_eq, decide_eq_true_eq]
  have h : c.toNat < 0xD800 ∨ (0xDFFF < c.toNat ∧ c.toNat < 0x110000) := c.valid
  omega

theorem plainName_of_ascii {n : Str} (h : AsciiName n) : plainName n = true := by
  obtain ⟨⟨c, cs, rfl, hc⟩, h2⟩ := h
  have hascii : ∀ d : Char, d.isAlphanum = true ∨ d = '_' ∨ d = '.' ∨ d = '-' → d.toNat < 128 := by
    intro d hd
    rcases hd with hd | rfl | rfl | rfl
    · unfold Char.isAlphanum Char.isAlpha Char.isUpper Char.isLower Char.isDigit at hd
      simp only [Bool.or_eq_true, Bool.and_eq_true, decide_eq_true_eq, ge_iff_le, UInt32.le_iff_toNat_le] at hd
      have : d.toNat = d.val.toNat := rfl
      rw [this]
      have e1 : 'A'.val.toNat = 65 := rfl
      have e2 : 'Z'.val.toNat = 90 := rfl
      have e3 : 'a'.val.toNat = 97 := rfl
      have e4 : 'z'.val.toNat = 122 := rfl
      have e5 : '0'.val.toNat = 48 := rfl
      have e6 : '9'.val.toNat = 57 := rfl
      omega
    · decide
    · decide
    · decide
  simp only [plainName, Bool.and_eq_true, decide_eq_true_eq, Bool.or_eq_true, beq_iff_eq, List.all_eq_true]
  refine ⟨⟨hascii c (h2 c (List.mem_cons_self ..)), hc⟩, ?_⟩
  intro d hd
  have := h2 d (List.mem_cons_of_mem _ hd)
  simp only [plainChar, Bool.and_eq_true, decide_eq_true_eq, Bool.or_eq_true, beq_iff_eq]
  refine ⟨hascii d this, ?_⟩
  tauto

theorem normLines_cons {c : Char} (h : c ≠ '\r') (r : Str) : normLines (c :: r) = c :: normLines r := by
  conv_lhs => unfold normLines
  split
  · rename_i h1; cases h1
  · rename_i h1; cases h1; exact absurd rfl h
  · rename_i h1; cases h1; exact absurd rfl h
  · rename_i h1; cases h1; rfl

theorem normLines_crlf (r : Str) : normLines ('\r' :: '\n' :: r) = '\n' :: normLines r := by
  rw [normLines]

theorem normLines_append {a : Str} (h : '\r' ∉ a) (r : Str) : normLines (a ++ r) = a ++ normLines r := by
  induction a with
  | nil => rfl
  | cons c a ih =>
    rw [List.cons_append, normLines_cons (fun hc => h (by simp [hc])), ih (fun hc => h (List.mem_cons_of_mem _ hc))]
    rfl

theorem unescape_cons {strict : Bool} {c : Char} (h : c ≠ '&') (r : Str) :
    unescape strict (c :: r) = (unescape strict r).map (c :: ·) := by
  rw [unescape, if_neg h]

theorem unescape_amp {strict : Bool} {r r' : Str} {x : Char} (h : entity r = some (x, r')) (hl : r'.length < r.length + 1) :
    unescape strict ('&' :: r) = (unescape strict r').map (x :: ·) := by
  rw [unescape, if_pos rfl, h]
  simp only
  rw [if_pos hl]

theorem unescape_ref {strict : Bool} {e : String} {c : Char} (h : (e, c) ∈ references) (r : Str) :
    unescape strict (e.toList ++ r) = (unescape strict r).map (c :: ·) := by
  have key : ∃ e', e.toList = '&' :: e' ∧ entity (e' ++ r) = some (c, r) ∧ 0 < e'.length := by
    unfold references at h
    simp only [List.mem_cons, Prod.mk.injEq, List.not_mem_nil, or_false] at h
    rcases h with ⟨rfl, rfl⟩ | ⟨rfl, rfl⟩ | ⟨rfl, rfl⟩ | ⟨rfl, rfl⟩ | ⟨rfl, rfl⟩ | ⟨rfl, rfl⟩ | ⟨rfl, rfl⟩ | ⟨rfl, rfl⟩ |
      ⟨rfl, rfl⟩ | ⟨rfl, rfl⟩ <;> exact ⟨_, rfl, rfl, by decide⟩
  obtain ⟨e', h1, h2, h3⟩ := key
  rw [h1, List.cons_append]
  exact unescape_amp h2 (by rw [List.length_append]; omega)

theorem reference_chars {e : String} {c : Char} (h : (e, c) ∈ references) :
    (∀ d ∈ e.toList, d ≠ '<' ∧ d ≠ '>' ∧ d ≠ '\r') ∧ isXmlChar c = true := by
  have : ∀ x ∈ references, (∀ d ∈ x.1.toList, d ≠ '<' ∧ d ≠ '>' ∧ d ≠ '\r') ∧ isXmlChar x.2 = true := by decide +kernel
  exact this _ h

theorem written_chars {raw s : Str} (h : Written raw s) : (∀ d ∈ raw, d ≠ '<' ∧ d ≠ '>') ∧ s.all isXmlChar = true := by
  induction h with
  | nil => exact ⟨by simp, rfl⟩
  | plain h1 h2 h3 h4 h5 h6 ih =>
    refine ⟨?_, ?_⟩
    · intro d hd
      rcases List.mem_cons.mp hd with rfl | hd
      · exact ⟨h2, h4⟩
      · exact ih.1 d hd
    · rw [List.all_cons, (xmlChar_iff _).mp h1, ih.2]; rfl
  | lineEnd h ih =>
    refine ⟨?_, ?_⟩
    · intro d hd
      rcases List.mem_cons.mp hd with rfl | hd
      · decide
      · rcases List.mem_cons.mp hd with rfl | hd
        · decide
        · exact ih.1 d hd
    · rw [List.all_cons, ih.2]; decide
  | ref he h ih =>
    obtain ⟨r1, r2⟩ := reference_chars he
    refine ⟨?_, ?_⟩
    · intro d hd
      rcases List.mem_append.mp hd with hd | hd
      · exact ⟨(r1 d hd).1, (r1 d hd).2.1⟩
      · exact ih.1 d hd
    · rw [List.all_cons, ih.2, r2]; rfl

theorem written_unescape {raw s : Str} (h : Written raw s) (strict : Bool) : unescape strict (normLines raw) = some s := by
  induction h with
  | nil => rw [normLines, unescape]
  | plain h1 h2 h3 h4 h5 h6 ih => rw [normLines_cons h5, unescape_cons h3, ih]; rfl
  | lineEnd h ih => rw [normLines_crlf, unescape_cons (by decide), ih]; rfl
  | ref he h ih =>
    rw [normLines_append (fun hm => ((reference_chars he).1 _ hm).2.2 rfl), unescape_ref he, ih]; rfl

theorem contains_false {raw : Str} (h : ∀ d ∈ raw, d ≠ '>') : contains "]]>".toList raw = false := by
  induction raw with
  | nil => rfl
  | cons c raw ih =>
    have ih := ih (fun d hd => h d (List.mem_cons_of_mem _ hd))
    unfold contains
    rw [ih, Bool.or_false]
    rw [Bool.eq_false_iff]
    intro hp
    obtain ⟨t, ht⟩ := List.isPrefixOf_iff_prefix.mp hp
    exact h '>' (by rw [← ht]; simp) rfl

theorem written_token {raw s : Str} (h : Written raw s) (strict : Bool) : textToken strict raw = some s := by
  unfold textToken
  rw [contains_false (fun d hd => ((written_chars h).1 d hd).2), written_unescape h strict]
  simp only [Bool.false_eq_true, if_false, (written_chars h).2, if_true]

theorem Written.append {a b s t : Str} (h : Written a s) (h' : Written b t) : Written (a ++ b) (s ++ t) := by
  induction h with
  | nil => exact h'
  | plain h1 h2 h3 h4 h5 _ ih => exact .plain h1 h2 h3 h4 h5 ih
  | lineEnd _ ih => exact .lineEnd ih
  | ref he _ ih => rw [List.append_assoc]; exact .ref he ih

/-- Character data before a tag, or none. -/
theorem lex_written (strict : Bool) (nt : NameTable) {raw s : Str} (h : Written raw s) (r : Str) :
    lex strict nt (raw ++ '<' :: r) = (if s = [] then [] else [.text s]) ++ lex strict nt ('<' :: r) := by
  have key : (raw = [] ∧ s = []) ∨ (raw ≠ [] ∧ s ≠ []) := by
    cases h with
    | nil => exact .inl ⟨rfl, rfl⟩
    | plain => exact .inr ⟨by simp, by simp⟩
    | lineEnd => exact .inr ⟨by simp, by simp⟩
    | ref he _ =>
      refine .inr ⟨?_, by simp⟩
      intro h0
      have : ∀ x ∈ references, x.1.toList ≠ [] := by decide +kernel
      exact this _ he (List.append_eq_nil_iff.mp h0).1
  rcases key with ⟨rfl, rfl⟩ | ⟨h1, h2⟩
  · rfl
  · rw [lex_text strict nt h1 (fun hm => ((written_chars h).1 _ hm).1 rfl) (written_token h strict), if_neg h2]
    rfl

/-- A start tag. -/
theorem lex_start (strict : Bool) (nt : NameTable) {n : Str} (hn : AsciiName n) (r : Str) :
    lex strict nt (['<'] ++ n ++ ['>'] ++ r) = .start n :: lex strict nt r := by
  have hp := plainName_of_ascii hn
  have e : ['<'] ++ n ++ ['>'] ++ r = '<' :: (n ++ '>' :: r) := by simp
  rw [e]
  apply lex_step (ts := [.start n])
  · simp only [lexOne, if_true]
    have hs : lexStart strict nt (n ++ '>' :: r) = some ([.start n], r) := by
      unfold lexStart
      rw [lexName_plain nt hp (by decide)]
      simp only [List.length_cons, afterAttrs]
      have : skipSpace ('>' :: r) = '>' :: r := by unfold skipSpace; rw [List.dropWhile_cons, if_neg (by decide)]
      rw [this]
      simp
    obtain ⟨⟨c, cs, rfl, hc⟩, -⟩ := hn
    have hne : c ≠ '/' ∧ c ≠ '?' ∧ c ≠ '!' := by
      refine ⟨?_, ?_, ?_⟩ <;> rintro rfl <;> revert hc <;> decide
    rw [List.cons_append] at hs ⊢
    split
    · rename_i h1; cases h1; exact absurd rfl hne.1
    · rename_i h1; cases h1; exact absurd rfl hne.2.1
    · rename_i h1; cases h1; exact absurd rfl hne.2.2
    · exact hs
  · simp only [List.length_cons, List.length_append]
    omega

/-- An end tag. -/
theorem lex_stop (strict : Bool) (nt : NameTable) {n : Str} (hn : AsciiName n) (r : Str) :
    lex strict nt (['<', '/'] ++ n ++ ['>'] ++ r) = .stop n :: lex strict nt r := by
  have hp := plainName_of_ascii hn
  have e : ['<', '/'] ++ n ++ ['>'] ++ r = '<' :: '/' :: (n ++ '>' :: r) := by simp
  rw [e]
  apply lex_step (ts := [.stop n])
  · simp only [lexOne, if_true]
    unfold lexStop
    rw [lexName_plain nt hp (by decide)]
    have : skipSpace ('>' :: r) = '>' :: r := by unfold skipSpace; rw [List.dropWhile_cons, if_neg (by decide)]
    simp only [this]
  · simp only [List.length_cons, List.length_append]
    omega

end Ofx
