import Verif.Codec.Lexer
import Verif.Lemmas.Str
/-
What the tokenizer does with well-formed input.
-/
namespace Ofx

theorem takeWhile_stop {α} {p : α → Bool} {a : List α} {c : α} {r : List α} (ha : ∀ x ∈ a, p x = true) (hc : p c = false) :
    (a ++ c :: r).takeWhile p = a := by
  induction a with
  | nil => simp [hc]
  | cons x a ih =>
    rw [List.cons_append, List.takeWhile_cons, if_pos (ha x (List.mem_cons_self ..)),
      ih (fun y hy => ha y (List.mem_cons_of_mem _ hy))]

theorem dropWhile_stop {α} {p : α → Bool} {a : List α} {c : α} {r : List α} (ha : ∀ x ∈ a, p x = true) (hc : p c = false) :
    (a ++ c :: r).dropWhile p = c :: r := by
  induction a with
  | nil => simp [hc]
  | cons x a ih =>
    rw [List.cons_append, List.dropWhile_cons, if_pos (ha x (List.mem_cons_self ..)),
      ih (fun y hy => ha y (List.mem_cons_of_mem _ hy))]

/-- ASCII letters, digits and a few signs. -/
def plainChar (c : Char) : Bool :=
  decide (c.toNat < 128) && (c.isAlphanum || c == '_' || c == '.' || c == '-')

/-- Names in ASCII. -/
def plainName : Str → Bool
  | [] => false
  | c :: cs => decide (c.toNat < 128) && (c.isAlpha || c == '_') && cs.all plainChar

theorem isName_plain (nt : NameTable) {n : Str} (h : plainName n = true) : nt.isName n = true := by
  cases n with
  | nil => cases h
  | cons c cs =>
    simp only [plainName, Bool.and_eq_true, decide_eq_true_eq, List.all_eq_true] at h
    obtain ⟨⟨h1, h2⟩, h3⟩ := h
    simp only [NameTable.isName, Bool.and_eq_true, List.all_eq_true]
    constructor
    · unfold NameTable.isFirst
      rw [if_pos h1]
      exact h2
    · intro d hd
      have := h3 d hd
      simp only [plainChar, Bool.and_eq_true, decide_eq_true_eq] at this
      unfold NameTable.isNext
      rw [if_pos this.1]
      exact this.2

theorem nameByte_plain {n : Str} (h : plainName n = true) : ∀ c ∈ n, isNameByte c = true := by
  cases n with
  | nil => intro c hc; cases hc
  | cons c cs =>
    simp only [plainName, Bool.and_eq_true, decide_eq_true_eq, List.all_eq_true] at h
    obtain ⟨⟨h1, h2⟩, h3⟩ := h
    intro d hd
    rcases List.mem_cons.mp hd with rfl | hd
    · unfold isNameByte
      unfold Char.isAlphanum
      simp only [Bool.or_eq_true] at h2 ⊢
      rcases h2 with h2 | h2
      · simp [h2]
      · simp [h2]
    · have := h3 d hd
      simp only [plainChar, Bool.and_eq_true, decide_eq_true_eq, Bool.or_eq_true] at this
      unfold isNameByte
      simp only [Bool.or_eq_true]
      rcases this.2 with ((h | h) | h) | h <;> simp [h]

theorem lexName_plain (nt : NameTable) {n : Str} (h : plainName n = true) {c : Char} {r : Str} (hc : isNameByte c = false) :
    lexName nt (n ++ c :: r) = some (n, c :: r) := by
  unfold lexName
  rw [takeWhile_stop (nameByte_plain h) hc, dropWhile_stop (nameByte_plain h) hc, if_pos (isName_plain nt h)]

theorem lex_step {strict : Bool} {nt : NameTable} {s r : Str} {ts : List Tok} (h : lexOne strict nt s = some (ts, r))
    (hl : r.length < s.length) : lex strict nt s = ts ++ lex strict nt r := by
  rw [lex]
  simp only [h]
  rw [if_pos hl]

theorem cut_append {x : Char} {xs a b : Str} (ha : x ∉ a) : cut (x :: xs) (a ++ (x :: (xs ++ b))) = some (a, b) := by
  induction a with
  | nil =>
    have hp : (x :: xs).isPrefixOf (x :: (xs ++ b)) = true :=
      List.isPrefixOf_iff_prefix.mpr ⟨b, rfl⟩
    rw [List.nil_append, cut, if_pos hp]
    simp
  | cons y a ih =>
    have hy : x ≠ y := fun h => ha (by simp [h])
    have hp : ¬ (x :: xs).isPrefixOf (y :: (a ++ (x :: (xs ++ b)))) = true := by
      rw [List.isPrefixOf_iff_prefix]
      intro h
      obtain ⟨t, ht⟩ := h
      simp only [List.cons_append, List.cons.injEq] at ht
      exact hy ht.1
    rw [List.cons_append, cut, if_neg hp, ih (fun h => ha (List.mem_cons_of_mem _ h))]

/-- A processing instruction. -/
theorem lex_proc (strict : Bool) (nt : NameTable) {target inst r : Str} (ht : plainName target = true)
    (h1 : ∀ c, inst.head? = some c → isXmlSpace c = false) (h2 : inst ≠ []) (h3 : '?' ∉ inst)
    (h4 : procOk target inst = true) :
    lex strict nt ("<?".toList ++ target ++ [' '] ++ inst ++ "?>".toList ++ r) =
      .proc target inst :: lex strict nt r := by
  have e : "<?".toList ++ target ++ [' '] ++ inst ++ "?>".toList ++ r =
      '<' :: '?' :: (target ++ ' ' :: (inst ++ '?' :: (['>'] ++ r))) := by
    show ['<', '?'] ++ target ++ [' '] ++ inst ++ ['?', '>'] ++ r = _
    simp
  rw [e]
  apply lex_step (ts := [.proc target inst])
  · simp only [lexOne, if_true]
    unfold lexProc
    rw [lexName_plain nt ht (by decide)]
    simp only
    have hs : skipSpace (' ' :: (inst ++ '?' :: (['>'] ++ r))) = inst ++ '?' :: (['>'] ++ r) := by
      unfold skipSpace
      obtain ⟨c, cs, rfl⟩ := List.exists_cons_of_ne_nil h2
      rw [List.dropWhile_cons, if_pos (by decide), List.cons_append, List.dropWhile_cons, if_neg (by simp [h1 c rfl])]
    rw [hs, show "?>".toList = '?' :: ['>'] from rfl, cut_append h3]
    simp only [h4, if_true]
  · simp only [List.length_cons, List.length_append]
    omega

/-- White space before a tag. -/
theorem lex_text (strict : Bool) (nt : NameTable) {raw t r : Str} (h1 : raw ≠ []) (h2 : '<' ∉ raw)
    (h3 : textToken strict raw = some t) :
    lex strict nt (raw ++ '<' :: r) = .text t :: lex strict nt ('<' :: r) := by
  have hp : ∀ x ∈ raw, (x != '<') = true := by
    intro x hx
    simp only [bne_iff_ne, ne_eq]
    rintro rfl
    exact h2 hx
  apply lex_step (ts := [.text t])
  · obtain ⟨c, cs, rfl⟩ := List.exists_cons_of_ne_nil h1
    have hc : c ≠ '<' := fun h => h2 (by simp [h])
    simp only [List.cons_append, lexOne]
    rw [if_neg hc, ← List.cons_append, takeWhile_stop hp (by decide), dropWhile_stop hp (by decide), h3]
  · rw [List.length_append]
    have := List.length_pos_iff.mpr h1
    omega

end Ofx
