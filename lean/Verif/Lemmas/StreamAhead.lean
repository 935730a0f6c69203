import Verif.Lemmas.StreamNext
/-
What is taken from the reader under a bufio.Reader.
-/
open Ofx.Spec
namespace Ofx

theorem read_less (n : Nat) (s : Source) : (s.read n).2.bytes.length ≤ s.bytes.length := by
  cases s with
  | nil => exact Nat.le_refl _
  | cons p s =>
    obtain ⟨c, e⟩ := p
    unfold Source.read
    simp only
    by_cases h : c.length ≤ n
    · rw [if_pos h, bytes_cons, List.length_append]
      simp only
      omega
    · rw [if_neg h, bytes_cons, bytes_cons, List.length_append, List.length_append, List.length_drop]
      simp only
      omega

/-- Measures of the reader that reads do not increase. -/
theorem tryRead_less {f : Source → Nat} (hf : ∀ n s, f (Source.read n s).2 ≤ f s) (i : Nat) (b : Bufio) : f (Bufio.tryRead i b).src ≤ f b.src := by
  induction i generalizing b with
  | zero => exact Nat.le_refl _
  | succ i ih =>
    have hr := hf (b.size - b.buf.length) b.src
    unfold Bufio.tryRead
    simp only
    cases (Source.read (b.size - b.buf.length) b.src).1.2 with
    | some e => exact hr
    | none =>
      simp only
      by_cases h : (Source.read (b.size - b.buf.length) b.src).1.1 = []
      · rw [if_pos h]
        exact Nat.le_trans (ih _) hr
      · rw [if_neg h]
        exact hr

theorem fill_less {f : Source → Nat} (hf : ∀ n s, f (Source.read n s).2 ≤ f s) (b : Bufio) : f b.fill.src ≤ f b.src := tryRead_less hf 100 _

theorem readSliceLoop_less {f : Source → Nat} (hf : ∀ n s, f (Source.read n s).2 ≤ f s) (d : UInt8) (k : Nat) (b b' : Bufio) (s : List UInt8) (h : Bufio.readSliceLoop d k b = .ok (s, b')) :
    f b'.src ≤ f b.src := by
  induction k generalizing b with
  | zero => cases h
  | succ k ih =>
    unfold Bufio.readSliceLoop at h
    cases hi : b.buf.findIdx? (· == d) with
    | some i => rw [hi] at h; cases h; exact Nat.le_refl _
    | none =>
      rw [hi] at h
      simp only at h
      cases he : b.err with
      | some e => rw [he] at h; cases h
      | none =>
        rw [he] at h
        simp only at h
        by_cases hs : b.size ≤ b.buf.length
        · rw [if_pos hs] at h; cases h
        · rw [if_neg hs] at h
          exact Nat.le_trans (ih _ h) (fill_less hf b)

theorem unreadByte_less {b b' : Bufio} (h : b.unreadByte = .ok b') : b'.src = b.src := by
  unfold Bufio.unreadByte at h
  cases hl : b.last with
  | none => rw [hl] at h; cases h
  | some c =>
    rw [hl] at h
    simp only at h
    by_cases hu : b.used = [] ∧ b.buf ≠ []
    · rw [if_pos hu] at h; cases h
    · rw [if_neg hu] at h; cases h; rfl

theorem readByte_less {f : Source → Nat} (hf : ∀ n s, f (Source.read n s).2 ≤ f s) {b b' : Bufio} {c : UInt8} (h : b.readByte = .ok (c, b')) : f b'.src ≤ f b.src := by
  have key : ∀ x : Bufio, (match x.buf, x.err with
      | c :: rest, _ => (.ok (c, { x with used := x.used ++ [c], buf := rest, last := some c }) : Except String (UInt8 × Bufio))
      | [], some e => .error e
      | [], none => .error "unreachable") = .ok (c, b') → b'.src = x.src := by
    intro x hx
    cases hb : x.buf with
    | nil => rw [hb] at hx; cases he : x.err <;> (rw [he] at hx; cases hx)
    | cons c rest => rw [hb] at hx; cases hx; rfl
  unfold Bufio.readByte at h
  simp only at h
  by_cases hc : b.buf = [] ∧ b.err = none
  · rw [if_pos hc] at h
    rw [key _ h]
    exact fill_less hf b
  · rw [if_neg hc] at h
    rw [key _ h]

theorem skip_less {f : Source → Nat} (hf : ∀ n s, f (Source.read n s).2 ≤ f s) (n : Nat) (b : Bufio) : f (b.skip n).src ≤ f b.src := by
  induction n generalizing b with
  | zero => exact Nat.le_refl _
  | succ n ih =>
    unfold Bufio.skip
    cases h : b.readByte with
    | error e => exact Nat.le_refl _
    | ok p =>
      obtain ⟨c, b'⟩ := p
      exact Nat.le_trans (ih b') (readByte_less hf h)

/-- `Peek` has the bytes it returns read. -/
theorem peek_ahead (b : Bufio) (hb : b.Ready) (hs : 1024 ≤ b.size) : (b.peek 1024).2.src.bytes.length ≤ b.all.length - 1024 := by
  obtain ⟨p1, p2, p3, p4⟩ := peek_spec 1024 b hb hs
  have hl := congrArg List.length p4
  have h1 := congrArg List.length p1
  rw [show (b.peek 1024).2.all = (b.peek 1024).2.buf ++ (b.peek 1024).2.src.bytes from rfl, List.length_append] at hl
  rw [List.length_take] at h1
  have : (b.peek 1024).1.length ≤ (b.peek 1024).2.buf.length := by
    unfold Bufio.peek
    simp only
    by_cases h : (Bufio.peekLoop 1024 1024 { b with last := none }).buf.length < 1024
    · rw [if_pos h]
    · rw [if_neg h]
      simp only [List.length_take]
      omega
  omega

theorem decodeNext_less {f : Source → Nat} (hf : ∀ n s, f (Source.read n s).2 ≤ f s) {env : Env} {nt : NameTable} {b b' : Bufio}
    {r : Response Message} (h : decodeNext env nt b = .ok (r, b')) : f b'.src ≤ f (b.peek 1024).2.src := by
  have fin : ∀ strict v toks bytes (x : Bufio), finish env nt strict v toks bytes x = .ok (r, b') → f b'.src ≤ f x.src := by
    intro strict v toks bytes x hx
    unfold finish at hx
    cases hd : decodeBody env strict v toks with
    | error e => rw [hd] at hx; cases hx
    | ok r' => rw [hd] at hx; cases hx; exact skip_less hf ..
  unfold decodeNext at h
  simp only at h
  generalize (b.peek 1024) = p at h
  by_cases hg : guessVersion (latin1 p.1) = true
  · rw [if_pos hg] at h
    cases hx : readXMLHeaders (lex true nt (utf8Decode (p.2.drain (p.2.buf.length + p.2.src.bytes.length)))) with
    | error e => rw [hx] at h; cases h
    | ok q => rw [hx] at h; exact fin _ _ _ _ _ h
  · rw [if_neg hg] at h
    cases hr : p.2.readSlice 60 with
    | error e => rw [hr] at h; cases h
    | ok q =>
      obtain ⟨s, b1⟩ := q
      rw [hr] at h
      simp only at h
      cases hu : b1.unreadByte with
      | error e => rw [hu] at h; cases h
      | ok b2 =>
        rw [hu] at h
        simp only at h
        cases hc : checkSGMLHeader (latin1 s) with
        | error e => rw [hc] at h; cases h
        | ok v =>
          rw [hc] at h
          refine Nat.le_trans (fin _ _ _ _ _ h) ?_
          rw [unreadByte_less hu]
          exact readSliceLoop_less hf _ _ _ _ _ hr

theorem decodeNext_ahead {env : Env} {nt : NameTable} {b b' : Bufio} {r : Response Message} (hb : b.Ready) (hs : 1024 ≤ b.size)
    (h : decodeNext env nt b = .ok (r, b')) : b'.src.bytes.length ≤ b.all.length - 1024 :=
  Nat.le_trans (decodeNext_less (f := fun s => s.bytes.length) read_less h) (peek_ahead b hb hs)

end Ofx
