import Verif.Lemmas.StreamOpen
import Verif.Props.Stream
/-
C96: DecodeResponse does not wait for what comes after the document.
-/
open Ofx.Spec
namespace Ofx.Props

/-- The bufio.Reader that is used. -/
theorem input_start {env : Env} {nt : NameTable} {i : Input} {doc rest : List UInt8} {r : Response Message}
    (hi : InputDelivers i (doc ++ rest)) (hd : OneDocument env nt doc r) :
    ∃ b b' i', b.Ready ∧ 1024 ≤ b.size ∧ b.all = doc ++ rest ∧ b.err = none ∧ b.src = under i ∧ decodeNext env nt b = .ok (r, b') ∧
      decodeFrom env nt i = .ok (r, i') ∧ under i' = b'.src := by
  have key : ∀ b : Bufio, b.Ready → 1024 ≤ b.size → b.all = doc ++ rest → ∃ b', decodeNext env nt b = .ok (r, b') := by
    intro b h1 h2 h3
    obtain ⟨doc', b', k1, _⟩ := decodeNext_spec h1 h2 (by rw [h3]; exact decodeResponse_ext hd.decodes rest)
    exact ⟨b', k1⟩
  cases i with
  | buffered b =>
    obtain ⟨h, he⟩ := hi
    obtain ⟨h1, h2⟩ := holds_ready h
    obtain ⟨b', hb⟩ := key b h1 h.room h2
    refine ⟨b, b', .buffered b', h1, h.room, h2, he, rfl, hb, ?_, rfl⟩
    unfold decodeFrom
    simp only
    rw [hb]
  | plain src =>
    have h1 : (Bufio.new 1024 src).Ready := ⟨delivers_good hi, Nat.zero_le _, fun h => absurd rfl h⟩
    obtain ⟨b', hb⟩ := key (Bufio.new 1024 src) h1 (Nat.le_refl _) (delivers_bytes hi)
    refine ⟨Bufio.new 1024 src, b', .plain b'.src, h1, Nat.le_refl _, delivers_bytes hi, rfl, rfl, hb, ?_, rfl⟩
    unfold decodeFrom
    simp only
    rw [hb]

/-- C96: when the document, and at least 1024 bytes together with whatever follows it, have been
delivered, DecodeResponse returns without making the call of Read that waits.  Missing: less than
1024 bytes, where it is false: see C96_waits. -/
theorem C96_returns_partial (env : Env) (nt : NameTable) {i : Input} {doc rest : List UInt8} {r : Response Message}
    (hi : InputDelivers i (doc ++ rest)) (hw : Waiting (under i)) (hd : OneDocument env nt doc r) (hl : 1024 ≤ (doc ++ rest).length) :
    ∃ i', decodeFrom env nt i = .ok (r, i') ∧ Waiting (under i') := by
  obtain ⟨b, b', i', h1, h2, h3, h4, h5, h6, h7, h8⟩ := input_start hi hd
  refine ⟨i', h7, ?_⟩
  rw [h8]
  exact (decodeNext_open h1 h2 (by rw [h3]; exact hl) ⟨h4, by rw [h5]; exact hw⟩ h6).2

/-- C96, where the code violates it: when a whole document, but less than 1024 bytes have been
delivered, DecodeResponse makes the call of Read that waits: no call is left that it has not
made. -/
theorem C96_waits (env : Env) (nt : NameTable) {i : Input} {doc rest : List UInt8} {r : Response Message}
    (hi : InputDelivers i (doc ++ rest)) (hd : OneDocument env nt doc r) (hl : (doc ++ rest).length < 1024) :
    ∃ i', decodeFrom env nt i = .ok (r, i') ∧ under i' = [] := by
  obtain ⟨b, b', i', h1, h2, h3, h4, h5, h6, h7, h8⟩ := input_start hi hd
  refine ⟨i', h7, ?_⟩
  rw [h8]
  exact decodeNext_shut h1 h2 (by rw [h3]; exact hl) h6

/-- All of some bytes, then waiting. -/
theorem once_waiting (bs : List UInt8) : Delivers [(bs, none), ([], some "gave up")] bs ∧ Waiting [(bs, none), ([], some "gave up")] := by
  refine ⟨⟨by simp, ?_, ?_⟩, [(bs, none)], rfl⟩
  · intro before piece after e ha
    rcases before with _ | ⟨p, _ | ⟨q, before⟩⟩
    · cases e; rfl
    · cases e; exact absurd rfl ha
    · have := congrArg List.length e
      simp at this
  · intro before pieces after e hl
    have := congrArg List.length e
    simp only [List.length_cons, List.length_nil, List.length_append] at this
    omega

/-- A short document is returned at once if enough follows it, and not if nothing follows it. -/
example (nt : NameTable) : ∃ d r, OneDocument sampleEnv nt d r ∧
    (∃ i', decodeFrom sampleEnv nt (.plain [(d ++ List.replicate 1024 32, none), ([], some "gave up")]) = .ok (r, i') ∧ Waiting (under i')) ∧
    ∃ i', decodeFrom sampleEnv nt (.plain [(d, none), ([], some "gave up")]) = .ok (r, i') ∧ under i' = [] := by
  obtain ⟨d, r, h1, hl⟩ := short_document nt
  have h2 := once_waiting (d ++ List.replicate 1024 32)
  have h3 := (once_waiting d).1
  refine ⟨d, r, h1, C96_returns_partial sampleEnv nt h2.1 h2.2 h1 ?_, ?_⟩
  · rw [List.length_append, List.length_replicate]
    omega
  · rw [← List.append_nil d] at h3 ⊢
    exact C96_waits sampleEnv nt (i := .plain _) h3 h1 (by rw [List.append_nil]; omega)

end Ofx.Props
