import Verif.Lemmas.Bufio
import Verif.Lemmas.Cut
/-
Decoding from a buffer.
-/
open Ofx.Spec
namespace Ofx

theorem findIdx_split (d : UInt8) (bs : List UInt8) (i : Nat) :
    bs.findIdx? (· == d) = some i ↔ ∃ head tail, bs = head ++ d :: tail ∧ d ∉ head ∧ head.length = i := by
  induction bs generalizing i with
  | nil =>
    constructor
    · intro h; cases h
    · rintro ⟨head, tail, h, _⟩; cases head <;> cases h
  | cons c bs ih =>
    rw [List.findIdx?_cons]
    by_cases hc : (c == d) = true
    · rw [if_pos hc]
      have hc := eq_of_beq hc
      subst hc
      constructor
      · intro h; cases h; exact ⟨[], bs, rfl, by simp, rfl⟩
      · rintro ⟨head, tail, h, hn, rfl⟩
        cases head with
        | nil => rfl
        | cons x head => cases h; simp at hn
    · rw [if_neg hc]
      constructor
      · intro h
        cases hf : bs.findIdx? (· == d) with
        | none => rw [hf] at h; cases h
        | some j =>
          rw [hf] at h
          cases h
          obtain ⟨head, tail, h1, h2, h3⟩ := (ih j).mp hf
          refine ⟨c :: head, tail, by rw [h1]; rfl, ?_, by simp [h3]⟩
          simp only [List.mem_cons, not_or]
          exact ⟨fun e => hc (by rw [e]; simp), h2⟩
      · rintro ⟨head, tail, h, hn, rfl⟩
        cases head with
        | nil => cases h; simp at hc
        | cons x head =>
          cases h
          simp only [List.mem_cons, not_or] at hn
          rw [(ih head.length).mpr ⟨head, tail, rfl, hn.2, rfl⟩]
          rfl

theorem drain_all {b : Bufio} (hb : b.Ready) (hs : 0 < b.size) : b.drain (b.buf.length + b.src.bytes.length) = b.all :=
  drain_spec _ b hb hs (by simp [Bufio.all])

/-- What decoding from a buffer succeeds on. -/
theorem decodeReader_iff {env : Env} {nt : NameTable} {b : Bufio} {r : Response Message} (hb : b.Ready) (hs : 1024 ≤ b.size) :
    decodeReader env nt b = .ok r ↔
      (guessVersion (latin1 (b.all.take 1024)) = true ∧ decodeXML env (lex true nt (utf8Decode b.all)) = .ok r) ∨
      ∃ head tail v, b.all = head ++ ltByte :: tail ∧ ltByte ∉ head ∧ head.length < b.size ∧
        checkSGMLHeader (latin1 head ++ ['<']) = .ok v ∧ decodeBody env false v (lex false nt (utf8Decode (ltByte :: tail))) = .ok r := by
  obtain ⟨p1, p2, p3, p4⟩ := peek_spec 1024 b hb hs
  have hd := drain_all p2 (by omega)
  unfold decodeReader
  simp only
  rw [p1]
  by_cases hg : guessVersion (latin1 (b.all.take 1024)) = true
  · rw [if_pos hg, hd, p4]
    constructor
    · intro h
      exact .inl ⟨hg, h⟩
    · rintro (⟨_, h⟩ | ⟨head, tail, v, e, h2, h3, hc, h⟩)
      · exact h
      · exfalso
        have hp : guessVersion (latin1 (b.all.take 1024)) = false := by
          apply guess_sgml
          obtain ⟨n, _, hn⟩ := (checkSGML_iff ..).mp hc
          rw [latin1_take]
          refine take_prefix ?_ (by decide)
          rw [e, show head ++ ltByte :: tail = head ++ [ltByte] ++ tail from by simp, latin1_append, latin1_append]
          exact (sgml_prefix hn).trans (List.prefix_append _ _)
        rw [hp] at hg
        cases hg
  · rw [if_neg hg]
    obtain ⟨r1, r2⟩ := readSlice_spec 60 (b.peek 1024).2 p2
    rw [p4, p3] at r1 r2
    by_cases hf : ∃ i, b.all.findIdx? (· == (60 : UInt8)) = some i ∧ i < b.size
    · obtain ⟨i, hi, hlt⟩ := hf
      obtain ⟨b', g1, g2, g3, g4, g5, g6, g7⟩ := r1 i hi hlt
      obtain ⟨b2, k1, k2, k3, k4⟩ := unreadByte_spec g2 g5 g6 g7
      obtain ⟨head, tail, e, hn, hl⟩ := (findIdx_split 60 b.all i).mp hi
      have ht : b.all.take (i + 1) = head ++ [60] := by
        rw [e, ← hl, show head ++ 60 :: tail = (head ++ [60]) ++ tail from by simp]
        rw [List.take_left' (by simp)]
      have hdr : b.all.drop (i + 1) = tail := by
        rw [e, ← hl, show head ++ 60 :: tail = (head ++ [60]) ++ tail from by simp]
        rw [List.drop_left' (by simp)]
      rw [g1]
      simp only
      rw [k1]
      simp only
      rw [drain_all k2 (by omega), k3, g4, hdr, ht, latin1_append]
      constructor
      · intro h
        refine .inr ⟨head, tail, ?_⟩
        cases hc : checkSGMLHeader (latin1 head ++ latin1 [60]) with
        | error er => rw [hc] at h; cases h
        | ok v => rw [hc] at h; exact ⟨v, e, hn, by omega, hc, h⟩
      · rintro (⟨h, _⟩ | ⟨head', tail', v, e', h2, h3, hc, h⟩)
        · exact absurd h hg
        · have := (findIdx_split 60 b.all head'.length).mpr ⟨head', tail', e', h2, rfl⟩
          rw [hi] at this
          have hlen : head.length = head'.length := by cases this; exact hl
          obtain ⟨q1, q2⟩ := List.append_inj (e.symm.trans e') hlen
          cases q2
          subst q1
          have hc' : checkSGMLHeader (latin1 head ++ latin1 [60]) = .ok v := hc
          rw [hc']
          exact h
    · obtain ⟨er, he⟩ := r2 (fun i hi => by
        by_contra hlt
        exact hf ⟨i, hi, by omega⟩)
      rw [he]
      constructor
      · intro h; cases h
      · rintro (⟨h, _⟩ | ⟨head', tail', v, e', h2, h3, hc, h⟩)
        · exact absurd h hg
        · exact absurd ⟨head'.length, (findIdx_split 60 b.all head'.length).mpr ⟨head', tail', e', h2, rfl⟩, h3⟩ hf

theorem headerText_end : {fields : List (String × Str)} → {s : Str} → HeaderText fields s → ∃ s0, s = s0 ++ ['<']
  | [], s, h => ⟨[], h⟩
  | (key, value) :: fields, s, h => by
    obtain ⟨w, w', rest, rfl, _, _, h⟩ := h
    obtain ⟨s0, rfl⟩ := headerText_end h
    exact ⟨key.toList ++ [':'] ++ w ++ value ++ w' ++ s0, by simp⟩

/-- More white space at the end of a header. -/
theorem headerText_blanks {x : Str} (hx : Blanks x) : {fields : List (String × Str)} → {s : Str} → fields ≠ [] → HeaderText fields (s ++ ['<']) →
    HeaderText fields (s ++ x ++ ['<'])
  | [], s, hf, h => absurd rfl hf
  | (key, value) :: fields, s, hf, h => by
    obtain ⟨w, w', rest, e, hw, hw', h⟩ := h
    cases fields with
    | nil =>
      have hr : rest = ['<'] := h
      subst hr
      have e := List.append_cancel_right e
      subst e
      refine ⟨w, w' ++ x, ['<'], by simp, hw, ?_, rfl⟩
      intro c hc
      rcases List.mem_append.mp hc with hc | hc
      · exact hw' c hc
      · exact hx c hc
    | cons f fields =>
      obtain ⟨s0, rfl⟩ := headerText_end h
      rw [← List.append_assoc] at e
      have e := List.append_cancel_right e
      subst e
      exact ⟨w, w', s0 ++ x ++ ['<'], by simp, hw, hw', headerText_blanks hx (by simp) h⟩

theorem sgmlHeader_blanks {n : Nat} {s x : Str} (hx : Blanks x) (h : SGMLHeader n (s ++ ['<'])) : SGMLHeader n (s ++ x ++ ['<']) := by
  obtain ⟨v, hv, a, b, c, d, e, hT, hr⟩ := h
  exact ⟨v, hv, a, b, c, d, e, headerText_blanks hx (by simp) hT, hr⟩

end Ofx
