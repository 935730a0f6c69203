import Verif.Lemmas.Stream
/-
DecodeResponse takes one document from its reader.
-/
open Ofx.Spec
namespace Ofx

theorem xml_version {env : Env} {toks : List Tok} {r : Response Message} (h : decodeXML env toks = .ok r) : 5 ≤ r.version := by
  obtain ⟨v, rest, h1, h2⟩ := decodeXML_iff.mp h
  obtain ⟨_, _, inst, _, _, h3⟩ := readXML_iff.mp h1
  obtain ⟨n, _, rfl, _⟩ := (checkXML_iff ..).mp h3
  have := decodeBody_version h2
  omega

theorem sgml_version {env : Env} {s : Str} {v : Nat} {toks : List Tok} {r : Response Message} (hc : checkSGMLHeader s = .ok v)
    (h : decodeBody env false v toks = .ok r) : r.version < 5 := by
  obtain ⟨n, rfl, hn⟩ := (checkSGML_iff ..).mp hc
  have h5 := decodeBody_version h
  obtain ⟨version, hv, _⟩ := hn
  have : n < 4 := by
    by_contra hge
    rw [List.getElem?_eq_none (by simpa [sgmlVersions] using hge)] at hv
    cases hv
  omega

theorem head_unique {head head' tail tail' : List UInt8} (h : head ++ ltByte :: tail = head' ++ ltByte :: tail') (h1 : ltByte ∉ head)
    (h2 : ltByte ∉ head') : head = head' ∧ tail = tail' := by
  have e1 := (findIdx_split ltByte _ _).mpr ⟨head, tail, rfl, h1, rfl⟩
  have e2 := (findIdx_split ltByte _ _).mpr ⟨head', tail', rfl, h2, rfl⟩
  rw [h, e2] at e1
  obtain ⟨q1, q2⟩ := List.append_inj h (Option.some.inj e1).symm
  cases q2
  exact ⟨q1, rfl⟩

/-- From a reader whose bytes decode, the shortest beginning that decodes is taken, and no
more. -/
theorem decodeNext_spec {env : Env} {nt : NameTable} {b : Bufio} {r : Response Message} (hb : b.Ready) (hs : 1024 ≤ b.size)
    (h : decodeResponse env nt b.all = .ok r) :
    ∃ doc b', decodeNext env nt b = .ok (r, b') ∧ b'.Ready ∧ b'.size = b.size ∧ b.all = doc ++ b'.all ∧
      decodeResponse env nt doc = .ok r ∧ ∀ n < doc.length, ∃ err, decodeResponse env nt (doc.take n) = .error err := by
  obtain ⟨p1, p2, p3, p4⟩ := peek_spec 1024 b hb hs
  have hd := drain_all p2 (by omega)
  have conv : ∀ (doc : List UInt8), (∀ n < doc.length, ∀ r', decodeResponse env nt (doc.take n) ≠ .ok r') →
      ∀ n < doc.length, ∃ err, decodeResponse env nt (doc.take n) = .error err := by
    intro doc hno n hn
    cases hx : decodeResponse env nt (doc.take n) with
    | error e => exact ⟨e, rfl⟩
    | ok r' => exact absurd hx (hno n hn r')
  have same : ∀ (doc after : List UInt8), b.all = doc ++ after → ∀ n r', decodeResponse env nt (doc.take n) = .ok r' → r' = r := by
    intro doc after e n r' hr
    have := decodeResponse_ext hr (doc.drop n ++ after)
    rw [← List.append_assoc, List.take_append_drop, ← e, h] at this
    cases this
    rfl
  unfold decodeNext
  simp only
  rw [p1]
  rcases decodeResponse_iff.mp h with ⟨hg, hx⟩ | ⟨head, tail, v, e, h2, h3, hc, hx⟩
  · rw [if_pos hg, hd, p4]
    obtain ⟨v, rest, g1, g2⟩ := decodeXML_iff.mp hx
    rw [g1]
    simp only
    obtain ⟨doc, after, a, m, w, k1, k2, k3, _, _, k6⟩ := xml_end g1 g2
    unfold finish
    rw [g2]
    simp only
    rw [k2]
    have hle : doc.length ≤ (b.peek 1024).2.all.length := by
      rw [p4, k1, List.length_append]
      omega
    obtain ⟨q1, q2, q3⟩ := skip_spec doc.length _ p2 (by omega) hle
    rw [p4] at q3
    refine ⟨doc, _, rfl, q1, q2.trans p3, ?_, ?_, conv doc ?_⟩
    · rw [q3, k1, List.drop_left]
    · refine decodeResponse_iff.mpr (.inl ⟨?_, k3⟩)
      rw [k1, List.take_append, latin1_append] at hg
      exact guess_shrink hg
    · intro n hn r' hr
      have := same doc after k1 n r' hr
      subst this
      rcases decodeResponse_iff.mp hr with ⟨_, hr⟩ | ⟨_, _, v', _, _, _, hc', hr⟩
      · exact k6 n hn _ hr
      · have h5 := xml_version hx
        have h6 := sgml_version hc' hr
        omega
  · have hp : guessVersion (latin1 (b.all.take 1024)) = false := by
      apply guess_sgml
      obtain ⟨n, _, hn⟩ := (checkSGML_iff ..).mp hc
      rw [latin1_take]
      refine take_prefix ?_ (by decide)
      rw [e, show head ++ ltByte :: tail = head ++ [ltByte] ++ tail from by simp, latin1_append, latin1_append]
      exact (sgml_prefix hn).trans (List.prefix_append _ _)
    rw [if_neg (by rw [hp]; decide)]
    obtain ⟨r1, -⟩ := readSlice_spec 60 (b.peek 1024).2 p2
    rw [p4, p3] at r1
    obtain ⟨b1, g1, g2, g3, g4, g5, g6, g7⟩ := r1 head.length ((findIdx_split 60 _ _).mpr ⟨head, tail, e, h2, rfl⟩) (by omega)
    obtain ⟨b2, k1, k2, k3, k4⟩ := unreadByte_spec g2 g5 g6 g7
    have e' : b.all = (head ++ [60]) ++ tail := by rw [e]; simp [ltByte]
    rw [e', List.take_left' (by simp)] at g1
    rw [e', List.drop_left' (by simp)] at g4
    rw [g4] at k3
    rw [g1]
    simp only
    rw [k1]
    simp only
    rw [drain_all k2 (by omega), k3, latin1_append]
    have hc' : checkSGMLHeader (latin1 head ++ latin1 [60]) = .ok v := hc
    rw [hc']
    simp only
    have hx' : decodeBody env false v (lex false nt (utf8Decode (60 :: tail))) = .ok r := hx
    obtain ⟨doc, after, a, m, w, j1, j2, j3, _, j5, j6⟩ := body_end hx'
    unfold finish
    rw [hx']
    simp only
    rw [j2]
    obtain ⟨y, hy⟩ : ∃ y, doc = ltByte :: y := by
      cases hb : doc with
      | nil =>
        rw [hb, show utf8Decode [] = [] from utf8Decode_toBytes [], lex_nil] at j3
        cases j3
      | cons c y => rw [hb] at j1; cases j1; exact ⟨y, rfl⟩
    have hle : doc.length ≤ b2.all.length := by
      rw [k3, j1, List.length_append]
      omega
    obtain ⟨q1, q2, q3⟩ := skip_spec doc.length _ k2 (by omega) hle
    rw [k3] at q3
    have hall : b.all = (head ++ doc) ++ after := by
      rw [e, show ltByte :: tail = doc ++ after from j1, List.append_assoc]
    refine ⟨head ++ doc, _, rfl, q1, by omega, ?_, ?_, conv _ ?_⟩
    · rw [q3, j1, List.drop_left, hall]
    · refine decodeResponse_iff.mpr (.inr ⟨head, y, v, by rw [hy], h2, h3, hc, ?_⟩)
      rw [← hy]
      exact j3
    · intro n hn r' hr
      have := same _ after hall n r' hr
      subst this
      rcases decodeResponse_iff.mp hr with ⟨_, hr⟩ | ⟨head', tail', v', e2, n2, _, hc2, hr⟩
      · have h5 := xml_version hr
        have h6 := sgml_version hc hx
        omega
      · by_cases hle : n ≤ head.length
        · rw [List.take_append_of_le_length hle] at e2
          have : ltByte ∈ head.take n := by rw [e2]; simp
          exact h2 (List.mem_of_mem_take this)
        · obtain ⟨k, rfl⟩ : ∃ k, n = head.length + (k + 1) := ⟨n - head.length - 1, by omega⟩
          rw [List.take_length_add_append, hy, List.take_succ_cons] at e2
          obtain ⟨rfl, rfl⟩ := head_unique e2 h2 n2
          rw [hc] at hc2
          cases hc2
          refine j6 (k + 1) (by simp only [List.length_append] at hn; omega) r' ?_
          rw [hy, List.take_succ_cons]
          exact hr

end Ofx
