import Verif.Lemmas.Reader
import Verif.Props.Truncate
/-
C32, C63: decoding from readers.
-/
open Ofx.Spec
namespace Ofx.Props

theorem delivers_good {src : Source} {bs : List UInt8} (h : Delivers src bs) : Good src := ⟨h.errors, h.progress⟩

theorem delivers_bytes {src : Source} {bs : List UInt8} (h : Delivers src bs) : src.bytes = bs := by
  rw [← h.bytes]
  simp [Source.bytes, List.flatMap_def]

/-! ### C32 chunking -/

/-- C32: reading bytes in pieces of whatever sizes gives the response that decoding the bytes
gives, or fails if that fails. -/
theorem C32_chunks (env : Env) (nt : NameTable) {src : Source} {bs : List UInt8} (h : Delivers src bs) (r : Response Message) :
    decodeReader env nt (Bufio.new 1024 src) = .ok r ↔ decodeResponse env nt bs = .ok r := by
  have hb : (Bufio.new 1024 src).Ready := ⟨delivers_good h, Nat.zero_le _, fun h => absurd rfl h⟩
  have ha : (Bufio.new 1024 src).all = bs := delivers_bytes h
  rw [decodeReader_iff hb (Nat.le_refl _), ha, decodeResponse_iff]
  rfl

/-- C32: hence two readers that deliver the same bytes are decoded the same. -/
theorem C32_same (env : Env) (nt : NameTable) {src src' : Source} {bs : List UInt8} (h : Delivers src bs) (h' : Delivers src' bs)
    (r : Response Message) :
    decodeReader env nt (Bufio.new 1024 src) = .ok r ↔ decodeReader env nt (Bufio.new 1024 src') = .ok r := by
  rw [C32_chunks env nt h, C32_chunks env nt h']

/-- C32: the same for ParseResponse: the same response, and the same validation error. -/
theorem C32_parse (env : Env) (nt : NameTable) {src : Source} {bs : List UInt8} (h : Delivers src bs) (r : Response Message) (e : Option Err) :
    parseReader env nt (Bufio.new 1024 src) = (some r, e) ↔ parseResponse env nt bs = (some r, e) := by
  have h1 : parseReader env nt (Bufio.new 1024 src) = (some r, e) ↔ decodeReader env nt (Bufio.new 1024 src) = .ok r ∧ e = r.valid := by
    unfold parseReader
    cases decodeReader env nt (Bufio.new 1024 src) with
    | error er => exact ⟨(fun h => by cases h), (fun h => by cases h.1)⟩
    | ok r' => exact ⟨(fun h => by cases h; exact ⟨rfl, rfl⟩), (fun h => by rw [h.2]; cases h.1; rfl)⟩
  have h2 : parseResponse env nt bs = (some r, e) ↔ decodeResponse env nt bs = .ok r ∧ e = r.valid := by
    unfold parseResponse
    cases decodeResponse env nt bs with
    | error er => exact ⟨(fun h => by cases h), (fun h => by cases h.1)⟩
    | ok r' => exact ⟨(fun h => by cases h; exact ⟨rfl, rfl⟩), (fun h => by rw [h.2]; cases h.1; rfl)⟩
  rw [h1, h2, C32_chunks env nt h]

/-- C32: a bufio.Reader that is passed in, with a buffer of at least 1024 bytes that holds
some of the bytes already, is decoded the same, if the first tag begins in the first 1024
bytes. Missing: a first tag after the first 1024 bytes, where it is false: see
C32_long_header. -/
theorem C32_bufio_partial (env : Env) (nt : NameTable) {b : Bufio} {bs : List UInt8} (h : Delivers b.src bs) (hs : 1024 ≤ b.size)
    (hf : b.buf.length ≤ b.size) (he : b.err = none) (hlt : 60 ∈ (b.buf ++ bs).take 1024) (r : Response Message) :
    decodeReader env nt b = .ok r ↔ decodeResponse env nt (b.buf ++ bs) = .ok r := by
  have hb : b.Ready := ⟨delivers_good h, hf, fun h => absurd he h⟩
  have ha : b.all = b.buf ++ bs := by rw [← delivers_bytes h]; rfl
  rw [decodeReader_iff hb hs, ha, decodeResponse_iff]
  constructor
  · rintro (h | ⟨head, tail, v, h1, h2, h3, h4⟩)
    · exact .inl h
    · refine .inr ⟨head, tail, v, h1, h2, ?_, h4⟩
      by_contra hge
      rw [h1, List.take_append_of_le_length (by omega)] at hlt
      exact h2 (List.mem_of_mem_take hlt)
  · rintro (h | ⟨head, tail, v, h1, h2, h3, h4⟩)
    · exact .inl h
    · exact .inr ⟨head, tail, v, h1, h2, by omega, h4⟩

/-- C32: in any case, what decodes from the bytes decodes from such a reader. -/
theorem C32_bufio_larger (env : Env) (nt : NameTable) {b : Bufio} {bs : List UInt8} (h : Delivers b.src bs) (hs : 1024 ≤ b.size)
    (hf : b.buf.length ≤ b.size) (he : b.err = none) (r : Response Message) (hd : decodeResponse env nt (b.buf ++ bs) = .ok r) :
    decodeReader env nt b = .ok r := by
  have hb : b.Ready := ⟨delivers_good h, hf, fun h => absurd he h⟩
  have ha : b.all = b.buf ++ bs := by rw [← delivers_bytes h]; rfl
  rw [decodeReader_iff hb hs, ha]
  rcases decodeResponse_iff.mp hd with h | ⟨head, tail, v, h1, h2, h3, h4⟩
  · exact .inl h
  · exact .inr ⟨head, tail, v, h1, h2, by omega, h4⟩

/-- Any way to cut bytes into pieces, with fewer than 100 empty pieces, is a reader that
delivers them, whatever the error at the end. -/
theorem pieces_deliver (pieces : List (List UInt8)) (e : String) (h : pieces.countP (·.isEmpty) < 100) :
    Delivers (pieces.map (·, none) ++ [([], some e)]) pieces.flatten := by
  refine ⟨?_, ?_, ?_⟩
  · simp [Function.comp_def]
  · intro before piece after he ha
    have hm : piece ∈ (pieces.map (·, none) ++ [([], some e)] : Source).dropLast := by
      rw [he, List.dropLast_append_of_ne_nil (by simp), List.dropLast_cons_of_ne_nil ha]
      simp
    rw [List.dropLast_concat] at hm
    obtain ⟨c, _, rfl⟩ := List.mem_map.mp hm
    rfl
  · intro before mid after he hl
    by_contra hno
    push Not at hno
    have h1 : mid.countP (fun p => p.1 == [] && p.2 == none) = 100 := by
      rw [← hl, List.countP_eq_length]
      intro p hp
      simp [(hno p hp).1, (hno p hp).2]
    have h2 : mid.countP (fun p => p.1 == [] && p.2 == none) ≤
        (pieces.map (·, none) ++ [([], some e)] : Source).countP (fun p => p.1 == [] && p.2 == none) := by
      apply List.Sublist.countP_le
      rw [he]
      exact (List.sublist_append_right before mid).trans (List.sublist_append_left _ _)
    rw [h1, List.countP_append, List.countP_map] at h2
    simp [Function.comp_def] at h2
    omega

/-- Reading `sampleResponse` byte by byte, with an empty read in between. -/
example (nt : NameTable) : ∃ d r, sampleResponse.marshal.1 = .ok d ∧
    decodeReader sampleEnv nt (Bufio.new 1024 (([] :: d.bytes.map (fun c => [c])).map (·, none) ++ [([], some "EOF")])) = .ok r := by
  obtain ⟨d, hd⟩ := sampleResponse_ok
  obtain ⟨h1, h2, h3⟩ := sampleResponse_exact
  obtain ⟨r', g1, -⟩ := C37_text_roundtrip_eq_partial sampleEnv nt sampleResponse d hd (by decide)
    ⟨h1, sampleResponse_clean.1, h2⟩ (fun s hs m hm => ⟨(h3 s hs m hm).1, sampleResponse_clean.2 s hs m hm, (h3 s hs m hm).2⟩) []
  refine ⟨d, r', hd, (C32_chunks sampleEnv nt (bs := d.bytes) ?_ r').mpr (by rwa [List.append_nil] at g1)⟩
  have := pieces_deliver ([] :: d.bytes.map (fun c => [c])) "EOF" (by
    have : (d.bytes.map (fun c => [c])).countP (·.isEmpty) = 0 := by
      rw [List.countP_eq_zero]
      intro x hx
      obtain ⟨c, _, rfl⟩ := List.mem_map.mp hx
      simp
    rw [List.countP_cons, this]
    decide)
  have e : (d.bytes.map (fun c => [c])).flatten = d.bytes := by
    induction d.bytes with
    | nil => rfl
    | cons c l ih => simp [ih]
  rw [List.flatten_cons, e] at this
  exact this

theorem once_delivers (bs : List UInt8) : Delivers [(bs, none)] bs := by
  refine ⟨by simp, ?_, ?_⟩
  · intro before piece after he ha
    have := congrArg List.length he
    have := List.length_pos_of_ne_nil ha
    simp only [List.length_append, List.length_cons, List.length_nil] at *
    omega
  · intro before mid after he hl
    have := congrArg List.length he
    simp only [List.length_append, List.length_cons, List.length_nil] at *
    omega

/-- C32, where the code violates it: whether a document decodes may depend on the reader.  For
every SGML document that decodes there is one with more white space in the header that decodes
when it is read with a bufio.Reader of 4096 bytes, and not when the same bytes come from
another reader. -/
theorem C32_long_header (env : Env) (nt : NameTable) (bs : List UInt8) (r : Response Message) (h : decodeResponse env nt bs = .ok r)
    (hr : r.version < 5) :
    ∃ head tail, bs = head ++ tail ∧
      decodeReader env nt (Bufio.new 4096 [(head ++ List.replicate 1024 10 ++ tail, none)]) = .ok r ∧
      ∀ src, Delivers src (head ++ List.replicate 1024 10 ++ tail) → ∀ r', decodeReader env nt (Bufio.new 1024 src) ≠ .ok r' := by
  rcases decodeResponse_iff.mp h with ⟨hg, h⟩ | ⟨head, tail, v, rfl, h2, h3, hc, h⟩
  · exfalso
    obtain ⟨v, rest, h1, h2⟩ := decodeXML_iff.mp h
    obtain ⟨_, _, inst, _, _, h3⟩ := readXML_iff.mp h1
    obtain ⟨n, _, rfl, _⟩ := (checkXML_iff ..).mp h3
    have := decodeBody_version h2
    omega
  · have hl : latin1 (head ++ List.replicate 1024 10) = latin1 head ++ List.replicate 1024 '\n' := by
      rw [latin1_append]
      unfold latin1
      rw [List.map_replicate]
      rfl
    have hn : ltByte ∉ head ++ List.replicate 1024 10 := by
      rw [List.mem_append]
      rintro (h | h)
      · exact h2 h
      · have := List.eq_of_mem_replicate h
        exact absurd this (by decide)
    have hlen : (head ++ List.replicate 1024 10).length = head.length + 1024 := by
      rw [List.length_append, List.length_replicate]
    have hc' : checkSGMLHeader (latin1 (head ++ List.replicate 1024 10) ++ ['<']) = .ok v := by
      obtain ⟨n, hv, hs⟩ := (checkSGML_iff ..).mp hc
      rw [hl]
      refine (checkSGML_iff ..).mpr ⟨n, hv, sgmlHeader_blanks ?_ hs⟩
      intro c hc
      rw [List.eq_of_mem_replicate hc]
      exact .inr (.inr (.inl rfl))
    have hg : guessVersion (latin1 ((head ++ List.replicate 1024 10 ++ ltByte :: tail).take 1024)) = false := by
      apply guess_sgml
      obtain ⟨n, _, hn⟩ := (checkSGML_iff ..).mp hc'
      rw [latin1_take]
      refine take_prefix ?_ (by decide)
      rw [show head ++ List.replicate 1024 10 ++ ltByte :: tail = (head ++ List.replicate 1024 10) ++ [ltByte] ++ tail from
          by rw [List.append_assoc _ [ltByte]]; rfl,
        latin1_append, latin1_append]
      exact (sgml_prefix hn).trans (List.prefix_append _ _)
    refine ⟨head, ltByte :: tail, rfl, ?_, ?_⟩
    · have hd := once_delivers (head ++ List.replicate 1024 10 ++ ltByte :: tail)
      have hb : (Bufio.new 4096 [(head ++ List.replicate 1024 10 ++ ltByte :: tail, none)]).Ready :=
        ⟨delivers_good hd, Nat.zero_le _, fun h => absurd rfl h⟩
      refine (decodeReader_iff hb (show 1024 ≤ 4096 by decide)).mpr (.inr ⟨head ++ List.replicate 1024 10, tail, v, delivers_bytes hd, hn, ?_, hc', h⟩)
      rw [hlen]
      show head.length + 1024 < 4096
      omega
    · intro src hd r' hr'
      have := (C32_chunks env nt hd r').mp hr'
      rcases decodeResponse_iff.mp this with ⟨hg', _⟩ | ⟨head', tail', v', e, g2, g3, _⟩
      · rw [hg] at hg'; cases hg'
      · have k1 := (findIdx_split ltByte _ _).mpr ⟨head', tail', rfl, g2, rfl⟩
        rw [← e, (findIdx_split ltByte _ _).mpr ⟨head ++ List.replicate 1024 10, tail, rfl, hn, rfl⟩] at k1
        have k1 := Option.some.inj k1
        omega

/-- There is such a document. -/
example (nt : NameTable) : ∃ bs r, decodeResponse sampleEnv nt bs = .ok r ∧ r.version < 5 := by
  obtain ⟨d, head, t, r', h1, h2, h3, h4, h5⟩ := sampleResponse_sgml nt
  exact ⟨_, r', h4, by omega⟩

/-! ### C63 errors of the reader -/

/-- C63: if the reader fails for good before the end of the document has been read, decoding
fails; whatever the sizes of the reads, and whether the error comes with bytes or alone.
Missing: readers that go on after an error, where it is false: see C63_dropped. -/
theorem C63_reported_partial (env : Env) (nt : NameTable) (bs : List UInt8) (r : Response Message) (h : decodeResponse env nt bs = .ok r) :
    ∃ before tag after name, bs = before ++ tag ++ after ∧ EndTag name tag ∧
      (∀ n < (before ++ tag).length, ∀ src, Delivers src (bs.take n) → ∃ err, decodeReader env nt (Bufio.new 1024 src) = .error err) ∧
      ∀ n, (before ++ tag).length ≤ n → ∀ src, Delivers src (bs.take n) → decodeReader env nt (Bufio.new 1024 src) = .ok r := by
  obtain ⟨before, tag, after, name, h1, h2, -, h4, h5⟩ := C34_truncated_partial env nt bs r h
  refine ⟨before, tag, after, name, h1, h2, ?_, ?_⟩
  · intro n hn src hs
    cases hd : decodeReader env nt (Bufio.new 1024 src) with
    | error e => exact ⟨e, rfl⟩
    | ok r' =>
      obtain ⟨err, he⟩ := h4 n hn
      rw [(C32_chunks env nt hs r').mp hd] at he
      cases he
  · intro n hn src hs
    refine (C32_chunks env nt hs r).mpr ?_
    rw [h1, List.take_append, List.take_of_length_le hn]
    exact h5 _

/-- C63, where the code violates it: an error that the reader returns while the first 1024
bytes are read is dropped.  For every SGML document: if it comes after the header, decoding
goes on with what the reader delivers next. -/
theorem C63_dropped (env : Env) (nt : NameTable) (bs : List UInt8) (r : Response Message) (h : decodeResponse env nt bs = .ok r)
    (hr : r.version < 5) :
    ∃ head tail, bs = head ++ tail ∧ tail ≠ [] ∧
      ∀ failure : String, decodeReader env nt (Bufio.new 1024 [(head, some failure), (tail, none)]) = .ok r := by
  rcases decodeResponse_iff.mp h with ⟨hg, h⟩ | ⟨head, tail, v, rfl, h2, h3, hc, h⟩
  · exfalso
    obtain ⟨v, rest, h1, h2⟩ := decodeXML_iff.mp h
    obtain ⟨_, _, inst, _, _, h3⟩ := readXML_iff.mp h1
    obtain ⟨n, _, rfl, _⟩ := (checkXML_iff ..).mp h3
    have := decodeBody_version h2
    omega
  · refine ⟨head, ltByte :: tail, rfl, by simp, fun failure => ?_⟩
    have hg : guessVersion (latin1 head) = false := by
      apply guess_sgml
      obtain ⟨n, _, hn⟩ := (checkSGML_iff ..).mp hc
      have := sgml_prefix hn
      refine List.prefix_of_prefix_length_le this (List.prefix_append _ _) ?_
      have hl := this.length_le
      by_contra hlt
      have : "OFXHEADER:".toList = latin1 head ++ ['<'] := this.eq_of_length (by
        simp only [List.length_append, List.length_cons, List.length_nil] at hl hlt ⊢
        omega)
      have : '<' ∈ "OFXHEADER:".toList := by rw [this]; simp
      exact absurd this (by decide)
    have hp : (Bufio.new 1024 [(head, some failure), (ltByte :: tail, none)]).peek 1024 =
        (head, ⟨1024, [], head, none, none, [(ltByte :: tail, none)]⟩) := by
      have hf : Bufio.fill ⟨1024, [], [], none, none, [(head, some failure), (ltByte :: tail, none)]⟩ =
          ⟨1024, [], head, some failure, none, [(ltByte :: tail, none)]⟩ := by
        unfold Bufio.fill
        have hr : Source.read 1024 [(head, some failure), (ltByte :: tail, none)] = ((head, some failure), [(ltByte :: tail, none)]) := by
          simp only [Source.read, if_pos (Nat.le_of_lt h3)]
        show Bufio.tryRead (99 + 1) ⟨1024, [], [], none, none, [(head, some failure), (ltByte :: tail, none)]⟩ = _
        rw [Bufio.tryRead]
        have hr' : Source.read (1024 - ([] : List UInt8).length) [(head, some failure), (ltByte :: tail, none)] = _ := hr
        simp only
        rw [hr']
        rfl
      have hl : Bufio.peekLoop 1024 1024 ⟨1024, [], [], none, none, [(head, some failure), (ltByte :: tail, none)]⟩ =
          ⟨1024, [], head, some failure, none, [(ltByte :: tail, none)]⟩ := by
        show Bufio.peekLoop 1024 (1022 + 1 + 1) _ = _
        rw [Bufio.peekLoop, if_pos ⟨by simp, by simp, rfl⟩, hf, Bufio.peekLoop, if_neg (fun h => by cases h.2.2)]
      unfold Bufio.peek Bufio.new
      simp only
      rw [hl]
      simp only
      rw [if_pos h3]
    have hd := once_delivers (ltByte :: tail)
    have hb : (Bufio.mk 1024 [] head none none [(ltByte :: tail, none)]).Ready :=
      ⟨delivers_good hd, Nat.le_of_lt h3, fun h => absurd rfl h⟩
    have ha : (Bufio.mk 1024 [] head none none [(ltByte :: tail, none)]).all = head ++ ltByte :: tail := by
      show head ++ Source.bytes _ = _
      rw [delivers_bytes hd]
    obtain ⟨b', g1, g2, g3, g4, g5, g6, g7⟩ := (readSlice_spec 60 _ hb).1 head.length
      (by rw [ha]; exact (findIdx_split 60 _ _).mpr ⟨head, tail, rfl, h2, rfl⟩) h3
    obtain ⟨b2, k1, k2, k3, k4⟩ := unreadByte_spec g2 g5 g6 g7
    rw [ha] at g1 g4
    have e : head ++ ltByte :: tail = (head ++ [ltByte]) ++ tail := by simp
    rw [e, List.take_left' (by simp)] at g1
    rw [e, List.drop_left' (by simp)] at g4
    unfold decodeReader
    simp only
    rw [hp]
    simp only
    rw [if_neg (by rw [hg]; decide), g1]
    simp only
    rw [k1]
    simp only
    rw [drain_all k2 (by rw [k4, g3]; exact Nat.lt_of_lt_of_le Nat.zero_lt_one (show 1 ≤ 1024 by decide)), k3, g4, latin1_append]
    have hc' : checkSGMLHeader (latin1 head ++ latin1 [ltByte]) = .ok v := hc
    rw [hc']
    exact h

end Ofx.Props
