import Verif.Spec.Stream
import Verif.Lemmas.StreamAhead
import Verif.Props.Reader
/-
C95: documents that follow one another in one reader.
-/
open Ofx.Spec
namespace Ofx.Props

theorem holds_ready {b : Bufio} {bytes : List UInt8} (h : WillDeliver b bytes) : b.Ready ∧ b.all = bytes := by
  obtain ⟨bs, h1, h2⟩ := h.rest
  exact ⟨⟨delivers_good h1, h.fits, h.ended⟩, by rw [h2, ← delivers_bytes h1]; rfl⟩

theorem ready_delivers {b : Bufio} (h : b.Ready) : Delivers b.src b.src.bytes :=
  ⟨by simp [Source.bytes, List.flatMap_def], h.good.errors, h.good.progress⟩

theorem ready_holds {b : Bufio} (h : b.Ready) (hs : 1024 ≤ b.size) : WillDeliver b b.all :=
  ⟨hs, h.fits, ⟨_, ready_delivers h, rfl⟩, h.done⟩

/-- Two documents with which the same bytes begin are the same. -/
theorem document_unique {env : Env} {nt : NameTable} {d d' x x' : List UInt8} {r r' : Response Message} (h : OneDocument env nt d r)
    (h' : OneDocument env nt d' r') (e : d ++ x = d' ++ x') : d = d' ∧ x = x' ∧ r = r' := by
  have key : ∀ {d d' x x' : List UInt8} {r r' : Response Message}, OneDocument env nt d r → OneDocument env nt d' r' → d ++ x = d' ++ x' →
      ¬ d.length < d'.length := by
    intro d d' x x' r r' h h' e hl
    obtain ⟨err, he⟩ := h'.whole d.length hl
    have : d'.take d.length = d := by
      have := congrArg (List.take d.length) e
      rw [List.take_left, List.take_append_of_le_length (Nat.le_of_lt hl)] at this
      exact this.symm
    rw [this, h.decodes] at he
    cases he
  have hlen : d.length = d'.length := by
    have h1 := key h h' e
    have h2 := key h' h e.symm
    omega
  obtain ⟨e1, e2⟩ := List.append_inj e hlen
  subst e1
  refine ⟨rfl, e2, ?_⟩
  have := h.decodes.symm.trans h'.decodes
  cases this
  rfl

/-- C95: DecodeResponse takes exactly one document from a bufio.Reader: what follows the document
is what the bufio.Reader delivers next, whatever it is. -/
theorem C95_one_partial (env : Env) (nt : NameTable) {b : Bufio} {doc rest : List UInt8} {r : Response Message}
    (hb : WillDeliver b (doc ++ rest)) (hd : OneDocument env nt doc r) :
    ∃ b', decodeFrom env nt (.buffered b) = .ok (r, .buffered b') ∧ WillDeliver b' rest := by
  obtain ⟨h1, h2⟩ := holds_ready hb
  have hx : decodeResponse env nt b.all = .ok r := by
    rw [h2]
    exact decodeResponse_ext hd.decodes rest
  obtain ⟨doc', b', k1, k2, k3, k4, k5, k6⟩ := decodeNext_spec h1 hb.room hx
  obtain ⟨-, e, -⟩ := document_unique (x := rest) (x' := b'.all) hd ⟨k5, k6⟩ (by rw [← h2, k4])
  refine ⟨b', ?_, ?_⟩
  · unfold decodeFrom
    simp only
    rw [k1]
  · rw [e]
    exact ready_holds k2 (by rw [k3]; exact hb.room)

/-- From nothing nothing is decoded. -/
theorem decodeNext_empty {env : Env} {nt : NameTable} {b : Bufio} (hb : b.Ready) (hs : 1024 ≤ b.size) (h : b.all = []) :
    ∃ e, decodeNext env nt b = .error e := by
  cases hx : decodeNext env nt b with
  | error e => exact ⟨e, rfl⟩
  | ok p =>
    exfalso
    obtain ⟨r, b'⟩ := p
    have := (decodeNext_fst env nt b r).mp ⟨b', hx⟩
    rcases (decodeReader_iff hb hs).mp this with ⟨_, h1⟩ | ⟨head, tail, _, h1, _⟩
    · rw [h, show utf8Decode [] = [] from utf8Decode_toBytes [], lex_nil] at h1
      cases h1
    · rw [h] at h1
      cases head <;> cases h1

/-- C95: called again and again with a bufio.Reader, DecodeResponse returns the responses of the
documents in it, one after another, and then fails.  Missing: other readers, where it is false:
see C95_read_ahead and C95_second_lost. -/
theorem C95_all_partial (env : Env) (nt : NameTable) {b : Bufio} {docs : List (List UInt8)} {rs : List (Response Message)}
    (hb : WillDeliver b docs.flatten) (hd : List.Forall₂ (OneDocument env nt) docs rs) (n : Nat) (hn : rs.length ≤ n) :
    decodeMany env nt n (.buffered b) = rs := by
  induction hd generalizing b n with
  | nil =>
    cases n with
    | zero => rfl
    | succ n =>
      obtain ⟨h1, h2⟩ := holds_ready hb
      obtain ⟨e, he⟩ := decodeNext_empty (env := env) (nt := nt) h1 hb.room h2
      unfold decodeMany decodeFrom
      simp only [he]
  | @cons doc r docs rs h _ ih =>
    cases n with
    | zero => simp at hn
    | succ n =>
      obtain ⟨b', h1, h2⟩ := C95_one_partial env nt (rest := docs.flatten) hb h
      unfold decodeMany
      rw [h1]
      simp only
      rw [ih h2 n (by simpa using hn)]

/-- What Marshal writes is a document in this sense. -/
theorem written_document (env : Env) (nt : NameTable) (r : Response Message) (d : Doc) (h : r.marshal.1 = .ok d)
    (hv : 1 ≤ r.version ∧ r.version ≤ 11) (hs : ExactSignon env r.signon ∧ CleanSignonResponse r.signon)
    (hm : ∀ s, s ≠ .signon → ∀ m ∈ r.sets s, ExactMessage env m ∧ CleanMessage m) :
    ∃ r', OneDocument env nt d.bytes r' ∧ r'.version = r.version ∧ SameSignon r.signon r'.signon ∧
      ∀ s, s ≠ .signon → List.Forall₂ SameMessage (r.sets s) (r'.sets s) := by
  obtain ⟨r', h1, h2⟩ := C37_text_roundtrip_partial env nt r d h hv hs.1 hs.2 hm []
  rw [List.append_nil] at h1
  exact ⟨r', ⟨h1, fun n hn => C34_written env nt r d h hv hs.2 (fun s hs m hmm => (hm s hs m hmm).2) n hn⟩, h2⟩

/-- C95: responses that are marshalled and written one after another, whatever their versions,
are read back one after another from a bufio.Reader, each with its version, signon and messages.
Missing: as in C95_all_partial and C37_text_roundtrip_partial. -/
theorem C95_written_partial (env : Env) (nt : NameTable) (rs : List (Response Message)) (docs : List Doc)
    (h : List.Forall₂ (fun r d => r.marshal.1 = .ok d) rs docs)
    (hr : ∀ r ∈ rs, (1 ≤ r.version ∧ r.version ≤ 11) ∧ (ExactSignon env r.signon ∧ CleanSignonResponse r.signon) ∧
      ∀ s, s ≠ .signon → ∀ m ∈ r.sets s, ExactMessage env m ∧ CleanMessage m)
    {b : Bufio} (hb : WillDeliver b (docs.map Doc.bytes).flatten) (n : Nat) (hn : rs.length ≤ n) :
    List.Forall₂ (fun r r' => r'.version = r.version ∧ SameSignon r.signon r'.signon ∧
      ∀ s, s ≠ .signon → List.Forall₂ SameMessage (r.sets s) (r'.sets s)) rs (decodeMany env nt n (.buffered b)) := by
  have hd : ∃ rs', List.Forall₂ (OneDocument env nt) (docs.map Doc.bytes) rs' ∧
      List.Forall₂ (fun r r' => r'.version = r.version ∧ SameSignon r.signon r'.signon ∧
        ∀ s, s ≠ .signon → List.Forall₂ SameMessage (r.sets s) (r'.sets s)) rs rs' := by
    clear hb hn
    induction h with
    | nil => exact ⟨[], .nil, .nil⟩
    | @cons r d rs docs h1 _ ih =>
      obtain ⟨rs', k1, k2⟩ := ih (fun r hr' => hr r (List.mem_cons_of_mem _ hr'))
      obtain ⟨g1, g2, g3⟩ := hr r (List.mem_cons_self ..)
      obtain ⟨r', k3, k4⟩ := written_document env nt r d h1 g1 g2 g3
      exact ⟨r' :: rs', .cons k3 k1, .cons k4 k2⟩
  obtain ⟨rs', k1, k2⟩ := hd
  rw [C95_all_partial env nt hb k1 n (by rw [← k2.length_eq]; exact hn)]
  exact k2

/-- Two responses of different kinds in one bufio.Reader. -/
example (nt : NameTable) : ∃ d d' b, sampleResponse.marshal.1 = .ok d ∧ ({ sampleResponse with version := 1 } : Response Message).marshal.1 = .ok d' ∧
    WillDeliver b ([d, d'].map Doc.bytes).flatten ∧ (decodeMany sampleEnv nt 2 (.buffered b)).map (·.version) = [7, 1] := by
  obtain ⟨d, hd⟩ := sampleResponse_ok
  obtain ⟨d', _, _, _, hd', _⟩ := sampleResponse_sgml nt
  have hb : WillDeliver (Bufio.new 4096 [(([d, d'].map Doc.bytes).flatten, none)]) ([d, d'].map Doc.bytes).flatten :=
    ⟨show 1024 ≤ 4096 by decide, Nat.zero_le _, ⟨_, once_delivers _, rfl⟩, fun h => absurd rfl h⟩
  refine ⟨d, d', _, hd, hd', hb, ?_⟩
  have hm : (∀ s, s ≠ .signon → ∀ m ∈ sampleResponse.sets s, ExactMessage sampleEnv m ∧ CleanMessage m) :=
    fun s hs m hm => ⟨(sampleResponse_exact.2.2 s hs m hm).1, sampleResponse_clean.2 s hs m hm⟩
  have hs : ExactSignon sampleEnv sampleResponse.signon ∧ CleanSignonResponse sampleResponse.signon :=
    ⟨sampleResponse_exact.1, sampleResponse_clean.1⟩
  have := C95_written_partial sampleEnv nt [sampleResponse, { sampleResponse with version := 1 }] [d, d'] (.cons hd (.cons hd' .nil))
    (by
      intro r hr
      simp only [List.mem_cons, List.not_mem_nil, or_false] at hr
      rcases hr with rfl | rfl
      · exact ⟨by decide, hs, hm⟩
      · exact ⟨by decide, hs, hm⟩) hb 2 (by decide)
  generalize decodeMany sampleEnv nt 2 _ = l at this
  cases this with
  | cons h1 h2 =>
    cases h2 with
    | cons h3 h4 =>
      cases h4
      simp only [List.map_cons, List.map_nil, h1.1, h3.1]
      rfl

/-! ### Where the code violates it -/

/-- C95, where the code violates it: from any reader that is not a bufio.Reader, at least the
first 1024 bytes are taken, however short the document, and what has been read beyond the document
is lost. -/
theorem C95_read_ahead (env : Env) (nt : NameTable) {src : Source} {doc rest : List UInt8} {r : Response Message}
    (hs : Delivers src (doc ++ rest)) (hd : OneDocument env nt doc r) :
    ∃ src' left lost, decodeFrom env nt (.plain src) = .ok (r, .plain src') ∧ Delivers src' left ∧ rest = lost ++ left ∧
      left.length ≤ (doc ++ rest).length - 1024 := by
  have hb : (Bufio.new 1024 src).Ready := ⟨delivers_good hs, Nat.zero_le _, fun h => absurd rfl h⟩
  have ha : (Bufio.new 1024 src).all = doc ++ rest := delivers_bytes hs
  obtain ⟨doc', b', k1, k2, k3, k4, k5, k6⟩ := decodeNext_spec hb (Nat.le_refl _) (by rw [ha]; exact decodeResponse_ext hd.decodes rest)
  obtain ⟨-, e, -⟩ := document_unique (x := rest) (x' := b'.all) hd ⟨k5, k6⟩ (by rw [← ha, k4])
  refine ⟨b'.src, b'.src.bytes, b'.buf, ?_, ready_delivers k2, e, ?_⟩
  · unfold decodeFrom
    simp only
    rw [k1]
  · rw [← ha]
    exact decodeNext_ahead hb (Nat.le_refl _) k1

/-- C95, where the code violates it: two documents of together no more than 1024 bytes, in any
reader that is not a bufio.Reader: the second one is never decoded. -/
theorem C95_second_lost (env : Env) (nt : NameTable) {src : Source} {d d' : List UInt8} {r : Response Message}
    (hs : Delivers src (d ++ d')) (hd : OneDocument env nt d r) (hl : (d ++ d').length ≤ 1024) (n : Nat) :
    decodeMany env nt (n + 1) (.plain src) = [r] := by
  obtain ⟨src', left, lost, h1, h2, h3, h4⟩ := C95_read_ahead env nt hs hd
  have : left = [] := List.length_eq_zero_iff.mp (by omega)
  subst this
  unfold decodeMany
  rw [h1]
  simp only
  cases n with
  | zero => rfl
  | succ n =>
    have hb : (Bufio.new 1024 src').Ready := ⟨delivers_good h2, Nat.zero_le _, fun h => absurd rfl h⟩
    obtain ⟨e, he⟩ := decodeNext_empty (env := env) (nt := nt) hb (Nat.le_refl _) (delivers_bytes h2)
    unfold decodeMany decodeFrom
    simp only [he]

/-- A response with nothing but a signon. -/
def shortResponse : Response Message :=
  { version := 1, signon := { sampleSignonResponse with DtProfUp := none, Org := [], Fid := [] }, sets := fun _ => [] }

/-- It written without indentation is a document of at most 512 bytes. -/
theorem short_document (nt : NameTable) : ∃ d r, OneDocument sampleEnv nt d r ∧ d.length ≤ 512 := by
  have hd : ∃ d, shortResponse.marshal.1 = .ok d := by
    rw [C26_response_marshal_iff]
    exact ⟨(C23_signon_response_valid_iff 1 _).mp (by decide +kernel), fun s _ m hm => by cases hm⟩
  obtain ⟨d, hd⟩ := hd
  have hlen : (match shortResponse.marshal.1 with
      | .ok d => decide ((toBytes ((writeHeader 1 false).getD [] ++ renderNode ⟨false, false, false⟩ true 0 d.body)).length ≤ 512)
      | .error _ => false) = true := by decide +kernel
  rw [hd] at hlen
  simp only [decide_eq_true_eq] at hlen
  have hs : ExactSignon sampleEnv shortResponse.signon := exact_of_check _ _ _ (by decide +kernel)
  have hsh := response_shaped shortResponse d hd (textB_sound _ _ (by decide +kernel)) (fun s hs m hm => by cases hm)
  obtain ⟨r', k1, -⟩ := C37_tree_roundtrip sampleEnv shortResponse d hd hs (fun s hs m hm => by cases hm)
  obtain ⟨head, hh⟩ := header_some (show 1 ≤ 1 ∧ 1 ≤ 11 by decide) false
  obtain ⟨_, ns, rest, h1, h2, rfl⟩ := (response_marshal_ok shortResponse d).mp hd
  have hl := render_layout ⟨false, false, false⟩ (decide (1 < 5)) (by simp) hsh 0
  rw [hh] at hlen
  refine ⟨_, r', ⟨?_, fun n hn => header_layout_cut sampleEnv nt hh hl n hn⟩, hlen⟩
  have := (header_layout sampleEnv nt hh hl ((containerB_iff _).mp container_ofx).2 [] r').mpr k1
  rw [List.append_nil] at this
  exact this

/-- Two short documents in one file, of which the second is never decoded. -/
example (nt : NameTable) : ∃ d src r, OneDocument sampleEnv nt d r ∧ Delivers src (d ++ d) ∧ decodeMany sampleEnv nt 2 (.plain src) = [r] := by
  obtain ⟨d, r, h1, hl⟩ := short_document nt
  exact ⟨d, _, r, h1, once_delivers _, C95_second_lost sampleEnv nt (once_delivers _) h1 (by rw [List.length_append]; omega) 1⟩

theorem guess_cons {c : Char} (hc : c ≠ 'O') (s : Str) : guessVersion (c :: s) = guessVersion s := by
  have h1 : indexOf "OFXHEADER:".toList (c :: s) = (indexOf "OFXHEADER:".toList s).map (· + 1) := by
    rw [indexOf, if_neg (by intro h; exact hc (List.cons_prefix_cons.mp (List.isPrefixOf_iff_prefix.mp h)).1.symm)]
  have h2 : indexOf "OFXHEADER=".toList (c :: s) = (indexOf "OFXHEADER=".toList s).map (· + 1) := by
    rw [indexOf, if_neg (by intro h; exact hc (List.cons_prefix_cons.mp (List.isPrefixOf_iff_prefix.mp h)).1.symm)]
  unfold guessVersion
  rw [h1, h2]
  cases indexOf "OFXHEADER:".toList s <;> cases indexOf "OFXHEADER=".toList s <;> simp

theorem blank_not_O {c : UInt8} (h : c = 32 ∨ c = 9 ∨ c = 10 ∨ c = 13) : Char.ofNat c.toNat ≠ 'O' := by
  rcases h with rfl | rfl | rfl | rfl <;> decide

theorem guess_blanks {w : List UInt8} (hw : ∀ c ∈ w, c = 32 ∨ c = 9 ∨ c = 10 ∨ c = 13) (s : Str) :
    guessVersion (latin1 w ++ s) = guessVersion s := by
  induction w with
  | nil => rfl
  | cons c w ih =>
    show guessVersion (Char.ofNat c.toNat :: (latin1 w ++ s)) = _
    rw [guess_cons (blank_not_O (hw c (List.mem_cons_self ..))), ih (fun c hc => hw c (List.mem_cons_of_mem _ hc))]

/-- C95, where the code violates it: after blanks (a line break at the end of the document before,
say) an SGML document is not decoded, not even from a bufio.Reader. -/
theorem C95_blank_between (env : Env) (nt : NameTable) {b : Bufio} {d w d' : List UInt8} {r r' : Response Message}
    (hb : WillDeliver b (d ++ (w ++ d'))) (hd : OneDocument env nt d r) (hd' : OneDocument env nt d' r') (hv : r'.version < 5)
    (hw : ∀ c ∈ w, c = 32 ∨ c = 9 ∨ c = 10 ∨ c = 13) (h0 : w ≠ []) (hl : w.length ≤ 1000) (n : Nat) :
    decodeMany env nt (n + 1) (.buffered b) = [r] := by
  obtain ⟨b', h1, h2⟩ := C95_one_partial env nt hb hd
  unfold decodeMany
  rw [h1]
  simp only
  cases n with
  | zero => rfl
  | succ n =>
    obtain ⟨k1, k2⟩ := holds_ready h2
    have herr : ∃ e, decodeNext env nt b' = .error e := by
      cases hx : decodeNext env nt b' with
      | error e => exact ⟨e, rfl⟩
      | ok p =>
        exfalso
        obtain ⟨r2, b2⟩ := p
        have hpre : "OFXHEADER:".toList <+: latin1 d' := by
          rcases decodeResponse_iff.mp hd'.decodes with ⟨_, h⟩ | ⟨head, tail, v, e, _, _, hc, h⟩
          · have := xml_version h
            omega
          · obtain ⟨n, _, hn⟩ := (checkSGML_iff ..).mp hc
            rw [e, show head ++ ltByte :: tail = head ++ [ltByte] ++ tail from by simp, latin1_append, latin1_append]
            exact (sgml_prefix hn).trans (List.prefix_append _ _)
        have := (decodeNext_fst env nt b' r2).mp ⟨b2, hx⟩
        rw [decodeReader_iff k1 h2.room, k2] at this
        rcases this with ⟨hg, _⟩ | ⟨head, tail, v, e, _, _, hc, _⟩
        · rw [List.take_append, List.take_of_length_le (by omega), latin1_append, guess_blanks hw, latin1_take,
            guess_sgml (take_prefix hpre (by
              have : "OFXHEADER:".toList.length = 10 := rfl
              omega))] at hg
          cases hg
        · obtain ⟨n, _, hn⟩ := (checkSGML_iff ..).mp hc
          have hp : "OFXHEADER:".toList <+: latin1 (w ++ d') := by
            rw [e, show head ++ ltByte :: tail = head ++ [ltByte] ++ tail from by simp, latin1_append, latin1_append]
            exact (sgml_prefix hn).trans (List.prefix_append _ _)
          cases w with
          | nil => exact h0 rfl
          | cons c w =>
            exact blank_not_O (hw c (List.mem_cons_self ..)) (List.cons_prefix_cons.mp hp).1.symm
    obtain ⟨e, he⟩ := herr
    unfold decodeMany decodeFrom
    simp only [he]

/-- There are such documents. -/
example (nt : NameTable) : ∃ d d' b r r', WillDeliver b (d ++ ([10] ++ d')) ∧ OneDocument sampleEnv nt d r ∧ OneDocument sampleEnv nt d' r' ∧ r'.version < 5 := by
  obtain ⟨d, _, _, _, hd, _⟩ := sampleResponse_sgml nt
  obtain ⟨r', h1, h2, _⟩ := written_document sampleEnv nt { sampleResponse with version := 1 } d hd (by decide)
    ⟨sampleResponse_exact.1, sampleResponse_clean.1⟩ (fun s hs m hm => ⟨(sampleResponse_exact.2.2 s hs m hm).1, sampleResponse_clean.2 s hs m hm⟩)
  exact ⟨d.bytes, d.bytes, Bufio.new 1024 [(d.bytes ++ ([10] ++ d.bytes), none)], r', r',
    ⟨Nat.le_refl _, Nat.zero_le _, ⟨_, once_delivers _, rfl⟩, fun h => absurd rfl h⟩, h1, h1, by
      rw [h2]
      show 1 < 5
      decide⟩

end Ofx.Props
