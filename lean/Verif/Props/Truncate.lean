import Verif.Lemmas.LayoutCut
import Verif.Props.Text
import Verif.Props.Header
/-
C34: what happens to documents that are cut.
-/
open Ofx.Spec
namespace Ofx.Props

theorem isXmlSpace_cases {c : Char} (h : isXmlSpace c = true) : c = ' ' ∨ c = '\t' ∨ c = '\n' ∨ c = '\r' := by
  unfold isXmlSpace at h
  simp at h
  tauto

/-- C34: in every document that decodes there is one end tag - that of the OFX element, if
the document is XML - such that cutting the document anywhere before the end of that tag makes
decoding fail, and whatever is after the tag makes no difference.
Missing: that the end tag is that of OFX in SGML too, which is false: see
C34_sgml_other_end_tag. -/
theorem C34_truncated_partial (env : Env) (nt : NameTable) (bs : List UInt8) (r : Response Message) (h : decodeResponse env nt bs = .ok r) :
    ∃ before tag after name, bs = before ++ tag ++ after ∧ EndTag name tag ∧ (5 ≤ r.version → name = "OFX".toList) ∧
      (∀ n < (before ++ tag).length, ∃ err, decodeResponse env nt (bs.take n) = .error err) ∧
      ∀ other, decodeResponse env nt (before ++ tag ++ other) = .ok r := by
  classical
  have hex : ∃ n, ∃ r', decodeResponse env nt (bs.take n) = .ok r' := ⟨bs.length, r, by rw [List.take_length]; exact h⟩
  obtain ⟨r', he⟩ := Nat.find_spec hex
  have hmin : ∀ n < Nat.find hex, ∃ err, decodeResponse env nt (bs.take n) = .error err := by
    intro n hn
    cases hd : decodeResponse env nt (bs.take n) with
    | error e => exact ⟨e, rfl⟩
    | ok r' => exact absurd ⟨r', hd⟩ (Nat.find_min hex hn)
  have hle : Nat.find hex ≤ bs.length := Nat.find_le ⟨r, by rw [List.take_length]; exact h⟩
  generalize Nat.find hex = e at he hmin hle
  have hr : r' = r := by
    have := decodeResponse_ext he (bs.drop e)
    rw [List.take_append_drop, h] at this
    cases this
    rfl
  subst hr
  obtain ⟨a, x, m, w, h1, h2, h3, ⟨v, h4⟩, h5⟩ := ends_with_tag he
  have hx : x = [] := by
    by_contra hx
    have hlen : a.length < e := by
      have := congrArg List.length h1
      rw [List.length_take, List.length_append] at this
      have : 0 < x.length := List.length_pos_of_ne_nil hx
      omega
    obtain ⟨err, h6⟩ := hmin a.length hlen
    have : bs.take a.length = a := by
      have h7 := congrArg (List.take a.length) h1
      rw [List.take_take, Nat.min_eq_left (Nat.le_of_lt hlen), List.take_left] at h7
      exact h7
    rw [this, h2] at h6
    cases h6
  subst hx
  rw [List.append_nil] at h1
  have hbs : bs.take e = v ++ toBytes ("</".toList ++ m ++ w ++ ">".toList) := by rw [h1, h4]
  refine ⟨v, toBytes ("</".toList ++ m ++ w ++ ">".toList), bs.drop e, m, ?_, ⟨w, fun c hc => isXmlSpace_cases (h3 c hc), rfl⟩, h5, ?_, ?_⟩
  · rw [← hbs, List.take_append_drop]
  · intro n hn
    rw [← hbs, List.length_take] at hn
    exact hmin n (by omega)
  · intro other
    rw [← hbs]
    exact decodeResponse_ext he other

/-- C34: the same for ParseResponse: no response for the documents cut, and the same response
and error whatever comes after. -/
theorem C34_parse (env : Env) (nt : NameTable) (bs : List UInt8) (r : Response Message) (e : Option Err)
    (h : parseResponse env nt bs = (some r, e)) :
    ∃ before tag after name, bs = before ++ tag ++ after ∧ EndTag name tag ∧ (5 ≤ r.version → name = "OFX".toList) ∧
      (∀ n < (before ++ tag).length, ∃ err, parseResponse env nt (bs.take n) = (none, some err)) ∧
      ∀ other, parseResponse env nt (before ++ tag ++ other) = (some r, e) := by
  have hd : decodeResponse env nt bs = .ok r ∧ e = r.valid := by
    unfold parseResponse at h
    cases hd : decodeResponse env nt bs with
    | error e => rw [hd] at h; cases h
    | ok r' => rw [hd] at h; cases h; exact ⟨rfl, rfl⟩
  obtain ⟨before, tag, after, name, h1, h2, h3, h4, h5⟩ := C34_truncated_partial env nt bs r hd.1
  refine ⟨before, tag, after, name, h1, h2, h3, ?_, ?_⟩
  · intro n hn
    obtain ⟨err, h6⟩ := h4 n hn
    exact ⟨_, by unfold parseResponse; rw [h6]⟩
  · intro other
    unfold parseResponse
    rw [h5 other, hd.2]

/-- A document with a body laid out in any way, cut. -/
theorem layout_cut (strict : Bool) (env : Env) (nt : NameTable) {v : Nat} {head : List UInt8} {t : Str}
    (hpre0 : ∀ body, decodeResponse env nt (head ++ 60 :: body) = decodeBody env strict v (lex strict nt (utf8Decode (60 :: body))))
    {cs : List Node} (ht : Layout (!strict) (.elem "OFX".toList cs) t) (k : Nat)
    (hk : k < (head ++ toBytes t).length) : ∃ err, decodeResponse env nt ((head ++ toBytes t).take k) = .error err := by
  obtain ⟨Y, hY, hno⟩ := layout_unfinished strict env v nt ht ((containerB_iff _).mp container_ofx).2
  cases hd : decodeResponse env nt ((head ++ toBytes t).take k) with
  | error e => exact ⟨e, rfl⟩
  | ok r =>
    exfalso
    obtain ⟨before, tag, after, name, h1, ⟨w, _, h2⟩, _, _, h5⟩ := C34_truncated_partial env nt _ r hd
    have hF : head ++ toBytes t = (head ++ 60 :: toBytes Y) ++ [60, 47, 79, 70, 88, 62] := by
      rw [hY, show '<' :: Y ++ (['<', '/'] ++ "OFX".toList ++ ['>']) = ['<'] ++ Y ++ (['<', '/'] ++ "OFX".toList ++ ['>']) from by simp,
        toBytes_append, toBytes_append, show toBytes ['<'] = [60] from by decide,
        show toBytes (['<', '/'] ++ "OFX".toList ++ ['>']) = [60, 47, 79, 70, 88, 62] from by decide]
      simp
    have hpre : before ++ tag <+: head ++ toBytes t := by
      refine List.IsPrefix.trans ⟨after, ?_⟩ (List.take_prefix k _)
      rw [h1]
    have hlt : (before ++ tag).length < (head ++ toBytes t).length := by
      have := congrArg List.length h1
      simp only [List.length_take, List.length_append] at this hk ⊢
      omega
    have htag : ∃ y, tag = y ++ [62] := ⟨toBytes ("</".toList ++ name ++ w), by
      rw [h2, toBytes_append ("</".toList ++ name ++ w)]; rfl⟩
    obtain ⟨y, hy⟩ := htag
    have hsmall : before ++ tag <+: head ++ 60 :: toBytes Y := by
      rw [hF] at hpre hlt
      by_cases hle : (before ++ tag).length ≤ (head ++ 60 :: toBytes Y).length
      · exact List.prefix_of_prefix_length_le hpre (List.prefix_append ..) hle
      · exfalso
        obtain ⟨s, hs⟩ := List.prefix_of_prefix_length_le (List.prefix_append (head ++ 60 :: toBytes Y) [60, 47, 79, 70, 88, 62]) hpre
          (by omega)
        obtain ⟨z, hz⟩ := hpre
        rw [← hs, List.append_assoc] at hz
        have hz := List.append_cancel_left hz
        rw [← hs] at hle hlt
        simp only [List.length_append, List.length_cons, List.length_nil] at hle hlt
        have hj : s = [60, 47, 79, 70, 88, 62].take s.length := by rw [← hz, List.take_left]
        have hl : s.getLast? = some 62 := by
          have h6 := congrArg List.getLast? hs
          rw [hy, ← List.append_assoc, List.getLast?_concat, List.getLast?_append] at h6
          cases hg : s.getLast? with
          | none => rw [List.getLast?_eq_none_iff] at hg; subst hg; simp at hle
          | some c => rw [hg] at h6; exact h6
        rw [hj] at hl
        have hlen : s.length < 6 := by omega
        generalize s.length = j at hl hlen
        have : ∀ j < 6, ([60, 47, 79, 70, 88, 62].take j : List UInt8).getLast? ≠ some 62 := by decide
        exact this j hlen hl
    obtain ⟨other, ho⟩ := hsmall
    have := h5 (other ++ [60])
    rw [← List.append_assoc, ho, List.append_assoc, List.cons_append, hpre0,
      show (60 :: (toBytes Y ++ [60]) : List UInt8) = toBytes ('<' :: Y ++ ['<']) from by
        rw [show '<' :: Y ++ ['<'] = ['<'] ++ Y ++ ['<'] from rfl, toBytes_append, toBytes_append, show toBytes ['<'] = [60] from by decide]
        simp,
      utf8Decode_toBytes] at this
    exact hno r this

/-- A document made of a header that Marshal writes and a body laid out in any way, cut. -/
theorem header_layout_cut (env : Env) (nt : NameTable) {v : Nat} {cr : Bool} {head t : Str} (hw : writeHeader v cr = some head)
    {cs : List Node} (ht : Layout (decide (v < 5)) (.elem "OFX".toList cs) t) (k : Nat)
    (hk : k < (toBytes (head ++ t)).length) : ∃ err, decodeResponse env nt ((toBytes (head ++ t)).take k) = .error err := by
  have hs : (!decide (5 ≤ v)) = decide (v < 5) := by
    by_cases h : 5 ≤ v
    · have h' : ¬ v < 5 := by omega
      simp [h, h']
    · have h' : v < 5 := by omega
      simp [h, h']
  rw [← hs] at ht
  rw [toBytes_append] at hk ⊢
  exact layout_cut _ env nt (C28_header_roundtrip env nt hw) ht k hk

/-- C34: an SGML document with any supported header, whose elements are laid out properly
(with leaf elements closed or not), does not decode when cut anywhere before its end. -/
theorem C34_sgml (env : Env) (nt : NameTable) {v : Nat} {head : List UInt8} (h1 : 60 ∉ head) (h2 : head.length < 1024)
    (h3 : SGMLHeader v (latin1 head ++ ['<'])) {cs : List Node} {t : Str} (ht : Layout true (.elem "OFX".toList cs) t) (k : Nat)
    (hk : k < (head ++ toBytes t).length) : ∃ err, decodeResponse env nt ((head ++ toBytes t).take k) = .error err :=
  layout_cut false env nt (fun body => C29_reads env nt body h1 h2 h3) ht k hk

/-- C34: a marshalled response, cut anywhere before its last byte, does not decode. -/
theorem C34_written (env : Env) (nt : NameTable) (r : Response Message) (d : Doc) (h : r.marshal.1 = .ok d)
    (hv : 1 ≤ r.version ∧ r.version ≤ 11) (hs : CleanSignonResponse r.signon)
    (hm : ∀ s, s ≠ .signon → ∀ m ∈ r.sets s, CleanMessage m) (k : Nat) (hk : k < d.bytes.length) :
    ∃ err, decodeResponse env nt (d.bytes.take k) = .error err := by
  have hsh := response_shaped r d h hs hm
  obtain ⟨signon, content, hb, -⟩ := C25_response_body r d h
  obtain ⟨head, hh⟩ := header_some hv false
  obtain ⟨_, ns, rest, h1, h2, rfl⟩ := (response_marshal_ok r d).mp h
  have hl := render_layout ⟨true, false, false⟩ (decide (r.version < 5)) (by simp) hsh 0
  revert hk
  show k < (toBytes ((writeHeader r.version false).getD [] ++ _)).length →
    ∃ err, decodeResponse env nt ((toBytes ((writeHeader r.version false).getD [] ++ _)).take k) = _
  rw [hh]
  exact header_layout_cut env nt hh hl k

/-- `sampleResponse` marshals, for version 1 too. -/
example (nt : NameTable) : ∃ d, sampleResponse.marshal.1 = .ok d ∧ ∀ k < d.bytes.length, ∃ err, decodeResponse sampleEnv nt (d.bytes.take k) = .error err := by
  obtain ⟨d, hd⟩ := sampleResponse_ok
  exact ⟨d, hd, C34_written sampleEnv nt sampleResponse d hd (by decide) sampleResponse_clean.1 sampleResponse_clean.2⟩

/-- C34, where the code violates it: an SGML document is over at the first end tag left when
the elements inside OFX are closed, whatever its name.  So for every SGML document that decodes
there is one that is cut before the end tag of the OFX element and still decodes. -/
theorem C34_sgml_other_end_tag (env : Env) (nt : NameTable) (bs : List UInt8) (r : Response Message)
    (h : decodeResponse env nt bs = .ok r) (hr : r.version < 5) :
    ∃ before tag after name, bs = before ++ tag ++ after ∧ EndTag name tag ∧
      ∀ other, AsciiName other → ¬ toBytes ("<".toList ++ other) <:+: bs →
        decodeResponse env nt (before ++ toBytes ("</".toList ++ other ++ ">".toList)) = .ok r ∧
        decodeResponse env nt (before ++ toBytes ("</".toList ++ other ++ ">".toList) ++ tag) = .ok r := by
  obtain ⟨v, x, m, w, h1, h2, h3⟩ := ends_with_any_tag h hr
  refine ⟨v, _, x, m, h1, ⟨w, fun c hc => isXmlSpace_cases (h2 c hc), rfl⟩, ?_⟩
  intro other ho hi
  have := h3 other ho hi
  exact ⟨this, decodeResponse_ext this _⟩

/-- There is such a document, and there are names that do not occur in it. -/
example (nt : NameTable) : ∃ bs r other, decodeResponse sampleEnv nt bs = .ok r ∧ r.version < 5 ∧ AsciiName other ∧
    ¬ toBytes ("<".toList ++ other) <:+: bs := by
  obtain ⟨d, head, t, r', h1, h2, h3, h4, h5⟩ := sampleResponse_sgml nt
  refine ⟨_, r', List.replicate ((toBytes (head ++ t)).length + 1) 'X', h4, by omega, ⟨⟨'X', List.replicate _ 'X', rfl, by decide⟩, ?_⟩, ?_⟩
  · intro c hc
    rw [List.eq_of_mem_replicate hc]
    decide
  · intro hi
    have := hi.length_le
    have hl : ∀ s : Str, s.length ≤ (toBytes s).length := by
      intro s
      induction s with
      | nil => exact Nat.zero_le _
      | cons c s ih =>
        rw [show c :: s = [c] ++ s from rfl, toBytes_append, List.length_append, List.length_append]
        have : 1 ≤ (toBytes [c]).length := by
          simp only [toBytes, List.flatMap_cons, List.flatMap_nil, List.append_nil]
          rw [String.length_utf8EncodeChar]
          exact Char.utf8Size_pos c
        simp only [List.length_cons, List.length_nil] at *
        omega
    have h6 := hl ("<".toList ++ List.replicate ((toBytes (head ++ t)).length + 1) 'X')
    rw [List.length_append, List.length_replicate] at h6
    omega

end Ofx.Props
