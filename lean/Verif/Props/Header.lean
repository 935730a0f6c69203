import Verif.Lemmas.DocHeader
import Verif.Lemmas.Lexer
import Verif.Props.Document
/-
Properties C28, C29, C30, C35 (headers, classification, ParseResponse).
-/
namespace Ofx.Props
open Ofx Ofx.Spec

/-! ### C29 SGML headers -/

/-- C29: the header check accepts a text (up to the first '<') exactly when it is a supported
SGML header, and yields the version stated. -/
theorem C29_header_iff (s : Str) (v : Nat) : checkSGMLHeader s = .ok v ↔ ∃ n, v = n + 1 ∧ SGMLHeader n s :=
  checkSGML_iff s v

/-- C29: a document decoded with a version of at most 160 started, within its first 1024
bytes, with a supported SGML header (up to the first '<') stating that version. -/
theorem C29_accepted {env : Env} {nt : NameTable} {bs : List UInt8} {r : Response Message}
    (h : decodeResponse env nt bs = .ok r) (hv : r.version ≤ 4) :
    ∃ n head rest, bs = head ++ 60 :: rest ∧ 60 ∉ head ∧ head.length < 1024 ∧ SGMLHeader n (latin1 head ++ ['<']) ∧
      r.version = n + 1 := by
  rcases decoded_headers h with h | ⟨n, attrs, inst, i, w, w', rest, -, -, -, -, -, h⟩
  · exact h
  · omega

/-- C29: whatever white space it contains, a supported SGML header is accepted: decoding goes
on with the stated version at the first '<'. -/
theorem C29_reads (env : Env) (nt : NameTable) {n : Nat} {head : List UInt8} (rest : List UInt8)
    (h1 : 60 ∉ head) (h2 : head.length < 1024) (h3 : SGMLHeader n (latin1 head ++ ['<'])) :
    decodeResponse env nt (head ++ 60 :: rest) = decodeBody env false (n + 1) (lex false nt (utf8Decode (60 :: rest))) := by
  have hg : guessVersion (latin1 ((head ++ 60 :: rest).take 1024)) = false := by
    apply guess_sgml
    rw [latin1_take]
    refine take_prefix ?_ (by decide)
    have e : latin1 (head ++ 60 :: rest) = (latin1 head ++ ['<']) ++ latin1 rest := by
      rw [latin1_append]
      simp [latin1]
    rw [e]
    exact (sgml_prefix h3).trans (List.prefix_append ..)
  unfold decodeResponse
  rw [hg, if_neg (by simp), show (60 : UInt8) = ltByte from rfl, readSlice_ok h1 h2]
  simp only
  rw [(checkSGML_iff _ (n + 1)).mpr ⟨n, rfl, h3⟩]

/-! ### C30 XML headers -/

/-- C30: the header check accepts the text of the OFX processing instruction exactly when it
consists of supported attributes stating OFXHEADER 200 and a version, and yields the version
stated last. -/
theorem C30_header_iff (inst : Str) (v : Nat) :
    checkXMLHeader inst = .ok v ↔ ∃ n attrs, v = n + 5 ∧ AttrText attrs inst ∧ XMLHeader n attrs :=
  checkXML_iff inst v

/-- C30: a document decoded with a version of at least 200 started (but for white space) with
an xml and then an OFX processing instruction, the latter a supported header stating that
version. -/
theorem C30_accepted {env : Env} {nt : NameTable} {bs : List UInt8} {r : Response Message}
    (h : decodeResponse env nt bs = .ok r) (hv : 5 ≤ r.version) :
    ∃ n attrs inst i w w' rest, lex true nt (utf8Decode bs) =
        w ++ .proc "xml".toList i :: (w' ++ .proc "OFX".toList inst :: rest) ∧ BlankTexts w ∧ BlankTexts w' ∧
        AttrText attrs inst ∧ XMLHeader n attrs ∧ r.version = n + 5 := by
  rcases decoded_headers h with ⟨n, head, rest, -, -, -, hs, h⟩ | h
  · have := sgml_version_lt hs
    omega
  · exact h

/-- C30: a supported XML header is accepted, in a document not mentioning the keyword of
SGML headers in its first 1024 bytes. -/
theorem C30_reads (env : Env) (nt : NameTable) {bs : List UInt8} {n : Nat} {attrs : List (Str × Str)} {inst i : Str}
    {w w' rest : List Tok} (h0 : ¬ "OFXHEADER:".toList <:+: latin1 (bs.take 1024))
    (h1 : lex true nt (utf8Decode bs) = w ++ .proc "xml".toList i :: (w' ++ .proc "OFX".toList inst :: rest))
    (h2 : BlankTexts w) (h3 : BlankTexts w') (h4 : AttrText attrs inst) (h5 : XMLHeader n attrs) :
    decodeResponse env nt bs = decodeBody env true (n + 5) rest := by
  have hg : guessVersion (latin1 (bs.take 1024)) = true := by
    unfold guessVersion
    cases hi : indexOf "OFXHEADER:".toList (latin1 (bs.take 1024)) with
    | none => rfl
    | some i =>
      obtain ⟨a, b, hs, -⟩ := indexOf_some hi
      exact absurd ⟨a, b, hs.symm⟩ h0
  unfold decodeResponse
  rw [if_pos hg, (readXMLHeaders_iff ..).mpr ⟨w, w', i, inst, h1, h2, h3, (checkXML_iff _ (n + 5)).mpr ⟨n, attrs, rfl, h4, h5⟩⟩]

/-- C30: with one VERSION, the order of the attributes does not matter. -/
theorem C30_order {n : Nat} {attrs attrs' : List (Str × Str)} (hp : attrs.Perm attrs')
    (h1 : (attrs.filter (fun a => a.1 == "VERSION".toList)).length ≤ 1) : XMLHeader n attrs ↔ XMLHeader n attrs' := by
  have key : ∀ {attrs attrs' : List (Str × Str)}, attrs.Perm attrs' →
      (attrs.filter (fun a => a.1 == "VERSION".toList)).length ≤ 1 → XMLHeader n attrs → XMLHeader n attrs' := by
    rintro attrs attrs' hp h1 ⟨g1, ⟨a, ha, hn⟩, pre, value, post, he, -, hs⟩
    have hm : ("VERSION".toList, value) ∈ attrs' := hp.mem_iff.mp (by rw [he]; simp)
    obtain ⟨pre', post', he'⟩ := List.append_of_mem hm
    have h1' : (attrs'.filter (fun a => a.1 == "VERSION".toList)).length ≤ 1 := by
      rw [← (hp.filter _).length_eq]
      exact h1
    refine ⟨fun a ha => g1 a (hp.mem_iff.mpr ha), ⟨a, hp.mem_iff.mp ha, hn⟩, pre', value, post', he', ?_, hs⟩
    intro b hb hbn
    rw [he', List.filter_append, List.filter_cons, if_pos (by simp)] at h1'
    have : b ∈ post'.filter (fun a => a.1 == "VERSION".toList) := List.mem_filter.mpr ⟨hb, by simp [hbn]⟩
    have hpos := List.length_pos_of_mem this
    simp only [List.length_append, List.length_cons] at h1'
    clear h1
    generalize (post'.filter (fun a => a.1 == "VERSION".toList)).length = k at hpos h1'
    omega
  refine ⟨key hp h1, key hp.symm ?_⟩
  rw [← (hp.filter _).length_eq]
  exact h1

/-! ### C28 round trip of headers -/

/-- C28: for every version and both kinds of line ends, a document starting with the header
Marshal writes is decoded with that very version: as SGML below 200 and as XML from 200 on,
going on with the body. -/
theorem C28_header_roundtrip (env : Env) (nt : NameTable) {v : Nat} {cr : Bool} {h : Str} (hw : writeHeader v cr = some h)
    (body : List UInt8) :
    decodeResponse env nt (toBytes h ++ 60 :: body) =
      decodeBody env (decide (5 ≤ v)) v (lex (decide (5 ≤ v)) nt (utf8Decode (60 :: body))) := by
  have hlt : (60 :: body) = String.utf8EncodeChar '<' ++ body := by
    rw [show String.utf8EncodeChar '<' = [60] from by decide]
    rfl
  have hvv : (1 ≤ v ∧ v ≤ 4) ∨ (5 ≤ v ∧ v ≤ 11) := by
    unfold writeHeader at hw
    by_cases h1 : 1 ≤ v ∧ v ≤ 4
    · exact .inl h1
    · rw [if_neg h1] at hw
      by_cases h2 : 5 ≤ v ∧ v ≤ 11
      · exact .inr h2
      · rw [if_neg h2] at hw; cases hw
  have hcr : cr ∈ [false, true] := by cases cr <;> simp
  rcases hvv with hv | hv
  · have hg : sgmlHeaderGood v cr = true := sgmlHeaders_good v (by simp; omega) cr hcr
    unfold sgmlHeaderGood at hg
    rw [hw] at hg
    simp only [Bool.and_eq_true, List.all_eq_true, decide_eq_true_eq] at hg
    obtain ⟨⟨⟨h1, h2⟩, h3⟩, h4⟩ := hg
    have ha : Ascii h := h1
    have hnot : '<' ∉ h := by simpa using h2
    have hc : checkSGMLHeader (h ++ ['<']) = .ok v := by
      cases hc : checkSGMLHeader (h ++ ['<']) with
      | error e => rw [hc] at h4; cases h4
      | ok x =>
        rw [hc] at h4
        rw [beq_iff_eq.mp h4]
    obtain ⟨n, rfl, hs⟩ := (checkSGML_iff ..).mp hc
    rw [show decide (5 ≤ n + 1) = false from by simp; omega]
    apply C29_reads
    · intro hm
      apply hnot
      rw [← latin1_ascii ha]
      exact List.mem_map.mpr ⟨60, hm, rfl⟩
    · have : (toBytes h).length = h.length := blen_ascii ha
      omega
    · rw [latin1_ascii ha]
      exact hs
  · have hg : xmlHeaderGood v cr = true := xmlHeaders_good v (by simp; omega) cr hcr
    unfold xmlHeaderGood at hg
    simp only [Bool.and_eq_true, List.all_eq_true, decide_eq_true_eq, beq_iff_eq] at hg
    obtain ⟨⟨⟨⟨⟨⟨⟨g1, g2⟩, g3⟩, g4⟩, g5⟩, g6⟩, -⟩, -⟩ := hg
    rw [hw] at g1
    cases g1
    have ha : Ascii (xmlHeaderText v cr) := g2
    have hlen : (toBytes (xmlHeaderText v cr)).length = (xmlHeaderText v cr).length := blen_ascii ha
    have hgs : guessVersion (latin1 ((toBytes (xmlHeaderText v cr) ++ 60 :: body).take 1024)) = true := by
      rw [List.take_append, List.take_of_length_le (by omega), latin1_append, latin1_ascii ha]
      refine guess_xml _ _ _ g4 g5 ?_
      have : (lineEnd cr).length ≤ 2 := by cases cr <;> simp [lineEnd]
      omega
    unfold decodeResponse
    have blank : BlankTexts [.text ['\n']] := by
      intro t ht
      rw [List.mem_singleton.mp ht]
      exact ⟨_, rfl, trimSpace_eq_nil.mp (by decide)⟩
    have hr : readXMLHeaders (.proc "xml".toList xmlDecl :: .text ['\n'] :: .proc "OFX".toList (xmlInst v) ::
        .text ['\n'] :: lex true nt ('<' :: utf8Decode body)) = .ok (v, .text ['\n'] :: lex true nt ('<' :: utf8Decode body)) :=
      (readXMLHeaders_iff ..).mpr ⟨[], [.text ['\n']], xmlDecl, xmlInst v, rfl, (by intro t ht; cases ht), blank, xmlInst_version hv⟩
    rw [if_pos hgs, utf8Decode_append, hlt, utf8Decode_cons, lex_xmlHeader nt cr hv, hr]
    simp only
    rw [show decide (5 ≤ v) = true from by simp; omega]
    unfold decodeBody
    have := skipBlank_append (ts := lex true nt ('<' :: utf8Decode body)) blank
    rw [List.cons_append, List.nil_append] at this
    rw [this]

/-- C28 applies to all eleven versions with either line end. -/
example : ∀ v ∈ List.range' 1 11, ∀ cr ∈ [false, true], (writeHeader v cr).isSome = true := by decide +kernel

/-- C28: hence a response decoded from such a document has the version written. -/
theorem C28_version (env : Env) (nt : NameTable) {v : Nat} {cr : Bool} {h : Str} (hw : writeHeader v cr = some h)
    (body : List UInt8) (r : Response Message) (hr : decodeResponse env nt (toBytes h ++ 60 :: body) = .ok r) :
    r.version = v := by
  rw [C28_header_roundtrip env nt hw] at hr
  exact decodeBody_version hr

/-- C29: a supported header with unusual white space. -/
example : SGMLHeader 1 ("OFXHEADER:100DATA:OFXSGML\t\tVERSION: 103 \r\nSECURITY:TYPE1 ENCODING:USASCII CHARSET:1252 ".toList ++
    "COMPRESSION:NONE OLDFILEUID:NONE NEWFILEUID:a_B-7\n\n<".toList) := by
  obtain ⟨n, h, hs⟩ := (C29_header_iff _ 2).mp (show checkSGMLHeader ("OFXHEADER:100DATA:OFXSGML\t\tVERSION: 103 \r\nSECURITY:TYPE1 ENCODING:USASCII CHARSET:1252 ".toList ++
    "COMPRESSION:NONE OLDFILEUID:NONE NEWFILEUID:a_B-7\n\n<".toList) = .ok 2 from by decide +kernel)
  rw [show n = 1 from by omega] at hs
  exact hs

/-! ### C35 ParseResponse -/

/-- C35: no response exactly when decoding fails, and then there is an error. -/
theorem C35_undecodable (env : Env) (nt : NameTable) (bs : List UInt8) :
    ((parseResponse env nt bs).1 = none ↔ ∃ e, decodeResponse env nt bs = .error e) ∧
    ((parseResponse env nt bs).1 = none → (parseResponse env nt bs).2 ≠ none) := by
  unfold parseResponse
  cases decodeResponse env nt bs with
  | error e => simp
  | ok r => simp

/-- C35: a response is returned exactly when the document decodes to it, whether or not it is
valid. -/
theorem C35_decodable (env : Env) (nt : NameTable) (bs : List UInt8) (r : Response Message) :
    (parseResponse env nt bs).1 = some r ↔ decodeResponse env nt bs = .ok r := by
  unfold parseResponse
  cases decodeResponse env nt bs with
  | error e => simp
  | ok r => simp

/-- C35: there is no error exactly when the document decodes and the signon and all messages
are valid for its version. -/
theorem C35_no_error (env : Env) (nt : NameTable) (bs : List UInt8) :
    (parseResponse env nt bs).2 = none ↔
      ∃ r, decodeResponse env nt bs = .ok r ∧ r.signon.valid r.version = none ∧
        ∀ s, s ≠ .signon → ∀ m ∈ r.sets s, (m.valid r.version).1 = none := by
  unfold parseResponse
  cases decodeResponse env nt bs with
  | error e => simp
  | ok r =>
    simp only [Except.ok.injEq, exists_eq_left']
    exact C36_valid_iff r

/-- C35: a response and an error are returned exactly when the document decodes and some part
is invalid. -/
theorem C35_invalid (env : Env) (nt : NameTable) (bs : List UInt8) (r : Response Message) (e : Err) :
    parseResponse env nt bs = (some r, some e) ↔ decodeResponse env nt bs = .ok r ∧ r.valid = some e := by
  unfold parseResponse
  cases decodeResponse env nt bs with
  | error e => simp
  | ok r' =>
    simp only [Prod.mk.injEq, Option.some.injEq, Except.ok.injEq]
    constructor
    · rintro ⟨rfl, h⟩; exact ⟨rfl, h⟩
    · rintro ⟨rfl, h⟩; exact ⟨rfl, h⟩

end Ofx.Props
