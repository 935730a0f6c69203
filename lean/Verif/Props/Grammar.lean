import Verif.Lemmas.GrammarDoc
import Verif.Props.Says
import Verif.Props.Header
/-
C76: the bytes that are read as responses are exactly the documents of the grammar in
Spec/Grammar.lean whose elements say something.
-/
namespace Ofx.Props
open Ofx Ofx.Spec

/-- C76: DecodeResponse returns the response `r` exactly if the bytes start with a document of
the grammar, `r` has the version its header states, and `r` is what its elements say. -/
theorem C76_document_iff (env : Env) (nt : NameTable) (bs : List UInt8) (r : Response Message) :
    decodeResponse env nt bs = .ok r ↔ ∃ root, Document nt bs r.version root ∧ ResponseSays env root r.signon r.sets := by
  rw [decode_doc]
  constructor
  · rintro ⟨v, root, h1, h2⟩
    obtain ⟨rfl, h3⟩ := (response_says env v root r).mp h2
    exact ⟨root, (document_iff nt bs _ root).mpr h1, h3⟩
  · rintro ⟨root, h1, h2⟩
    exact ⟨r.version, root, (document_iff nt bs _ root).mp h1, (response_says env _ root r).mpr ⟨rfl, h2⟩⟩

/-- C76: it returns an error exactly if the bytes do not start with such a document. -/
theorem C76_refused_iff (env : Env) (nt : NameTable) (bs : List UInt8) :
    (∃ e, decodeResponse env nt bs = .error e) ↔
      ¬ ∃ version root signon sets, Document nt bs version root ∧ ResponseSays env root signon sets := by
  constructor
  · rintro ⟨e, he⟩ ⟨v, root, so, sets, hd, hs⟩
    rw [(C76_document_iff env nt bs ⟨v, so, sets⟩).mpr ⟨root, hd, hs⟩] at he
    cases he
  · intro h
    cases hd : decodeResponse env nt bs with
    | error e => exact ⟨e, rfl⟩
    | ok r =>
      obtain ⟨root, h1, h2⟩ := (C76_document_iff env nt bs r).mp hd
      exact absurd ⟨r.version, root, r.signon, r.sets, h1, h2⟩ h

/-- C76: ParseResponse returns the same response, with the verdict on its validity. -/
theorem C76_parse_iff (env : Env) (nt : NameTable) (bs : List UInt8) (r : Response Message) (e : Option Err) :
    parseResponse env nt bs = (some r, e) ↔
      (∃ root, Document nt bs r.version root ∧ ResponseSays env root r.signon r.sets) ∧ e = r.valid := by
  rw [← C76_document_iff]
  unfold parseResponse
  cases decodeResponse env nt bs with
  | error e' => simp
  | ok r' =>
    simp only [Prod.mk.injEq, Option.some.injEq, Except.ok.injEq]
    constructor
    · rintro ⟨rfl, rfl⟩; exact ⟨rfl, rfl⟩
    · rintro ⟨rfl, rfl⟩; exact ⟨rfl, rfl⟩

/-- C76: the grammar is unambiguous: no bytes are documents in two ways. -/
theorem C76_unambiguous (nt : NameTable) (bs : List UInt8) {v v' : Nat} {root root' : Node} (h : Document nt bs v root)
    (h' : Document nt bs v' root') : v = v' ∧ root = root' := by
  rw [document_iff] at h h'
  rw [h] at h'
  cases h'
  exact ⟨rfl, rfl⟩

/-- C76: documents of the versions 1.0.2 to 1.6.0 are those that start with the keyword of SGML
headers; the others have to look like XML. -/
theorem C76_kind (nt : NameTable) (bs : List UInt8) {v : Nat} {root : Node} (h : Document nt bs v root) :
    (1 ≤ v ∧ v ≤ 4 ∧ "OFXHEADER:".toList <+: latin1 bs) ∨ (5 ≤ v ∧ v ≤ 11 ∧ LooksXML (latin1 (bs.take 1024))) := by
  cases h with
  | @sgml n head tail s name w ts rest cs hbs hh hlen hs hH hv hp hb hc hr =>
    left
    have := sgml_version_lt hH
    refine ⟨by omega, by omega, (sgml_prefix hH).trans ?_⟩
    cases s with
    | nil => cases hs
    | cons c s =>
      cases hs
      refine ⟨latin1 (toBytes s ++ tail), ?_⟩
      rw [hbs, toBytes_lt]
      simp [latin1, ltByte]
  | @xml n tail s decl inst name attrs w w' w'' ts rest cs hbs hlook hp hb hb' hb'' ha hx hv hc hr =>
    right
    have := xml_version_lt hx
    exact ⟨by omega, by omega, hlook⟩

/-! ### Examples -/

/-- A document with attributes, a comment, an element without content, an entity, a CDATA
section and an element that is not closed. -/
def oddBody : Str := "<OFX v=2 w><SIGNONMSGSRSV1><!-- a - b --><SONRS><STATUS/><LANGUAGE>a &amp; b<![CDATA[<x>]]></SONRS></SIGNONMSGSRSV1></OFX >".toList

def oddTree : Node :=
  .elem "OFX".toList [.elem "SIGNONMSGSRSV1".toList [.misc, .elem "SONRS".toList [.elem "STATUS".toList [],
    .elem "LANGUAGE".toList [.text "a & b".toList, .text "<x>".toList]]]]

set_option maxRecDepth 8000 in
theorem oddPieces (nt : NameTable) : Pieces true nt oddBody ([] ++ .start "OFX".toList :: [
    .start "SIGNONMSGSRSV1".toList, .misc, .start "SONRS".toList, .start "STATUS".toList, .stop "STATUS".toList,
    .start "LANGUAGE".toList, .text "a & b".toList, .text "<x>".toList, .stop "SONRS".toList,
    .stop "SIGNONMSGSRSV1".toList, .stop "OFX".toList]) := by
  have nil : TagSpaces [] := fun c hc => by cases hc
  have sp : TagSpaces [' '] := fun c hc => by cases hc with | head => exact .inl rfl | tail _ h => cases h
  have tag : TagEnd true nt " v=2 w>".toList false :=
    .bare (w := [' ']) (a := ['v']) (w' := []) (w'' := []) (v := ['2']) (s := " w>".toList) rfl sp
      (nameText_plain nt (by decide)) nil nil (fun c hc => by cases hc with | head => exact .inl rfl | tail _ h => cases h)
      (startsNot_cons (by rintro (h | h | h | h) <;> cases h)) (startsNot_cons (by rintro (h | h | h | h) <;> cases h))
      (.missing (w := [' ']) (a := ['w']) (s := ['>']) rfl sp (nameText_plain nt (by decide))
        (startsNot_cons fun h => (nameChar_ne h).2.1 rfl) (.close (w := []) nil))
  have m1 : Markup true nt "<OFX v=2 w>".toList [.start "OFX".toList] :=
    .start (n := "OFX".toList) (nameText_plain nt (by decide)) (startsNot_cons fun h => (nameChar_ne h).1 (.inl rfl)) tag
  have m2 : Markup true nt "<!-- a - b -->".toList [.misc] := .comment (s := " a - b ".toList) (by decide)
  have st : ∀ {n : Str}, plainName n = true → Markup true nt (['<'] ++ n ++ ['>']) [.start n] := fun h =>
    .start (nameText_plain nt h) (startsNot_cons fun h => (nameChar_ne h).2.1 rfl) (.close (w := []) nil)
  have en : ∀ {n : Str}, plainName n = true → Markup true nt (['<', '/'] ++ n ++ [] ++ ['>']) [.stop n] := fun h =>
    .stop (nameText_plain nt h) nil
  have m3 : Markup true nt "<STATUS/>".toList [.start "STATUS".toList, .stop "STATUS".toList] :=
    .empty (n := "STATUS".toList) (nameText_plain nt (by decide)) (startsNot_cons fun h => (nameChar_ne h).2.2.1 rfl)
      (.empty (w := []) nil)
  have c5 : CharData true "a &amp; b".toList "a & b".toList := by
    refine ⟨by decide, ?_⟩
    refine .plain (by decide) (by decide) (by decide) (.plain (by decide) (by decide) (by decide) ?_)
    exact .ref (e := "&amp;".toList) (raw := " b".toList) (.named (n := "amp") (by decide)) (by decide) (chars_ascii (by decide))
  have m6 : Markup true nt "<![CDATA[<x>]]>".toList [.text "<x>".toList] :=
    .cdata (raw := "<x>".toList) (by decide) (cdata_ascii (by decide))
  have m7 : Markup true nt "</OFX >".toList [.stop "OFX".toList] :=
    .stop (n := "OFX".toList) (w := [' ']) (nameText_plain nt (by decide)) sp
  exact .markup m1 (.markup (st (n := "SIGNONMSGSRSV1".toList) (by decide)) (.markup m2 (.markup (st (n := "SONRS".toList) (by decide))
    (.markup m3 (.markup (st (n := "LANGUAGE".toList) (by decide)) (.chars (raw := "a &amp; b".toList) (by decide) (by decide) c5 rfl
    (.markup m6 (.markup (en (n := "SONRS".toList) (by decide)) (.markup (en (n := "SIGNONMSGSRSV1".toList) (by decide))
      (.markup m7 .nil))))))))))

set_option maxRecDepth 8000 in
/-- With an SGML header in front and anything behind it is a document of the version 1.0.3. -/
theorem oddDocument (nt : NameTable) (tail : List UInt8) :
    Document nt (toBytes ("OFXHEADER:100 DATA:OFXSGML VERSION: 103 SECURITY:TYPE1 ENCODING:USASCII CHARSET:1252 ".toList ++
      "COMPRESSION:NONE OLDFILEUID:NONE NEWFILEUID:a_B-7\n\n".toList) ++ toBytes oddBody ++ tail) 2 oddTree := by
  refine .sgml (n := 1) (w := []) (rest := []) rfl (by decide +kernel) (by decide +kernel) rfl ?_ rfl (oddPieces nt) (fun t ht => by cases ht) ?_ rfl
  · obtain ⟨n, h, hs⟩ := (C29_header_iff _ 2).mp (show checkSGMLHeader (latin1 (toBytes
      ("OFXHEADER:100 DATA:OFXSGML VERSION: 103 SECURITY:TYPE1 ENCODING:USASCII CHARSET:1252 ".toList ++
      "COMPRESSION:NONE OLDFILEUID:NONE NEWFILEUID:a_B-7\n\n".toList)) ++ ['<']) = .ok 2 from by decide +kernel)
    rw [show n = 1 from by omega] at hs
    exact hs
  · refine .child (fun h => absurd h.2 (by decide +kernel)) (.misc (.inl rfl) (fun h => absurd h.2 (by decide +kernel))
      (.child (fun h => absurd h.2 (by decide +kernel))
        (.child (fun h => absurd h.2 (by decide +kernel)) .closed (.child (fun h => absurd h.2 (by decide +kernel))
          (.text (.text (.leftOpen rfl ?_))) .closed)) .closed)) .closed
    show "SONRS".toList ≠ "LANGUAGE".toList
    decide

/-- It is read as a response whose language is "a & b<x>". -/
example (env : Env) (nt : NameTable) (tail : List UInt8) : ∃ r, decodeResponse env nt
    (toBytes ("OFXHEADER:100 DATA:OFXSGML VERSION: 103 SECURITY:TYPE1 ENCODING:USASCII CHARSET:1252 ".toList ++
      "COMPRESSION:NONE OLDFILEUID:NONE NEWFILEUID:a_B-7\n\n".toList) ++ toBytes oddBody ++ tail) = .ok r ∧
    r.version = 2 ∧ r.signon.Language = "a & b<x>".toList := by
  have hs : ∃ r, decodeOfx env 2 oddTree = .ok r ∧ r.signon.Language = "a & b<x>".toList := by
    refine ⟨_, rfl, ?_⟩
    rfl
  obtain ⟨r, h1, h2⟩ := hs
  obtain ⟨hv, hS⟩ := (C75_response_iff env 2 oddTree r).mp h1
  exact ⟨r, (C76_document_iff env nt _ r).mpr ⟨oddTree, hv ▸ oddDocument nt tail, hS⟩, hv, h2⟩

/-- Bytes without a header are no document. -/
example (env : Env) (nt : NameTable) : ∃ e, decodeResponse env nt [] = .error e := by
  rw [C76_refused_iff]
  rintro ⟨v, root, so, sets, hd, -⟩
  have e := (document_iff nt _ v root).mp hd
  have : lex true nt (utf8Decode []) = [] := by
    rw [utf8Decode_stuck (by decide), lex]; rfl
  unfold docOf at e
  rw [if_pos (by decide +kernel), this] at e
  cases e

/-- A comment inside a directive may hold quotes and angle brackets. -/
example (sgml : Bool) (nt : NameTable) : Markup sgml nt "<!DOCTYPE OFX [<!-- don't > --> <!ELEMENT a>]>".toList [.misc] := by
  have h1 : Nested " <!ELEMENT a>]".toList :=
    .char (by decide) (by decide) (by decide) (by decide)
      (.angle (t := "!ELEMENT a".toList) (s := [']']) (by decide)
        (by repeat' (first | exact .nil | refine .char (by decide) (by decide) (by decide) (by decide) ?_))
        (.char (by decide) (by decide) (by decide) (by decide) .nil))
  have h2 : Nested ("<!--".toList ++ " don't > ".toList ++ "-->".toList ++ " <!ELEMENT a>]".toList) :=
    .comment (by decide) h1
  have h3 : Nested ("OCTYPE OFX [".toList ++ ("<!--".toList ++ " don't > ".toList ++ "-->".toList ++ " <!ELEMENT a>]".toList)) := by
    repeat' (first | exact h2 | refine .char (by decide) (by decide) (by decide) (by decide) ?_)
  exact .directive (c := 'D') (by decide) (by decide) h3

end Ofx.Props
