import Verif.Spec.Kinds
import Verif.Props.Grammar
import Verif.Props.Says
/-
C103: documents with all elements closed say the same with an SGML and with an XML header.
-/
namespace Ofx.Props
open Ofx Spec

theorem chars_mono {raw s : Str} (h : Chars false raw s) : Chars true raw s := by
  induction h with
  | nil => exact .nil
  | plain h1 h2 h3 _ ih => exact .plain h1 h2 h3 ih
  | crlf _ ih => exact .crlf ih
  | cr h1 _ ih => exact .cr h1 ih
  | ref h1 h2 _ ih => exact .ref h1 h2 ih
  | amp h => cases h

theorem charData_mono {raw s : Str} (h : CharData false raw s) : CharData true raw s := ⟨h.1, chars_mono h.2⟩

theorem quoted_mono {v : Str} (h : Quoted false v) : Quoted true v := by
  obtain ⟨q, raw, s, h1, h2, h3, h4, h5⟩ := h
  exact ⟨q, raw, s, h1, h2, h3, h4, charData_mono h5⟩

theorem tagEnd_mono {nt : NameTable} {s : Str} {e : Bool} (h : TagEnd false nt s e) : TagEnd true nt s e := by
  induction h with
  | close h => exact .close h
  | empty h => exact .empty h
  | attr h1 h2 h3 h4 h5 _ ih => exact .attr h1 h2 h3 h4 (quoted_mono h5) ih
  | bare h => cases h
  | missing h => cases h

theorem markup_mono {nt : NameTable} {s : Str} {ts : List Tok} (h : Markup false nt s ts) : Markup true nt s ts := by
  cases h with
  | start h1 h2 h3 => exact .start h1 h2 (tagEnd_mono h3)
  | empty h1 h2 h3 => exact .empty h1 h2 (tagEnd_mono h3)
  | stop h1 h2 => exact .stop h1 h2
  | instruction h1 h2 h3 h4 h5 h6 => exact .instruction h1 h2 h3 h4 h5 h6
  | comment h => exact .comment h
  | cdata h1 h2 => exact .cdata h1 h2
  | directive h1 h2 h3 => exact .directive h1 h2 h3

theorem lexOne_mono {nt : NameTable} {s r : Str} {ts : List Tok} (h : lexOne true nt s = some (ts, r)) :
    lexOne false nt s = some (ts, r) := by
  rw [lexOne_iff] at h ⊢
  rcases h with ⟨m, h1, h2⟩ | ⟨raw, t, h1, h2, h3, h4, h5, h6⟩
  · exact .inl ⟨m, h1, markup_mono h2⟩
  · exact .inr ⟨raw, t, h1, h2, h3, h4, charData_mono h5, h6⟩

/-- What is read in strict mode is read as well otherwise. -/
theorem lex_mono (nt : NameTable) : ∀ (k : Nat) (s : Str), s.length ≤ k → lex true nt s <+: lex false nt s := by
  intro k
  induction k with
  | zero =>
    intro s hs
    rw [List.length_eq_zero_iff.mp (Nat.le_zero.mp hs)]
    unfold lex
    exact ⟨[], rfl⟩
  | succ k ih =>
    intro s hs
    cases h : lexOne true nt s with
    | none => rw [lex, h]; exact List.nil_prefix
    | some x =>
      obtain ⟨ts, r⟩ := x
      rw [lex, h]
      conv_rhs => rw [lex, lexOne_mono h]
      simp only
      by_cases hl : r.length < s.length
      · rw [if_pos hl, if_pos hl]
        exact (List.prefix_append_right_inj ts).mpr (ih r (by omega))
      · rw [if_neg hl]; exact List.nil_prefix

theorem content_mono {n : Str} {ts rest : List Tok} {cs : List Node} (h : Content false n ts cs rest)
    (hp : ValuesPlain (.elem n cs)) : Content true n ts cs rest := by
  induction h with
  | closed => exact .closed
  | leftOpen h => cases h
  | @text n s ts rest cs _ ih =>
    refine .text (ih ?_)
    intro m ds hw hm
    cases hw with
    | self => exact fun c hc => hp _ _ .self hm c (List.mem_cons_of_mem _ hc)
    | inside hc hw => exact hp m ds (.inside (List.mem_cons_of_mem _ hc) hw) hm
  | @misc n t ts rest cs ht _ _ ih =>
    have hn : n ∉ leafElements := by
      intro hn
      obtain ⟨s, hs⟩ := hp _ _ .self hn .misc List.mem_cons_self
      cases hs
    refine .misc ht (fun h => hn h.2) (ih ?_)
    intro m ds hw hm
    cases hw with
    | self => exact absurd hm hn
    | inside hc hw => exact hp m ds (.inside (List.mem_cons_of_mem _ hc) hw) hm
  | @child n m ts ts' rest ch cs _ _ _ ih1 ih2 =>
    have hn : n ∉ leafElements := by
      intro hn
      obtain ⟨s, hs⟩ := hp _ _ .self hn (.elem m ch) List.mem_cons_self
      cases hs
    refine .child (fun h => hn h.2) (ih1 ?_) (ih2 ?_)
    · exact fun l ds hw hm => hp l ds (.inside List.mem_cons_self hw) hm
    · intro l ds hw hm
      cases hw with
      | self => exact absurd hm hn
      | inside hc hw => exact hp l ds (.inside (List.mem_cons_of_mem _ hc) hw) hm

theorem treeOf_blank (strict : Bool) {w : List Tok} (hw : BlankTexts w) (ts : List Tok) :
    treeOf strict (w ++ ts) = treeOf strict ts := by
  unfold treeOf
  rw [skipBlank_append hw]

/-- C103: text that is the elements of a document after an XML header is the same elements after an SGML header, if values
are plain. -/
theorem C103_document (nt : NameTable) {v v' : Nat} {head : List UInt8} (h1 : 60 ∉ head) (h2 : head.length < 1024)
    (h3 : SGMLHeader v (latin1 head ++ ['<'])) {head' t : Str} (h1' : XMLHead v' head') (ht : t.head? = some '<')
    {tail : List UInt8} {root : Node} (hd : Document nt (toBytes (head' ++ t) ++ tail) (v' + 5) root) (hp : ValuesPlain root) :
    Document nt (head ++ toBytes t ++ tail) (v + 1) root := by
  cases t with
  | nil => cases ht
  | cons c t =>
    cases ht
    -- the elements as read in strict mode
    have hx : treeOf true (lex true nt (('<' :: t) ++ utf8Decode tail)) = some root := by
      obtain ⟨w, w', i, inst, attrs, gap, hl, k1, k2, ⟨s, k3, k3'⟩, k4, k5⟩ := xmlHead_lex nt h1' (('<' :: t) ++ utf8Decode tail)
      have hk := C76_kind nt _ hd
      have hlook : LooksXML (latin1 ((toBytes (head' ++ '<' :: t) ++ tail).take 1024)) := by
        rcases hk with ⟨h, h', -⟩ | ⟨-, -, h⟩
        · omega
        · exact h
      rw [document_iff] at hd
      unfold docOf at hd
      rw [if_pos ((guess_iff _).mpr hlook)] at hd
      have hb : utf8Decode (toBytes (head' ++ '<' :: t) ++ tail) = head' ++ (('<' :: t) ++ utf8Decode tail) := by
        rw [utf8Decode_append, List.append_assoc]
      rw [hb, hl] at hd
      rw [lex_written' true nt k3 ⟨_, by simp; rfl⟩] at hd
      rw [(readXMLHeaders_iff _ (v' + 5) _).mpr ⟨w, w', i, inst, rfl, k1, k2, (checkXML_iff _ _).mpr ⟨v', attrs, rfl, k4, k5⟩⟩] at hd
      simp only at hd
      rw [treeOf_blank true (gap_blank k3')] at hd
      cases hT : treeOf true (lex true nt ('<' :: t ++ utf8Decode tail)) with
      | none => rw [hT] at hd; cases hd
      | some x => rw [hT] at hd; cases hd; rfl
    obtain ⟨w, n, ts, cs, rest, e, hw, hc, rfl⟩ := treeOf_iff.mp hx
    obtain ⟨more, hm⟩ := lex_mono nt _ (('<' :: t) ++ utf8Decode tail) (Nat.le_refl _)
    rw [e] at hm
    -- and otherwise
    have hy : lex false nt (('<' :: t) ++ utf8Decode tail) = w ++ .start n :: (ts ++ more) := by rw [← hm]; simp
    have hc' : Content true n (ts ++ more) cs (rest ++ more) := content_append (content_mono hc hp) more
    have htree : treeOf false (lex false nt (('<' :: t) ++ utf8Decode tail)) = some (.elem n cs) :=
      treeOf_iff.mpr ⟨w, n, _, cs, _, hy, hw, hc', rfl⟩
    rw [document_iff]
    unfold docOf
    have hbs : head ++ toBytes ('<' :: t) ++ tail = head ++ ltByte :: (toBytes t ++ tail) := by rw [toBytes_lt]; simp
    have hg : guessVersion (latin1 ((head ++ toBytes ('<' :: t) ++ tail).take 1024)) = false := by
      apply guess_sgml
      refine (sgml_prefix h3).trans ?_
      rw [hbs]
      generalize toBytes t ++ tail = more
      refine ⟨latin1 (more.take (1024 - head.length - 1)), ?_⟩
      have e1 : (head ++ ltByte :: more).take 1024 = head ++ ltByte :: more.take (1024 - head.length - 1) := by
        have : 1024 - head.length = (1024 - head.length - 1) + 1 := by omega
        rw [List.take_append, List.take_of_length_le (by omega), this, List.take_succ_cons]
        simp
      rw [e1]
      simp [latin1, ltByte]
    rw [hg, if_neg (by decide), hbs, readSlice_ok h1 h2]
    simp only
    rw [(checkSGML_iff _ _).mpr ⟨v, rfl, h3⟩]
    simp only
    have hdec : utf8Decode (ltByte :: (toBytes t ++ tail)) = ('<' :: t) ++ utf8Decode tail := by
      rw [← utf8Decode_append, toBytes_lt]; rfl
    rw [hdec, htree]
    rfl

/-- C103: so with either header the same response is read, but for the version. -/
theorem C103_same (env : Env) (nt : NameTable) {v v' : Nat} {head : List UInt8} (h1 : 60 ∉ head) (h2 : head.length < 1024)
    (h3 : SGMLHeader v (latin1 head ++ ['<'])) {head' t : Str} (h1' : XMLHead v' head') (ht : t.head? = some '<')
    {tail : List UInt8} {root : Node} (hd : Document nt (toBytes (head' ++ t) ++ tail) (v' + 5) root) (hp : ValuesPlain root)
    (signon : SignonResponse) (sets : MsgSet → List Message) :
    decodeResponse env nt (toBytes (head' ++ t) ++ tail) = .ok ⟨v' + 5, signon, sets⟩ ↔
      decodeResponse env nt (head ++ toBytes t ++ tail) = .ok ⟨v + 1, signon, sets⟩ := by
  have hs := C103_document nt h1 h2 h3 h1' ht hd hp
  rw [C76_document_iff, C76_document_iff]
  constructor
  · rintro ⟨root', h4, h5⟩
    obtain ⟨-, rfl⟩ := C76_unambiguous nt _ hd h4
    exact ⟨_, hs, h5⟩
  · rintro ⟨root', h4, h5⟩
    obtain ⟨-, rfl⟩ := C76_unambiguous nt _ hs h4
    exact ⟨_, hd, h5⟩

/-! ### A document, and one with a comment in a value -/

theorem pieces_mono {nt : NameTable} {s : Str} {ts : List Tok} (h : Pieces false nt s ts) : Pieces true nt s ts := by
  induction h with
  | nil => exact .nil
  | chars h1 h2 h3 h4 _ ih => exact .chars h1 h2 (charData_mono h3) h4 ih
  | markup h1 _ ih => exact .markup (markup_mono h1) ih

/-- A signon whose language is followed by `c`, and a bank message. -/
def kindsBody (c : Str) : Str :=
  "<OFX><SIGNONMSGSRSV1><SONRS><LANGUAGE>ENG".toList ++ (c ++
    "</LANGUAGE></SONRS></SIGNONMSGSRSV1><BANKMSGSRSV1><STMTTRNRS></STMTTRNRS></BANKMSGSRSV1></OFX>".toList)

/-- The elements after the signon, and the signon with the language holding `cs`. -/
def kindsTree (cs : List Node) : Node :=
  .elem "OFX".toList [.elem "SIGNONMSGSRSV1".toList [.elem "SONRS".toList [.elem "LANGUAGE".toList (.text "ENG".toList :: cs)]],
    .elem "BANKMSGSRSV1".toList [.elem "STMTTRNRS".toList []]]

/-- The pieces after the language. -/
def kindsRest : List Tok :=
  [.stop "LANGUAGE".toList, .stop "SONRS".toList, .stop "SIGNONMSGSRSV1".toList, .start "BANKMSGSRSV1".toList,
    .start "STMTTRNRS".toList, .stop "STMTTRNRS".toList, .stop "BANKMSGSRSV1".toList, .stop "OFX".toList]

theorem kindsPieces (nt : NameTable) (c : Str) (us : List Tok) (hc : c = [] ∧ us = [] ∨ c = "<!-- x -->".toList ∧ us = [.misc]) :
    Pieces false nt (kindsBody c) ([] ++ .start "OFX".toList :: (.start "SIGNONMSGSRSV1".toList :: .start "SONRS".toList ::
      .start "LANGUAGE".toList :: .text "ENG".toList :: (us ++ kindsRest))) := by
  have nil : TagSpaces [] := fun c hc => by cases hc
  have st : ∀ {n : Str}, plainName n = true → Markup false nt (['<'] ++ n ++ ['>']) [.start n] := fun h =>
    .start (nameText_plain nt h) (startsNot_cons fun h => (nameChar_ne h).2.1 rfl) (.close (w := []) nil)
  have en : ∀ {n : Str}, plainName n = true → Markup false nt (['<', '/'] ++ n ++ [] ++ ['>']) [.stop n] := fun h =>
    .stop (nameText_plain nt h) nil
  have hend : Pieces false nt "</LANGUAGE></SONRS></SIGNONMSGSRSV1><BANKMSGSRSV1><STMTTRNRS></STMTTRNRS></BANKMSGSRSV1></OFX>".toList
      kindsRest :=
    .markup (en (n := "LANGUAGE".toList) (by decide)) (.markup (en (n := "SONRS".toList) (by decide))
      (.markup (en (n := "SIGNONMSGSRSV1".toList) (by decide)) (.markup (st (n := "BANKMSGSRSV1".toList) (by decide))
      (.markup (st (n := "STMTTRNRS".toList) (by decide)) (.markup (en (n := "STMTTRNRS".toList) (by decide))
      (.markup (en (n := "BANKMSGSRSV1".toList) (by decide)) (.markup (en (n := "OFX".toList) (by decide)) .nil)))))))
  have c5 : CharData false "ENG".toList "ENG".toList := ⟨by decide, chars_ascii (by decide)⟩
  have hmid : ∃ r, c ++ "</LANGUAGE></SONRS></SIGNONMSGSRSV1><BANKMSGSRSV1><STMTTRNRS></STMTTRNRS></BANKMSGSRSV1></OFX>".toList = '<' :: r := by
    rcases hc with ⟨rfl, -⟩ | ⟨rfl, -⟩ <;> exact ⟨_, rfl⟩
  have hrest : Pieces false nt (c ++ "</LANGUAGE></SONRS></SIGNONMSGSRSV1><BANKMSGSRSV1><STMTTRNRS></STMTTRNRS></BANKMSGSRSV1></OFX>".toList)
      (us ++ kindsRest) := by
    rcases hc with ⟨rfl, rfl⟩ | ⟨rfl, rfl⟩
    · exact hend
    · exact .markup (.comment (s := " x ".toList) (by decide)) hend
  unfold kindsBody
  generalize c ++ "</LANGUAGE></SONRS></SIGNONMSGSRSV1><BANKMSGSRSV1><STMTTRNRS></STMTTRNRS></BANKMSGSRSV1></OFX>".toList = more at *
  have key := Pieces.markup (st (n := "OFX".toList) (by decide)) (.markup (st (n := "SIGNONMSGSRSV1".toList) (by decide))
    (.markup (st (n := "SONRS".toList) (by decide)) (.markup (st (n := "LANGUAGE".toList) (by decide))
    (.chars (raw := "ENG".toList) (by decide) (by decide) c5 (by obtain ⟨r, rfl⟩ := hmid; rfl) hrest))))
  exact key

/-- An XML header. -/
def kindsHead : Str := "<?xml version=\"1.0\"?><?OFX VERSION=\"202\" OFXHEADER=\"200\"?>".toList

theorem kindsXML (nt : NameTable) (c : Str) (us : List Tok) (cs : List Node)
    (hc : c = [] ∧ us = [] ∧ cs = [] ∨ c = "<!-- x -->".toList ∧ us = [.misc] ∧ cs = [.misc]) (tail : List UInt8)
    (hlook : LooksXML (latin1 ((toBytes (kindsHead ++ kindsBody c) ++ tail).take 1024))) :
    Document nt (toBytes (kindsHead ++ kindsBody c) ++ tail) 7 (kindsTree cs) := by
  have hv : StatesVersion 2 "202".toList := ⟨"202", rfl, [], [], rfl, fun c hc => (by cases hc), fun c hc => (by cases hc)⟩
  have hx : XMLHeader 2 [("VERSION".toList, "202".toList), ("OFXHEADER".toList, "200".toList)] := by
    refine ⟨?_, ⟨_, List.mem_cons_of_mem _ (List.mem_cons_self ..), rfl⟩,
      [], "202".toList, [("OFXHEADER".toList, "200".toList)], rfl, by decide, hv⟩
    intro a ha
    simp only [List.mem_cons, List.not_mem_nil, or_false] at ha
    rcases ha with rfl | rfl
    · exact ⟨by decide, .inr (.inl ⟨rfl, 2, hv⟩)⟩
    · exact ⟨by decide, .inl ⟨rfl, rfl⟩⟩
  have hsp : TagSpaces [' '] := fun c hc => by cases hc with | head => exact .inl rfl | tail _ h => cases h
  have m1 : Markup false nt "<?xml version=\"1.0\"?>".toList [.proc "xml".toList "version=\"1.0\"".toList] :=
    .instruction (n := "xml".toList) (w := [' ']) (inst := "version=\"1.0\"".toList) (nameText_plain nt (by decide)) hsp
      (startsNot_cons fun h => (nameChar_ne h).1 (.inl rfl)) (startsNot_cons (by rintro (h | h | h | h) <;> cases h)) (by decide)
      (fun _ => procOk_iff.mp (by decide) rfl)
  have m2 : Markup false nt "<?OFX VERSION=\"202\" OFXHEADER=\"200\"?>".toList
      [.proc "OFX".toList "VERSION=\"202\" OFXHEADER=\"200\"".toList] :=
    .instruction (n := "OFX".toList) (w := [' ']) (inst := "VERSION=\"202\" OFXHEADER=\"200\"".toList) (nameText_plain nt (by decide)) hsp
      (startsNot_cons fun h => (nameChar_ne h).1 (.inl rfl)) (startsNot_cons (by rintro (h | h | h | h) <;> cases h)) (by decide)
      (fun h => absurd h (by decide))
  have hp := kindsPieces nt c us (hc.imp (fun h => ⟨h.1, h.2.1⟩) fun h => ⟨h.1, h.2.1⟩)
  have hall : Pieces false nt (kindsHead ++ kindsBody c) ([] ++ .proc "xml".toList "version=\"1.0\"".toList :: ([] ++
      .proc "OFX".toList "VERSION=\"202\" OFXHEADER=\"200\"".toList :: ([] ++ .start "OFX".toList :: (.start "SIGNONMSGSRSV1".toList ::
        .start "SONRS".toList :: .start "LANGUAGE".toList :: .text "ENG".toList :: (us ++ kindsRest))))) := by
    have e : kindsHead = "<?xml version=\"1.0\"?>".toList ++ "<?OFX VERSION=\"202\" OFXHEADER=\"200\"?>".toList := by decide
    rw [e, List.append_assoc]
    generalize kindsBody c = body at hp
    have key := Pieces.markup m1 (Pieces.markup m2 hp)
    exact key
  have hcont : ∀ rest, Content false "LANGUAGE".toList (us ++ .stop "LANGUAGE".toList :: rest) cs rest := by
    intro rest
    rcases hc with ⟨-, rfl, rfl⟩ | ⟨-, rfl, rfl⟩
    · exact .closed
    · exact .misc (.inl rfl) (fun h => absurd h.1 (by decide)) .closed
  have no : ∀ n : Str, ¬ (false = true ∧ n ∈ leafElements) := fun n h => absurd h.1 (by decide)
  refine .xml (n := 2) (w := []) (w' := []) (w'' := []) (rest := []) (name := "OFX".toList)
    (attrs := [("VERSION".toList, "202".toList), ("OFXHEADER".toList, "200".toList)]) rfl hlook hall
    (fun t ht => by cases ht) (fun t ht => by cases ht) (fun t ht => by cases ht)
    ⟨[], " OFXHEADER=\"200\"".toList, rfl, by decide, [' '], [], rfl, by decide, fun c hc => (by cases hc)⟩ hx rfl ?_ rfl
  exact .child (no _) (.child (no _) (.child (no _) (.text (hcont _)) .closed) .closed)
    (.child (no _) (.child (no _) .closed .closed) .closed)

theorem kinds_open : ∀ n ∈ leafElements, n ∉ ["OFX".toList, "SIGNONMSGSRSV1".toList, "SONRS".toList, "BANKMSGSRSV1".toList, "STMTTRNRS".toList] := by
  decide +kernel

theorem kinds_no (n : String) (h : n ∈ ["OFX", "SIGNONMSGSRSV1", "SONRS", "BANKMSGSRSV1", "STMTTRNRS"]) : n.toList ∉ leafElements :=
  fun h' => kinds_open _ h' (List.mem_map_of_mem (f := String.toList) h)

/-- An SGML header. -/
def kindsSGML : List UInt8 :=
  toBytes ("OFXHEADER:100 DATA:OFXSGML VERSION: 103 SECURITY:TYPE1 ENCODING:USASCII CHARSET:1252 ".toList ++
    "COMPRESSION:NONE OLDFILEUID:NONE NEWFILEUID:NONE\n\n".toList)

theorem kindsSGML_ok : SGMLHeader 1 (latin1 kindsSGML ++ ['<']) := by
  obtain ⟨n, h, hs⟩ := (C29_header_iff _ 2).mp (show checkSGMLHeader (latin1 kindsSGML ++ ['<']) = .ok 2 from by decide +kernel)
  rw [show n = 1 from by omega] at hs
  exact hs

/-- What is read of the document with the comment: the comment ends the language, and its end tag everything else. -/
def kindsCut : Node :=
  .elem "OFX".toList [.elem "SIGNONMSGSRSV1".toList [.elem "SONRS".toList [.elem "LANGUAGE".toList [.text "ENG".toList], .misc]]]

theorem kindsCut_read (nt : NameTable) (tail : List UInt8) :
    Document nt (kindsSGML ++ toBytes (kindsBody "<!-- x -->".toList) ++ tail) 2 kindsCut := by
  have ends : ∀ n : String, n ≠ "LANGUAGE" → ∀ rest, Content true n.toList (.stop "LANGUAGE".toList :: rest) [] (.stop "LANGUAGE".toList :: rest) :=
    fun n h rest => .leftOpen rfl fun e => h (String.toList_inj.mp e).symm
  have no : ∀ n : Str, n ∉ leafElements → ¬ (true = true ∧ n ∈ leafElements) := fun n h h' => h h'.2
  refine .sgml (n := 1) (w := []) (rest := kindsRest) (name := "OFX".toList) rfl (by decide +kernel) (by decide +kernel) rfl kindsSGML_ok
    rfl (pieces_mono (kindsPieces nt _ [.misc] (.inr ⟨rfl, rfl⟩))) (fun t ht => by cases ht) ?_ rfl
  refine .child (no _ (kinds_no "OFX" (by decide))) (.child (no _ (kinds_no "SIGNONMSGSRSV1" (by decide)))
    (.child (no _ (kinds_no "SONRS" (by decide))) (.text (.leftOpen rfl ?_)) (.misc (.inl rfl) (no _ (kinds_no "SONRS" (by decide))) (ends "SONRS" (by decide) _)))
    (ends "SIGNONMSGSRSV1" (by decide) _)) (ends "OFX" (by decide) _)
  show "LANGUAGE".toList ∈ leafElements
  decide +kernel

theorem kinds_looks : LooksXML (latin1 ((toBytes (kindsHead ++ kindsBody []) ++ []).take 1024)) ∧
    LooksXML (latin1 ((toBytes (kindsHead ++ kindsBody "<!-- x -->".toList) ++ []).take 1024)) :=
  ⟨(guess_iff _).mp (by decide +kernel), (guess_iff _).mp (by decide +kernel)⟩

/-- C103: values have to be plain.  With a comment in the first value an XML document is read with its message; the same
elements with an SGML header are read without, and no error. -/
theorem C103_comment (env : Env) (nt : NameTable) : ∃ r r',
    decodeResponse env nt (toBytes (kindsHead ++ kindsBody "<!-- x -->".toList) ++ []) = .ok r ∧ (r.sets .bank).length = 1 ∧
    decodeResponse env nt (kindsSGML ++ toBytes (kindsBody "<!-- x -->".toList) ++ []) = .ok r' ∧ r'.signon.Language = "ENG".toList ∧
    ∀ s, r'.sets s = [] := by
  have h1 : ∃ r, decodeOfx env 7 (kindsTree [.misc]) = .ok r ∧ (r.sets .bank).length = 1 := ⟨_, rfl, rfl⟩
  have h2 : ∃ r, decodeOfx env 2 kindsCut = .ok r ∧ r.signon.Language = "ENG".toList ∧ ∀ s, r.sets s = [] :=
    ⟨_, rfl, rfl, fun s => by cases s <;> rfl⟩
  obtain ⟨r, h1, h3⟩ := h1
  obtain ⟨r', h2, h4⟩ := h2
  obtain ⟨hv, hS⟩ := (C75_response_iff env 7 _ r).mp h1
  obtain ⟨hv', hS'⟩ := (C75_response_iff env 2 _ r').mp h2
  exact ⟨r, r', (C76_document_iff env nt _ r).mpr ⟨_, hv ▸ kindsXML nt _ [.misc] [.misc] (.inr ⟨rfl, rfl, rfl⟩) [] kinds_looks.2, hS⟩, h3,
    (C76_document_iff env nt _ r').mpr ⟨_, hv' ▸ kindsCut_read nt [], hS'⟩, h4⟩

/-- The document without the comment is as C103_document wants it, and so its message is read from the SGML document. -/
example (nt : NameTable) : XMLHead 2 kindsHead ∧ ValuesPlain (kindsTree []) ∧
    Document nt (toBytes (kindsHead ++ kindsBody []) ++ []) (2 + 5) (kindsTree []) := by
  refine ⟨?_, ?_, kindsXML nt [] [] [] (.inl ⟨rfl, rfl, rfl⟩) [] kinds_looks.1⟩
  · have hg : Gap [] := ⟨[], .nil, fun c hc => by cases hc⟩
    have hv : StatesVersion 2 "202".toList := ⟨"202", rfl, [], [], rfl, fun c hc => (by cases hc), fun c hc => (by cases hc)⟩
    refine ⟨[], [], [], [], "VERSION=\"202\" OFXHEADER=\"200\"".toList,
      [("VERSION".toList, "202".toList), ("OFXHEADER".toList, "200".toList)], by decide, hg, hg, hg, by decide, by decide,
      fun c hc => by cases hc; decide,
      ⟨[], " OFXHEADER=\"200\"".toList, rfl, by decide, [' '], [], rfl, by decide, fun c hc => (by cases hc)⟩, ?_,
      ⟨_, List.mem_cons_of_mem _ (List.mem_cons_self ..), rfl⟩,
      [], "202".toList, [("OFXHEADER".toList, "200".toList)], rfl, by decide, hv⟩
    intro a ha
    simp only [List.mem_cons, List.not_mem_nil, or_false] at ha
    rcases ha with rfl | rfl
    · exact ⟨by decide, .inr (.inl ⟨rfl, 2, hv⟩)⟩
    · exact ⟨by decide, .inl ⟨rfl, rfl⟩⟩
  · have leaf : ∀ {n : Str} {cs : List Node}, n ∉ leafElements → (∀ c ∈ cs, ValuesPlain c) → ValuesPlain (.elem n cs) := by
      intro n cs hn hcs m ds hw hm
      cases hw with
      | self => exact absurd hm hn
      | inside hc hw => exact hcs _ hc m ds hw hm
    have val : ValuesPlain (.elem "LANGUAGE".toList [.text "ENG".toList]) := by
      intro m ds hw hm c hc
      cases hw with
      | self => exact ⟨_, List.mem_singleton.mp hc⟩
      | inside hc' hw => rw [List.mem_singleton.mp hc'] at hw; cases hw
    have one : ∀ {c : Node}, ValuesPlain c → ∀ d ∈ [c], ValuesPlain d := fun h d hd => by rw [List.mem_singleton.mp hd]; exact h
    refine leaf (kinds_no "OFX" (by decide)) fun c hc => ?_
    simp only [List.mem_cons, List.not_mem_nil, or_false] at hc
    rcases hc with rfl | rfl
    · exact leaf (kinds_no "SIGNONMSGSRSV1" (by decide)) (one (leaf (kinds_no "SONRS" (by decide)) (one val)))
    · exact leaf (kinds_no "BANKMSGSRSV1" (by decide)) (one (leaf (kinds_no "STMTTRNRS" (by decide)) fun c hc => (by cases hc)))

end Ofx.Props
