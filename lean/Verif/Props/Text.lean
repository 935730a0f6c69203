import Verif.Props.Document
import Verif.Props.Header
import Verif.Lemmas.Layout
import Verif.Lemmas.TextCheck
/-
Properties C37 (whole documents), C49 and C55: documents as text.
-/
namespace Ofx.Props
open Ofx Ofx.Spec

/-! ### C37 round trip of whole documents -/

theorem content_shaped {version : Nat} {ms : List Message} {ns : List Node}
    (h : List.Forall₂ (fun (m : Message) n => ∃ cs, n = .elem m.name cs ∧ (m.valid version).2.encode = .ok [n]) ms ns)
    (hc : ∀ m ∈ ms, CleanMessage (m.valid version).2) : ∀ n ∈ ns, Shaped n := by
  induction h with
  | nil => intro n hn; cases hn
  | @cons m n ms ns h1 _ ih =>
    intro k hk
    rcases List.mem_cons.mp hk with rfl | hk
    · obtain ⟨cs, _, he⟩ := h1
      exact Message.encode_shaped _ (hc m (List.mem_cons_self ..)) he _ (List.mem_singleton_self _)
    · exact ih (fun m hm => hc m (List.mem_cons_of_mem _ hm)) k hk

theorem clean_valid {m : Message} (v : Nat) (h : CleanMessage m) : CleanMessage (m.valid v).2 := by
  cases m with
  | profileRequest m =>
    show TyText (OfxType.ty ProfileRequest) (OfxType.toDen (m.valid v).2)
    have h : TyText (OfxType.ty ProfileRequest) (OfxType.toDen m) := h
    unfold ProfileRequest.valid
    cases UID.valid m.TrnUID with
    | some e => exact h
    | none => exact ⟨h.1, h.2.1, h.2.2.1, h.2.2.2.1, AllXml.of_all (s := "NONE".toList) (by decide), h.2.2.2.2.2⟩
  | _ => exact h

theorem clean_signon {s : SignonRequest} (v : Nat) (h : CleanSignonRequest s) : CleanSignonRequest (s.valid v).2 := by
  have h : TyText (OfxType.ty SignonRequest) (OfxType.toDen s) := h
  have h' : CleanSignonRequest { s with Language := "ENG".toList } :=
    ⟨h.1, h.2.1, h.2.2.1, h.2.2.2.1, h.2.2.2.2.1, h.2.2.2.2.2.1, AllXml.of_all (s := "ENG".toList) (by decide), h.2.2.2.2.2.2.2⟩
  unfold SignonRequest.valid
  split_ifs <;> first | exact h | exact h'

theorem request_shaped (r : Request Message) (d : Doc) (h : r.marshal.1 = .ok d) (hs : CleanSignonRequest r.signon)
    (hm : ∀ s, s ≠ .signon → ∀ m ∈ r.sets s, CleanMessage m) : Shaped d.body := by
  obtain ⟨signon, content, hb, ⟨ch, hsn⟩, henc, hc⟩ := C25_request_body r d h
  rw [hb]
  refine bodyOf_shaped container_rqOrder container_signonRq ?_ ?_
  · exact shaped_of_encode _ _ SignonRequest.names (clean_signon _ hs) henc _ (List.mem_singleton_self _)
  · rintro ⟨s, n⟩ hsn
    have hns : s ≠ .signon := by
      rw [requestOrder_eq] at hsn
      obtain ⟨a, ha, he⟩ := List.mem_map.mp hsn
      cases he
      exact (MsgSet.mem_lists _).mp ha
    exact content_shaped (hc s hns) (fun m hm' => clean_valid _ (hm s hns m hm'))

theorem response_shaped (r : Response Message) (d : Doc) (h : r.marshal.1 = .ok d) (hs : CleanSignonResponse r.signon)
    (hm : ∀ s, s ≠ .signon → ∀ m ∈ r.sets s, CleanMessage m) : Shaped d.body := by
  obtain ⟨signon, content, hb, ⟨ch, hsn⟩, henc, hc⟩ := C25_response_body r d h
  rw [hb]
  refine bodyOf_shaped container_rsOrder container_signonRs ?_ ?_
  · exact shaped_of_encode _ _ SignonResponse.names hs henc _ (List.mem_singleton_self _)
  · rintro ⟨s, n⟩ hsn
    have hns : s ≠ .signon := ((responseOrder_mem s n).mp hsn).1
    exact content_shaped (hc s hns) (fun m hm' => clean_valid _ (hm s hns m hm'))

/-- A header written by Marshal and a body laid out in any way. -/
theorem header_layout (env : Env) (nt : NameTable) {v : Nat} {cr : Bool} {head t : Str} (hw : writeHeader v cr = some head)
    {n : Str} {cs : List Node} (ht : Layout (decide (v < 5)) (.elem n cs) t) (hn : n ∉ leafElements) (tail : List UInt8)
    (r : Response Message) :
    decodeResponse env nt (toBytes (head ++ t) ++ tail) = .ok r ↔ decodeOfx env v (.elem n cs) = .ok r := by
  have hs : (!decide (5 ≤ v)) = decide (v < 5) := by
    by_cases h : 5 ≤ v
    · have h' : ¬ v < 5 := by omega
      simp [h, h']
    · have h' : v < 5 := by omega
      simp [h, h']
  obtain ⟨t', rfl⟩ := (tagNext_layout (strict := true) nt ht [] []).1.imp fun r' h => (by simpa using h : t = '<' :: r')
  have e : toBytes (head ++ '<' :: t') ++ tail = toBytes head ++ 60 :: (toBytes t' ++ tail) := by
    rw [toBytes_append, show ('<' :: t') = ['<'] ++ t' from rfl, toBytes_append]
    simp [show toBytes ['<'] = [60] from by decide]
  have e2 : utf8Decode (60 :: (toBytes t' ++ tail)) = [] ++ ('<' :: t' ++ utf8Decode tail) := by
    rw [List.nil_append, ← utf8Decode_append, show ('<' :: t') = ['<'] ++ t' from rfl, toBytes_append]
    simp [show toBytes ['<'] = [60] from by decide]
  rw [e, C28_header_roundtrip env nt hw, e2]
  rw [← hs] at ht
  exact layout_body env v nt ⟨[], .nil, fun c hc => by cases hc⟩ ht (fun _ => hn) _ r

theorem header_some {v : Nat} (hv : 1 ≤ v ∧ v ≤ 11) (cr : Bool) : ∃ h, writeHeader v cr = some h := by
  unfold writeHeader
  by_cases h1 : 1 ≤ v ∧ v ≤ 4
  · rw [if_pos h1]; exact ⟨_, rfl⟩
  · rw [if_neg h1, if_pos (by omega)]; exact ⟨_, rfl⟩

/-- C37: for every version, the bytes of a marshalled response, with anything after them, are
decoded as the element tree that was written. -/
theorem C37_written_read (env : Env) (nt : NameTable) (r : Response Message) (d : Doc) (h : r.marshal.1 = .ok d)
    (hv : 1 ≤ r.version ∧ r.version ≤ 11) (hs : CleanSignonResponse r.signon)
    (hm : ∀ s, s ≠ .signon → ∀ m ∈ r.sets s, CleanMessage m) (tail : List UInt8) (r' : Response Message) :
    decodeResponse env nt (d.bytes ++ tail) = .ok r' ↔ decodeOfx env r.version d.body = .ok r' := by
  have hsh := response_shaped r d h hs hm
  obtain ⟨signon, content, hb, -⟩ := C25_response_body r d h
  obtain ⟨head, hh⟩ := header_some hv false
  obtain ⟨_, ns, rest, h1, h2, rfl⟩ := (response_marshal_ok r d).mp h
  have hl := render_layout ⟨true, false, false⟩ (decide (r.version < 5)) (by simp) hsh 0
  show decodeResponse env nt (toBytes ((writeHeader r.version false).getD [] ++ _) ++ tail) = _ ↔ _
  rw [hh]
  exact header_layout env nt hh hl ((containerB_iff _).mp container_ofx).2 tail r'

/-- C37: marshalling a response and decoding the bytes gives the response back: the same
version, signon and messages in the same lists in the same order, for every version and
whatever follows the document. Missing: responses with 401(k) loans, where it is false:
see C40. -/
theorem C37_text_roundtrip_partial (env : Env) (nt : NameTable) (r : Response Message) (d : Doc) (h : r.marshal.1 = .ok d)
    (hv : 1 ≤ r.version ∧ r.version ≤ 11) (hs : ExactSignon env r.signon) (hc : CleanSignonResponse r.signon)
    (hm : ∀ s, s ≠ .signon → ∀ m ∈ r.sets s, ExactMessage env m ∧ CleanMessage m) (tail : List UInt8) :
    ∃ r', decodeResponse env nt (d.bytes ++ tail) = .ok r' ∧ r'.version = r.version ∧ SameSignon r.signon r'.signon ∧
      ∀ s, s ≠ .signon → List.Forall₂ SameMessage (r.sets s) (r'.sets s) := by
  obtain ⟨r', h1, h2⟩ := C37_tree_roundtrip env r d h hs (fun s hs m hmm => (hm s hs m hmm).1)
  exact ⟨r', (C37_written_read env nt r d h hv hc (fun s hs m hmm => (hm s hs m hmm).2) tail r').mpr h1, h2⟩

/-- C37: a response as decoding produces it is read back identically from its bytes.
Missing as in C37_text_roundtrip_partial. -/
theorem C37_text_roundtrip_eq_partial (env : Env) (nt : NameTable) (r : Response Message) (d : Doc) (h : r.marshal.1 = .ok d)
    (hv : 1 ≤ r.version ∧ r.version ≤ 11) (hs : ExactSignon env r.signon ∧ CleanSignonResponse r.signon ∧ SettledSignon r.signon)
    (hm : ∀ s, s ≠ .signon → ∀ m ∈ r.sets s, ExactMessage env m ∧ CleanMessage m ∧ SettledMessage m) (tail : List UInt8) :
    ∃ r', decodeResponse env nt (d.bytes ++ tail) = .ok r' ∧ r'.version = r.version ∧ r'.signon = r.signon ∧
      ∀ s, s ≠ .signon → r'.sets s = r.sets s := by
  obtain ⟨r', h1, h2⟩ := C37_tree_roundtrip_eq env r d h hs.1 (fun s hs m hmm => (hm s hs m hmm).1) hs.2.2
    (fun s hs m hmm => (hm s hs m hmm).2.2)
  exact ⟨r', (C37_written_read env nt r d h hv hs.2.1 (fun s hs m hmm => (hm s hs m hmm).2.1) tail r').mpr h1, h2⟩

theorem sampleResponse_clean : CleanSignonResponse sampleResponse.signon ∧
    ∀ s, s ≠ .signon → ∀ m ∈ sampleResponse.sets s, CleanMessage m := by
  refine ⟨textB_sound _ _ (by decide +kernel), ?_⟩
  intro s _ m hm
  have hm : m ∈ (if s = .bank then [Message.statementResponse sampleBankStatement]
      else if s = .secList then [.securityList ⟨[]⟩] else []) := hm
  split_ifs at hm
  · simp only [List.mem_singleton] at hm
    subst hm
    exact textB_sound _ _ (by decide +kernel)
  · simp only [List.mem_singleton] at hm
    subst hm
    exact textB_sound (OfxType.ty SecurityList) _ (by decide +kernel)
  · cases hm

/-- The hypotheses are met by `sampleResponse`: its bytes decode to it. -/
example (nt : NameTable) : ∃ d r', sampleResponse.marshal.1 = .ok d ∧ decodeResponse sampleEnv nt d.bytes = .ok r' ∧
    r'.version = 7 ∧ r'.sets .bank = [.statementResponse sampleBankStatement] := by
  obtain ⟨d, hd⟩ := sampleResponse_ok
  obtain ⟨h1, h2, h3⟩ := sampleResponse_exact
  obtain ⟨r', g1, g2, _, g4⟩ := C37_text_roundtrip_eq_partial sampleEnv nt sampleResponse d hd (by decide)
    ⟨h1, sampleResponse_clean.1, h2⟩ (fun s hs m hm => ⟨(h3 s hs m hm).1, sampleResponse_clean.2 s hs m hm, (h3 s hs m hm).2⟩) []
  rw [List.append_nil] at g1
  exact ⟨d, r', hd, g1, g2, g4 .bank (by decide)⟩

/-! ### C49 leaf elements -/

/-- C49: no element that holds elements, in any of the structures of documents, is listed as
a leaf element. -/
theorem C49_no_container_is_leaf : ∀ s ∈ structures, ∀ n ∈ containers s.1 s.2.toList, n ∉ leafElements := by
  have h : (structures.all fun s => (containers s.1 s.2.toList).all fun n => !leafElements.contains n) = true := by
    decide +kernel
  intro s hs n hn
  have := List.all_eq_true.mp (List.all_eq_true.mp h s hs) n hn
  simpa using this

/-- There are many such elements, for example the aggregates of a bank statement. -/
example : ["STMTTRNRS".toList, "STMTRS".toList, "BANKACCTFROM".toList, "BANKTRANLIST".toList, "STMTTRN".toList] ⊆
    containers (OfxType.ty StatementResponse) "STMTTRNRS".toList := by decide +kernel

theorem shaped_leaves {n : Node} (h : Shaped n) : LeavesHoldText n := by
  induction h with
  | @leaf n s hn hs =>
    unfold textNode
    split
    · exact .elem (fun _ c hc => by cases hc) (fun c hc => by cases hc)
    · exact .elem (fun _ c hc => ⟨s, List.mem_singleton.mp hc⟩) (fun c hc => by rw [List.mem_singleton.mp hc]; exact .text)
  | node hn hc ih => exact .elem (fun hl => absurd hl hn.2) ih

/-- C49: in the documents written, leaf elements hold text only. -/
theorem C49_written_leaves (r : Request Message) (d : Doc) (h : r.marshal.1 = .ok d) (hs : CleanSignonRequest r.signon)
    (hm : ∀ s, s ≠ .signon → ∀ m ∈ r.sets s, CleanMessage m) : LeavesHoldText d.body :=
  shaped_leaves (request_shaped r d h hs hm)

theorem C49_response_leaves (r : Response Message) (d : Doc) (h : r.marshal.1 = .ok d) (hs : CleanSignonResponse r.signon)
    (hm : ∀ s, s ≠ .signon → ∀ m ∈ r.sets s, CleanMessage m) : LeavesHoldText d.body :=
  shaped_leaves (response_shaped r d h hs hm)

/-- C49: an SGML document is read as the element tree it lays out, whether its leaf elements
are closed or not and whatever white space is between the elements. -/
theorem C49_sgml_reads (env : Env) (nt : NameTable) {v : Nat} {head : List UInt8} (h1 : 60 ∉ head) (h2 : head.length < 1024)
    (h3 : SGMLHeader v (latin1 head ++ ['<'])) {n : Str} {cs : List Node} {t : Str} (ht : Layout true (.elem n cs) t)
    (hn : n ∉ leafElements) (tail : List UInt8) (r : Response Message) :
    decodeResponse env nt (head ++ toBytes t ++ tail) = .ok r ↔ decodeOfx env (v + 1) (.elem n cs) = .ok r := by
  obtain ⟨t', rfl⟩ := (tagNext_layout (strict := true) nt ht [] []).1.imp fun r' h => (by simpa using h : t = '<' :: r')
  have e : head ++ toBytes ('<' :: t') ++ tail = head ++ 60 :: (toBytes t' ++ tail) := by
    rw [show ('<' :: t') = ['<'] ++ t' from rfl, toBytes_append]
    simp [show toBytes ['<'] = [60] from by decide]
  have e2 : utf8Decode (60 :: (toBytes t' ++ tail)) = [] ++ ('<' :: t' ++ utf8Decode tail) := by
    rw [List.nil_append, ← utf8Decode_append, show ('<' :: t') = ['<'] ++ t' from rfl, toBytes_append]
    simp [show toBytes ['<'] = [60] from by decide]
  rw [e, C29_reads env nt _ h1 h2 h3, e2]
  exact layout_body (strict := false) env (v + 1) nt ⟨[], .nil, fun c hc => by cases hc⟩ ht (fun _ => hn) _ r

/-- C49: hence two SGML documents that differ in the closing of leaf elements and in white
space only (in the header too) are read the same. -/
theorem C49_closed_or_not (env : Env) (nt : NameTable) {v : Nat} {head head' : List UInt8} (h1 : 60 ∉ head)
    (h2 : head.length < 1024) (h3 : SGMLHeader v (latin1 head ++ ['<'])) (h1' : 60 ∉ head')
    (h2' : head'.length < 1024) (h3' : SGMLHeader v (latin1 head' ++ ['<'])) {n : Str} {cs : List Node} {t t' : Str}
    (ht : Layout true (.elem n cs) t) (ht' : Layout true (.elem n cs) t') (hn : n ∉ leafElements) (tail tail' : List UInt8)
    (r : Response Message) :
    decodeResponse env nt (head ++ toBytes t ++ tail) = .ok r ↔ decodeResponse env nt (head' ++ toBytes t' ++ tail') = .ok r := by
  rw [C49_sgml_reads env nt h1 h2 h3 ht hn, C49_sgml_reads env nt h1' h2' h3' ht' hn]

/-- C49: the requests written lay out their element tree, with leaf elements unclosed below
version 200. -/
theorem C49_request_layout (r : Request Message) (d : Doc) (h : r.marshal.1 = .ok d) (hs : CleanSignonRequest r.signon)
    (hm : ∀ s, s ≠ .signon → ∀ m ∈ r.sets s, CleanMessage m) :
    ∃ t, d.text = d.header ++ t ∧ Layout (decide (r.version < 5)) d.body t := by
  have hsh := request_shaped r d h hs hm
  obtain ⟨_, ns, rest, h1, h2, rfl⟩ := (request_marshal_ok r d).mp h
  exact ⟨_, rfl, render_layout ⟨r.indent, r.carriageReturn, decide (r.version < ofxVersion200)⟩ (decide (r.version < 5))
    (fun h => h) hsh 0⟩

/-- `sampleResponse`, marshalled for version 102, is a document with closed leaves. -/
theorem sampleResponse_sgml (nt : NameTable) : ∃ d head t r', ({ sampleResponse with version := 1 } : Response Message).marshal.1 = .ok d ∧
    d.text = head ++ t ∧ Layout true d.body t ∧ decodeResponse sampleEnv nt (toBytes (head ++ t)) = .ok r' ∧ r'.version = 1 := by
  have hd : ∃ d, ({ sampleResponse with version := 1 } : Response Message).marshal.1 = .ok d := by
    rw [C26_response_marshal_iff]
    refine ⟨(C23_signon_response_valid_iff 1 _).mp (by decide +kernel), ?_⟩
    intro s _ m hm
    have hm : m ∈ (if s = .bank then [Message.statementResponse sampleBankStatement]
        else if s = .secList then [.securityList ⟨[]⟩] else []) := hm
    split_ifs at hm with h1 h2
    · simp only [List.mem_singleton] at hm
      subst hm; subst h1
      exact ⟨rfl, by decide +kernel, fun p hp => by cases hp⟩
    · simp only [List.mem_singleton] at hm
      subst hm; subst h2
      exact ⟨rfl, by decide +kernel, fun p hp => by cases hp⟩
    · cases hm
  obtain ⟨d, hd⟩ := hd
  obtain ⟨h1, h2, h3⟩ := sampleResponse_exact
  obtain ⟨r', g1, g2, -⟩ := C37_text_roundtrip_eq_partial sampleEnv nt { sampleResponse with version := 1 } d hd (by decide)
    ⟨h1, sampleResponse_clean.1, h2⟩ (fun s hs m hm => ⟨(h3 s hs m hm).1, sampleResponse_clean.2 s hs m hm, (h3 s hs m hm).2⟩) []
  have hsh := response_shaped _ d hd sampleResponse_clean.1 sampleResponse_clean.2
  obtain ⟨_, ns, rest, k1, k2, rfl⟩ := (response_marshal_ok _ d).mp hd
  rw [List.append_nil] at g1
  exact ⟨_, _, _, r', hd, rfl, render_layout ⟨true, false, false⟩ true (by simp) hsh 0, g1, g2⟩

/-! ### C55 leaf elements that are not listed -/

/-- The elements holding a text that are not listed as leaf elements. -/
def unlisted : List String :=
  ["INCLUDEPENDING", "INCTRANIMG", "EXTDNAME", "IMAGETYPE", "IMAGEREF", "IMAGEREFTYPE", "IMAGEDELAY", "DTIMAGEAVAIL",
   "IMAGETTL", "CHECKSUP", "INV401KSOURCE", "DTTRAN", "CASHADVBALAMT", "INTRATE", "INTRATEPURCH", "INTRATECASH",
   "INTRATEXFER", "REWARDBAL", "REWARDEARNED", "INC401K", "INC401KBAL", "INCTRANIMAGE", "REVERSALFITID", "SUBACCTFUND",
   "LOANID", "LOANPRINCIPAL", "LOANINTEREST", "DTPAYROLL", "PRIORYEARCONTRIB", "STATEWITHHOLDING", "PENALTY",
   "EMPLOYERNAME", "PLANID", "PLANJOINDATE", "EMPLOYERCONTACTINFO", "BROKERCONTACTINFO", "DEFERPCTPRETAX",
   "DEFERPCTAFTERTAX", "MATCHPCT", "MAXMATCHAMT", "MAXMATCHPCT", "STARTOFYEAR", "BASEMATCHAMT", "BASEMATCHPCT",
   "PRETAXCONTRIBPCT", "PRETAXCONTRIBAMT", "AFTERTAXCONTRIBPCT", "AFTERTAXCONTRIBAMT", "MATCHCONTRIBPCT",
   "MATCHCONTRIBAMT", "PROFITSHARINGCONTRIBPCT", "PROFITSHARINGCONTRIBAMT", "ROLLOVERCONTRIBPCT", "ROLLOVERCONTRIBAMT",
   "OTHERVESTPCT", "OTHERVESTAMT", "OTHERNONVESTPCT", "OTHERNONVESTAMT", "CURRENTVESTPCT", "VESTDATE", "VESTPCT",
   "LOANDESC", "INITIALLOANBAL", "LOANSTARTDATE", "CURRENTLOANBAL", "LOANRATE", "LOANPMTAMT", "LOANPMTFREQ",
   "LOANPMTSINITIAL", "LOANPMTSREMAINING", "LOANMATURITYDATE", "LOANTOTALPROJINTEREST", "LOANINTERESTTODATE",
   "LOANNEXTPMTDATE", "PRETAX", "AFTERTAX", "MATCH", "PROFITSHARING", "ROLLOVER", "OTHERVEST", "OTHERNONVEST", "CASHBAL",
   "ACCESSTOKENREQ", "HOLDERTYPE", "MATURITYDATE", "MATURITYAMOUNT", "MINBALREQ", "ACCTCLASSIFICATION", "OVERDRAFTLIMIT"]

/-- C55 (what holds): every element of the document structures that holds a text and is not
one of the 89 named above is listed, so by `C49_closed_or_not` it may be left unclosed. -/
theorem C55_listed_partial : ∀ s ∈ structures, ∀ n ∈ textElements s.1 s.2.toList,
    n ∉ unlisted.map String.toList → n ∈ leafElements := by
  have h : (structures.all fun s => (textElements s.1 s.2.toList).all fun n =>
      leafElements.contains n || (unlisted.map String.toList).contains n) = true := by decide +kernel
  intro s hs n hn hu
  have := List.all_eq_true.mp (List.all_eq_true.mp h s hs) n hn
  rcases (Bool.or_eq_true _ _).mp this with h | h
  · simpa using h
  · exact absurd (by simpa using h) hu

/-- C55 fails: these elements hold texts and are not listed. -/
theorem C55_unlisted : ∀ n ∈ unlisted, n.toList ∉ leafElements ∧
    ∃ s ∈ structures, n.toList ∈ textElements s.1 s.2.toList := by
  have h : (unlisted.all fun n => !leafElements.contains n.toList &&
      structures.any fun s => (textElements s.1 s.2.toList).contains n.toList) = true := by decide +kernel
  intro n hn
  have := (Bool.and_eq_true _ _).mp (List.all_eq_true.mp h n hn)
  refine ⟨by simpa using this.1, ?_⟩
  obtain ⟨s, hs, hc⟩ := List.any_eq_true.mp this.2
  exact ⟨s, hs, by simpa using hc⟩

/-- C55 fails: an element that is not listed, left unclosed, swallows the element after it:
`<n>raw<m>raw'</m></p>` is read as an element n holding the text and m, inside p. -/
theorem C55_unclosed_swallows (nt : NameTable) {n m p raw raw' s s' : Str} (hn : AsciiName n) (hm : AsciiName m)
    (hp : AsciiName p) (hl : n ∉ leafElements) (hpl : p ∉ leafElements) (hne : p ≠ n) (hw : Written raw s)
    (hw' : Written raw' s') (before : List Node) (parents : List (Str × List Node)) (r : Str) :
    build false (p, before) parents (lex false nt (['<'] ++ n ++ ['>'] ++ raw ++ ['<'] ++ m ++ ['>'] ++ raw' ++
        ['<', '/'] ++ m ++ ['>'] ++ ['<', '/'] ++ p ++ ['>'] ++ r)) =
      build false (p, .elem n (txt s ++ [.elem m (txt s')]) :: before) parents (.stop p :: lex false nt r) := by
  have e : (['<'] ++ n ++ ['>'] ++ raw ++ ['<'] ++ m ++ ['>'] ++ raw' ++ ['<', '/'] ++ m ++ ['>'] ++ ['<', '/'] ++ p ++ ['>'] ++ r) =
      ['<'] ++ n ++ ['>'] ++ (raw ++ (['<'] ++ m ++ ['>'] ++ (raw' ++ (['<', '/'] ++ m ++ ['>'] ++
        (['<', '/'] ++ p ++ ['>'] ++ r))))) := by simp only [List.append_assoc]
  rw [e, lex_start false nt hn, lex_written' false nt hw ⟨_, by simp; rfl⟩, lex_start false nt hm,
    lex_written' false nt hw' ⟨_, by simp; rfl⟩, lex_stop false nt hm, lex_stop false nt hp, build_start (fun _ => hpl), build_txt,
    build_start (fun _ => hl), build_txt, build_stop]
  conv_lhs => unfold build
  simp only
  rw [if_pos (by simp [closes]), if_neg (by simpa using hne)]
  simp

/-- C55 fails: so a transaction whose EXTDNAME is left unclosed loses its MEMO, without any
error. -/
theorem C55_memo_lost (env : Env) :
    (∃ t : Transaction, decodeNew env "STMTTRN".toList
      [.elem "EXTDNAME".toList (txt "John".toList ++ [.elem "MEMO".toList (txt "Rent".toList)])] = .ok t ∧
      t.ExtdName = "John".toList ∧ t.Memo = []) ∧
    (∃ t : Transaction, decodeNew env "STMTTRN".toList
      [.elem "EXTDNAME".toList (txt "John".toList), .elem "MEMO".toList (txt "Rent".toList)] = .ok t ∧
      t.ExtdName = "John".toList ∧ t.Memo = "Rent".toList) := by
  exact ⟨⟨_, rfl, rfl, rfl⟩, ⟨_, rfl, rfl, rfl⟩⟩

end Ofx.Props
