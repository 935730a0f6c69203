import Verif.Lemmas.SaysText
/-
Property C75: what is read is exactly what the elements of the document say.
-/
namespace Ofx.Props
open Ofx Ofx.Spec

/-! ### Element trees -/

/-- C75: an element is read as the message `m` exactly if `m` is what the element says. -/
theorem C75_message_iff (env : Env) (name : Str) (cs : List Node) (m : Message) :
    ReadsAs env name cs m ↔ MessageSays env name cs m := message_says env name cs m

/-- C75: likewise the signon of a response. -/
theorem C75_signon_iff (env : Env) (name : Str) (cs : List Node) (s : SignonResponse) :
    decodeNew env name cs = .ok s ↔ SignonResponseIs env [(name, cs)] s :=
  (decodeNew_says env _ _ _ (by decide +kernel)).trans signonResponseIs_iff.symm

/-- C75: the elements of a document are read as the response `r` exactly if `r` has the version
of the header and is what the elements say. -/
theorem C75_response_iff (env : Env) (version : Nat) (root : Node) (r : Response Message) :
    decodeOfx env version root = .ok r ↔ r.version = version ∧ ResponseSays env root r.signon r.sets :=
  response_says env version root r

/-- C75: the elements are refused exactly if they do not say anything. -/
theorem C75_refused_iff (env : Env) (version : Nat) (root : Node) :
    (∃ e, decodeOfx env version root = .error e) ↔ ¬ ∃ signon sets, ResponseSays env root signon sets := by
  constructor
  · rintro ⟨e, he⟩ ⟨so, sets, hs⟩
    rw [(response_says env version root ⟨version, so, sets⟩).mpr ⟨rfl, hs⟩] at he
    cases he
  · intro h
    cases hd : decodeOfx env version root with
    | error e => exact ⟨e, rfl⟩
    | ok r => exact absurd ⟨r.signon, r.sets, ((response_says env version root r).mp hd).2⟩ h

/-- C75: elements do not say two things. -/
theorem C75_unambiguous (env : Env) (root : Node) {signon signon' : SignonResponse} {sets sets' : MsgSet → List Message}
    (h : ResponseSays env root signon sets) (h' : ResponseSays env root signon' sets') :
    signon = signon' ∧ sets = sets' := by
  have e := (response_says env 0 root ⟨0, signon, sets⟩).mpr ⟨rfl, h⟩
  rw [(response_says env 0 root ⟨0, signon', sets'⟩).mpr ⟨rfl, h'⟩] at e
  cases e
  exact ⟨rfl, rfl⟩

/-! ### Documents -/

/-- C75: a document with an SGML header, its elements laid out in any way (leaf elements closed
or not), is read as what its elements say, or refused if they do not say anything. -/
theorem C75_sgml_document (env : Env) (nt : NameTable) {v : Nat} {head : List UInt8} (h1 : 60 ∉ head)
    (h2 : head.length < 1024) (h3 : SGMLHeader v (latin1 head ++ ['<'])) {n : Str} {cs : List Node} {t : Str}
    (ht : Layout true (.elem n cs) t) (hn : n ∉ leafElements) (tail : List UInt8) (r : Response Message) :
    decodeResponse env nt (head ++ toBytes t ++ tail) = .ok r ↔
      r.version = v + 1 ∧ ResponseSays env (.elem n cs) r.signon r.sets := by
  rw [C49_sgml_reads env nt h1 h2 h3 ht hn, response_says]

/-- C75: likewise a document with an XML header, whatever white space, attributes and further
declarations it has, if the keyword of SGML headers is not in its first 1024 bytes. -/
theorem C75_xml_document (env : Env) (nt : NameTable) {v : Nat} {head t : Str} {n : Str} {cs : List Node} {tail : List UInt8}
    (h0 : ¬ "OFXHEADER:".toList <:+: latin1 ((toBytes (head ++ t) ++ tail).take 1024)) (h1 : XMLHead v head)
    (ht : Layout false (.elem n cs) t) (r : Response Message) :
    decodeResponse env nt (toBytes (head ++ t) ++ tail) = .ok r ↔
      r.version = v + 5 ∧ ResponseSays env (.elem n cs) r.signon r.sets := by
  rw [xmlDoc_reads env nt h0 h1 ht, response_says]

/-- C75: so what two documents say decides whether they are read the same: an SGML and an XML
document that say the same differ in the version only. -/
theorem C75_sgml_and_xml (env : Env) (nt : NameTable) {v v' : Nat} {head : List UInt8} (h1 : 60 ∉ head)
    (h2 : head.length < 1024) (h3 : SGMLHeader v (latin1 head ++ ['<'])) {n : Str} {cs : List Node} {t t' head' : Str}
    (ht : Layout true (.elem n cs) t) (hn : n ∉ leafElements) {tail tail' : List UInt8}
    (h0 : ¬ "OFXHEADER:".toList <:+: latin1 ((toBytes (head' ++ t') ++ tail').take 1024)) (h1' : XMLHead v' head')
    (ht' : Layout false (.elem n cs) t') (signon : SignonResponse) (sets : MsgSet → List Message) :
    decodeResponse env nt (head ++ toBytes t ++ tail) = .ok ⟨v + 1, signon, sets⟩ ↔
      decodeResponse env nt (toBytes (head' ++ t') ++ tail') = .ok ⟨v' + 5, signon, sets⟩ := by
  rw [C75_sgml_document env nt h1 h2 h3 ht hn, C75_xml_document env nt h0 h1' ht']
  simp

/-- The elements of a response with a signon and two message set elements for bank messages. -/
def smallTree : Node :=
  .elem "OFX".toList [.text "\n".toList,
    .elem "SIGNONMSGSRSV1".toList [.misc, .elem "SONRS".toList [
      .elem "STATUS".toList [.elem "CODE".toList [.text "0".toList], .elem "SEVERITY".toList [.text "INFO".toList]],
      .elem "LANGUAGE".toList [.text " ENG ".toList]]],
    .elem "BANKMSGSRSV1".toList [.elem "STMTTRNRS".toList [.elem "TRNUID".toList [.text "1".toList]]],
    .elem "BANKMSGSRSV1".toList [.elem "STMTTRNRS".toList [.elem "TRNUID".toList [.text "2".toList]],
      .elem "STMTTRNRS".toList [.elem "TRNUID".toList [.text "3".toList]]]]

/-- They say that there are three bank messages ... -/
example (env : Env) : ∃ signon sets, ResponseSays env smallTree signon sets ∧ signon.Language = "ENG".toList ∧
    (sets .bank).length = 3 ∧ sets .creditCard = [] := by
  refine ⟨_, _, ((C75_response_iff env 1 smallTree _).mp rfl).2, rfl, rfl, rfl⟩

/-- ... and without the signon they would not say anything. -/
example (env : Env) : ¬ ∃ signon sets, ResponseSays env (.elem "OFX".toList [.elem "BANKMSGSRSV1".toList []]) signon sets :=
  (C75_refused_iff env 1 _).mp ⟨_, rfl⟩

/-- An XML header with attributes in another order and an encoding. -/
example : XMLHead 2 "<?xml version=\"1.0\" encoding=\"UTF-8\"?>\n  <?OFX VERSION=\"202\" OFXHEADER=\"200\"?>\n".toList := by
  have hg : ∀ w : Str, (∀ c ∈ w, c = ' ' ∨ c = '\n') → Gap w := by
    intro w
    induction w with
    | nil => intro _; exact ⟨[], .nil, fun c hc => by cases hc⟩
    | cons c w ih =>
      intro h
      obtain ⟨s, h1, h2⟩ := ih (fun d hd => h d (List.mem_cons_of_mem _ hd))
      rcases h c (List.mem_cons_self ..) with rfl | rfl
      · exact ⟨' ' :: s, .plain (by decide) (by decide) (by decide) (by decide) (by decide) h1,
          fun d hd => by rcases List.mem_cons.mp hd with rfl | hd; · decide
                         · exact h2 d hd⟩
      · exact ⟨'\n' :: s, .plain (by decide) (by decide) (by decide) (by decide) (by decide) h1,
          fun d hd => by rcases List.mem_cons.mp hd with rfl | hd; · decide
                         · exact h2 d hd⟩
  have hv : StatesVersion 2 "202".toList := ⟨"202", rfl, [], [], rfl, fun c hc => (by cases hc), fun c hc => (by cases hc)⟩
  refine ⟨[], "\n  ".toList, "\n".toList, " encoding=\"UTF-8\"".toList, "VERSION=\"202\" OFXHEADER=\"200\"".toList,
    [("VERSION".toList, "202".toList), ("OFXHEADER".toList, "200".toList)], rfl,
    hg _ (by decide), hg _ (by decide), hg _ (by decide), by decide, by decide,
    fun c hc => by cases hc; decide,
    ⟨[], " OFXHEADER=\"200\"".toList, rfl, by decide, [' '], [], rfl, by decide, fun c hc => (by cases hc)⟩, ?_,
    ⟨_, List.mem_cons_of_mem _ (List.mem_cons_self ..), rfl⟩,
    [], "202".toList, [("OFXHEADER".toList, "200".toList)], rfl, by decide, hv⟩
  intro a ha
  simp only [List.mem_cons, List.not_mem_nil, or_false] at ha
  rcases ha with rfl | rfl
  · exact ⟨by decide, .inr (.inl ⟨rfl, 2, hv⟩)⟩
  · exact ⟨by decide, .inl ⟨rfl, rfl⟩⟩

/-! ### What this means for a transaction, for instance -/

/-- C75: the elements MEMO, TRNAMT and STMTTRN mean what one expects: the memo of a transaction
read from a STMTTRN element is the text, without surrounding white space, of its last MEMO
element, or empty if there is none; the amount is the number its last TRNAMT element holds, or
zero; and an element that is not called STMTTRN is no transaction. -/
theorem C75_transaction (env : Env) (name : Str) (cs : List Node) (t : Transaction) (h : decodeNew env name cs = .ok t) :
    name = "STMTTRN".toList ∧
    (match ((elems cs).filter (fun e => e.1 = "MEMO".toList)).getLast? with
     | none => t.Memo = []
     | some e => TrimsTo (leafText e.2) t.Memo) ∧
    (match ((elems cs).filter (fun e => e.1 = "TRNAMT".toList)).getLast? with
     | none => t.TrnAmt = 0
     | some e => ∃ core, TrimsTo (leafText e.2) core ∧ AmountText core t.TrnAmt) := by
  have h : TySays env Transaction.ty [(name, cs)] (Transaction.toDen t) := (decodeNew_says env _ _ _ (by decide +kernel)).mp h
  obtain ⟨h1, -, h2⟩ := h
  refine ⟨h1 _ (List.mem_singleton_self _), ?_⟩
  rw [show [(name, cs)].flatMap (fun e => e.2) = cs from by simp] at h2
  exact ⟨h2.2.2.2.2.2.2.2.2.2.2.2.2.2.2.2.2.2.2.1.2, h2.2.2.2.2.1.2⟩

/-- Such an element: two memos, of which the last one counts. -/
example (env : Env) : ∃ t : Transaction, decodeNew env "STMTTRN".toList
    [.elem "MEMO".toList [.text "Rent".toList], .text "\n".toList, .elem "TRNAMT".toList [.text " -12,50".toList],
     .elem "MEMO".toList [.text " Rent for May\n".toList]] = .ok t ∧ t.Memo = "Rent for May".toList ∧ t.TrnAmt = -25 / 2 := by
  refine ⟨_, rfl, rfl, ?_⟩
  decide +kernel

end Ofx.Props
