import Verif.Spec.WrittenDocument
import Verif.Lemmas.WrittenElements
import Verif.Props.Meaning
/-
C80: which elements are written, in which order.
-/
namespace Ofx.Props
open Ofx Spec

/-- C80: each message is written element by element as Spec/Written says; only profiles that
list a message set whose name does not end in V1 are not written. -/
theorem C80_message_iff (m : Message) (ns : List Node) : m.encode = .ok ns ↔
    ns = messageXml m ∧
    ∀ p, m = .profileResponse p → ∀ set ∈ p.MessageSetList, ∃ short, short ≠ [] ∧ set.Name = short ++ "V1".toList := by
  have other : ∀ {w : List Node}, m.encode = .ok w → messageXml m = w → (∀ p, m ≠ .profileResponse p) →
      (m.encode = .ok ns ↔ ns = messageXml m ∧
        ∀ p, m = .profileResponse p → ∀ set ∈ p.MessageSetList, ∃ short, short ≠ [] ∧ set.Name = short ++ "V1".toList) := by
    intro w h1 h2 h3
    rw [h1, h2]
    constructor
    · intro h; exact ⟨(Except.ok.inj h).symm, fun p hp => absurd hp (h3 p)⟩
    · rintro ⟨rfl, _⟩; rfl
  cases m with
  | profileResponse p =>
    constructor
    · intro h
      have hv : AllV1 p.MessageSetList := (Message.encode_ok_iff (.profileResponse p)).mp ⟨ns, h⟩
      refine ⟨?_, fun q hq => ?_⟩
      · exact Except.ok.inj (h.symm.trans (profileResponse_enc hv "PROFTRNRS".toList false))
      · cases hq; exact hv
    · rintro ⟨rfl, h⟩
      exact profileResponse_enc (h p rfl) "PROFTRNRS".toList false
  | statementRequest m => exact other (statementRequest_enc (v := m) "STMTTRNRQ".toList false) rfl (fun _ h => by cases h)
  | statementResponse m => exact other (statementResponse_enc (v := m) "STMTTRNRS".toList false) rfl (fun _ h => by cases h)
  | ccStatementRequest m => exact other (cCStatementRequest_enc (v := m) "CCSTMTTRNRQ".toList false) rfl (fun _ h => by cases h)
  | ccStatementResponse m => exact other (cCStatementResponse_enc (v := m) "CCSTMTTRNRS".toList false) rfl (fun _ h => by cases h)
  | invStatementRequest m => exact other (invStatementRequest_enc (v := m) "INVSTMTTRNRQ".toList false) rfl (fun _ h => by cases h)
  | invStatementResponse m => exact other (invStatementResponse_enc (v := m) "INVSTMTTRNRS".toList false) rfl (fun _ h => by cases h)
  | profileRequest m => exact other (profileRequest_enc (v := m) "PROFTRNRQ".toList false) rfl (fun _ h => by cases h)
  | secListRequest m => exact other (secListRequest_enc (v := m) "SECLISTTRNRQ".toList false) rfl (fun _ h => by cases h)
  | secListResponse m => exact other (secListResponse_enc (v := m) "SECLISTTRNRS".toList false) rfl (fun _ h => by cases h)
  | securityList m => exact other (securityList_enc (v := m) "SECLIST".toList false) rfl (fun _ h => by cases h)
  | acctInfoRequest m => exact other (acctInfoRequest_enc (v := m) "ACCTINFOTRNRQ".toList false) rfl (fun _ h => by cases h)
  | acctInfoResponse m => exact other (acctInfoResponse_enc (v := m) "ACCTINFOTRNRS".toList false) rfl (fun _ h => by cases h)

theorem content_xml {v : Nat} {ms : List Message} {ns : List Node}
    (h : List.Forall₂ (fun (m : Message) n => ∃ cs, n = .elem m.name cs ∧ (m.valid v).2.encode = .ok [n]) ms ns)
    (hv : ∀ m ∈ ms, (m.valid v).1 = none) : ns = ms.flatMap fun m => messageXml (messageSent m) := by
  induction h with
  | nil => rfl
  | @cons m n ms ns h1 h2 ih =>
    obtain ⟨_, _, he⟩ := h1
    rw [messageSent_valid (hv m (List.mem_cons_self ..))] at he
    have := ((C80_message_iff _ _).mp he).1
    rw [List.flatMap_cons, ← this, ← ih (fun m hm => hv m (List.mem_cons_of_mem _ hm))]
    rfl

theorem body_xml {order : List (MsgSet × String)} {sets : MsgSet → List Message} {content : MsgSet → List Node}
    (h : ∀ s ∈ order, content s.1 = (sets s.1).flatMap fun m => messageXml (messageSent m)) :
    (order.filter (fun s => decide ((sets s.1).length > 0))).map (fun s => Node.elem s.2.toList (content s.1)) =
      setsXml order sets := by
  induction order with
  | nil => rfl
  | cons a order ih =>
    have ih := ih (fun s hs => h s (List.mem_cons_of_mem _ hs))
    have ha := h a (List.mem_cons_self ..)
    have e : setsXml (a :: order) sets = omitted (sets a.1 = []) (element a.2 ((sets a.1).flatMap fun m =>
        messageXml (messageSent m))) ++ setsXml order sets := rfl
    rw [e, ← ih, omitted]
    by_cases hn : sets a.1 = []
    · rw [if_pos hn, List.filter_cons_of_neg (by simp [hn])]; rfl
    · rw [if_neg hn, List.filter_cons_of_pos (by simpa using List.length_pos_iff.mpr hn), List.map_cons, ha]; rfl

theorem responseSet_mem {s : MsgSet} {n : String} (h : (s, n) ∈ responseOrder) : s ≠ .signon := by
  rw [responseOrder_eq] at h
  obtain ⟨a, ha, he⟩ := List.mem_map.mp h
  cases he
  exact (MsgSet.mem_lists _).mp ha

/-- C80: the body of the document written for a request, element by element.  Full statement:
that Spec/Written leaves out all optional elements that are not set; see below for those it does not. -/
theorem C80_request_body_partial (r : Request Message) (d : Doc) (h : r.marshal.1 = .ok d) : d.body = requestXml r := by
  have hall := (C26_request_marshal_iff r).mp ⟨d, h⟩
  obtain ⟨signon, content, hb, _, henc, hcont⟩ := C25_request_body r d h
  have hso : (r.signon.valid r.version).2 = signonSent r.signon :=
    C23_signon_language r.version r.signon ((C23_signon_valid_iff r.version _).mpr hall.1)
  rw [hso] at henc
  have hsx : [signon] = element "SONRQ" (signonRequestContent (signonSent r.signon)) :=
    Except.ok.inj (henc.symm.trans (signonRequest_enc "SONRQ".toList false))
  rw [hb, bodyOf, body_xml (fun s hs => content_xml (hcont s.1 (requestOrder_mem hs))
    (fun m hm => (hall.2 s.1 (requestOrder_mem hs) m hm).2)), hsx]
  rfl

/-- C80: the same for responses. -/
theorem C80_response_body_partial (r : Response Message) (d : Doc) (h : r.marshal.1 = .ok d) : d.body = responseXml r := by
  have hall := (C26_response_marshal_iff r).mp ⟨d, h⟩
  obtain ⟨signon, content, hb, _, henc, hcont⟩ := C25_response_body r d h
  have hsx : [signon] = element "SONRS" (signonResponseContent r.signon) :=
    Except.ok.inj (henc.symm.trans (signonResponse_enc "SONRS".toList false))
  rw [hb, bodyOf, body_xml (fun s hs => content_xml (hcont s.1 (responseSet_mem hs))
    (fun m hm => (hall.2 s.1 (responseSet_mem hs) m hm).2.1)), hsx]
  rfl

theorem mem_part {α : Type} {a : α} {l : List α} {parts : List (List α)} (h1 : l ∈ parts) (h2 : a ∈ l) : a ∈ parts.flatten :=
  List.mem_flatten.mpr ⟨l, h1, h2⟩

/-- C80 is violated for optional amounts: a card statement of which no cash advance balance,
interest rates or rewards are known is written as if these were zero. -/
theorem C80_unset_amounts_written (m : CCStatementResponse) (h1 : m.CashAdvBalAmt = 0) (h2 : m.IntRatePurch = 0)
    (h3 : m.RewardEarned = 0) :
    ∃ outer inner reward : List Node, (Message.ccStatementResponse m).encode = .ok [.elem "CCSTMTTRNRS".toList outer] ∧
      .elem "CCSTMTRS".toList inner ∈ outer ∧ .elem "CASHADVBALAMT".toList [.text "0".toList] ∈ inner ∧
      .elem "INTRATEPURCH".toList [.text "0".toList] ∈ inner ∧ .elem "REWARDINFO".toList reward ∈ inner ∧
      .elem "REWARDEARNED".toList [.text "0".toList] ∈ reward := by
  have h : ∀ name, always .amount name 0 = [.elem name.toList [.text "0".toList]] := fun _ => rfl
  cases m
  simp only at h1 h2 h3
  subst h1 h2 h3
  exact ⟨_, _, _, (C80_message_iff _ _).mpr ⟨rfl, fun _ h => by cases h⟩,
    mem_part (.tail _ (.tail _ (.tail _ (.head _)))) (.head _),
    mem_part (.tail _ (.tail _ (.tail _ (.tail _ (.tail _ (.head _)))))) (by rw [h]; exact .head _),
    mem_part (.tail _ (.tail _ (.tail _ (.tail _ (.tail _ (.tail _ (.head _))))))) (by rw [h]; exact .head _),
    mem_part (.tail _ (.tail _ (.tail _ (.tail _ (.tail _ (.tail _ (.tail _ (.tail _ (.tail _ (.head _)))))))))) (.head _),
    mem_part (.tail _ (.tail _ (.head _))) (by rw [h]; exact .head _)⟩

/-- C80 is violated for optional currencies: each income (and likewise the other investment
transactions) is written with both a currency and an original currency, of which the
standard allows one at most. -/
theorem C80_both_currencies_written (v : Income) (h1 : v.Currency.XMLName = []) (h2 : v.OrigCurrency.XMLName = []) :
    ∃ c o : List Node, .elem "CURRENCY".toList c ∈ incomeContent v ∧ .elem "ORIGCURRENCY".toList o ∈ incomeContent v := by
  refine ⟨currencyContent v.Currency, currencyContent v.OrigCurrency, ?_, ?_⟩ <;>
    simp [incomeContent, named, h1, h2]

/-- What this means for the sample request: only the account key, the cookie and such are left out. -/
example : messageXml (.statementRequest sampleStatementRequest) =
    let text := fun (name value : String) => Node.elem name.toList [.text value.toList]
    [.elem "STMTTRNRQ".toList [text "TRNUID" "123",
      .elem "STMTRQ".toList [
        .elem "BANKACCTFROM".toList [text "BANKID" "1", text "ACCTID" "2", text "ACCTTYPE" "CHECKING"],
        .elem "INCTRAN".toList [text "INCLUDE" "Y"], text "INCLUDEPENDING" "Y"]]] := by
  rfl

example : ∃ d, sampleRequest.marshal.1 = .ok d ∧ d.body = requestXml sampleRequest := by
  obtain ⟨d, h⟩ := sampleRequest_ok
  exact ⟨d, h, C80_request_body_partial _ d h⟩

end Ofx.Props
