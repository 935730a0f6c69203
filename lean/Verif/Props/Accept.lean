import Verif.Spec.Accept
import Verif.Props.Valid
import Verif.Props.Marshal
import Verif.Props.Header
/-
C77: exactly the messages accepted, and hence exactly the requests and responses that can be
written and the documents parsed without an error, in terms of the fields of the messages alone.
C78: whether an accepted message consists of parts that meet their own rules.
-/
namespace Ofx.Props
open Ofx Ofx.Spec

theorem transaction_passes (v : Nat) (t : Transaction) : t.valid v = none ↔ PassesTransaction (11 ≤ v) t := by
  rw [transaction_valid_iff]
  unfold PassesTransaction
  constructor
  · rintro ⟨h1, h2⟩
    refine ⟨h1, ?_⟩
    by_cases hc : t.CorrectFiTID = []
    · exact .inl hc
    · exact .inr (fun g => h2 ⟨hc, correctAction_named.mp (g hc)⟩)
  · rintro ⟨h1, h2⟩
    refine ⟨h1, ?_⟩
    rintro ⟨hc, ha⟩
    rcases h2 with h2 | h2
    · exact hc h2
    · exact h2 (fun _ => correctAction_named.mpr ha)

theorem statementRequest_passes (v : Nat) (r : StatementRequest) :
    r.valid v = none ↔ GoodStatementRequest (9 ≤ v) (11 ≤ v) r := by
  unfold StatementRequest.valid
  constructor
  · intro h
    cases e1 : UID.valid r.TrnUID with
    | some e => rw [e1] at h; cases h
    | none =>
    rw [e1] at h
    simp only at h
    by_cases h1 : (r.IncludePending && decide (v < ofxVersion220)) = true
    · rw [if_pos h1] at h; cases h
    rw [if_neg h1] at h
    by_cases h2 : (r.IncTranImg && decide (v < ofxVersion210)) = true
    · rw [if_pos h2] at h; cases h
    rw [if_neg h2] at h
    unfold ofxVersion220 at h1
    unfold ofxVersion210 at h2
    refine ⟨(uid_valid_iff _).mp e1, ?_, ?_, (C19_bankacct_valid_iff _).mp h⟩
    · intro hp; simp [hp] at h1; exact h1
    · intro hp; simp [hp] at h2; exact h2
  · rintro ⟨h1, h2, h3, h4⟩
    rw [(uid_valid_iff _).mpr h1]
    simp only
    rw [if_neg, if_neg]
    · exact (C19_bankacct_valid_iff _).mpr h4
    · unfold ofxVersion210
      intro h
      simp only [Bool.and_eq_true, decide_eq_true_eq] at h
      have := h3 h.1; omega
    · unfold ofxVersion220
      intro h
      simp only [Bool.and_eq_true, decide_eq_true_eq] at h
      have := h2 h.1; omega

/-- C77: a message is accepted for a version exactly when it meets the rules for its kind. -/
theorem C77_message_iff (v : Nat) (m : Message) : (m.valid v).1 = none ↔ Passes v m := by
  cases m with
  | statementRequest m => exact statementRequest_passes v m
  | statementResponse m =>
    have h : (fun t : Transaction => t.valid v = none) = PassesTransaction (11 ≤ v) :=
      funext (fun t => propext (transaction_passes v t))
    show m.valid v = none ↔ GoodStatement (11 ≤ v) (PassesTransaction (11 ≤ v)) m
    rw [C21_statement_accepted_iff, h]
  | ccStatementRequest m => exact uid_valid_iff _
  | ccStatementResponse m => exact uid_valid_iff _
  | invStatementRequest m => exact uid_valid_iff _
  | invStatementResponse m => exact uid_valid_iff _
  | profileRequest m =>
    show (m.valid v).1 = none ↔ GoodUID m.TrnUID
    rw [← uid_valid_iff]
    unfold ProfileRequest.valid
    cases UID.valid m.TrnUID <;> simp
  | profileResponse m => exact uid_valid_iff _
  | secListRequest m => exact uid_valid_iff _
  | secListResponse m => exact uid_valid_iff _
  | securityList m => exact ⟨fun _ => trivial, fun _ => rfl⟩
  | acctInfoRequest m => exact uid_valid_iff _
  | acctInfoResponse m => exact uid_valid_iff _

/-- C77: looking at a message changes nothing in it, except that an accepted profile request
asks for no routing afterwards. -/
theorem C77_left_as (v : Nat) (m : Message) : LeftAs m (m.valid v).2 := by
  cases m with
  | profileRequest m =>
    show (GoodUID m.TrnUID → _) ∧ (¬ GoodUID m.TrnUID → _)
    simp only [← uid_valid_iff]
    show (UID.valid m.TrnUID = none → Message.profileRequest (m.valid v).2 = _) ∧
      (¬ UID.valid m.TrnUID = none → Message.profileRequest (m.valid v).2 = _)
    unfold ProfileRequest.valid
    cases UID.valid m.TrnUID <;> simp
  | _ => rfl

theorem type_request (s : MsgSet) (m : Message) : m.type = .rq s ↔ RequestOf s m := by
  cases m <;> cases s <;> simp [Message.type, RequestOf]

theorem type_response (s : MsgSet) (m : Message) : m.type = .rs s ↔ ResponseOf s m := by
  cases m <;> cases s <;> simp [Message.type, ResponseOf]

/-- C77: a request is written exactly when its signon meets the rules and each of its lists holds
only requests of its message set that meet theirs. -/
theorem C77_request_written_iff (r : Request Message) : (∃ d, r.marshal.1 = .ok d) ↔
    GoodSignon r.signon ∧ ∀ s, s ≠ .signon → ∀ m ∈ r.sets s, RequestOf s m ∧ Passes r.version m := by
  rw [C26_request_marshal_iff]
  simp only [type_request, C77_message_iff]

/-- C77: a response is written exactly when its signon meets the rules, each of its lists holds
only responses of its message set that meet theirs, and the message sets of profiles are of
version 1. -/
theorem C77_response_written_iff (r : Response Message) : (∃ d, r.marshal.1 = .ok d) ↔
    (bytes r.signon.Language = 3 ∧ GoodStatus r.signon.Status) ∧
    ∀ s, s ≠ .signon → ∀ m ∈ r.sets s, ResponseOf s m ∧ Passes r.version m ∧
      ∀ p, m = .profileResponse p → ∀ set ∈ p.MessageSetList, ∃ short, short ≠ [] ∧ set.Name = short ++ "V1".toList := by
  rw [C26_response_marshal_iff]
  simp only [type_response, C77_message_iff]

/-- C77: a document is parsed without an error exactly when it can be read as a response whose
signon and messages meet their rules. -/
theorem C77_parsed_iff (env : Env) (nt : NameTable) (bs : List UInt8) : (parseResponse env nt bs).2 = none ↔
    ∃ r, decodeResponse env nt bs = .ok r ∧ (bytes r.signon.Language = 3 ∧ GoodStatus r.signon.Status) ∧
      ∀ s, s ≠ .signon → ∀ m ∈ r.sets s, Passes r.version m := by
  rw [C35_no_error]
  simp only [C23_signon_response_valid_iff, C77_message_iff]

/-- A statement with two transactions is accepted below 2.2.0; with pending transactions it is
accepted from 2.2.0 on only. -/
example : Passes 1 (.statementResponse sampleStatement) ∧
    ¬ Passes 10 (.statementResponse { sampleStatement with BankTranListP := some ⟨⟨1, [], 0⟩, []⟩ }) ∧
    Passes 11 (.statementResponse { sampleStatement with BankTranListP := some ⟨⟨1, [], 0⟩, []⟩ }) := by
  simp only [← C77_message_iff]
  decide +kernel

/-- The sample request, with a bank statement request in it, meets the rules. -/
example : GoodSignon sampleRequest.signon ∧
    ∀ s, s ≠ .signon → ∀ m ∈ sampleRequest.sets s, RequestOf s m ∧ Passes sampleRequest.version m :=
  (C77_request_written_iff _).mp sampleRequest_ok

/-! ### C78 -/

/-- C78, the part that holds: bank statements and the requests for them consist of parts that meet
their own rules.  Full statement: every accepted message does.  Missing: the other kinds of
message, of which only the transaction id is looked at (next theorems). -/
theorem C78_bank_partial (v : Nat) (m : Message) (h : (m.valid v).1 = none)
    (hb : (∃ r, m = .statementRequest r) ∨ (∃ r, m = .statementResponse r)) : GoodParts (11 ≤ v) m := by
  rw [C77_message_iff] at h
  rcases hb with ⟨r, rfl⟩ | ⟨r, rfl⟩
  · refine ⟨?_, ?_, ?_, ?_⟩
    · intro s hs; cases hs
    · rintro a (⟨r', e, rfl⟩ | ⟨r', e, rfl⟩)
      · cases e; exact GoodStatementRequest.acct h
      · cases e
    · rintro a (⟨r', e, rfl⟩ | ⟨r', e, rfl⟩) <;> cases e
    · intro t ht; cases ht
  · refine ⟨?_, ?_, ?_, ?_⟩
    · intro s hs; cases hs; exact GoodStatement.status h
    · rintro a (⟨r', e, rfl⟩ | ⟨r', e, rfl⟩)
      · cases e
      · cases e; exact GoodStatement.acct h
    · rintro a (⟨r', e, rfl⟩ | ⟨r', e, rfl⟩) <;> cases e
    · intro t ht
      have ht : t ∈ (r.BankTranList.map (·.Transactions)).getD [] := ht
      cases hl : r.BankTranList with
      | none => rw [hl] at ht; cases ht
      | some l =>
        rw [hl] at ht
        exact ((GoodStatement.trans h l hl).2.2 t ht).1

/-- C78 is violated: whether any other response is accepted does not depend on the status it
reports, which may be one that is not defined. -/
theorem C78_status_unchecked (v : Nat) (s : Status) :
    (∀ m : CCStatementResponse, ({ m with Status := s }).valid v = m.valid v) ∧
    (∀ m : InvStatementResponse, ({ m with Status := s }).valid v = m.valid v) ∧
    (∀ m : ProfileResponse, ({ m with Status := s }).valid v = m.valid v) ∧
    (∀ m : SecListResponse, ({ m with Status := s }).valid v = m.valid v) ∧
    (∀ m : AcctInfoResponse, ({ m with Status := s }).valid v = m.valid v) :=
  ⟨fun _ => rfl, fun _ => rfl, fun _ => rfl, fun _ => rfl, fun _ => rfl⟩

/-- C78 is violated: whether a card statement, or a request for one, is accepted depends neither
on the account nor on the transactions. -/
theorem C78_card_unchecked (v : Nat) (a : CCAcct) (l : Option TransactionList) :
    (∀ m : CCStatementRequest, ({ m with CCAcctFrom := a }).valid v = m.valid v) ∧
    (∀ m : CCStatementResponse, ({ m with CCAcctFrom := a, BankTranList := l }).valid v = m.valid v) :=
  ⟨fun _ => rfl, fun _ => rfl⟩

/-- C78 is violated: such messages exist. -/
theorem C78_bad_parts_accepted : ∃ m : Message, (m.valid 1).1 = none ∧ ¬ GoodParts (11 ≤ 1) m := by
  refine ⟨.secListResponse ⟨"1".toList, ⟨12, "INFO".toList, []⟩, []⟩, by decide +kernel, ?_⟩
  intro h
  have h1 := (C18_status_valid_iff _).mpr (h.status _ rfl)
  revert h1
  decide +kernel

example : ((Message.statementResponse sampleStatement).valid 1).1 = none := by decide +kernel

end Ofx.Props
