import Verif.Spec.Written
import Verif.Codec.Type
import Verif.Gen.Types
/-
GENERATED by tools/gen_written.py -- do not edit.

Encoding the schemas writes what Spec/Written says.
-/
namespace Ofx
open Spec

theorem enc_always {l : Leaf} {name : String} {v : l.Den} : (Ty.leaf l).enc name.toList false v = .ok (always l name v) := by
  simp only [Ty.enc, always, Bool.false_and]
  cases l.print v <;> rfl
theorem enc_amount {name : String} {om : Bool} {v : Rat} : (Ty.leaf .amount).enc name.toList om v = .ok (always .amount name v) := by
  cases om <;> rfl
theorem enc_date {name : String} {om : Bool} {v : GoTime} : (Ty.leaf .date).enc name.toList om v = .ok (always .date name v) := by
  cases om <;> rfl
theorem enc_curr {name : String} {om : Bool} {v : CurrSymbol} : (Ty.leaf .curr).enc name.toList om v = .ok (always .curr name v) := by
  cases om <;> rfl
theorem enc_str {name : String} {v : Str} : (Ty.leaf .str).enc name.toList true v = .ok (omitted (v = []) (always .str name v)) := by
  cases v <;> rfl
theorem enc_uid {name : String} {v : Str} : (Ty.leaf .uid).enc name.toList true v = .ok (omitted (v = []) (always .uid name v)) := by
  cases v <;> rfl
theorem enc_bool {name : String} {v : Bool} : (Ty.leaf .bool).enc name.toList true v = .ok (omitted (v = false) (always .bool name v)) := by
  cases v <;> rfl
theorem enc_int {name : String} {v : Int} : (Ty.leaf .int).enc name.toList true v = .ok (omitted (v = 0) (always .int name v)) := by
  by_cases h : v = 0
  · subst h; rfl
  · have h' : Leaf.int.isEmpty v = false := decide_eq_false h
    simp only [Ty.enc, h', omitted, if_neg h]
    rfl
theorem enc_enum {t : EnumTable} {name : String} {v : Nat} :
    (Ty.leaf (.enum t)).enc name.toList true v = .ok (omitted (v = 0) (always (.enum t) name v)) := by
  by_cases h : v = 0
  · subst h; rfl
  · have h' : (Leaf.enum t).isEmpty v = false := decide_eq_false h
    simp only [Ty.enc, h', omitted, if_neg h, always]
    cases (Leaf.enum t).print v <;> rfl

theorem enc_ptr {t : Ty} {α : Type} {f : α → t.Den} {w : α → List Node} {name : Str} {om : Bool}
    (h : ∀ x, t.enc name false (f x) = .ok (w x)) {v : Option α} :
    (Ty.ptr t).enc name om (Option.map f v) = .ok (ifAny w v) := by
  cases v with
  | none => rfl
  | some x => exact h x
theorem enc_ptr_leaf {l : Leaf} {w : l.Den → List Node} {name : Str} {om : Bool}
    (h : ∀ x, (Ty.leaf l).enc name false x = .ok (w x)) {v : Option l.Den} :
    (Ty.ptr (.leaf l)).enc name om v = .ok (ifAny w v) := by
  cases v with
  | none => rfl
  | some x => exact h x

theorem mapE_flatMap {α β : Type} {f : β → Except String (List Node)} {k : α → β} {w : α → List Node} (h : ∀ x, f (k x) = .ok (w x)) :
    ∀ l : List α, mapE f (l.map k) = .ok (l.map w)
  | [] => rfl
  | x :: l => by
    have := mapE_flatMap h l
    simp [mapE, h x, this]

theorem enc_slice {t : Ty} {α : Type} {f : α → t.Den} {w : α → List Node} {name : Str} {om : Bool}
    (h : ∀ x, t.enc name om (f x) = .ok (w x)) {v : List α} :
    (Ty.slice t).enc name om (List.map f v) = .ok (v.flatMap w) := by
  have := mapE_flatMap (f := fun x => t.enc name om x) h v
  simp only [Ty.enc]
  erw [this]
  rfl
theorem enc_slice_leaf {l : Leaf} {w : l.Den → List Node} {name : Str} {om : Bool}
    (h : ∀ x, (Ty.leaf l).enc name om x = .ok (w x)) {v : List l.Den} :
    (Ty.slice (.leaf l)).enc name om v = .ok (v.flatMap w) := by
  have := enc_slice (t := .leaf l) (f := id) h (v := v)
  erw [List.map_id] at this
  exact this

theorem enc_nil : Fields.nil.enc () = .ok [] := rfl
theorem enc_cons {path : List Str} {name : Str} {om : Bool} {t : Ty} {rest : Fields} {a : t.Den} {d : rest.Den} {ns : List Node}
    {items : List Item} (h : t.enc name om a = .ok ns) (hr : rest.enc d = .ok items) :
    (Fields.field path name om t rest).enc (a, d) = .ok (⟨path, t.opens a, ns⟩ :: items) := by
  simp only [Fields.enc, h, hr]
theorem enc_alts {as : Alts} {rest : Fields} {α : Type} {f : α → as.Den} {w : α → List Node} {l : List α} {d : rest.Den}
    {items : List Item} (h : ∀ x, as.enc (f x) = .ok (w x)) (hr : rest.enc d = .ok items) :
    (Fields.alts as rest).enc (List.map f l, d) = .ok (⟨[], true, l.flatMap w⟩ :: items) := by
  have := mapE_flatMap (f := fun x => as.enc x) h l
  simp only [Fields.enc, this, hr]
  rfl

theorem enc_tag {tag : String} {fs : Fields} {d : fs.Den} {items : List Item} {content : List Node} (h : fs.enc d = .ok items)
    (he : emit fs.depth items = content) (name : Str) (om : Bool) :
    (Ty.struct (.tag tag.toList) fs).enc name om ((), d) = .ok (element tag content) := by
  simp only [Ty.enc, h, he]
  rfl
theorem enc_none {fs : Fields} {d : fs.Den} {items : List Item} {content : List Node} (h : fs.enc d = .ok items)
    (he : emit fs.depth items = content) (name : String) (om : Bool) :
    (Ty.struct .none fs).enc name.toList om ((), d) = .ok (element name content) := by
  simp only [Ty.enc, h, he]
  rfl
theorem enc_named {fs : Fields} {own : Str} {d : fs.Den} {items : List Item} {content : List Node} (h : fs.enc d = .ok items)
    (he : emit fs.depth items = content) (name : String) (om : Bool) :
    (Ty.struct .free fs).enc name.toList om (own, d) = .ok (named own name content) := by
  simp only [Ty.enc, h, he]
  rfl
theorem enc_closed {lit : String} {fs : Fields} {d : fs.Den} {items : List Item} {content : List Node} (h : fs.enc d = .ok items)
    (he : emit fs.depth items = content) (name : Str) (om : Bool) :
    (Ty.closed lit.toList false fs).enc name om d = .ok (element lit content) := by
  simp only [Ty.enc, h, he, Bool.and_false]
  rfl
theorem enc_closed_slice {lit : String} {as : Alts} {α : Type} {f : α → as.Den} {w : α → List Node} {l : List α}
    (h : ∀ x, as.enc (f x) = .ok (w x)) (name : Str) :
    (Ty.closed lit.toList true (.alts as .nil)).enc name true (List.map f l, ()) =
      .ok (omitted (l = []) (element lit (l.flatMap w))) := by
  cases l with
  | nil => rfl
  | cons x l =>
    have := enc_alts (as := as) (l := x :: l) h enc_nil
    have he : Fields.isEmpty (.alts as .nil) (List.map f (x :: l), ()) = false := rfl
    simp only [Ty.enc, this, he, Bool.and_false]
    simp only [Fields.depth, emit, omitted, element]
    rw [if_neg (by simp), if_neg (by simp)]
    simp

theorem alt_first {n : Str} {encName : String} {t : Ty} {rest : Alts} {x : t.Den} {tag : String} {content : List Node}
    (h : t.enc encName.toList false x = .ok (element tag content)) :
    (Alts.alt n encName.toList t rest).enc (.inl x) = .ok (element encName content) := by
  simp only [Alts.enc, h]
  rfl
theorem alt_next {n e : Str} {t : Ty} {rest : Alts} {y : rest.Den} {ns : List Node} (h : rest.enc y = .ok ns) :
    (Alts.alt n e t rest).enc (.inr y) = .ok ns := by
  simp only [Alts.enc, h]

attribute [local irreducible] always

/-- profile.go 136-152. -/
theorem enc_sets {fs : Fields} {α : Type} {f : α → Str × Str × fs.Den} {nm : α → Str} {w : α → List Node}
    (h1 : ∀ x, (f x).2.1 = nm x) (h2 : ∀ x, ∃ items, fs.enc (f x).2.2 = .ok items ∧ emit fs.depth items = w x)
    {l : List α} (hl : ∀ x ∈ l, ∃ short, short ≠ [] ∧ nm x = short ++ "V1".toList) (name : Str) :
    (Ty.msgSets fs).enc name false (List.map f l) =
      .ok (element "MSGSETLIST" (l.map fun x => .elem ((nm x).take ((nm x).length - 2))
        [.elem (nm x) (.elem "Name".toList (if nm x = [] then [] else [.text (nm x)]) :: w x)])) := by
  have key : ∀ l : List α, (∀ x ∈ l, ∃ short, short ≠ [] ∧ nm x = short ++ "V1".toList) →
      mapE (encMsgSet (fun y => fs.enc y) fs.depth) (List.map f l) = .ok (l.map fun x => .elem ((nm x).take ((nm x).length - 2))
        [.elem (nm x) (.elem "Name".toList (if nm x = [] then [] else [.text (nm x)]) :: w x)]) := by
    intro l hl
    induction l with
    | nil => rfl
    | cons x l ih =>
      have ih := ih (fun y hy => hl y (List.mem_cons_of_mem _ hy))
      obtain ⟨items, hi, hw⟩ := h2 x
      obtain ⟨short, hs, hn⟩ := hl x (List.mem_cons_self ..)
      have ht : trimV1 (nm x) = some ((nm x).take ((nm x).length - 2)) := by
        unfold trimV1
        rw [if_pos]
        rw [hn]
        exact ⟨by rw [List.isSuffixOf_iff_suffix]; exact ⟨short, rfl⟩, by
          have := List.length_pos_iff.mpr hs
          simp; omega⟩
      have : encMsgSet (fun y => fs.enc y) fs.depth (f x) = .ok (.elem ((nm x).take ((nm x).length - 2))
          [.elem (nm x) (.elem "Name".toList (if nm x = [] then [] else [.text (nm x)]) :: w x)]) := by
        unfold encMsgSet
        rw [h1, ht]
        simp only [hi, hw, textNode]
      simp only [List.map_cons, mapE, this, ih]
  have := key l hl
  simp only [Ty.enc, Bool.false_and]
  erw [this]
  rfl

theorem status_enc {v : Ofx.Status} (name : Str) (om : Bool) :
    Status.ty.enc name om (Status.toDen v) = .ok (element "STATUS" (statusContent v)) :=
  enc_tag (enc_cons enc_always (enc_cons enc_always (enc_cons enc_str (enc_nil)))) rfl name om

theorem bankAcct_enc {v : Ofx.BankAcct} (name : String) (om : Bool) :
    BankAcct.ty.enc name.toList om (BankAcct.toDen v) = .ok (named v.XMLName name (bankAcctContent v)) :=
  enc_named (enc_cons enc_always (enc_cons enc_str (enc_cons enc_always (enc_cons enc_always (enc_cons enc_str (enc_nil)))))) rfl name om

theorem cCAcct_enc {v : Ofx.CCAcct} (name : String) (om : Bool) :
    CCAcct.ty.enc name.toList om (CCAcct.toDen v) = .ok (named v.XMLName name (cCAcctContent v)) :=
  enc_named (enc_cons enc_always (enc_cons enc_str (enc_nil))) rfl name om

theorem invAcct_enc {v : Ofx.InvAcct} (name : String) (om : Bool) :
    InvAcct.ty.enc name.toList om (InvAcct.toDen v) = .ok (named v.XMLName name (invAcctContent v)) :=
  enc_named (enc_cons enc_always (enc_cons enc_always (enc_nil))) rfl name om

theorem currency_enc {v : Ofx.Currency} (name : String) (om : Bool) :
    Currency.ty.enc name.toList om (Currency.toDen v) = .ok (named v.XMLName name (currencyContent v)) :=
  enc_named (enc_cons enc_always (enc_cons enc_always (enc_nil))) rfl name om

theorem statementRequest_enc {v : Ofx.StatementRequest} (name : Str) (om : Bool) :
    StatementRequest.ty.enc name om (StatementRequest.toDen v) = .ok (element "STMTTRNRQ" (statementRequestContent v)) :=
  enc_tag (enc_cons enc_always (enc_cons enc_str (enc_cons enc_str (enc_cons (bankAcct_enc "BANKACCTFROM" _) (enc_cons (enc_ptr_leaf (w := fun x => always .date "DTSTART" x) (fun _ => enc_always)) (enc_cons (enc_ptr_leaf (w := fun x => always .date "DTEND" x) (fun _ => enc_always)) (enc_cons enc_always (enc_cons enc_bool (enc_cons enc_bool (enc_nil)))))))))) (by obtain ⟨f0, f1, f2, f3, f4, f5, f6, f7, f8⟩ := v; cases f4 <;> cases f5 <;> rfl) name om

theorem payee_enc {v : Ofx.Payee} (name : Str) (om : Bool) :
    Payee.ty.enc name om (Payee.toDen v) = .ok (element "PAYEE" (payeeContent v)) :=
  enc_tag (enc_cons enc_always (enc_cons enc_always (enc_cons enc_str (enc_cons enc_str (enc_cons enc_always (enc_cons enc_always (enc_cons enc_always (enc_cons enc_str (enc_cons enc_always (enc_nil)))))))))) rfl name om

theorem imageData_enc {v : Ofx.ImageData} (name : Str) (om : Bool) :
    ImageData.ty.enc name om (ImageData.toDen v) = .ok (element "IMAGEDATA" (imageDataContent v)) :=
  enc_tag (enc_cons enc_always (enc_cons enc_always (enc_cons enc_always (enc_cons enc_int (enc_cons (enc_ptr_leaf (w := fun x => always .date "DTIMAGEAVAIL" x) (fun _ => enc_always)) (enc_cons enc_int (enc_cons enc_enum (enc_nil)))))))) rfl name om

theorem transaction_enc {v : Ofx.Transaction} (name : Str) (om : Bool) :
    Transaction.ty.enc name om (Transaction.toDen v) = .ok (element "STMTTRN" (transactionContent v)) :=
  enc_tag (enc_cons enc_always (enc_cons enc_always (enc_cons (enc_ptr_leaf (w := fun x => always .date "DTUSER" x) (fun _ => enc_always)) (enc_cons (enc_ptr_leaf (w := fun x => always .date "DTAVAIL" x) (fun _ => enc_always)) (enc_cons enc_always (enc_cons enc_always (enc_cons enc_str (enc_cons enc_enum (enc_cons enc_str (enc_cons enc_str (enc_cons enc_str (enc_cons enc_int (enc_cons enc_str (enc_cons enc_str (enc_cons (enc_ptr (f := Payee.toDen) (w := fun x => element "PAYEE" (payeeContent x)) (fun _ => (payee_enc _ _))) (enc_cons enc_str (enc_cons (enc_ptr (f := BankAcct.toDen) (w := fun x => named x.XMLName "BANKACCTTO" (bankAcctContent x)) (fun _ => (bankAcct_enc "BANKACCTTO" _))) (enc_cons (enc_ptr (f := CCAcct.toDen) (w := fun x => named x.XMLName "CCACCTTO" (cCAcctContent x)) (fun _ => (cCAcct_enc "CCACCTTO" _))) (enc_cons enc_str (enc_cons (enc_slice (f := ImageData.toDen) (w := fun x => element "IMAGEDATA" (imageDataContent x)) (fun _ => (imageData_enc _ _))) (enc_cons (enc_ptr (f := Currency.toDen) (w := fun x => named x.XMLName "CURRENCY" (currencyContent x)) (fun _ => (currency_enc "CURRENCY" _))) (enc_cons (enc_ptr (f := Currency.toDen) (w := fun x => named x.XMLName "ORIGCURRENCY" (currencyContent x)) (fun _ => (currency_enc "ORIGCURRENCY" _))) (enc_cons enc_enum (enc_nil)))))))))))))))))))))))) rfl name om

theorem transactionList_enc {v : Ofx.TransactionList} (name : Str) (om : Bool) :
    TransactionList.ty.enc name om (TransactionList.toDen v) = .ok (element "BANKTRANLIST" (transactionListContent v)) :=
  enc_tag (enc_cons enc_always (enc_cons enc_always (enc_cons (enc_slice (f := Transaction.toDen) (w := fun x => element "STMTTRN" (transactionContent x)) (fun _ => (transaction_enc _ _))) (enc_nil)))) rfl name om

theorem pendingTransaction_enc {v : Ofx.PendingTransaction} (name : Str) (om : Bool) :
    PendingTransaction.ty.enc name om (PendingTransaction.toDen v) = .ok (element "STMTTRNP" (pendingTransactionContent v)) :=
  enc_tag (enc_cons enc_always (enc_cons enc_always (enc_cons (enc_ptr_leaf (w := fun x => always .date "DTEXPIRE" x) (fun _ => enc_always)) (enc_cons enc_always (enc_cons enc_str (enc_cons enc_str (enc_cons enc_str (enc_cons enc_str (enc_cons (enc_slice (f := ImageData.toDen) (w := fun x => element "IMAGEDATA" (imageDataContent x)) (fun _ => (imageData_enc _ _))) (enc_cons (currency_enc "CURRENCY" _) (enc_cons (currency_enc "ORIGCURRENCY" _) (enc_nil)))))))))))) rfl name om

theorem pendingTransactionList_enc {v : Ofx.PendingTransactionList} (name : Str) (om : Bool) :
    PendingTransactionList.ty.enc name om (PendingTransactionList.toDen v) = .ok (element "BANKTRANLISTP" (pendingTransactionListContent v)) :=
  enc_tag (enc_cons enc_always (enc_cons (enc_slice (f := PendingTransaction.toDen) (w := fun x => element "STMTTRNP" (pendingTransactionContent x)) (fun _ => (pendingTransaction_enc _ _))) (enc_nil))) rfl name om

theorem balance_enc {v : Ofx.Balance} (name : Str) (om : Bool) :
    Balance.ty.enc name om (Balance.toDen v) = .ok (element "BAL" (balanceContent v)) :=
  enc_tag (enc_cons enc_always (enc_cons enc_always (enc_cons enc_always (enc_cons enc_always (enc_cons (enc_ptr_leaf (w := fun x => always .date "DTASOF" x) (fun _ => enc_always)) (enc_cons (enc_ptr (f := Currency.toDen) (w := fun x => named x.XMLName "CURRENCY" (currencyContent x)) (fun _ => (currency_enc "CURRENCY" _))) (enc_nil))))))) rfl name om

theorem statementResponse_enc {v : Ofx.StatementResponse} (name : Str) (om : Bool) :
    StatementResponse.ty.enc name om (StatementResponse.toDen v) = .ok (element "STMTTRNRS" (statementResponseContent v)) :=
  enc_tag (enc_cons enc_always (enc_cons (status_enc _ _) (enc_cons enc_str (enc_cons enc_always (enc_cons (bankAcct_enc "BANKACCTFROM" _) (enc_cons (enc_ptr (f := TransactionList.toDen) (w := fun x => element "BANKTRANLIST" (transactionListContent x)) (fun _ => (transactionList_enc _ _))) (enc_cons (enc_ptr (f := PendingTransactionList.toDen) (w := fun x => element "BANKTRANLISTP" (pendingTransactionListContent x)) (fun _ => (pendingTransactionList_enc _ _))) (enc_cons enc_always (enc_cons enc_always (enc_cons (enc_ptr_leaf (w := fun x => always .amount "BALAMT" x) (fun _ => enc_always)) (enc_cons (enc_ptr_leaf (w := fun x => always .date "DTASOF" x) (fun _ => enc_always)) (enc_cons (enc_ptr_leaf (w := fun x => always .amount "CASHADVBALAMT" x) (fun _ => enc_always)) (enc_cons (enc_ptr_leaf (w := fun x => always .amount "INTRATE" x) (fun _ => enc_always)) (enc_cons (enc_slice (f := Balance.toDen) (w := fun x => element "BAL" (balanceContent x)) (fun _ => (balance_enc _ _))) (enc_cons enc_str (enc_nil)))))))))))))))) (by obtain ⟨f0, f1, f2, f3, f4, f5, f6, f7, f8, f9, f10, f11, f12, f13, f14⟩ := v; cases f9 <;> cases f10 <;> rfl) name om

theorem cCStatementRequest_enc {v : Ofx.CCStatementRequest} (name : Str) (om : Bool) :
    CCStatementRequest.ty.enc name om (CCStatementRequest.toDen v) = .ok (element "CCSTMTTRNRQ" (cCStatementRequestContent v)) :=
  enc_tag (enc_cons enc_always (enc_cons enc_str (enc_cons enc_str (enc_cons (cCAcct_enc "CCACCTFROM" _) (enc_cons (enc_ptr_leaf (w := fun x => always .date "DTSTART" x) (fun _ => enc_always)) (enc_cons (enc_ptr_leaf (w := fun x => always .date "DTEND" x) (fun _ => enc_always)) (enc_cons enc_always (enc_cons enc_bool (enc_cons enc_bool (enc_nil)))))))))) (by obtain ⟨f0, f1, f2, f3, f4, f5, f6, f7, f8⟩ := v; cases f4 <;> cases f5 <;> rfl) name om

set_option maxHeartbeats 2000000 in
theorem cCStatementResponse_enc {v : Ofx.CCStatementResponse} (name : Str) (om : Bool) :
    CCStatementResponse.ty.enc name om (CCStatementResponse.toDen v) = .ok (element "CCSTMTTRNRS" (cCStatementResponseContent v)) :=
  enc_tag (enc_cons enc_always (enc_cons (status_enc _ _) (enc_cons enc_str (enc_cons enc_always (enc_cons (cCAcct_enc "CCACCTFROM" _) (enc_cons (enc_ptr (f := TransactionList.toDen) (w := fun x => element "BANKTRANLIST" (transactionListContent x)) (fun _ => (transactionList_enc _ _))) (enc_cons enc_always (enc_cons enc_always (enc_cons (enc_ptr_leaf (w := fun x => always .amount "BALAMT" x) (fun _ => enc_always)) (enc_cons (enc_ptr_leaf (w := fun x => always .date "DTASOF" x) (fun _ => enc_always)) (enc_cons enc_amount (enc_cons enc_amount (enc_cons enc_amount (enc_cons enc_amount (enc_cons enc_str (enc_cons enc_amount (enc_cons enc_amount (enc_cons (enc_slice (f := Balance.toDen) (w := fun x => element "BAL" (balanceContent x)) (fun _ => (balance_enc _ _))) (enc_cons enc_str (enc_nil)))))))))))))))))))) (by obtain ⟨f0, f1, f2, f3, f4, f5, f6, f7, f8, f9, f10, f11, f12, f13, f14, f15, f16, f17, f18⟩ := v; cases f8 <;> cases f9 <;> rfl) name om

theorem signonRequest_enc {v : Ofx.SignonRequest} (name : Str) (om : Bool) :
    SignonRequest.ty.enc name om (SignonRequest.toDen v) = .ok (element "SONRQ" (signonRequestContent v)) :=
  enc_tag (enc_cons enc_always (enc_cons enc_always (enc_cons enc_str (enc_cons enc_str (enc_cons enc_bool (enc_cons enc_always (enc_cons enc_always (enc_cons enc_always (enc_cons enc_always (enc_cons enc_always (enc_cons enc_uid (enc_nil)))))))))))) rfl name om

theorem signonResponse_enc {v : Ofx.SignonResponse} (name : Str) (om : Bool) :
    SignonResponse.ty.enc name om (SignonResponse.toDen v) = .ok (element "SONRS" (signonResponseContent v)) :=
  enc_tag (enc_cons (status_enc _ _) (enc_cons enc_always (enc_cons enc_str (enc_cons (enc_ptr_leaf (w := fun x => always .date "TSKEYEXPIRE" x) (fun _ => enc_always)) (enc_cons enc_always (enc_cons (enc_ptr_leaf (w := fun x => always .date "DTPROFUP" x) (fun _ => enc_always)) (enc_cons (enc_ptr_leaf (w := fun x => always .date "DTACCTUP" x) (fun _ => enc_always)) (enc_cons enc_always (enc_cons enc_always (enc_cons enc_str (enc_cons enc_str (enc_nil)))))))))))) rfl name om

theorem acctInfoRequest_enc {v : Ofx.AcctInfoRequest} (name : Str) (om : Bool) :
    AcctInfoRequest.ty.enc name om (AcctInfoRequest.toDen v) = .ok (element "ACCTINFOTRNRQ" (acctInfoRequestContent v)) :=
  enc_tag (enc_cons enc_always (enc_cons enc_str (enc_cons enc_str (enc_cons enc_always (enc_nil))))) rfl name om

theorem holderInfo_enc {v : Ofx.HolderInfo} (name : String) (om : Bool) :
    HolderInfo.ty.enc name.toList om (HolderInfo.toDen v) = .ok (named v.XMLName name (holderInfoContent v)) :=
  enc_named (enc_cons enc_always (enc_cons enc_str (enc_cons enc_always (enc_cons enc_always (enc_cons enc_str (enc_cons enc_str (enc_cons enc_always (enc_cons enc_always (enc_cons enc_always (enc_cons enc_str (enc_cons enc_str (enc_cons enc_str (enc_cons enc_str (enc_cons enc_enum (enc_nil))))))))))))))) rfl name om

theorem bankAcctInfo_enc {v : Ofx.BankAcctInfo} (name : Str) (om : Bool) :
    BankAcctInfo.ty.enc name om (BankAcctInfo.toDen v) = .ok (element "BANKACCTINFO" (bankAcctInfoContent v)) :=
  enc_tag (enc_cons (bankAcct_enc "BANKACCTFROM" _) (enc_cons enc_always (enc_cons enc_always (enc_cons enc_always (enc_cons enc_date (enc_cons enc_amount (enc_cons enc_amount (enc_cons enc_enum (enc_cons enc_amount (enc_cons enc_always (enc_nil))))))))))) rfl name om

theorem cCAcctInfo_enc {v : Ofx.CCAcctInfo} (name : Str) (om : Bool) :
    CCAcctInfo.ty.enc name om (CCAcctInfo.toDen v) = .ok (element "CCACCTINFO" (cCAcctInfoContent v)) :=
  enc_tag (enc_cons (cCAcct_enc "CCACCTFROM" _) (enc_cons enc_always (enc_cons enc_always (enc_cons enc_always (enc_cons enc_enum (enc_cons enc_always (enc_nil))))))) rfl name om

theorem invAcctInfo_enc {v : Ofx.InvAcctInfo} (name : Str) (om : Bool) :
    InvAcctInfo.ty.enc name om (InvAcctInfo.toDen v) = .ok (element "INVACCTINFO" (invAcctInfoContent v)) :=
  enc_tag (enc_cons (invAcct_enc "INVACCTFROM" _) (enc_cons enc_always (enc_cons enc_always (enc_cons enc_always (enc_cons enc_enum (enc_cons enc_str (enc_nil))))))) rfl name om

theorem acctInfo_enc {v : Ofx.AcctInfo} (name : Str) (om : Bool) :
    AcctInfo.ty.enc name om (AcctInfo.toDen v) = .ok (element "ACCTINFO" (acctInfoContent v)) :=
  enc_tag (enc_cons enc_str (enc_cons enc_str (enc_cons enc_str (enc_cons (holderInfo_enc "PRIMARYHOLDER" _) (enc_cons (holderInfo_enc "SECONDARYHOLDER" _) (enc_cons (enc_ptr (f := BankAcctInfo.toDen) (w := fun x => element "BANKACCTINFO" (bankAcctInfoContent x)) (fun _ => (bankAcctInfo_enc _ _))) (enc_cons (enc_ptr (f := CCAcctInfo.toDen) (w := fun x => element "CCACCTINFO" (cCAcctInfoContent x)) (fun _ => (cCAcctInfo_enc _ _))) (enc_cons (enc_ptr (f := InvAcctInfo.toDen) (w := fun x => element "INVACCTINFO" (invAcctInfoContent x)) (fun _ => (invAcctInfo_enc _ _))) (enc_nil))))))))) rfl name om

theorem acctInfoResponse_enc {v : Ofx.AcctInfoResponse} (name : Str) (om : Bool) :
    AcctInfoResponse.ty.enc name om (AcctInfoResponse.toDen v) = .ok (element "ACCTINFOTRNRS" (acctInfoResponseContent v)) :=
  enc_tag (enc_cons enc_always (enc_cons (status_enc _ _) (enc_cons enc_str (enc_cons enc_always (enc_cons (enc_slice (f := AcctInfo.toDen) (w := fun x => element "ACCTINFO" (acctInfoContent x)) (fun _ => (acctInfo_enc _ _))) (enc_nil)))))) rfl name om

theorem profileRequest_enc {v : Ofx.ProfileRequest} (name : Str) (om : Bool) :
    ProfileRequest.ty.enc name om (ProfileRequest.toDen v) = .ok (element "PROFTRNRQ" (profileRequestContent v)) :=
  enc_tag (enc_cons enc_always (enc_cons enc_str (enc_cons enc_str (enc_cons enc_always (enc_cons enc_always (enc_nil)))))) rfl name om

theorem signonInfo_enc {v : Ofx.SignonInfo} (name : Str) (om : Bool) :
    SignonInfo.ty.enc name om (SignonInfo.toDen v) = .ok (element "SIGNONINFO" (signonInfoContent v)) :=
  enc_tag (enc_cons enc_always (enc_cons enc_always (enc_cons enc_always (enc_cons enc_always (enc_cons enc_always (enc_cons enc_always (enc_cons enc_always (enc_cons enc_always (enc_cons enc_always (enc_cons enc_str (enc_cons enc_str (enc_cons enc_bool (enc_cons enc_bool (enc_cons enc_str (enc_cons enc_str (enc_cons enc_bool (enc_cons enc_bool (enc_cons enc_bool (enc_nil))))))))))))))))))) rfl name om

theorem messageSet_enc (v : Ofx.MessageSet) :
    ∃ items, MessageSet.tagged.enc (MessageSet.toDen v).2.2 = .ok items ∧ emit MessageSet.tagged.depth items = messageSetContent v :=
  ⟨_, enc_cons enc_always (enc_cons enc_always (enc_cons enc_always (enc_cons enc_always (enc_cons enc_always (enc_cons (enc_slice_leaf (w := fun x => always .str "LANGUAGE" x) (fun _ => enc_always)) (enc_cons enc_always (enc_cons enc_bool (enc_cons enc_always (enc_cons enc_always (enc_nil)))))))))), rfl⟩

theorem profileResponse_enc {v : Ofx.ProfileResponse} (h : ∀ s ∈ v.MessageSetList, ∃ short, short ≠ [] ∧ s.Name = short ++ "V1".toList) (name : Str) (om : Bool) :
    ProfileResponse.ty.enc name om (ProfileResponse.toDen v) = .ok (element "PROFTRNRS" (profileResponseContent v)) :=
  enc_tag (enc_cons enc_always (enc_cons (status_enc _ _) (enc_cons enc_str (enc_cons (enc_sets (f := MessageSet.toDen) (nm := fun x => x.Name) (w := messageSetContent) (fun _ => rfl) messageSet_enc h _) (enc_cons (enc_slice (f := SignonInfo.toDen) (w := fun x => element "SIGNONINFO" (signonInfoContent x)) (fun _ => (signonInfo_enc _ _))) (enc_cons enc_always (enc_cons enc_always (enc_cons enc_always (enc_cons enc_str (enc_cons enc_str (enc_cons enc_always (enc_cons enc_always (enc_cons enc_always (enc_cons enc_always (enc_cons enc_str (enc_cons enc_str (enc_cons enc_str (enc_cons enc_str (enc_cons enc_str (enc_nil)))))))))))))))))))) rfl name om

theorem securityID_enc {v : Ofx.SecurityID} (name : Str) (om : Bool) :
    SecurityID.ty.enc name om (SecurityID.toDen v) = .ok (element "SECID" (securityIDContent v)) :=
  enc_tag (enc_cons enc_always (enc_cons enc_always (enc_nil))) rfl name om

theorem securityRequest_enc {v : Ofx.SecurityRequest} (name : Str) (om : Bool) :
    SecurityRequest.ty.enc name om (SecurityRequest.toDen v) = .ok (element "SECRQ" (securityRequestContent v)) :=
  enc_tag (enc_cons (enc_ptr (f := SecurityID.toDen) (w := fun x => element "SECID" (securityIDContent x)) (fun _ => (securityID_enc _ _))) (enc_cons enc_str (enc_cons enc_str (enc_nil)))) rfl name om

theorem secListRequest_enc {v : Ofx.SecListRequest} (name : Str) (om : Bool) :
    SecListRequest.ty.enc name om (SecListRequest.toDen v) = .ok (element "SECLISTTRNRQ" (secListRequestContent v)) :=
  enc_tag (enc_cons enc_always (enc_cons enc_str (enc_cons enc_str (enc_cons (enc_slice (f := SecurityRequest.toDen) (w := fun x => element "SECRQ" (securityRequestContent x)) (fun _ => (securityRequest_enc _ _))) (enc_nil))))) rfl name om

theorem secListResponse_enc {v : Ofx.SecListResponse} (name : Str) (om : Bool) :
    SecListResponse.ty.enc name om (SecListResponse.toDen v) = .ok (element "SECLISTTRNRS" (secListResponseContent v)) :=
  enc_tag (enc_cons enc_always (enc_cons (status_enc _ _) (enc_cons enc_str (enc_nil)))) rfl name om

theorem secInfo_enc {v : Ofx.SecInfo} (name : Str) (om : Bool) :
    SecInfo.ty.enc name om (SecInfo.toDen v) = .ok (element "SECINFO" (secInfoContent v)) :=
  enc_tag (enc_cons (securityID_enc _ _) (enc_cons enc_always (enc_cons enc_str (enc_cons enc_str (enc_cons enc_str (enc_cons enc_amount (enc_cons (enc_ptr_leaf (w := fun x => always .date "DTASOF" x) (fun _ => enc_always)) (enc_cons (enc_ptr (f := Currency.toDen) (w := fun x => named x.XMLName "CURRENCY" (currencyContent x)) (fun _ => (currency_enc "CURRENCY" _))) (enc_cons enc_str (enc_nil)))))))))) rfl name om

theorem debtInfo_enc {v : Ofx.DebtInfo} (name : Str) (om : Bool) :
    DebtInfo.ty.enc name om (DebtInfo.toDen v) = .ok (element "DEBTINFO" (debtInfoContent v)) :=
  enc_tag (enc_cons (secInfo_enc _ _) (enc_cons enc_always (enc_cons enc_always (enc_cons enc_enum (enc_cons enc_amount (enc_cons (enc_ptr_leaf (w := fun x => always .date "DTCOUPON" x) (fun _ => enc_always)) (enc_cons enc_enum (enc_cons enc_amount (enc_cons enc_amount (enc_cons (enc_ptr_leaf (w := fun x => always .date "DTCALL" x) (fun _ => enc_always)) (enc_cons enc_always (enc_cons enc_amount (enc_cons (enc_ptr_leaf (w := fun x => always .date "DTMAT" x) (fun _ => enc_always)) (enc_cons enc_enum (enc_cons enc_str (enc_nil)))))))))))))))) rfl name om

theorem assetPortion_enc {v : Ofx.AssetPortion} (name : Str) (om : Bool) :
    AssetPortion.ty.enc name om (AssetPortion.toDen v) = .ok (element "PORTION" (assetPortionContent v)) :=
  enc_tag (enc_cons enc_always (enc_cons enc_always (enc_nil))) rfl name om

theorem fiAssetPortion_enc {v : Ofx.FiAssetPortion} (name : Str) (om : Bool) :
    FiAssetPortion.ty.enc name om (FiAssetPortion.toDen v) = .ok (element "FIPORTION" (fiAssetPortionContent v)) :=
  enc_tag (enc_cons enc_str (enc_cons enc_always (enc_nil))) rfl name om

theorem mFInfo_enc {v : Ofx.MFInfo} (name : Str) (om : Bool) :
    MFInfo.ty.enc name om (MFInfo.toDen v) = .ok (element "MFINFO" (mFInfoContent v)) :=
  enc_tag (enc_cons (secInfo_enc _ _) (enc_cons enc_always (enc_cons enc_amount (enc_cons (enc_ptr_leaf (w := fun x => always .date "DTYIELDASOF" x) (fun _ => enc_always)) (enc_cons (enc_slice (f := AssetPortion.toDen) (w := fun x => element "PORTION" (assetPortionContent x)) (fun _ => (assetPortion_enc _ _))) (enc_cons (enc_slice (f := FiAssetPortion.toDen) (w := fun x => element "FIPORTION" (fiAssetPortionContent x)) (fun _ => (fiAssetPortion_enc _ _))) (enc_nil))))))) rfl name om

theorem optInfo_enc {v : Ofx.OptInfo} (name : Str) (om : Bool) :
    OptInfo.ty.enc name om (OptInfo.toDen v) = .ok (element "OPTINFO" (optInfoContent v)) :=
  enc_tag (enc_cons (secInfo_enc _ _) (enc_cons enc_always (enc_cons enc_always (enc_cons enc_always (enc_cons enc_always (enc_cons (enc_ptr (f := SecurityID.toDen) (w := fun x => element "SECID" (securityIDContent x)) (fun _ => (securityID_enc _ _))) (enc_cons enc_enum (enc_cons enc_str (enc_nil))))))))) rfl name om

theorem otherInfo_enc {v : Ofx.OtherInfo} (name : Str) (om : Bool) :
    OtherInfo.ty.enc name om (OtherInfo.toDen v) = .ok (element "OTHERINFO" (otherInfoContent v)) :=
  enc_tag (enc_cons (secInfo_enc _ _) (enc_cons enc_str (enc_cons enc_enum (enc_cons enc_str (enc_nil))))) rfl name om

theorem stockInfo_enc {v : Ofx.StockInfo} (name : Str) (om : Bool) :
    StockInfo.ty.enc name om (StockInfo.toDen v) = .ok (element "STOCKINFO" (stockInfoContent v)) :=
  enc_tag (enc_cons (secInfo_enc _ _) (enc_cons enc_enum (enc_cons enc_amount (enc_cons (enc_ptr_leaf (w := fun x => always .date "DTYIELDASOF" x) (fun _ => enc_always)) (enc_cons enc_enum (enc_cons enc_str (enc_nil))))))) rfl name om

theorem security_enc {v : Ofx.Security} : Security.alts.enc (Security.toDen v) = .ok (securityXml v) := by
  cases v with
  | debtInfo v => exact alt_first (debtInfo_enc _ _)
  | mfInfo v => exact alt_next (alt_first (mFInfo_enc _ _))
  | optInfo v => exact alt_next (alt_next (alt_first (optInfo_enc _ _)))
  | otherInfo v => exact alt_next (alt_next (alt_next (alt_first (otherInfo_enc _ _))))
  | stockInfo v => exact alt_next (alt_next (alt_next (alt_next (alt_first (stockInfo_enc _ _)))))

theorem securityList_enc {v : Ofx.SecurityList} (name : Str) (om : Bool) :
    SecurityList.ty.enc name om (SecurityList.toDen v) = .ok (element "SECLIST" (securityListContent v)) :=
  enc_closed (enc_alts (f := Security.toDen) (w := securityXml) (fun _ => security_enc) enc_nil) (List.append_nil _) name om

theorem invStatementRequest_enc {v : Ofx.InvStatementRequest} (name : Str) (om : Bool) :
    InvStatementRequest.ty.enc name om (InvStatementRequest.toDen v) = .ok (element "INVSTMTTRNRQ" (invStatementRequestContent v)) :=
  enc_tag (enc_cons enc_always (enc_cons enc_str (enc_cons enc_str (enc_cons (invAcct_enc "INVACCTFROM" _) (enc_cons (enc_ptr_leaf (w := fun x => always .date "DTSTART" x) (fun _ => enc_always)) (enc_cons (enc_ptr_leaf (w := fun x => always .date "DTEND" x) (fun _ => enc_always)) (enc_cons enc_always (enc_cons enc_always (enc_cons (enc_ptr_leaf (w := fun x => always .date "DTASOF" x) (fun _ => enc_always)) (enc_cons enc_always (enc_cons enc_always (enc_cons enc_bool (enc_cons enc_bool (enc_cons enc_bool (enc_nil))))))))))))))) (by obtain ⟨f0, f1, f2, f3, f4, f5, f6, f7, f8, f9, f10, f11, f12, f13⟩ := v; cases f4 <;> cases f5 <;> cases f8 <;> rfl) name om

theorem invTran_enc {v : Ofx.InvTran} (name : Str) (om : Bool) :
    InvTran.ty.enc name om (InvTran.toDen v) = .ok (element "INVTRAN" (invTranContent v)) :=
  enc_tag (enc_cons enc_always (enc_cons enc_str (enc_cons enc_always (enc_cons (enc_ptr_leaf (w := fun x => always .date "DTSETTLE" x) (fun _ => enc_always)) (enc_cons enc_str (enc_cons enc_str (enc_nil))))))) rfl name om

theorem invBuy_enc {v : Ofx.InvBuy} (name : Str) (om : Bool) :
    InvBuy.ty.enc name om (InvBuy.toDen v) = .ok (element "INVBUY" (invBuyContent v)) :=
  enc_tag (enc_cons (invTran_enc _ _) (enc_cons (securityID_enc _ _) (enc_cons enc_always (enc_cons enc_always (enc_cons enc_amount (enc_cons enc_amount (enc_cons enc_amount (enc_cons enc_amount (enc_cons enc_amount (enc_cons enc_always (enc_cons (currency_enc "CURRENCY" _) (enc_cons (currency_enc "ORIGCURRENCY" _) (enc_cons enc_always (enc_cons enc_always (enc_cons enc_str (enc_cons enc_amount (enc_cons enc_amount (enc_cons enc_enum (enc_cons (enc_ptr_leaf (w := fun x => always .date "DTPAYROLL" x) (fun _ => enc_always)) (enc_cons enc_bool (enc_nil))))))))))))))))))))) rfl name om

theorem invSell_enc {v : Ofx.InvSell} (name : Str) (om : Bool) :
    InvSell.ty.enc name om (InvSell.toDen v) = .ok (element "INVSELL" (invSellContent v)) :=
  enc_tag (enc_cons (invTran_enc _ _) (enc_cons (securityID_enc _ _) (enc_cons enc_always (enc_cons enc_always (enc_cons enc_amount (enc_cons enc_amount (enc_cons enc_amount (enc_cons enc_amount (enc_cons enc_amount (enc_cons enc_amount (enc_cons enc_bool (enc_cons enc_always (enc_cons enc_amount (enc_cons (currency_enc "CURRENCY" _) (enc_cons (currency_enc "ORIGCURRENCY" _) (enc_cons enc_always (enc_cons enc_always (enc_cons enc_str (enc_cons enc_amount (enc_cons enc_amount (enc_cons enc_enum (enc_nil)))))))))))))))))))))) rfl name om

theorem buyDebt_enc {v : Ofx.BuyDebt} (name : Str) (om : Bool) :
    BuyDebt.ty.enc name om (BuyDebt.toDen v) = .ok (element "BUYDEBT" (buyDebtContent v)) :=
  enc_tag (enc_cons (invBuy_enc _ _) (enc_cons enc_amount (enc_nil))) rfl name om

theorem buyMF_enc {v : Ofx.BuyMF} (name : Str) (om : Bool) :
    BuyMF.ty.enc name om (BuyMF.toDen v) = .ok (element "BUYMF" (buyMFContent v)) :=
  enc_tag (enc_cons (invBuy_enc _ _) (enc_cons enc_always (enc_cons enc_str (enc_nil)))) rfl name om

theorem buyOpt_enc {v : Ofx.BuyOpt} (name : Str) (om : Bool) :
    BuyOpt.ty.enc name om (BuyOpt.toDen v) = .ok (element "BUYOPT" (buyOptContent v)) :=
  enc_tag (enc_cons (invBuy_enc _ _) (enc_cons enc_always (enc_cons enc_always (enc_nil)))) rfl name om

theorem buyOther_enc {v : Ofx.BuyOther} (name : Str) (om : Bool) :
    BuyOther.ty.enc name om (BuyOther.toDen v) = .ok (element "BUYOTHER" (buyOtherContent v)) :=
  enc_tag (enc_cons (invBuy_enc _ _) (enc_nil)) rfl name om

theorem buyStock_enc {v : Ofx.BuyStock} (name : Str) (om : Bool) :
    BuyStock.ty.enc name om (BuyStock.toDen v) = .ok (element "BUYSTOCK" (buyStockContent v)) :=
  enc_tag (enc_cons (invBuy_enc _ _) (enc_cons enc_always (enc_nil))) rfl name om

theorem closureOpt_enc {v : Ofx.ClosureOpt} (name : Str) (om : Bool) :
    ClosureOpt.ty.enc name om (ClosureOpt.toDen v) = .ok (element "CLOSUREOPT" (closureOptContent v)) :=
  enc_tag (enc_cons (invTran_enc _ _) (enc_cons (securityID_enc _ _) (enc_cons enc_always (enc_cons enc_always (enc_cons enc_always (enc_cons enc_always (enc_cons enc_str (enc_cons enc_amount (enc_nil))))))))) rfl name om

theorem income_enc {v : Ofx.Income} (name : Str) (om : Bool) :
    Income.ty.enc name om (Income.toDen v) = .ok (element "INCOME" (incomeContent v)) :=
  enc_tag (enc_cons (invTran_enc _ _) (enc_cons (securityID_enc _ _) (enc_cons enc_always (enc_cons enc_always (enc_cons enc_always (enc_cons enc_always (enc_cons enc_bool (enc_cons enc_amount (enc_cons (currency_enc "CURRENCY" _) (enc_cons (currency_enc "ORIGCURRENCY" _) (enc_cons enc_enum (enc_nil)))))))))))) rfl name om

theorem invExpense_enc {v : Ofx.InvExpense} (name : Str) (om : Bool) :
    InvExpense.ty.enc name om (InvExpense.toDen v) = .ok (element "INVEXPENSE" (invExpenseContent v)) :=
  enc_tag (enc_cons (invTran_enc _ _) (enc_cons (securityID_enc _ _) (enc_cons enc_always (enc_cons enc_always (enc_cons enc_always (enc_cons (currency_enc "CURRENCY" _) (enc_cons (currency_enc "ORIGCURRENCY" _) (enc_cons enc_enum (enc_nil))))))))) rfl name om

theorem jrnlFund_enc {v : Ofx.JrnlFund} (name : Str) (om : Bool) :
    JrnlFund.ty.enc name om (JrnlFund.toDen v) = .ok (element "JRNLFUND" (jrnlFundContent v)) :=
  enc_tag (enc_cons (invTran_enc _ _) (enc_cons enc_always (enc_cons enc_always (enc_cons enc_always (enc_nil))))) rfl name om

theorem jrnlSec_enc {v : Ofx.JrnlSec} (name : Str) (om : Bool) :
    JrnlSec.ty.enc name om (JrnlSec.toDen v) = .ok (element "JRNLSEC" (jrnlSecContent v)) :=
  enc_tag (enc_cons (invTran_enc _ _) (enc_cons (securityID_enc _ _) (enc_cons enc_always (enc_cons enc_always (enc_cons enc_always (enc_nil)))))) rfl name om

theorem marginInterest_enc {v : Ofx.MarginInterest} (name : Str) (om : Bool) :
    MarginInterest.ty.enc name om (MarginInterest.toDen v) = .ok (element "MARGININTEREST" (marginInterestContent v)) :=
  enc_tag (enc_cons (invTran_enc _ _) (enc_cons enc_always (enc_cons enc_always (enc_cons (currency_enc "CURRENCY" _) (enc_cons (currency_enc "ORIGCURRENCY" _) (enc_nil)))))) rfl name om

theorem reinvest_enc {v : Ofx.Reinvest} (name : Str) (om : Bool) :
    Reinvest.ty.enc name om (Reinvest.toDen v) = .ok (element "REINVEST" (reinvestContent v)) :=
  enc_tag (enc_cons (invTran_enc _ _) (enc_cons (securityID_enc _ _) (enc_cons enc_always (enc_cons enc_always (enc_cons enc_always (enc_cons enc_always (enc_cons enc_always (enc_cons enc_amount (enc_cons enc_amount (enc_cons enc_amount (enc_cons enc_amount (enc_cons enc_bool (enc_cons (currency_enc "CURRENCY" _) (enc_cons (currency_enc "ORIGCURRENCY" _) (enc_cons enc_enum (enc_nil)))))))))))))))) rfl name om

theorem retOfCap_enc {v : Ofx.RetOfCap} (name : Str) (om : Bool) :
    RetOfCap.ty.enc name om (RetOfCap.toDen v) = .ok (element "RETOFCAP" (retOfCapContent v)) :=
  enc_tag (enc_cons (invTran_enc _ _) (enc_cons (securityID_enc _ _) (enc_cons enc_always (enc_cons enc_always (enc_cons enc_always (enc_cons (currency_enc "CURRENCY" _) (enc_cons (currency_enc "ORIGCURRENCY" _) (enc_cons enc_enum (enc_nil))))))))) rfl name om

theorem sellDebt_enc {v : Ofx.SellDebt} (name : Str) (om : Bool) :
    SellDebt.ty.enc name om (SellDebt.toDen v) = .ok (element "SELLDEBT" (sellDebtContent v)) :=
  enc_tag (enc_cons (invSell_enc _ _) (enc_cons enc_always (enc_cons enc_amount (enc_nil)))) rfl name om

theorem sellMF_enc {v : Ofx.SellMF} (name : Str) (om : Bool) :
    SellMF.ty.enc name om (SellMF.toDen v) = .ok (element "SELLMF" (sellMFContent v)) :=
  enc_tag (enc_cons (invSell_enc _ _) (enc_cons enc_always (enc_cons enc_always (enc_cons enc_str (enc_nil))))) rfl name om

theorem sellOpt_enc {v : Ofx.SellOpt} (name : Str) (om : Bool) :
    SellOpt.ty.enc name om (SellOpt.toDen v) = .ok (element "SELLOPT" (sellOptContent v)) :=
  enc_tag (enc_cons (invSell_enc _ _) (enc_cons enc_always (enc_cons enc_always (enc_cons enc_str (enc_cons enc_enum (enc_cons enc_enum (enc_nil))))))) rfl name om

theorem sellOther_enc {v : Ofx.SellOther} (name : Str) (om : Bool) :
    SellOther.ty.enc name om (SellOther.toDen v) = .ok (element "SELLOTHER" (sellOtherContent v)) :=
  enc_tag (enc_cons (invSell_enc _ _) (enc_nil)) rfl name om

theorem sellStock_enc {v : Ofx.SellStock} (name : Str) (om : Bool) :
    SellStock.ty.enc name om (SellStock.toDen v) = .ok (element "SELLSTOCK" (sellStockContent v)) :=
  enc_tag (enc_cons (invSell_enc _ _) (enc_cons enc_always (enc_nil))) rfl name om

theorem split_enc {v : Ofx.Split} (name : Str) (om : Bool) :
    Split.ty.enc name om (Split.toDen v) = .ok (element "SPLIT" (splitContent v)) :=
  enc_tag (enc_cons (invTran_enc _ _) (enc_cons (securityID_enc _ _) (enc_cons enc_always (enc_cons enc_always (enc_cons enc_always (enc_cons enc_always (enc_cons enc_always (enc_cons (currency_enc "CURRENCY" _) (enc_cons (currency_enc "ORIGCURRENCY" _) (enc_cons enc_amount (enc_cons enc_enum (enc_cons enc_enum (enc_nil))))))))))))) rfl name om

theorem transfer_enc {v : Ofx.Transfer} (name : Str) (om : Bool) :
    Transfer.ty.enc name om (Transfer.toDen v) = .ok (element "TRANSFER" (transferContent v)) :=
  enc_tag (enc_cons (invTran_enc _ _) (enc_cons (securityID_enc _ _) (enc_cons enc_always (enc_cons enc_always (enc_cons enc_always (enc_cons enc_always (enc_cons (invAcct_enc "INVACCTFROM" _) (enc_cons enc_amount (enc_cons enc_amount (enc_cons (enc_ptr_leaf (w := fun x => always .date "DTPURCHASE" x) (fun _ => enc_always)) (enc_cons enc_enum (enc_nil)))))))))))) rfl name om

theorem invBankTransaction_enc {v : Ofx.InvBankTransaction} (name : Str) (om : Bool) :
    InvBankTransaction.ty.enc name om (InvBankTransaction.toDen v) = .ok (element "INVBANKTRAN" (invBankTransactionContent v)) :=
  enc_tag (enc_cons (enc_slice (f := Transaction.toDen) (w := fun x => element "STMTTRN" (transactionContent x)) (fun _ => (transaction_enc _ _))) (enc_cons enc_always (enc_nil))) rfl name om

theorem invTransaction_enc {v : Ofx.InvTransaction} : InvTransaction.alts.enc (InvTransaction.toDen v) = .ok (invTransactionXml v) := by
  cases v with
  | buyDebt v => exact alt_first (buyDebt_enc _ _)
  | buyMF v => exact alt_next (alt_first (buyMF_enc _ _))
  | buyOpt v => exact alt_next (alt_next (alt_first (buyOpt_enc _ _)))
  | buyOther v => exact alt_next (alt_next (alt_next (alt_first (buyOther_enc _ _))))
  | buyStock v => exact alt_next (alt_next (alt_next (alt_next (alt_first (buyStock_enc _ _)))))
  | closureOpt v => exact alt_next (alt_next (alt_next (alt_next (alt_next (alt_first (closureOpt_enc _ _))))))
  | income v => exact alt_next (alt_next (alt_next (alt_next (alt_next (alt_next (alt_first (income_enc _ _)))))))
  | invExpense v => exact alt_next (alt_next (alt_next (alt_next (alt_next (alt_next (alt_next (alt_first (invExpense_enc _ _))))))))
  | jrnlFund v => exact alt_next (alt_next (alt_next (alt_next (alt_next (alt_next (alt_next (alt_next (alt_first (jrnlFund_enc _ _)))))))))
  | jrnlSec v => exact alt_next (alt_next (alt_next (alt_next (alt_next (alt_next (alt_next (alt_next (alt_next (alt_first (jrnlSec_enc _ _))))))))))
  | marginInterest v => exact alt_next (alt_next (alt_next (alt_next (alt_next (alt_next (alt_next (alt_next (alt_next (alt_next (alt_first (marginInterest_enc _ _)))))))))))
  | reinvest v => exact alt_next (alt_next (alt_next (alt_next (alt_next (alt_next (alt_next (alt_next (alt_next (alt_next (alt_next (alt_first (reinvest_enc _ _))))))))))))
  | retOfCap v => exact alt_next (alt_next (alt_next (alt_next (alt_next (alt_next (alt_next (alt_next (alt_next (alt_next (alt_next (alt_next (alt_first (retOfCap_enc _ _)))))))))))))
  | sellDebt v => exact alt_next (alt_next (alt_next (alt_next (alt_next (alt_next (alt_next (alt_next (alt_next (alt_next (alt_next (alt_next (alt_next (alt_first (sellDebt_enc _ _))))))))))))))
  | sellMF v => exact alt_next (alt_next (alt_next (alt_next (alt_next (alt_next (alt_next (alt_next (alt_next (alt_next (alt_next (alt_next (alt_next (alt_next (alt_first (sellMF_enc _ _)))))))))))))))
  | sellOpt v => exact alt_next (alt_next (alt_next (alt_next (alt_next (alt_next (alt_next (alt_next (alt_next (alt_next (alt_next (alt_next (alt_next (alt_next (alt_next (alt_first (sellOpt_enc _ _))))))))))))))))
  | sellOther v => exact alt_next (alt_next (alt_next (alt_next (alt_next (alt_next (alt_next (alt_next (alt_next (alt_next (alt_next (alt_next (alt_next (alt_next (alt_next (alt_next (alt_first (sellOther_enc _ _)))))))))))))))))
  | sellStock v => exact alt_next (alt_next (alt_next (alt_next (alt_next (alt_next (alt_next (alt_next (alt_next (alt_next (alt_next (alt_next (alt_next (alt_next (alt_next (alt_next (alt_next (alt_first (sellStock_enc _ _))))))))))))))))))
  | split v => exact alt_next (alt_next (alt_next (alt_next (alt_next (alt_next (alt_next (alt_next (alt_next (alt_next (alt_next (alt_next (alt_next (alt_next (alt_next (alt_next (alt_next (alt_next (alt_first (split_enc _ _)))))))))))))))))))
  | transfer v => exact alt_next (alt_next (alt_next (alt_next (alt_next (alt_next (alt_next (alt_next (alt_next (alt_next (alt_next (alt_next (alt_next (alt_next (alt_next (alt_next (alt_next (alt_next (alt_next (alt_first (transfer_enc _ _))))))))))))))))))))

theorem invTranList_enc {v : Ofx.InvTranList} (name : Str) (om : Bool) :
    InvTranList.ty.enc name om (InvTranList.toDen v) = .ok (element "INVTRANLIST" (invTranListContent v)) :=
  enc_closed (enc_cons enc_always (enc_cons enc_always (enc_alts (f := InvTransaction.toDen) (w := invTransactionXml) (fun _ => invTransaction_enc) (enc_cons (enc_slice (f := InvBankTransaction.toDen) (w := fun x => element "INVBANKTRAN" (invBankTransactionContent x)) (fun _ => (invBankTransaction_enc _ _))) enc_nil)))) rfl name om

theorem invPosition_enc {v : Ofx.InvPosition} (name : Str) (om : Bool) :
    InvPosition.ty.enc name om (InvPosition.toDen v) = .ok (element "INVPOS" (invPositionContent v)) :=
  enc_tag (enc_cons (securityID_enc _ _) (enc_cons enc_always (enc_cons enc_always (enc_cons enc_always (enc_cons enc_always (enc_cons enc_always (enc_cons enc_amount (enc_cons enc_always (enc_cons (enc_ptr (f := Currency.toDen) (w := fun x => named x.XMLName "CURRENCY" (currencyContent x)) (fun _ => (currency_enc "CURRENCY" _))) (enc_cons enc_str (enc_cons enc_enum (enc_nil)))))))))))) rfl name om

theorem debtPosition_enc {v : Ofx.DebtPosition} (name : Str) (om : Bool) :
    DebtPosition.ty.enc name om (DebtPosition.toDen v) = .ok (element "POSDEBT" (debtPositionContent v)) :=
  enc_tag (enc_cons (invPosition_enc _ _) (enc_nil)) rfl name om

theorem mFPosition_enc {v : Ofx.MFPosition} (name : Str) (om : Bool) :
    MFPosition.ty.enc name om (MFPosition.toDen v) = .ok (element "POSMF" (mFPositionContent v)) :=
  enc_tag (enc_cons (invPosition_enc _ _) (enc_cons enc_amount (enc_cons enc_amount (enc_cons enc_bool (enc_cons enc_bool (enc_nil)))))) rfl name om

theorem optPosition_enc {v : Ofx.OptPosition} (name : Str) (om : Bool) :
    OptPosition.ty.enc name om (OptPosition.toDen v) = .ok (element "POSOPT" (optPositionContent v)) :=
  enc_tag (enc_cons (invPosition_enc _ _) (enc_cons enc_enum (enc_nil))) rfl name om

theorem otherPosition_enc {v : Ofx.OtherPosition} (name : Str) (om : Bool) :
    OtherPosition.ty.enc name om (OtherPosition.toDen v) = .ok (element "POSOTHER" (otherPositionContent v)) :=
  enc_tag (enc_cons (invPosition_enc _ _) (enc_nil)) rfl name om

theorem stockPosition_enc {v : Ofx.StockPosition} (name : Str) (om : Bool) :
    StockPosition.ty.enc name om (StockPosition.toDen v) = .ok (element "POSSTOCK" (stockPositionContent v)) :=
  enc_tag (enc_cons (invPosition_enc _ _) (enc_cons enc_amount (enc_cons enc_amount (enc_cons enc_bool (enc_nil))))) rfl name om

theorem invBalance_enc {v : Ofx.InvBalance} (name : Str) (om : Bool) :
    InvBalance.ty.enc name om (InvBalance.toDen v) = .ok (element "INVBAL" (invBalanceContent v)) :=
  enc_tag (enc_cons enc_always (enc_cons enc_always (enc_cons enc_always (enc_cons enc_amount (enc_cons (enc_slice (f := Balance.toDen) (w := fun x => element "BAL" (balanceContent x)) (fun _ => (balance_enc _ _))) (enc_nil)))))) rfl name om

theorem oO_enc {v : Ofx.OO} (name : Str) (om : Bool) :
    OO.ty.enc name om (OO.toDen v) = .ok (element "OO" (oOContent v)) :=
  enc_tag (enc_cons enc_always (enc_cons enc_str (enc_cons (securityID_enc _ _) (enc_cons enc_always (enc_cons enc_always (enc_cons enc_always (enc_cons enc_always (enc_cons enc_always (enc_cons enc_amount (enc_cons enc_amount (enc_cons enc_amount (enc_cons enc_str (enc_cons (enc_ptr (f := Currency.toDen) (w := fun x => named x.XMLName "CURRENCY" (currencyContent x)) (fun _ => (currency_enc "CURRENCY" _))) (enc_cons enc_enum (enc_nil))))))))))))))) rfl name om

theorem oOBuyDebt_enc {v : Ofx.OOBuyDebt} (name : Str) (om : Bool) :
    OOBuyDebt.ty.enc name om (OOBuyDebt.toDen v) = .ok (element "OOBUYDEBT" (oOBuyDebtContent v)) :=
  enc_tag (enc_cons (oO_enc _ _) (enc_cons enc_always (enc_cons (enc_ptr_leaf (w := fun x => always .date "DTAUCTION" x) (fun _ => enc_always)) (enc_nil)))) rfl name om

theorem oOBuyMF_enc {v : Ofx.OOBuyMF} (name : Str) (om : Bool) :
    OOBuyMF.ty.enc name om (OOBuyMF.toDen v) = .ok (element "OOBUYMF" (oOBuyMFContent v)) :=
  enc_tag (enc_cons (oO_enc _ _) (enc_cons enc_always (enc_cons enc_always (enc_nil)))) rfl name om

theorem oOBuyOpt_enc {v : Ofx.OOBuyOpt} (name : Str) (om : Bool) :
    OOBuyOpt.ty.enc name om (OOBuyOpt.toDen v) = .ok (element "OOBUYOPT" (oOBuyOptContent v)) :=
  enc_tag (enc_cons (oO_enc _ _) (enc_cons enc_always (enc_nil))) rfl name om

theorem oOBuyOther_enc {v : Ofx.OOBuyOther} (name : Str) (om : Bool) :
    OOBuyOther.ty.enc name om (OOBuyOther.toDen v) = .ok (element "OOBUYOTHER" (oOBuyOtherContent v)) :=
  enc_tag (enc_cons (oO_enc _ _) (enc_cons enc_always (enc_nil))) rfl name om

theorem oOBuyStock_enc {v : Ofx.OOBuyStock} (name : Str) (om : Bool) :
    OOBuyStock.ty.enc name om (OOBuyStock.toDen v) = .ok (element "OOBUYSTOCK" (oOBuyStockContent v)) :=
  enc_tag (enc_cons (oO_enc _ _) (enc_cons enc_always (enc_nil))) rfl name om

theorem oOSellDebt_enc {v : Ofx.OOSellDebt} (name : Str) (om : Bool) :
    OOSellDebt.ty.enc name om (OOSellDebt.toDen v) = .ok (element "OOSELLDEBT" (oOSellDebtContent v)) :=
  enc_tag (enc_cons (oO_enc _ _) (enc_nil)) rfl name om

theorem oOSellMF_enc {v : Ofx.OOSellMF} (name : Str) (om : Bool) :
    OOSellMF.ty.enc name om (OOSellMF.toDen v) = .ok (element "OOSELLMF" (oOSellMFContent v)) :=
  enc_tag (enc_cons (oO_enc _ _) (enc_cons enc_always (enc_cons enc_always (enc_cons enc_always (enc_nil))))) rfl name om

theorem oOSellOpt_enc {v : Ofx.OOSellOpt} (name : Str) (om : Bool) :
    OOSellOpt.ty.enc name om (OOSellOpt.toDen v) = .ok (element "OOSELLOPT" (oOSellOptContent v)) :=
  enc_tag (enc_cons (oO_enc _ _) (enc_cons enc_always (enc_nil))) rfl name om

theorem oOSellOther_enc {v : Ofx.OOSellOther} (name : Str) (om : Bool) :
    OOSellOther.ty.enc name om (OOSellOther.toDen v) = .ok (element "OOSELLOTHER" (oOSellOtherContent v)) :=
  enc_tag (enc_cons (oO_enc _ _) (enc_cons enc_always (enc_nil))) rfl name om

theorem oOSellStock_enc {v : Ofx.OOSellStock} (name : Str) (om : Bool) :
    OOSellStock.ty.enc name om (OOSellStock.toDen v) = .ok (element "OOSELLSTOCK" (oOSellStockContent v)) :=
  enc_tag (enc_cons (oO_enc _ _) (enc_cons enc_always (enc_nil))) rfl name om

theorem oOSwitchMF_enc {v : Ofx.OOSwitchMF} (name : Str) (om : Bool) :
    OOSwitchMF.ty.enc name om (OOSwitchMF.toDen v) = .ok (element "SWITCHMF" (oOSwitchMFContent v)) :=
  enc_tag (enc_cons (oO_enc _ _) (enc_cons (securityID_enc _ _) (enc_cons enc_always (enc_cons enc_always (enc_nil))))) rfl name om

theorem contribSecurity_enc {v : Ofx.ContribSecurity} (name : Str) (om : Bool) :
    ContribSecurity.ty.enc name om (ContribSecurity.toDen v) = .ok (element "CONTRIBSECURITY" (contribSecurityContent v)) :=
  enc_tag (enc_cons (securityID_enc _ _) (enc_cons enc_amount (enc_cons enc_amount (enc_cons enc_amount (enc_cons enc_amount (enc_cons enc_amount (enc_cons enc_amount (enc_cons enc_amount (enc_cons enc_amount (enc_cons enc_amount (enc_cons enc_amount (enc_cons enc_amount (enc_cons enc_amount (enc_cons enc_amount (enc_cons enc_amount (enc_nil)))))))))))))))) rfl name om

theorem vestInfo_enc {v : Ofx.VestInfo} (name : Str) (om : Bool) :
    VestInfo.ty.enc name om (VestInfo.toDen v) = .ok (element "VESTINFO" (vestInfoContent v)) :=
  enc_tag (enc_cons (enc_ptr_leaf (w := fun x => always .date "VESTDATE" x) (fun _ => enc_always)) (enc_cons enc_always (enc_nil))) rfl name om

theorem loanInfo_enc {v : Ofx.LoanInfo} (name : Str) (om : Bool) :
    LoanInfo.ty.enc name om (LoanInfo.toDen v) = .ok (element "VESTINFO" (loanInfoContent v)) :=
  enc_tag (enc_cons enc_always (enc_cons enc_str (enc_cons enc_amount (enc_cons (enc_ptr_leaf (w := fun x => always .date "LOANSTARTDATE" x) (fun _ => enc_always)) (enc_cons enc_always (enc_cons (enc_ptr_leaf (w := fun x => always .date "DTASOF" x) (fun _ => enc_always)) (enc_cons enc_amount (enc_cons enc_amount (enc_cons enc_enum (enc_cons enc_int (enc_cons enc_int (enc_cons (enc_ptr_leaf (w := fun x => always .date "LOANMATURITYDATE" x) (fun _ => enc_always)) (enc_cons enc_amount (enc_cons enc_amount (enc_cons (enc_ptr_leaf (w := fun x => always .date "LOANNEXTPMTDATE" x) (fun _ => enc_always)) (enc_nil)))))))))))))))) rfl name om

theorem inv401KSummaryAggregate_enc {v : Ofx.Inv401KSummaryAggregate} (name : String) (om : Bool) :
    Inv401KSummaryAggregate.ty.enc name.toList om (Inv401KSummaryAggregate.toDen v) = .ok (named v.XMLName name (inv401KSummaryAggregateContent v)) :=
  enc_named (enc_cons enc_amount (enc_cons enc_amount (enc_cons enc_amount (enc_cons enc_amount (enc_cons enc_amount (enc_cons enc_amount (enc_cons enc_amount (enc_cons enc_always (enc_nil))))))))) rfl name om

theorem inv401KSummaryPeriod_enc {v : Ofx.Inv401KSummaryPeriod} (name : String) (om : Bool) :
    Inv401KSummaryPeriod.ty.enc name.toList om (Inv401KSummaryPeriod.toDen v) = .ok (named v.XMLName name (inv401KSummaryPeriodContent v)) :=
  enc_named (enc_cons enc_always (enc_cons enc_always (enc_cons (enc_ptr (f := Inv401KSummaryAggregate.toDen) (w := fun x => named x.XMLName "CONTRIBUTIONS" (inv401KSummaryAggregateContent x)) (fun _ => (inv401KSummaryAggregate_enc "CONTRIBUTIONS" _))) (enc_cons (enc_ptr (f := Inv401KSummaryAggregate.toDen) (w := fun x => named x.XMLName "WITHDRAWLS" (inv401KSummaryAggregateContent x)) (fun _ => (inv401KSummaryAggregate_enc "WITHDRAWLS" _))) (enc_cons (enc_ptr (f := Inv401KSummaryAggregate.toDen) (w := fun x => named x.XMLName "EARNINGS" (inv401KSummaryAggregateContent x)) (fun _ => (inv401KSummaryAggregate_enc "EARNINGS" _))) (enc_nil)))))) rfl name om

theorem inv401K_enc {v : Ofx.Inv401K} (name : Str) (om : Bool) :
    Inv401K.ty.enc name om (Inv401K.toDen v) = .ok (element "INV401K" (inv401KContent v)) :=
  enc_tag (enc_cons enc_always (enc_cons enc_str (enc_cons (enc_ptr_leaf (w := fun x => always .date "PLANJOINDATE" x) (fun _ => enc_always)) (enc_cons enc_str (enc_cons enc_str (enc_cons enc_amount (enc_cons enc_amount (enc_cons enc_amount (enc_cons enc_amount (enc_cons enc_amount (enc_cons (enc_ptr_leaf (w := fun x => always .date "STARTOFYEAR" x) (fun _ => enc_always)) (enc_cons enc_always (enc_cons enc_always (enc_cons (enc_slice (f := ContribSecurity.toDen) (w := fun x => element "CONTRIBSECURITY" (contribSecurityContent x)) (fun _ => (contribSecurity_enc _ _))) (enc_cons enc_amount (enc_cons (enc_slice (f := VestInfo.toDen) (w := fun x => element "VESTINFO" (vestInfoContent x)) (fun _ => (vestInfo_enc _ _))) (enc_cons (enc_slice (f := LoanInfo.toDen) (w := fun x => element "VESTINFO" (loanInfoContent x)) (fun _ => (loanInfo_enc _ _))) (enc_cons (inv401KSummaryPeriod_enc "YEARTODATE" _) (enc_cons (enc_ptr (f := Inv401KSummaryPeriod.toDen) (w := fun x => named x.XMLName "INCEPTODATE" (inv401KSummaryPeriodContent x)) (fun _ => (inv401KSummaryPeriod_enc "INCEPTODATE" _))) (enc_cons (enc_ptr (f := Inv401KSummaryPeriod.toDen) (w := fun x => named x.XMLName "PERIODTODATE" (inv401KSummaryPeriodContent x)) (fun _ => (inv401KSummaryPeriod_enc "PERIODTODATE" _))) (enc_nil))))))))))))))))))))) rfl name om

theorem inv401KBal_enc {v : Ofx.Inv401KBal} (name : Str) (om : Bool) :
    Inv401KBal.ty.enc name om (Inv401KBal.toDen v) = .ok (element "INV401KBAL" (inv401KBalContent v)) :=
  enc_tag (enc_cons enc_amount (enc_cons enc_amount (enc_cons enc_amount (enc_cons enc_amount (enc_cons enc_amount (enc_cons enc_amount (enc_cons enc_amount (enc_cons enc_amount (enc_cons enc_always (enc_cons (enc_slice (f := Balance.toDen) (w := fun x => element "BAL" (balanceContent x)) (fun _ => (balance_enc _ _))) (enc_nil))))))))))) rfl name om

theorem position_enc {v : Ofx.Position} : Position.alts.enc (Position.toDen v) = .ok (positionXml v) := by
  cases v with
  | debtPosition v => exact alt_first (debtPosition_enc _ _)
  | mfPosition v => exact alt_next (alt_first (mFPosition_enc _ _))
  | optPosition v => exact alt_next (alt_next (alt_first (optPosition_enc _ _)))
  | otherPosition v => exact alt_next (alt_next (alt_next (alt_first (otherPosition_enc _ _))))
  | stockPosition v => exact alt_next (alt_next (alt_next (alt_next (alt_first (stockPosition_enc _ _)))))

theorem openOrder_enc {v : Ofx.OpenOrder} : OpenOrder.alts.enc (OpenOrder.toDen v) = .ok (openOrderXml v) := by
  cases v with
  | ooBuyDebt v => exact alt_first (oOBuyDebt_enc _ _)
  | ooBuyMF v => exact alt_next (alt_first (oOBuyMF_enc _ _))
  | ooBuyOpt v => exact alt_next (alt_next (alt_first (oOBuyOpt_enc _ _)))
  | ooBuyOther v => exact alt_next (alt_next (alt_next (alt_first (oOBuyOther_enc _ _))))
  | ooBuyStock v => exact alt_next (alt_next (alt_next (alt_next (alt_first (oOBuyStock_enc _ _)))))
  | ooSellDebt v => exact alt_next (alt_next (alt_next (alt_next (alt_next (alt_first (oOSellDebt_enc _ _))))))
  | ooSellMF v => exact alt_next (alt_next (alt_next (alt_next (alt_next (alt_next (alt_first (oOSellMF_enc _ _)))))))
  | ooSellOpt v => exact alt_next (alt_next (alt_next (alt_next (alt_next (alt_next (alt_next (alt_first (oOSellOpt_enc _ _))))))))
  | ooSellOther v => exact alt_next (alt_next (alt_next (alt_next (alt_next (alt_next (alt_next (alt_next (alt_first (oOSellOther_enc _ _)))))))))
  | ooSellStock v => exact alt_next (alt_next (alt_next (alt_next (alt_next (alt_next (alt_next (alt_next (alt_next (alt_first (oOSellStock_enc _ _))))))))))
  | ooSwitchMF v => exact alt_next (alt_next (alt_next (alt_next (alt_next (alt_next (alt_next (alt_next (alt_next (alt_next (alt_first (oOSwitchMF_enc _ _)))))))))))

theorem invStatementResponse_enc {v : Ofx.InvStatementResponse} (name : Str) (om : Bool) :
    InvStatementResponse.ty.enc name om (InvStatementResponse.toDen v) = .ok (element "INVSTMTTRNRS" (invStatementResponseContent v)) :=
  enc_tag (enc_cons enc_always (enc_cons (status_enc _ _) (enc_cons enc_str (enc_cons enc_always (enc_cons enc_always (enc_cons (invAcct_enc "INVACCTFROM" _) (enc_cons (enc_ptr (f := InvTranList.toDen) (w := fun x => element "INVTRANLIST" (invTranListContent x)) (fun _ => (invTranList_enc _ _))) (enc_cons (enc_closed_slice (f := Position.toDen) (w := positionXml) (fun _ => position_enc) _) (enc_cons (enc_ptr (f := InvBalance.toDen) (w := fun x => element "INVBAL" (invBalanceContent x)) (fun _ => (invBalance_enc _ _))) (enc_cons (enc_closed_slice (f := OpenOrder.toDen) (w := openOrderXml) (fun _ => openOrder_enc) _) (enc_cons enc_str (enc_cons (enc_ptr (f := Inv401K.toDen) (w := fun x => element "INV401K" (inv401KContent x)) (fun _ => (inv401K_enc _ _))) (enc_cons (enc_ptr (f := Inv401KBal.toDen) (w := fun x => element "INV401KBAL" (inv401KBalContent x)) (fun _ => (inv401KBal_enc _ _))) (enc_nil)))))))))))))) rfl name om

end Ofx
