import Verif.Model.Message
import Verif.Spec.Document
import Mathlib.Data.List.Forall2
/-
`Valid` gives the same verdict on two values that agree in everything a document holds.
-/
namespace Ofx
open Spec

theorem opt_same {α β : Type} {R : β → β → Prop} {f : α → β} {a b : Option α}
    (h : SameOpt R (Option.map f a) (Option.map f b)) :
    (a = none ∧ b = none) ∨ ∃ x y, a = some x ∧ b = some y ∧ R (f x) (f y) := by
  cases a <;> cases b
  · exact .inl ⟨rfl, rfl⟩
  · exact absurd h id
  · exact absurd h id
  · exact .inr ⟨_, _, rfl, rfl, h⟩

theorem optLeaf_same {β : Type} {R : β → β → Prop} {a b : Option β} (h : SameOpt R a b) : b.isNone = a.isNone := by
  cases a <;> cases b
  · rfl
  · exact absurd h id
  · exact absurd h id
  · rfl

theorem bind_same {α β γ : Type} {R : β → β → Prop} {f : α → β} {a b : Option α} {g : α → Option γ}
    (h : SameOpt R (Option.map f a) (Option.map f b)) (hg : ∀ x y, R (f x) (f y) → g y = g x) : b.bind g = a.bind g := by
  rcases opt_same h with ⟨rfl, rfl⟩ | ⟨x, y, rfl, rfl, hr⟩
  · rfl
  · exact hg x y hr

theorem list_same {α β : Type} {R : β → β → Prop} {f : α → β} {a b : List α}
    (h : List.Forall₂ R (a.map f) (b.map f)) : List.Forall₂ (fun x y => R (f x) (f y)) a b := by
  rw [List.forall₂_map_left_iff, List.forall₂_map_right_iff] at h
  exact h

theorem firstError_same {α : Type} {R : α → α → Prop} {a b : List α} {g : α → Option String} (h : List.Forall₂ R a b)
    (hg : ∀ x y, R x y → g y = g x) : firstError g b = firstError g a := by
  induction h with
  | nil => rfl
  | cons hr _ ih => unfold firstError; rw [hg _ _ hr, ih]

mutual
/-- The same leaves, whatever the values of XMLName. -/
def TyLike : (t : Ty) → t.Den → t.Den → Prop
  | .leaf l, v, v' => LeafSame l v v'
  | .struct _ fs, v, v' => True ∧ FieldsLike fs v.2 v'.2
  | .closed _ _ fs, v, v' => FieldsLike fs v v'
  | .ptr t, v, v' => SameOpt (TyLike t) (show Option t.Den from v) (show Option t.Den from v')
  | .slice t, v, v' => List.Forall₂ (TyLike t) (show List t.Den from v) (show List t.Den from v')
  | .msgSets _, _, _ => True
def FieldsLike : (fs : Fields) → fs.Den → fs.Den → Prop
  | .nil, _, _ => True
  | .field _ _ _ t rest, v, v' => TyLike t v.1 v'.1 ∧ FieldsLike rest v.2 v'.2
  | .alts _ rest, v, v' => True ∧ FieldsLike rest v.2 v'.2
end

mutual
theorem ty_same_like : (t : Ty) → ∀ name v v', TySame t name v v' → TyLike t v v'
  | .leaf l, _, v, v', h => h
  | .struct _ fs, _, v, v', h => ⟨trivial, fields_same_like fs v.2 v'.2 h.2⟩
  | .closed _ _ fs, _, v, v', h => fields_same_like fs v v' h
  | .ptr t, name, v, v', h => by
    have h : SameOpt (TySame t name) (show Option t.Den from v) (show Option t.Den from v') := h
    show SameOpt (TyLike t) (show Option t.Den from v) (show Option t.Den from v')
    generalize (show Option t.Den from v) = a at h ⊢
    generalize (show Option t.Den from v') = b at h ⊢
    cases a <;> cases b
    · trivial
    · exact h
    · exact h
    · exact ty_same_like t name _ _ h
  | .slice t, name, v, v', h => List.Forall₂.imp (fun a b hab => ty_same_like t name a b hab) h
  | .msgSets _, _, _, _, _ => trivial
theorem fields_same_like : (fs : Fields) → ∀ v v', FieldsSame fs v v' → FieldsLike fs v v'
  | .nil, _, _, _ => trivial
  | .field _ name _ t rest, v, v', h => ⟨ty_same_like t name v.1 v'.1 h.1, fields_same_like rest v.2 v'.2 h.2⟩
  | .alts _ rest, v, v', h => ⟨trivial, fields_same_like rest v.2 v'.2 h.2⟩
end

/-- Messages of one type with the same leaves. -/
def MessageLike : Message → Message → Prop
  | .statementResponse m, .statementResponse m' => TyLike StatementResponse.ty (StatementResponse.toDen m) (StatementResponse.toDen m')
  | .ccStatementResponse m, .ccStatementResponse m' => m'.TrnUID = m.TrnUID
  | .invStatementResponse m, .invStatementResponse m' => m'.TrnUID = m.TrnUID
  | .profileResponse m, .profileResponse m' => m'.TrnUID = m.TrnUID
  | .secListResponse m, .secListResponse m' => m'.TrnUID = m.TrnUID
  | .securityList _, .securityList _ => True
  | .acctInfoResponse m, .acctInfoResponse m' => m'.TrnUID = m.TrnUID
  | _, _ => False

theorem status_same {x y : Status} (h : TyLike Status.ty (Status.toDen x) (Status.toDen y)) : y.valid = x.valid := by
  obtain ⟨-, h1, h2, -⟩ := h
  have h1 : y.Code = x.Code := h1
  have h2 : y.Severity = x.Severity := h2
  unfold Status.valid; rw [h1, h2]

theorem bankAcct_same {x y : BankAcct} (h : TyLike BankAcct.ty (BankAcct.toDen x) (BankAcct.toDen y)) :
    y.valid = x.valid := by
  obtain ⟨-, h1, -, h2, h3, -⟩ := h
  have h1 : y.BankID = x.BankID := h1
  have h2 : y.AcctID = x.AcctID := h2
  have h3 : y.AcctType = x.AcctType := h3
  unfold BankAcct.valid; rw [h1, h2, h3]

theorem ccAcct_same {x y : CCAcct} (h : TyLike CCAcct.ty (CCAcct.toDen x) (CCAcct.toDen y)) : y.valid = x.valid := by
  obtain ⟨-, h1, -⟩ := h
  have h1 : y.AcctID = x.AcctID := h1
  unfold CCAcct.valid; rw [h1]

theorem currency_same {x y : Currency} (h : TyLike Currency.ty (Currency.toDen x) (Currency.toDen y)) :
    y.valid = x.valid := by
  obtain ⟨-, h1, h2, -⟩ := h
  have h1 : y.CurRate = x.CurRate := h1
  have h2 : y.CurSym = x.CurSym := h2
  unfold Currency.valid; rw [h1, h2]

theorem payee_same {x y : Payee} (h : TyLike Payee.ty (Payee.toDen x) (Payee.toDen y)) : y.valid = x.valid := by
  obtain ⟨-, h1, h2, -, -, h3, h4, h5, h6, h7, -⟩ := h
  have h1 : y.Name = x.Name := h1
  have h2 : y.Addr1 = x.Addr1 := h2
  have h3 : y.City = x.City := h3
  have h4 : y.State = x.State := h4
  have h5 : y.PostalCode = x.PostalCode := h5
  have h6 : y.Country = x.Country := h6
  have h7 : y.Phone = x.Phone := h7
  unfold Payee.valid; rw [h1, h2, h3, h4, h5, h6, h7]

theorem date_same {x y e : GoTime} (h : LeafSame .date x y) : Date.equal y e = Date.equal x e := by
  have h : y.ns = x.ns := h.1
  unfold Date.equal; rw [h]

theorem okCurrency_same {a b : Option Currency}
    (h : SameOpt (TyLike Currency.ty) (Option.map Currency.toDen a) (Option.map Currency.toDen b)) : okCurrency b = okCurrency a := by
  rcases opt_same h with ⟨rfl, rfl⟩ | ⟨x, y, rfl, rfl, hr⟩
  · rfl
  · show y.valid.isNone = x.valid.isNone
    rw [currency_same hr]

theorem transaction_same {v : Nat} {x y : Transaction}
    (h : TyLike Transaction.ty (Transaction.toDen x) (Transaction.toDen y)) : y.valid v = x.valid v := by
  obtain ⟨-, h1, h2, -, -, -, h3, h4, h5, -, -, -, -, -, h6, h7, -, h8, h9, -, h10, h11, h12, -⟩ := h
  have h1 : y.TrnType = x.TrnType := h1
  have h2 : ∀ e, Date.equal y.DtPosted e = Date.equal x.DtPosted e := fun e => date_same h2
  have h3 : y.FiTID = x.FiTID := h3
  have h4 : y.CorrectFiTID = x.CorrectFiTID := h4
  have h5 : y.CorrectAction = x.CorrectAction := h5
  have h6 : y.Name = x.Name := h6
  have h7' : y.Payee.bind Payee.valid = x.Payee.bind Payee.valid := bind_same h7 (fun _ _ => payee_same)
  have h7 : y.Payee.isSome = x.Payee.isSome := by
    rcases opt_same h7 with ⟨h, h'⟩ | ⟨_, _, h, h', -⟩ <;> rw [h, h'] <;> rfl
  have ht : y.validTo = x.validTo := by
    unfold Transaction.validTo
    rcases opt_same h8 with ⟨ha, hb⟩ | ⟨a, b, ha, hb, hr⟩ <;> rcases opt_same h9 with ⟨hc, hd⟩ | ⟨c, d, hc, hd, hq⟩ <;>
      rw [ha, hb, hc, hd]
    · exact ccAcct_same hq
    · exact bankAcct_same hr
  have h10 : y.ImageData.length = x.ImageData.length := by
    exact (list_same h10).length_eq.symm
  have h11 := okCurrency_same h11
  have h12 := okCurrency_same h12
  unfold Transaction.valid
  rw [h1, h2, h3, h4, h5, h6, h7, h7', ht, h10, h11, h12]

theorem transactionList_same {v : Nat} {x y : TransactionList}
    (h : TyLike TransactionList.ty (TransactionList.toDen x) (TransactionList.toDen y)) : y.valid v = x.valid v := by
  obtain ⟨-, h1, h2, h3, -⟩ := h
  have h1 : ∀ e, Date.equal y.DtStart e = Date.equal x.DtStart e := fun e => date_same h1
  have h2 : ∀ e, Date.equal y.DtEnd e = Date.equal x.DtEnd e := fun e => date_same h2
  have h3 := firstError_same (g := Transaction.valid v) (list_same h3) (fun _ _ => transaction_same)
  unfold TransactionList.valid; rw [h1, h2, h3]

theorem pending_same {x y : PendingTransaction}
    (h : TyLike PendingTransaction.ty (PendingTransaction.toDen x) (PendingTransaction.toDen y)) : y.valid = x.valid := by
  obtain ⟨-, h1, h2, -, -, -, h3, -, -, -, h4, h5, -⟩ := h
  have h1 : y.TrnType = x.TrnType := h1
  have h2 : ∀ e, Date.equal y.DtTran e = Date.equal x.DtTran e := fun e => date_same h2
  have h3 : y.Name = x.Name := h3
  have h4 := currency_same h4
  have h5 := currency_same h5
  unfold PendingTransaction.valid; rw [h1, h2, h3, h4, h5]

theorem pendingList_same {x y : PendingTransactionList}
    (h : TyLike PendingTransactionList.ty (PendingTransactionList.toDen x) (PendingTransactionList.toDen y)) : y.valid = x.valid := by
  obtain ⟨-, h1, h2, -⟩ := h
  have h1 : ∀ e, Date.equal y.DtAsOf e = Date.equal x.DtAsOf e := fun e => date_same h1
  have h2 := firstError_same (g := PendingTransaction.valid) (list_same h2) (fun _ _ => pending_same)
  unfold PendingTransactionList.valid; rw [h1, h2]

theorem balance_same {x y : Balance} (h : TyLike Balance.ty (Balance.toDen x) (Balance.toDen y)) : y.valid = x.valid := by
  obtain ⟨-, h1, h2, h3, -⟩ := h
  have h1 : y.Name = x.Name := h1
  have h2 : y.Desc = x.Desc := h2
  have h3 : y.BalType = x.BalType := h3
  unfold Balance.valid; rw [h1, h2, h3]

theorem statement_same {v : Nat} {x y : StatementResponse}
    (h : TyLike StatementResponse.ty (StatementResponse.toDen x) (StatementResponse.toDen y)) : y.valid v = x.valid v := by
  obtain ⟨-, h1, h2, -, h3, h4, h5, h6, -, h7, h8, h9, -, -, h10, -⟩ := h
  have h1 : y.TrnUID = x.TrnUID := h1
  have h2 := status_same h2
  have h3 : y.CurDef = x.CurDef := h3
  have h4 := bankAcct_same h4
  have h5 : y.BankTranList.bind (TransactionList.valid v) = x.BankTranList.bind (TransactionList.valid v) :=
    bind_same h5 (fun _ _ => transactionList_same)
  have h6 : StatementResponse.validPending v y.BankTranListP = StatementResponse.validPending v x.BankTranListP := by
    rcases opt_same h6 with ⟨ha, hb⟩ | ⟨a, b, ha, hb, hr⟩
    · rw [ha, hb]
    · rw [ha, hb]; unfold StatementResponse.validPending; simp only; rw [pendingList_same hr]
  have h7 : ∀ e, Date.equal y.DtAsOf e = Date.equal x.DtAsOf e := fun e => date_same h7
  have h8 : y.AvailBalAmt.isNone = x.AvailBalAmt.isNone := optLeaf_same h8
  have h9 : y.AvailDtAsOf.isNone = x.AvailDtAsOf.isNone := optLeaf_same h9
  have h10 := firstError_same (g := Balance.valid) (list_same h10) (fun _ _ => balance_same)
  unfold StatementResponse.valid; rw [h1, h2, h3, h4, h5, h6, h7, h8, h9, h10]

theorem signonRs_like {v : Nat} {x y : SignonResponse}
    (h : TyLike SignonResponse.ty (SignonResponse.toDen x) (SignonResponse.toDen y)) : y.valid v = x.valid v := by
  obtain ⟨-, h1, -, -, -, h2, -⟩ := h
  have h1 := status_same h1
  have h2 : y.Language = x.Language := h2
  unfold SignonResponse.valid; rw [h1, h2]

theorem signonRs_same {v : Nat} {x y : SignonResponse} (h : SameSignon x y) : y.valid v = x.valid v :=
  signonRs_like (ty_same_like _ _ _ _ h)

theorem message_like_valid {v : Nat} {m m' : Message} (h : MessageLike m m') : (m'.valid v).1 = (m.valid v).1 := by
  have uid : ∀ {a b : Str}, b = a → UID.valid b = UID.valid a := by rintro _ _ rfl; rfl
  cases m <;> cases m' <;> try exact absurd h id
  · exact statement_same h
  · exact uid h
  · exact uid h
  · exact uid h
  · exact uid h
  · rfl
  · exact uid h

/-- `Valid` gives the same verdict on the same message. -/
theorem message_same_valid {v : Nat} {s : MsgSet} {m m' : Message} (ht : m.type = .rs s) (h : SameMessage m m') :
    (m'.valid v).1 = (m.valid v).1 := by
  refine message_like_valid ?_
  cases m <;> cases m' <;> first | exact absurd h id | cases ht
  · exact ty_same_like _ _ _ _ h
  · exact h.2.1
  · exact h.2.1
  · exact h.2.1
  · exact h.2.1
  · trivial
  · exact h.2.1

end Ofx
