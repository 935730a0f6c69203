import Verif.Spec.Elements
import Verif.Lemmas.SchemaSays
/-
GENERATED by tools/gen_elements.py -- do not edit.

The schemas of the structures say what Spec/Elements says.
-/
namespace Ofx
open Spec

theorem holds_iff {env : Env} {l : Leaf} {es : List (Str × List Node)} {v : l.Den} :
    Holds env l es v ↔ TySays env (.leaf l) es v := Iff.rfl

theorem maybe_iff {env : Env} {α : Type} {t : Ty} {is : List (Str × List Node) → α → Prop} {f : α → t.Den}
    (h : ∀ es v, is es v ↔ TySays env t es (f v)) {es : List (Str × List Node)} {v : Option α} :
    Maybe is es v ↔ TySays env (.ptr t) es (Option.map f v) := by
  refine or_congr (and_congr Iff.rfl ?_) (and_congr Iff.rfl ?_)
  · cases v <;> exact ⟨fun h => (by cases h <;> rfl), fun h => (by cases h <;> rfl)⟩
  · cases v with
    | none => exact ⟨fun ⟨_, h, _⟩ => (by cases h), fun ⟨_, h, _⟩ => (by cases h)⟩
    | some v =>
      constructor
      · rintro ⟨x, hx, hi⟩; cases hx; exact ⟨_, rfl, (h _ _).mp hi⟩
      · rintro ⟨x, hx, hi⟩; cases hx; exact ⟨_, rfl, (h _ _).mpr hi⟩

theorem forall₂_map_iff {α β γ : Type} {R : α → γ → Prop} {S : α → β → Prop} {f : γ → β} (h : ∀ a c, R a c ↔ S a (f c)) :
    ∀ {as : List α} {cs : List γ}, List.Forall₂ R as cs ↔ List.Forall₂ S as (cs.map f)
  | [], [] => ⟨fun _ => .nil, fun _ => .nil⟩
  | [], _ :: _ => ⟨fun h => (by cases h), fun h => (by cases h)⟩
  | _ :: _, [] => ⟨fun h => (by cases h), fun h => (by cases h)⟩
  | _ :: _, _ :: _ => ⟨fun | .cons a b => .cons ((h _ _).mp a) ((forall₂_map_iff h).mp b),
      fun | .cons a b => .cons ((h _ _).mpr a) ((forall₂_map_iff h).mpr b)⟩

theorem each_iff {env : Env} {α : Type} {t : Ty} {is : List (Str × List Node) → α → Prop} {f : α → t.Den}
    (h : ∀ es v, is es v ↔ TySays env t es (f v)) {es : List (Str × List Node)} {v : List α} :
    Each is es v ↔ TySays env (.slice t) es (List.map f v) := forall₂_map_iff (fun e v => h [e] v)

theorem maybe_leaf {env : Env} {l : Leaf} {es : List (Str × List Node)} {v : Option l.Den} :
    Maybe (Holds env l) es v ↔ TySays env (.ptr (.leaf l)) es v := Iff.rfl

theorem each_leaf {env : Env} {l : Leaf} {es : List (Str × List Node)} {v : List l.Den} :
    Each (Holds env l) es v ↔ TySays env (.slice (.leaf l)) es v := Iff.rfl

theorem called_iff {env : Env} {t : String} {fs : Fields} {es : List (Str × List Node)} {Q : Prop} {d : fs.Den}
    (h : Q ↔ FieldsSay env fs (es.flatMap (fun e => e.2)) d) :
    (Called t es ∧ Q) ↔ TySays env (.struct (.tag t.toList) fs) es ((), d) :=
  and_congr Iff.rfl (h.trans (iff_of_eq (true_and _)).symm)

theorem uncalled_iff {env : Env} {fs : Fields} {es : List (Str × List Node)} {Q : Prop} {d : fs.Den}
    (h : Q ↔ FieldsSay env fs (es.flatMap (fun e => e.2)) d) :
    Q ↔ TySays env (.struct .none fs) es ((), d) :=
  ⟨fun q => ⟨fun _ _ => trivial, trivial, h.mp q⟩, fun q => h.mpr q.2.2⟩

theorem free_iff {env : Env} {fs : Fields} {es : List (Str × List Node)} {Q : Prop} {x : Str} {d : fs.Den}
    (h : Q ↔ FieldsSay env fs (es.flatMap (fun e => e.2)) d) :
    (x = (es.getLast?.map (fun e => e.1)).getD [] ∧ Q) ↔ TySays env (.struct .free fs) es (x, d) :=
  ⟨fun q => ⟨fun _ _ => trivial, q.1, h.mp q.2⟩, fun q => ⟨q.2.1, h.mpr q.2.2⟩⟩

theorem field_iff {env : Env} {p : List Str} {n : Str} {o : Bool} {t : Ty} {rest : Fields} {cs : List Node} {A Q : Prop}
    {a : t.Den} {d : rest.Den} (ha : A ↔ TySays env t (elementsAt p n cs) a) (hq : Q ↔ FieldsSay env rest cs d) :
    (A ∧ Q) ↔ FieldsSay env (.field p n o t rest) cs (a, d) := and_congr ha hq

theorem last_iff {env : Env} {p : List Str} {n : Str} {o : Bool} {t : Ty} {cs : List Node} {A : Prop}
    {a : t.Den} (ha : A ↔ TySays env t (elementsAt p n cs) a) :
    A ↔ FieldsSay env (.field p n o t .nil) cs (a, ()) := ha.trans (iff_of_eq (and_true _)).symm

theorem alts_iff {env : Env} {as : Alts} {rest : Fields} {cs : List Node} {A Q : Prop} {a : List as.Den} {d : rest.Den}
    (ha : A ↔ List.Forall₂ (AltsSay env as) ((elems cs).filter (fun e => e.1 ∈ altNames as)) a) (hq : Q ↔ FieldsSay env rest cs d) :
    (A ∧ Q) ↔ FieldsSay env (.alts as rest) cs (a, d) := and_congr ha hq

theorem alts_last {env : Env} {as : Alts} {cs : List Node} {A : Prop} {a : List as.Den}
    (ha : A ↔ List.Forall₂ (AltsSay env as) ((elems cs).filter (fun e => e.1 ∈ altNames as)) a) :
    A ↔ FieldsSay env (.alts as .nil) cs (a, ()) := ha.trans (iff_of_eq (and_true _)).symm

theorem alt_here {env : Env} {name w : Str} {t : Ty} {rest : Alts} {e : Str × List Node} {Q : Prop} {x : t.Den}
    (h : Q ↔ TySays env t [e] x) : (e.1 = name ∧ Q) ↔ AltsSay env (.alt name w t rest) e (.inl x) := and_congr Iff.rfl h

theorem alt_skip {env : Env} {name name' w : Str} {t : Ty} {rest : Alts} {e : Str × List Node} {Q : Prop} {y : rest.Den}
    (hn : name' ≠ name) (h : (e.1 = name' ∧ Q) ↔ AltsSay env rest e y) :
    (e.1 = name' ∧ Q) ↔ AltsSay env (.alt name w t rest) e (.inr y) :=
  ⟨fun q => ⟨fun h' => hn (q.1.symm.trans h'), h.mp q⟩, fun q => h.mpr q.2⟩

theorem closed_iff {env : Env} {lit : Str} {o : Bool} {fs : Fields} {es : List (Str × List Node)} {A B C D E : Prop} {d : fs.Den}
    (h : (A ∧ B ∧ C ∧ D) ↔ FieldsSay env fs (es.flatMap (fun e => e.2)) d)
    (he : E ↔ ∀ c ∈ es.flatMap (fun e => e.2), (∃ n ch, c = .elem n ch ∧ n ∈ childNames fs []) ∨ ∃ s, c = .text s ∧ IsPadding s := by exact Iff.rfl) :
    (A ∧ B ∧ C ∧ D ∧ E) ↔ TySays env (.closed lit o fs) es d := by
  refine Iff.trans ?_ (and_congr h he)
  tauto

theorem set_iff {env : Env} {fs : Fields} {e : Str × List Node} {name : Str} {Q : List (Str × List Node) → Prop} {d : fs.Den}
    (h : ∀ es : List (Str × List Node), Q es ↔ FieldsSay env fs (es.flatMap (fun e => e.2)) d) :
    (∃ es, OnlyElements e.2 ∧ elems e.2 = es ∧ es.map (fun e => e.1) = [name] ∧ Q es) ↔
      ∃ ch, OnlyElements e.2 ∧ elems e.2 = [(name, ch)] ∧ FieldsSay env fs ch d := by
  constructor
  · rintro ⟨es, h1, h2, h3, h4⟩
    match es, h3 with
    | [(n, ch)], h3 =>
      have hn : n = name := by simpa using h3
      subst hn
      exact ⟨ch, h1, h2, by have := (h _).mp h4; rwa [List.flatMap_singleton] at this⟩
  · rintro ⟨ch, h1, h2, h3⟩
    exact ⟨_, h1, h2, rfl, (h _).mpr (by rwa [List.flatMap_singleton])⟩

theorem statusIs_iff {env : Env} {es : List (Str × List Node)} {v : Ofx.Status} :
    StatusIs env es v ↔ TySays env Status.ty es (Status.toDen v) :=
  called_iff (field_iff holds_iff (field_iff holds_iff (last_iff holds_iff)))

theorem bankAcctIs_iff {env : Env} {es : List (Str × List Node)} {v : Ofx.BankAcct} :
    BankAcctIs env es v ↔ TySays env BankAcct.ty es (BankAcct.toDen v) :=
  free_iff (field_iff holds_iff (field_iff holds_iff (field_iff holds_iff (field_iff holds_iff (last_iff holds_iff)))))

theorem cCAcctIs_iff {env : Env} {es : List (Str × List Node)} {v : Ofx.CCAcct} :
    CCAcctIs env es v ↔ TySays env CCAcct.ty es (CCAcct.toDen v) :=
  free_iff (field_iff holds_iff (last_iff holds_iff))

theorem invAcctIs_iff {env : Env} {es : List (Str × List Node)} {v : Ofx.InvAcct} :
    InvAcctIs env es v ↔ TySays env InvAcct.ty es (InvAcct.toDen v) :=
  free_iff (field_iff holds_iff (last_iff holds_iff))

theorem currencyIs_iff {env : Env} {es : List (Str × List Node)} {v : Ofx.Currency} :
    CurrencyIs env es v ↔ TySays env Currency.ty es (Currency.toDen v) :=
  free_iff (field_iff holds_iff (last_iff holds_iff))

theorem statementRequestIs_iff {env : Env} {es : List (Str × List Node)} {v : Ofx.StatementRequest} :
    StatementRequestIs env es v ↔ TySays env StatementRequest.ty es (StatementRequest.toDen v) :=
  called_iff (field_iff holds_iff (field_iff holds_iff (field_iff holds_iff (field_iff bankAcctIs_iff (field_iff maybe_leaf (field_iff maybe_leaf (field_iff holds_iff (field_iff holds_iff (last_iff holds_iff)))))))))

theorem payeeIs_iff {env : Env} {es : List (Str × List Node)} {v : Ofx.Payee} :
    PayeeIs env es v ↔ TySays env Payee.ty es (Payee.toDen v) :=
  called_iff (field_iff holds_iff (field_iff holds_iff (field_iff holds_iff (field_iff holds_iff (field_iff holds_iff (field_iff holds_iff (field_iff holds_iff (field_iff holds_iff (last_iff holds_iff)))))))))

theorem imageDataIs_iff {env : Env} {es : List (Str × List Node)} {v : Ofx.ImageData} :
    ImageDataIs env es v ↔ TySays env ImageData.ty es (ImageData.toDen v) :=
  called_iff (field_iff holds_iff (field_iff holds_iff (field_iff holds_iff (field_iff holds_iff (field_iff maybe_leaf (field_iff holds_iff (last_iff holds_iff)))))))

theorem transactionIs_iff {env : Env} {es : List (Str × List Node)} {v : Ofx.Transaction} :
    TransactionIs env es v ↔ TySays env Transaction.ty es (Transaction.toDen v) :=
  called_iff (field_iff holds_iff (field_iff holds_iff (field_iff maybe_leaf (field_iff maybe_leaf (field_iff holds_iff (field_iff holds_iff (field_iff holds_iff (field_iff holds_iff (field_iff holds_iff (field_iff holds_iff (field_iff holds_iff (field_iff holds_iff (field_iff holds_iff (field_iff holds_iff (field_iff (maybe_iff (is := PayeeIs env) (f := Payee.toDen) (fun _ _ => payeeIs_iff)) (field_iff holds_iff (field_iff (maybe_iff (is := BankAcctIs env) (f := BankAcct.toDen) (fun _ _ => bankAcctIs_iff)) (field_iff (maybe_iff (is := CCAcctIs env) (f := CCAcct.toDen) (fun _ _ => cCAcctIs_iff)) (field_iff holds_iff (field_iff (each_iff (is := ImageDataIs env) (f := ImageData.toDen) (fun _ _ => imageDataIs_iff)) (field_iff (maybe_iff (is := CurrencyIs env) (f := Currency.toDen) (fun _ _ => currencyIs_iff)) (field_iff (maybe_iff (is := CurrencyIs env) (f := Currency.toDen) (fun _ _ => currencyIs_iff)) (last_iff holds_iff)))))))))))))))))))))))

theorem transactionListIs_iff {env : Env} {es : List (Str × List Node)} {v : Ofx.TransactionList} :
    TransactionListIs env es v ↔ TySays env TransactionList.ty es (TransactionList.toDen v) :=
  called_iff (field_iff holds_iff (field_iff holds_iff (last_iff (each_iff (is := TransactionIs env) (f := Transaction.toDen) (fun _ _ => transactionIs_iff)))))

theorem pendingTransactionIs_iff {env : Env} {es : List (Str × List Node)} {v : Ofx.PendingTransaction} :
    PendingTransactionIs env es v ↔ TySays env PendingTransaction.ty es (PendingTransaction.toDen v) :=
  called_iff (field_iff holds_iff (field_iff holds_iff (field_iff maybe_leaf (field_iff holds_iff (field_iff holds_iff (field_iff holds_iff (field_iff holds_iff (field_iff holds_iff (field_iff (each_iff (is := ImageDataIs env) (f := ImageData.toDen) (fun _ _ => imageDataIs_iff)) (field_iff currencyIs_iff (last_iff currencyIs_iff)))))))))))

theorem pendingTransactionListIs_iff {env : Env} {es : List (Str × List Node)} {v : Ofx.PendingTransactionList} :
    PendingTransactionListIs env es v ↔ TySays env PendingTransactionList.ty es (PendingTransactionList.toDen v) :=
  called_iff (field_iff holds_iff (last_iff (each_iff (is := PendingTransactionIs env) (f := PendingTransaction.toDen) (fun _ _ => pendingTransactionIs_iff))))

theorem balanceIs_iff {env : Env} {es : List (Str × List Node)} {v : Ofx.Balance} :
    BalanceIs env es v ↔ TySays env Balance.ty es (Balance.toDen v) :=
  called_iff (field_iff holds_iff (field_iff holds_iff (field_iff holds_iff (field_iff holds_iff (field_iff maybe_leaf (last_iff (maybe_iff (is := CurrencyIs env) (f := Currency.toDen) (fun _ _ => currencyIs_iff))))))))

theorem statementResponseIs_iff {env : Env} {es : List (Str × List Node)} {v : Ofx.StatementResponse} :
    StatementResponseIs env es v ↔ TySays env StatementResponse.ty es (StatementResponse.toDen v) :=
  called_iff (field_iff holds_iff (field_iff statusIs_iff (field_iff holds_iff (field_iff holds_iff (field_iff bankAcctIs_iff (field_iff (maybe_iff (is := TransactionListIs env) (f := TransactionList.toDen) (fun _ _ => transactionListIs_iff)) (field_iff (maybe_iff (is := PendingTransactionListIs env) (f := PendingTransactionList.toDen) (fun _ _ => pendingTransactionListIs_iff)) (field_iff holds_iff (field_iff holds_iff (field_iff maybe_leaf (field_iff maybe_leaf (field_iff maybe_leaf (field_iff maybe_leaf (field_iff (each_iff (is := BalanceIs env) (f := Balance.toDen) (fun _ _ => balanceIs_iff)) (last_iff holds_iff)))))))))))))))

theorem cCStatementRequestIs_iff {env : Env} {es : List (Str × List Node)} {v : Ofx.CCStatementRequest} :
    CCStatementRequestIs env es v ↔ TySays env CCStatementRequest.ty es (CCStatementRequest.toDen v) :=
  called_iff (field_iff holds_iff (field_iff holds_iff (field_iff holds_iff (field_iff cCAcctIs_iff (field_iff maybe_leaf (field_iff maybe_leaf (field_iff holds_iff (field_iff holds_iff (last_iff holds_iff)))))))))

theorem cCStatementResponseIs_iff {env : Env} {es : List (Str × List Node)} {v : Ofx.CCStatementResponse} :
    CCStatementResponseIs env es v ↔ TySays env CCStatementResponse.ty es (CCStatementResponse.toDen v) :=
  called_iff (field_iff holds_iff (field_iff statusIs_iff (field_iff holds_iff (field_iff holds_iff (field_iff cCAcctIs_iff (field_iff (maybe_iff (is := TransactionListIs env) (f := TransactionList.toDen) (fun _ _ => transactionListIs_iff)) (field_iff holds_iff (field_iff holds_iff (field_iff maybe_leaf (field_iff maybe_leaf (field_iff holds_iff (field_iff holds_iff (field_iff holds_iff (field_iff holds_iff (field_iff holds_iff (field_iff holds_iff (field_iff holds_iff (field_iff (each_iff (is := BalanceIs env) (f := Balance.toDen) (fun _ _ => balanceIs_iff)) (last_iff holds_iff)))))))))))))))))))

theorem signonRequestIs_iff {env : Env} {es : List (Str × List Node)} {v : Ofx.SignonRequest} :
    SignonRequestIs env es v ↔ TySays env SignonRequest.ty es (SignonRequest.toDen v) :=
  called_iff (field_iff holds_iff (field_iff holds_iff (field_iff holds_iff (field_iff holds_iff (field_iff holds_iff (field_iff holds_iff (field_iff holds_iff (field_iff holds_iff (field_iff holds_iff (field_iff holds_iff (last_iff holds_iff)))))))))))

theorem signonResponseIs_iff {env : Env} {es : List (Str × List Node)} {v : Ofx.SignonResponse} :
    SignonResponseIs env es v ↔ TySays env SignonResponse.ty es (SignonResponse.toDen v) :=
  called_iff (field_iff statusIs_iff (field_iff holds_iff (field_iff holds_iff (field_iff maybe_leaf (field_iff holds_iff (field_iff maybe_leaf (field_iff maybe_leaf (field_iff holds_iff (field_iff holds_iff (field_iff holds_iff (last_iff holds_iff)))))))))))

theorem acctInfoRequestIs_iff {env : Env} {es : List (Str × List Node)} {v : Ofx.AcctInfoRequest} :
    AcctInfoRequestIs env es v ↔ TySays env AcctInfoRequest.ty es (AcctInfoRequest.toDen v) :=
  called_iff (field_iff holds_iff (field_iff holds_iff (field_iff holds_iff (last_iff holds_iff))))

theorem holderInfoIs_iff {env : Env} {es : List (Str × List Node)} {v : Ofx.HolderInfo} :
    HolderInfoIs env es v ↔ TySays env HolderInfo.ty es (HolderInfo.toDen v) :=
  free_iff (field_iff holds_iff (field_iff holds_iff (field_iff holds_iff (field_iff holds_iff (field_iff holds_iff (field_iff holds_iff (field_iff holds_iff (field_iff holds_iff (field_iff holds_iff (field_iff holds_iff (field_iff holds_iff (field_iff holds_iff (field_iff holds_iff (last_iff holds_iff))))))))))))))

theorem bankAcctInfoIs_iff {env : Env} {es : List (Str × List Node)} {v : Ofx.BankAcctInfo} :
    BankAcctInfoIs env es v ↔ TySays env BankAcctInfo.ty es (BankAcctInfo.toDen v) :=
  called_iff (field_iff bankAcctIs_iff (field_iff holds_iff (field_iff holds_iff (field_iff holds_iff (field_iff holds_iff (field_iff holds_iff (field_iff holds_iff (field_iff holds_iff (field_iff holds_iff (last_iff holds_iff))))))))))

theorem cCAcctInfoIs_iff {env : Env} {es : List (Str × List Node)} {v : Ofx.CCAcctInfo} :
    CCAcctInfoIs env es v ↔ TySays env CCAcctInfo.ty es (CCAcctInfo.toDen v) :=
  called_iff (field_iff cCAcctIs_iff (field_iff holds_iff (field_iff holds_iff (field_iff holds_iff (field_iff holds_iff (last_iff holds_iff))))))

theorem invAcctInfoIs_iff {env : Env} {es : List (Str × List Node)} {v : Ofx.InvAcctInfo} :
    InvAcctInfoIs env es v ↔ TySays env InvAcctInfo.ty es (InvAcctInfo.toDen v) :=
  called_iff (field_iff invAcctIs_iff (field_iff holds_iff (field_iff holds_iff (field_iff holds_iff (field_iff holds_iff (last_iff holds_iff))))))

theorem acctInfoIs_iff {env : Env} {es : List (Str × List Node)} {v : Ofx.AcctInfo} :
    AcctInfoIs env es v ↔ TySays env AcctInfo.ty es (AcctInfo.toDen v) :=
  called_iff (field_iff holds_iff (field_iff holds_iff (field_iff holds_iff (field_iff holderInfoIs_iff (field_iff holderInfoIs_iff (field_iff (maybe_iff (is := BankAcctInfoIs env) (f := BankAcctInfo.toDen) (fun _ _ => bankAcctInfoIs_iff)) (field_iff (maybe_iff (is := CCAcctInfoIs env) (f := CCAcctInfo.toDen) (fun _ _ => cCAcctInfoIs_iff)) (last_iff (maybe_iff (is := InvAcctInfoIs env) (f := InvAcctInfo.toDen) (fun _ _ => invAcctInfoIs_iff))))))))))

theorem acctInfoResponseIs_iff {env : Env} {es : List (Str × List Node)} {v : Ofx.AcctInfoResponse} :
    AcctInfoResponseIs env es v ↔ TySays env AcctInfoResponse.ty es (AcctInfoResponse.toDen v) :=
  called_iff (field_iff holds_iff (field_iff statusIs_iff (field_iff holds_iff (field_iff holds_iff (last_iff (each_iff (is := AcctInfoIs env) (f := AcctInfo.toDen) (fun _ _ => acctInfoIs_iff)))))))

theorem profileRequestIs_iff {env : Env} {es : List (Str × List Node)} {v : Ofx.ProfileRequest} :
    ProfileRequestIs env es v ↔ TySays env ProfileRequest.ty es (ProfileRequest.toDen v) :=
  called_iff (field_iff holds_iff (field_iff holds_iff (field_iff holds_iff (field_iff holds_iff (last_iff holds_iff)))))

theorem signonInfoIs_iff {env : Env} {es : List (Str × List Node)} {v : Ofx.SignonInfo} :
    SignonInfoIs env es v ↔ TySays env SignonInfo.ty es (SignonInfo.toDen v) :=
  called_iff (field_iff holds_iff (field_iff holds_iff (field_iff holds_iff (field_iff holds_iff (field_iff holds_iff (field_iff holds_iff (field_iff holds_iff (field_iff holds_iff (field_iff holds_iff (field_iff holds_iff (field_iff holds_iff (field_iff holds_iff (field_iff holds_iff (field_iff holds_iff (field_iff holds_iff (field_iff holds_iff (field_iff holds_iff (last_iff holds_iff))))))))))))))))))

theorem messageSetIs_iff {env : Env} {e : Str × List Node} {v : Ofx.MessageSet} :
    MessageSetIs env e v ↔ (v.Name = v.XMLName ∧ ∃ ch, OnlyElements e.2 ∧ elems e.2 = [(v.XMLName, ch)] ∧
      FieldsSay env MessageSet.tagged ch (MessageSet.toDen v).2.2) := by
  refine and_congr Iff.rfl (set_iff (fun es => field_iff holds_iff (field_iff holds_iff (field_iff holds_iff (field_iff holds_iff (field_iff holds_iff (field_iff each_leaf (field_iff holds_iff (field_iff holds_iff (field_iff holds_iff (last_iff holds_iff)))))))))))

theorem messageSetListIs_iff {env : Env} {es : List (Str × List Node)} {v : Ofx.MessageSetList} :
    MessageSetListIs env es v ↔ TySays env MessageSetList.ty es (MessageSetList.toDen v) :=
  and_congr Iff.rfl (forall₂_map_iff (R := MessageSetIs env) (f := MessageSet.toDen) (S := fun e x => x.2.1 = x.1 ∧ ∃ ch, OnlyElements e.2 ∧ elems e.2 = [(x.1, ch)] ∧ FieldsSay env MessageSet.tagged ch x.2.2) (fun _ _ => messageSetIs_iff))

theorem profileResponseIs_iff {env : Env} {es : List (Str × List Node)} {v : Ofx.ProfileResponse} :
    ProfileResponseIs env es v ↔ TySays env ProfileResponse.ty es (ProfileResponse.toDen v) :=
  called_iff (field_iff holds_iff (field_iff statusIs_iff (field_iff holds_iff (field_iff messageSetListIs_iff (field_iff (each_iff (is := SignonInfoIs env) (f := SignonInfo.toDen) (fun _ _ => signonInfoIs_iff)) (field_iff holds_iff (field_iff holds_iff (field_iff holds_iff (field_iff holds_iff (field_iff holds_iff (field_iff holds_iff (field_iff holds_iff (field_iff holds_iff (field_iff holds_iff (field_iff holds_iff (field_iff holds_iff (field_iff holds_iff (field_iff holds_iff (last_iff holds_iff)))))))))))))))))))

theorem securityIDIs_iff {env : Env} {es : List (Str × List Node)} {v : Ofx.SecurityID} :
    SecurityIDIs env es v ↔ TySays env SecurityID.ty es (SecurityID.toDen v) :=
  called_iff (field_iff holds_iff (last_iff holds_iff))

theorem securityRequestIs_iff {env : Env} {es : List (Str × List Node)} {v : Ofx.SecurityRequest} :
    SecurityRequestIs env es v ↔ TySays env SecurityRequest.ty es (SecurityRequest.toDen v) :=
  called_iff (field_iff (maybe_iff (is := SecurityIDIs env) (f := SecurityID.toDen) (fun _ _ => securityIDIs_iff)) (field_iff holds_iff (last_iff holds_iff)))

theorem secListRequestIs_iff {env : Env} {es : List (Str × List Node)} {v : Ofx.SecListRequest} :
    SecListRequestIs env es v ↔ TySays env SecListRequest.ty es (SecListRequest.toDen v) :=
  called_iff (field_iff holds_iff (field_iff holds_iff (field_iff holds_iff (last_iff (each_iff (is := SecurityRequestIs env) (f := SecurityRequest.toDen) (fun _ _ => securityRequestIs_iff))))))

theorem secListResponseIs_iff {env : Env} {es : List (Str × List Node)} {v : Ofx.SecListResponse} :
    SecListResponseIs env es v ↔ TySays env SecListResponse.ty es (SecListResponse.toDen v) :=
  called_iff (field_iff holds_iff (field_iff statusIs_iff (last_iff holds_iff)))

theorem secInfoIs_iff {env : Env} {es : List (Str × List Node)} {v : Ofx.SecInfo} :
    SecInfoIs env es v ↔ TySays env SecInfo.ty es (SecInfo.toDen v) :=
  called_iff (field_iff securityIDIs_iff (field_iff holds_iff (field_iff holds_iff (field_iff holds_iff (field_iff holds_iff (field_iff holds_iff (field_iff maybe_leaf (field_iff (maybe_iff (is := CurrencyIs env) (f := Currency.toDen) (fun _ _ => currencyIs_iff)) (last_iff holds_iff)))))))))

theorem debtInfoIs_iff {env : Env} {es : List (Str × List Node)} {v : Ofx.DebtInfo} :
    DebtInfoIs env es v ↔ TySays env DebtInfo.ty es (DebtInfo.toDen v) :=
  called_iff (field_iff secInfoIs_iff (field_iff holds_iff (field_iff holds_iff (field_iff holds_iff (field_iff holds_iff (field_iff maybe_leaf (field_iff holds_iff (field_iff holds_iff (field_iff holds_iff (field_iff maybe_leaf (field_iff holds_iff (field_iff holds_iff (field_iff maybe_leaf (field_iff holds_iff (last_iff holds_iff)))))))))))))))

theorem assetPortionIs_iff {env : Env} {es : List (Str × List Node)} {v : Ofx.AssetPortion} :
    AssetPortionIs env es v ↔ TySays env AssetPortion.ty es (AssetPortion.toDen v) :=
  called_iff (field_iff holds_iff (last_iff holds_iff))

theorem fiAssetPortionIs_iff {env : Env} {es : List (Str × List Node)} {v : Ofx.FiAssetPortion} :
    FiAssetPortionIs env es v ↔ TySays env FiAssetPortion.ty es (FiAssetPortion.toDen v) :=
  called_iff (field_iff holds_iff (last_iff holds_iff))

theorem mFInfoIs_iff {env : Env} {es : List (Str × List Node)} {v : Ofx.MFInfo} :
    MFInfoIs env es v ↔ TySays env MFInfo.ty es (MFInfo.toDen v) :=
  called_iff (field_iff secInfoIs_iff (field_iff holds_iff (field_iff holds_iff (field_iff maybe_leaf (field_iff (each_iff (is := AssetPortionIs env) (f := AssetPortion.toDen) (fun _ _ => assetPortionIs_iff)) (last_iff (each_iff (is := FiAssetPortionIs env) (f := FiAssetPortion.toDen) (fun _ _ => fiAssetPortionIs_iff))))))))

theorem optInfoIs_iff {env : Env} {es : List (Str × List Node)} {v : Ofx.OptInfo} :
    OptInfoIs env es v ↔ TySays env OptInfo.ty es (OptInfo.toDen v) :=
  called_iff (field_iff secInfoIs_iff (field_iff holds_iff (field_iff holds_iff (field_iff holds_iff (field_iff holds_iff (field_iff (maybe_iff (is := SecurityIDIs env) (f := SecurityID.toDen) (fun _ _ => securityIDIs_iff)) (field_iff holds_iff (last_iff holds_iff))))))))

theorem otherInfoIs_iff {env : Env} {es : List (Str × List Node)} {v : Ofx.OtherInfo} :
    OtherInfoIs env es v ↔ TySays env OtherInfo.ty es (OtherInfo.toDen v) :=
  called_iff (field_iff secInfoIs_iff (field_iff holds_iff (field_iff holds_iff (last_iff holds_iff))))

theorem stockInfoIs_iff {env : Env} {es : List (Str × List Node)} {v : Ofx.StockInfo} :
    StockInfoIs env es v ↔ TySays env StockInfo.ty es (StockInfo.toDen v) :=
  called_iff (field_iff secInfoIs_iff (field_iff holds_iff (field_iff holds_iff (field_iff maybe_leaf (field_iff holds_iff (last_iff holds_iff))))))

theorem securityIs_iff {env : Env} {e : Str × List Node} {v : Ofx.Security} :
    SecurityIs env e v ↔ AltsSay env Security.alts e (Security.toDen v) := by
  cases v with
  | debtInfo v => exact alt_here debtInfoIs_iff
  | mfInfo v => exact alt_skip (by decide) (alt_here mFInfoIs_iff)
  | optInfo v => exact alt_skip (by decide) (alt_skip (by decide) (alt_here optInfoIs_iff))
  | otherInfo v => exact alt_skip (by decide) (alt_skip (by decide) (alt_skip (by decide) (alt_here otherInfoIs_iff)))
  | stockInfo v => exact alt_skip (by decide) (alt_skip (by decide) (alt_skip (by decide) (alt_skip (by decide) (alt_here stockInfoIs_iff))))

theorem securityListIs_iff {env : Env} {es : List (Str × List Node)} {v : Ofx.SecurityList} :
    SecurityListIs env es v ↔ TySays env SecurityList.ty es (SecurityList.toDen v) :=
  and_congr (alts_last (forall₂_map_iff (R := SecurityIs env) (S := AltsSay env Security.alts) (f := Security.toDen) (fun _ _ => securityIs_iff))) Iff.rfl

theorem invStatementRequestIs_iff {env : Env} {es : List (Str × List Node)} {v : Ofx.InvStatementRequest} :
    InvStatementRequestIs env es v ↔ TySays env InvStatementRequest.ty es (InvStatementRequest.toDen v) :=
  called_iff (field_iff holds_iff (field_iff holds_iff (field_iff holds_iff (field_iff invAcctIs_iff (field_iff maybe_leaf (field_iff maybe_leaf (field_iff holds_iff (field_iff holds_iff (field_iff maybe_leaf (field_iff holds_iff (field_iff holds_iff (field_iff holds_iff (field_iff holds_iff (last_iff holds_iff))))))))))))))

theorem invTranIs_iff {env : Env} {es : List (Str × List Node)} {v : Ofx.InvTran} :
    InvTranIs env es v ↔ TySays env InvTran.ty es (InvTran.toDen v) :=
  called_iff (field_iff holds_iff (field_iff holds_iff (field_iff holds_iff (field_iff maybe_leaf (field_iff holds_iff (last_iff holds_iff))))))

theorem invBuyIs_iff {env : Env} {es : List (Str × List Node)} {v : Ofx.InvBuy} :
    InvBuyIs env es v ↔ TySays env InvBuy.ty es (InvBuy.toDen v) :=
  called_iff (field_iff invTranIs_iff (field_iff securityIDIs_iff (field_iff holds_iff (field_iff holds_iff (field_iff holds_iff (field_iff holds_iff (field_iff holds_iff (field_iff holds_iff (field_iff holds_iff (field_iff holds_iff (field_iff currencyIs_iff (field_iff currencyIs_iff (field_iff holds_iff (field_iff holds_iff (field_iff holds_iff (field_iff holds_iff (field_iff holds_iff (field_iff holds_iff (field_iff maybe_leaf (last_iff holds_iff))))))))))))))))))))

theorem invSellIs_iff {env : Env} {es : List (Str × List Node)} {v : Ofx.InvSell} :
    InvSellIs env es v ↔ TySays env InvSell.ty es (InvSell.toDen v) :=
  called_iff (field_iff invTranIs_iff (field_iff securityIDIs_iff (field_iff holds_iff (field_iff holds_iff (field_iff holds_iff (field_iff holds_iff (field_iff holds_iff (field_iff holds_iff (field_iff holds_iff (field_iff holds_iff (field_iff holds_iff (field_iff holds_iff (field_iff holds_iff (field_iff currencyIs_iff (field_iff currencyIs_iff (field_iff holds_iff (field_iff holds_iff (field_iff holds_iff (field_iff holds_iff (field_iff holds_iff (last_iff holds_iff)))))))))))))))))))))

theorem buyDebtIs_iff {env : Env} {es : List (Str × List Node)} {v : Ofx.BuyDebt} :
    BuyDebtIs env es v ↔ TySays env BuyDebt.ty es (BuyDebt.toDen v) :=
  called_iff (field_iff invBuyIs_iff (last_iff holds_iff))

theorem buyMFIs_iff {env : Env} {es : List (Str × List Node)} {v : Ofx.BuyMF} :
    BuyMFIs env es v ↔ TySays env BuyMF.ty es (BuyMF.toDen v) :=
  called_iff (field_iff invBuyIs_iff (field_iff holds_iff (last_iff holds_iff)))

theorem buyOptIs_iff {env : Env} {es : List (Str × List Node)} {v : Ofx.BuyOpt} :
    BuyOptIs env es v ↔ TySays env BuyOpt.ty es (BuyOpt.toDen v) :=
  called_iff (field_iff invBuyIs_iff (field_iff holds_iff (last_iff holds_iff)))

theorem buyOtherIs_iff {env : Env} {es : List (Str × List Node)} {v : Ofx.BuyOther} :
    BuyOtherIs env es v ↔ TySays env BuyOther.ty es (BuyOther.toDen v) :=
  called_iff (last_iff invBuyIs_iff)

theorem buyStockIs_iff {env : Env} {es : List (Str × List Node)} {v : Ofx.BuyStock} :
    BuyStockIs env es v ↔ TySays env BuyStock.ty es (BuyStock.toDen v) :=
  called_iff (field_iff invBuyIs_iff (last_iff holds_iff))

theorem closureOptIs_iff {env : Env} {es : List (Str × List Node)} {v : Ofx.ClosureOpt} :
    ClosureOptIs env es v ↔ TySays env ClosureOpt.ty es (ClosureOpt.toDen v) :=
  called_iff (field_iff invTranIs_iff (field_iff securityIDIs_iff (field_iff holds_iff (field_iff holds_iff (field_iff holds_iff (field_iff holds_iff (field_iff holds_iff (last_iff holds_iff))))))))

theorem incomeIs_iff {env : Env} {es : List (Str × List Node)} {v : Ofx.Income} :
    IncomeIs env es v ↔ TySays env Income.ty es (Income.toDen v) :=
  called_iff (field_iff invTranIs_iff (field_iff securityIDIs_iff (field_iff holds_iff (field_iff holds_iff (field_iff holds_iff (field_iff holds_iff (field_iff holds_iff (field_iff holds_iff (field_iff currencyIs_iff (field_iff currencyIs_iff (last_iff holds_iff)))))))))))

theorem invExpenseIs_iff {env : Env} {es : List (Str × List Node)} {v : Ofx.InvExpense} :
    InvExpenseIs env es v ↔ TySays env InvExpense.ty es (InvExpense.toDen v) :=
  called_iff (field_iff invTranIs_iff (field_iff securityIDIs_iff (field_iff holds_iff (field_iff holds_iff (field_iff holds_iff (field_iff currencyIs_iff (field_iff currencyIs_iff (last_iff holds_iff))))))))

theorem jrnlFundIs_iff {env : Env} {es : List (Str × List Node)} {v : Ofx.JrnlFund} :
    JrnlFundIs env es v ↔ TySays env JrnlFund.ty es (JrnlFund.toDen v) :=
  called_iff (field_iff invTranIs_iff (field_iff holds_iff (field_iff holds_iff (last_iff holds_iff))))

theorem jrnlSecIs_iff {env : Env} {es : List (Str × List Node)} {v : Ofx.JrnlSec} :
    JrnlSecIs env es v ↔ TySays env JrnlSec.ty es (JrnlSec.toDen v) :=
  called_iff (field_iff invTranIs_iff (field_iff securityIDIs_iff (field_iff holds_iff (field_iff holds_iff (last_iff holds_iff)))))

theorem marginInterestIs_iff {env : Env} {es : List (Str × List Node)} {v : Ofx.MarginInterest} :
    MarginInterestIs env es v ↔ TySays env MarginInterest.ty es (MarginInterest.toDen v) :=
  called_iff (field_iff invTranIs_iff (field_iff holds_iff (field_iff holds_iff (field_iff currencyIs_iff (last_iff currencyIs_iff)))))

theorem reinvestIs_iff {env : Env} {es : List (Str × List Node)} {v : Ofx.Reinvest} :
    ReinvestIs env es v ↔ TySays env Reinvest.ty es (Reinvest.toDen v) :=
  called_iff (field_iff invTranIs_iff (field_iff securityIDIs_iff (field_iff holds_iff (field_iff holds_iff (field_iff holds_iff (field_iff holds_iff (field_iff holds_iff (field_iff holds_iff (field_iff holds_iff (field_iff holds_iff (field_iff holds_iff (field_iff holds_iff (field_iff currencyIs_iff (field_iff currencyIs_iff (last_iff holds_iff)))))))))))))))

theorem retOfCapIs_iff {env : Env} {es : List (Str × List Node)} {v : Ofx.RetOfCap} :
    RetOfCapIs env es v ↔ TySays env RetOfCap.ty es (RetOfCap.toDen v) :=
  called_iff (field_iff invTranIs_iff (field_iff securityIDIs_iff (field_iff holds_iff (field_iff holds_iff (field_iff holds_iff (field_iff currencyIs_iff (field_iff currencyIs_iff (last_iff holds_iff))))))))

theorem sellDebtIs_iff {env : Env} {es : List (Str × List Node)} {v : Ofx.SellDebt} :
    SellDebtIs env es v ↔ TySays env SellDebt.ty es (SellDebt.toDen v) :=
  called_iff (field_iff invSellIs_iff (field_iff holds_iff (last_iff holds_iff)))

theorem sellMFIs_iff {env : Env} {es : List (Str × List Node)} {v : Ofx.SellMF} :
    SellMFIs env es v ↔ TySays env SellMF.ty es (SellMF.toDen v) :=
  called_iff (field_iff invSellIs_iff (field_iff holds_iff (field_iff holds_iff (last_iff holds_iff))))

theorem sellOptIs_iff {env : Env} {es : List (Str × List Node)} {v : Ofx.SellOpt} :
    SellOptIs env es v ↔ TySays env SellOpt.ty es (SellOpt.toDen v) :=
  called_iff (field_iff invSellIs_iff (field_iff holds_iff (field_iff holds_iff (field_iff holds_iff (field_iff holds_iff (last_iff holds_iff))))))

theorem sellOtherIs_iff {env : Env} {es : List (Str × List Node)} {v : Ofx.SellOther} :
    SellOtherIs env es v ↔ TySays env SellOther.ty es (SellOther.toDen v) :=
  called_iff (last_iff invSellIs_iff)

theorem sellStockIs_iff {env : Env} {es : List (Str × List Node)} {v : Ofx.SellStock} :
    SellStockIs env es v ↔ TySays env SellStock.ty es (SellStock.toDen v) :=
  called_iff (field_iff invSellIs_iff (last_iff holds_iff))

theorem splitIs_iff {env : Env} {es : List (Str × List Node)} {v : Ofx.Split} :
    SplitIs env es v ↔ TySays env Split.ty es (Split.toDen v) :=
  called_iff (field_iff invTranIs_iff (field_iff securityIDIs_iff (field_iff holds_iff (field_iff holds_iff (field_iff holds_iff (field_iff holds_iff (field_iff holds_iff (field_iff currencyIs_iff (field_iff currencyIs_iff (field_iff holds_iff (field_iff holds_iff (last_iff holds_iff))))))))))))

theorem transferIs_iff {env : Env} {es : List (Str × List Node)} {v : Ofx.Transfer} :
    TransferIs env es v ↔ TySays env Transfer.ty es (Transfer.toDen v) :=
  called_iff (field_iff invTranIs_iff (field_iff securityIDIs_iff (field_iff holds_iff (field_iff holds_iff (field_iff holds_iff (field_iff holds_iff (field_iff invAcctIs_iff (field_iff holds_iff (field_iff holds_iff (field_iff maybe_leaf (last_iff holds_iff)))))))))))

theorem invBankTransactionIs_iff {env : Env} {es : List (Str × List Node)} {v : Ofx.InvBankTransaction} :
    InvBankTransactionIs env es v ↔ TySays env InvBankTransaction.ty es (InvBankTransaction.toDen v) :=
  called_iff (field_iff (each_iff (is := TransactionIs env) (f := Transaction.toDen) (fun _ _ => transactionIs_iff)) (last_iff holds_iff))

theorem invTransactionIs_iff {env : Env} {e : Str × List Node} {v : Ofx.InvTransaction} :
    InvTransactionIs env e v ↔ AltsSay env InvTransaction.alts e (InvTransaction.toDen v) := by
  cases v with
  | buyDebt v => exact alt_here buyDebtIs_iff
  | buyMF v => exact alt_skip (by decide) (alt_here buyMFIs_iff)
  | buyOpt v => exact alt_skip (by decide) (alt_skip (by decide) (alt_here buyOptIs_iff))
  | buyOther v => exact alt_skip (by decide) (alt_skip (by decide) (alt_skip (by decide) (alt_here buyOtherIs_iff)))
  | buyStock v => exact alt_skip (by decide) (alt_skip (by decide) (alt_skip (by decide) (alt_skip (by decide) (alt_here buyStockIs_iff))))
  | closureOpt v => exact alt_skip (by decide) (alt_skip (by decide) (alt_skip (by decide) (alt_skip (by decide) (alt_skip (by decide) (alt_here closureOptIs_iff)))))
  | income v => exact alt_skip (by decide) (alt_skip (by decide) (alt_skip (by decide) (alt_skip (by decide) (alt_skip (by decide) (alt_skip (by decide) (alt_here incomeIs_iff))))))
  | invExpense v => exact alt_skip (by decide) (alt_skip (by decide) (alt_skip (by decide) (alt_skip (by decide) (alt_skip (by decide) (alt_skip (by decide) (alt_skip (by decide) (alt_here invExpenseIs_iff)))))))
  | jrnlFund v => exact alt_skip (by decide) (alt_skip (by decide) (alt_skip (by decide) (alt_skip (by decide) (alt_skip (by decide) (alt_skip (by decide) (alt_skip (by decide) (alt_skip (by decide) (alt_here jrnlFundIs_iff))))))))
  | jrnlSec v => exact alt_skip (by decide) (alt_skip (by decide) (alt_skip (by decide) (alt_skip (by decide) (alt_skip (by decide) (alt_skip (by decide) (alt_skip (by decide) (alt_skip (by decide) (alt_skip (by decide) (alt_here jrnlSecIs_iff)))))))))
  | marginInterest v => exact alt_skip (by decide) (alt_skip (by decide) (alt_skip (by decide) (alt_skip (by decide) (alt_skip (by decide) (alt_skip (by decide) (alt_skip (by decide) (alt_skip (by decide) (alt_skip (by decide) (alt_skip (by decide) (alt_here marginInterestIs_iff))))))))))
  | reinvest v => exact alt_skip (by decide) (alt_skip (by decide) (alt_skip (by decide) (alt_skip (by decide) (alt_skip (by decide) (alt_skip (by decide) (alt_skip (by decide) (alt_skip (by decide) (alt_skip (by decide) (alt_skip (by decide) (alt_skip (by decide) (alt_here reinvestIs_iff)))))))))))
  | retOfCap v => exact alt_skip (by decide) (alt_skip (by decide) (alt_skip (by decide) (alt_skip (by decide) (alt_skip (by decide) (alt_skip (by decide) (alt_skip (by decide) (alt_skip (by decide) (alt_skip (by decide) (alt_skip (by decide) (alt_skip (by decide) (alt_skip (by decide) (alt_here retOfCapIs_iff))))))))))))
  | sellDebt v => exact alt_skip (by decide) (alt_skip (by decide) (alt_skip (by decide) (alt_skip (by decide) (alt_skip (by decide) (alt_skip (by decide) (alt_skip (by decide) (alt_skip (by decide) (alt_skip (by decide) (alt_skip (by decide) (alt_skip (by decide) (alt_skip (by decide) (alt_skip (by decide) (alt_here sellDebtIs_iff)))))))))))))
  | sellMF v => exact alt_skip (by decide) (alt_skip (by decide) (alt_skip (by decide) (alt_skip (by decide) (alt_skip (by decide) (alt_skip (by decide) (alt_skip (by decide) (alt_skip (by decide) (alt_skip (by decide) (alt_skip (by decide) (alt_skip (by decide) (alt_skip (by decide) (alt_skip (by decide) (alt_skip (by decide) (alt_here sellMFIs_iff))))))))))))))
  | sellOpt v => exact alt_skip (by decide) (alt_skip (by decide) (alt_skip (by decide) (alt_skip (by decide) (alt_skip (by decide) (alt_skip (by decide) (alt_skip (by decide) (alt_skip (by decide) (alt_skip (by decide) (alt_skip (by decide) (alt_skip (by decide) (alt_skip (by decide) (alt_skip (by decide) (alt_skip (by decide) (alt_skip (by decide) (alt_here sellOptIs_iff)))))))))))))))
  | sellOther v => exact alt_skip (by decide) (alt_skip (by decide) (alt_skip (by decide) (alt_skip (by decide) (alt_skip (by decide) (alt_skip (by decide) (alt_skip (by decide) (alt_skip (by decide) (alt_skip (by decide) (alt_skip (by decide) (alt_skip (by decide) (alt_skip (by decide) (alt_skip (by decide) (alt_skip (by decide) (alt_skip (by decide) (alt_skip (by decide) (alt_here sellOtherIs_iff))))))))))))))))
  | sellStock v => exact alt_skip (by decide) (alt_skip (by decide) (alt_skip (by decide) (alt_skip (by decide) (alt_skip (by decide) (alt_skip (by decide) (alt_skip (by decide) (alt_skip (by decide) (alt_skip (by decide) (alt_skip (by decide) (alt_skip (by decide) (alt_skip (by decide) (alt_skip (by decide) (alt_skip (by decide) (alt_skip (by decide) (alt_skip (by decide) (alt_skip (by decide) (alt_here sellStockIs_iff)))))))))))))))))
  | split v => exact alt_skip (by decide) (alt_skip (by decide) (alt_skip (by decide) (alt_skip (by decide) (alt_skip (by decide) (alt_skip (by decide) (alt_skip (by decide) (alt_skip (by decide) (alt_skip (by decide) (alt_skip (by decide) (alt_skip (by decide) (alt_skip (by decide) (alt_skip (by decide) (alt_skip (by decide) (alt_skip (by decide) (alt_skip (by decide) (alt_skip (by decide) (alt_skip (by decide) (alt_here splitIs_iff))))))))))))))))))
  | transfer v => exact alt_skip (by decide) (alt_skip (by decide) (alt_skip (by decide) (alt_skip (by decide) (alt_skip (by decide) (alt_skip (by decide) (alt_skip (by decide) (alt_skip (by decide) (alt_skip (by decide) (alt_skip (by decide) (alt_skip (by decide) (alt_skip (by decide) (alt_skip (by decide) (alt_skip (by decide) (alt_skip (by decide) (alt_skip (by decide) (alt_skip (by decide) (alt_skip (by decide) (alt_skip (by decide) (alt_here transferIs_iff)))))))))))))))))))

theorem invTranListIs_iff {env : Env} {es : List (Str × List Node)} {v : Ofx.InvTranList} :
    InvTranListIs env es v ↔ TySays env InvTranList.ty es (InvTranList.toDen v) :=
  closed_iff (field_iff holds_iff (field_iff holds_iff (alts_iff (forall₂_map_iff (R := InvTransactionIs env) (S := AltsSay env InvTransaction.alts) (f := InvTransaction.toDen) (fun _ _ => invTransactionIs_iff)) (last_iff (each_iff (is := InvBankTransactionIs env) (f := InvBankTransaction.toDen) (fun _ _ => invBankTransactionIs_iff))))))

theorem invPositionIs_iff {env : Env} {es : List (Str × List Node)} {v : Ofx.InvPosition} :
    InvPositionIs env es v ↔ TySays env InvPosition.ty es (InvPosition.toDen v) :=
  called_iff (field_iff securityIDIs_iff (field_iff holds_iff (field_iff holds_iff (field_iff holds_iff (field_iff holds_iff (field_iff holds_iff (field_iff holds_iff (field_iff holds_iff (field_iff (maybe_iff (is := CurrencyIs env) (f := Currency.toDen) (fun _ _ => currencyIs_iff)) (field_iff holds_iff (last_iff holds_iff)))))))))))

theorem debtPositionIs_iff {env : Env} {es : List (Str × List Node)} {v : Ofx.DebtPosition} :
    DebtPositionIs env es v ↔ TySays env DebtPosition.ty es (DebtPosition.toDen v) :=
  called_iff (last_iff invPositionIs_iff)

theorem mFPositionIs_iff {env : Env} {es : List (Str × List Node)} {v : Ofx.MFPosition} :
    MFPositionIs env es v ↔ TySays env MFPosition.ty es (MFPosition.toDen v) :=
  called_iff (field_iff invPositionIs_iff (field_iff holds_iff (field_iff holds_iff (field_iff holds_iff (last_iff holds_iff)))))

theorem optPositionIs_iff {env : Env} {es : List (Str × List Node)} {v : Ofx.OptPosition} :
    OptPositionIs env es v ↔ TySays env OptPosition.ty es (OptPosition.toDen v) :=
  called_iff (field_iff invPositionIs_iff (last_iff holds_iff))

theorem otherPositionIs_iff {env : Env} {es : List (Str × List Node)} {v : Ofx.OtherPosition} :
    OtherPositionIs env es v ↔ TySays env OtherPosition.ty es (OtherPosition.toDen v) :=
  called_iff (last_iff invPositionIs_iff)

theorem stockPositionIs_iff {env : Env} {es : List (Str × List Node)} {v : Ofx.StockPosition} :
    StockPositionIs env es v ↔ TySays env StockPosition.ty es (StockPosition.toDen v) :=
  called_iff (field_iff invPositionIs_iff (field_iff holds_iff (field_iff holds_iff (last_iff holds_iff))))

theorem invBalanceIs_iff {env : Env} {es : List (Str × List Node)} {v : Ofx.InvBalance} :
    InvBalanceIs env es v ↔ TySays env InvBalance.ty es (InvBalance.toDen v) :=
  called_iff (field_iff holds_iff (field_iff holds_iff (field_iff holds_iff (field_iff holds_iff (last_iff (each_iff (is := BalanceIs env) (f := Balance.toDen) (fun _ _ => balanceIs_iff)))))))

theorem oOIs_iff {env : Env} {es : List (Str × List Node)} {v : Ofx.OO} :
    OOIs env es v ↔ TySays env OO.ty es (OO.toDen v) :=
  called_iff (field_iff holds_iff (field_iff holds_iff (field_iff securityIDIs_iff (field_iff holds_iff (field_iff holds_iff (field_iff holds_iff (field_iff holds_iff (field_iff holds_iff (field_iff holds_iff (field_iff holds_iff (field_iff holds_iff (field_iff holds_iff (field_iff (maybe_iff (is := CurrencyIs env) (f := Currency.toDen) (fun _ _ => currencyIs_iff)) (last_iff holds_iff))))))))))))))

theorem oOBuyDebtIs_iff {env : Env} {es : List (Str × List Node)} {v : Ofx.OOBuyDebt} :
    OOBuyDebtIs env es v ↔ TySays env OOBuyDebt.ty es (OOBuyDebt.toDen v) :=
  called_iff (field_iff oOIs_iff (field_iff holds_iff (last_iff maybe_leaf)))

theorem oOBuyMFIs_iff {env : Env} {es : List (Str × List Node)} {v : Ofx.OOBuyMF} :
    OOBuyMFIs env es v ↔ TySays env OOBuyMF.ty es (OOBuyMF.toDen v) :=
  called_iff (field_iff oOIs_iff (field_iff holds_iff (last_iff holds_iff)))

theorem oOBuyOptIs_iff {env : Env} {es : List (Str × List Node)} {v : Ofx.OOBuyOpt} :
    OOBuyOptIs env es v ↔ TySays env OOBuyOpt.ty es (OOBuyOpt.toDen v) :=
  called_iff (field_iff oOIs_iff (last_iff holds_iff))

theorem oOBuyOtherIs_iff {env : Env} {es : List (Str × List Node)} {v : Ofx.OOBuyOther} :
    OOBuyOtherIs env es v ↔ TySays env OOBuyOther.ty es (OOBuyOther.toDen v) :=
  called_iff (field_iff oOIs_iff (last_iff holds_iff))

theorem oOBuyStockIs_iff {env : Env} {es : List (Str × List Node)} {v : Ofx.OOBuyStock} :
    OOBuyStockIs env es v ↔ TySays env OOBuyStock.ty es (OOBuyStock.toDen v) :=
  called_iff (field_iff oOIs_iff (last_iff holds_iff))

theorem oOSellDebtIs_iff {env : Env} {es : List (Str × List Node)} {v : Ofx.OOSellDebt} :
    OOSellDebtIs env es v ↔ TySays env OOSellDebt.ty es (OOSellDebt.toDen v) :=
  called_iff (last_iff oOIs_iff)

theorem oOSellMFIs_iff {env : Env} {es : List (Str × List Node)} {v : Ofx.OOSellMF} :
    OOSellMFIs env es v ↔ TySays env OOSellMF.ty es (OOSellMF.toDen v) :=
  called_iff (field_iff oOIs_iff (field_iff holds_iff (field_iff holds_iff (last_iff holds_iff))))

theorem oOSellOptIs_iff {env : Env} {es : List (Str × List Node)} {v : Ofx.OOSellOpt} :
    OOSellOptIs env es v ↔ TySays env OOSellOpt.ty es (OOSellOpt.toDen v) :=
  called_iff (field_iff oOIs_iff (last_iff holds_iff))

theorem oOSellOtherIs_iff {env : Env} {es : List (Str × List Node)} {v : Ofx.OOSellOther} :
    OOSellOtherIs env es v ↔ TySays env OOSellOther.ty es (OOSellOther.toDen v) :=
  called_iff (field_iff oOIs_iff (last_iff holds_iff))

theorem oOSellStockIs_iff {env : Env} {es : List (Str × List Node)} {v : Ofx.OOSellStock} :
    OOSellStockIs env es v ↔ TySays env OOSellStock.ty es (OOSellStock.toDen v) :=
  called_iff (field_iff oOIs_iff (last_iff holds_iff))

theorem oOSwitchMFIs_iff {env : Env} {es : List (Str × List Node)} {v : Ofx.OOSwitchMF} :
    OOSwitchMFIs env es v ↔ TySays env OOSwitchMF.ty es (OOSwitchMF.toDen v) :=
  called_iff (field_iff oOIs_iff (field_iff securityIDIs_iff (field_iff holds_iff (last_iff holds_iff))))

theorem contribSecurityIs_iff {env : Env} {es : List (Str × List Node)} {v : Ofx.ContribSecurity} :
    ContribSecurityIs env es v ↔ TySays env ContribSecurity.ty es (ContribSecurity.toDen v) :=
  called_iff (field_iff securityIDIs_iff (field_iff holds_iff (field_iff holds_iff (field_iff holds_iff (field_iff holds_iff (field_iff holds_iff (field_iff holds_iff (field_iff holds_iff (field_iff holds_iff (field_iff holds_iff (field_iff holds_iff (field_iff holds_iff (field_iff holds_iff (field_iff holds_iff (last_iff holds_iff)))))))))))))))

theorem vestInfoIs_iff {env : Env} {es : List (Str × List Node)} {v : Ofx.VestInfo} :
    VestInfoIs env es v ↔ TySays env VestInfo.ty es (VestInfo.toDen v) :=
  called_iff (field_iff maybe_leaf (last_iff holds_iff))

theorem loanInfoIs_iff {env : Env} {es : List (Str × List Node)} {v : Ofx.LoanInfo} :
    LoanInfoIs env es v ↔ TySays env LoanInfo.ty es (LoanInfo.toDen v) :=
  called_iff (field_iff holds_iff (field_iff holds_iff (field_iff holds_iff (field_iff maybe_leaf (field_iff holds_iff (field_iff maybe_leaf (field_iff holds_iff (field_iff holds_iff (field_iff holds_iff (field_iff holds_iff (field_iff holds_iff (field_iff maybe_leaf (field_iff holds_iff (field_iff holds_iff (last_iff maybe_leaf)))))))))))))))

theorem inv401KSummaryAggregateIs_iff {env : Env} {es : List (Str × List Node)} {v : Ofx.Inv401KSummaryAggregate} :
    Inv401KSummaryAggregateIs env es v ↔ TySays env Inv401KSummaryAggregate.ty es (Inv401KSummaryAggregate.toDen v) :=
  free_iff (field_iff holds_iff (field_iff holds_iff (field_iff holds_iff (field_iff holds_iff (field_iff holds_iff (field_iff holds_iff (field_iff holds_iff (last_iff holds_iff))))))))

theorem inv401KSummaryPeriodIs_iff {env : Env} {es : List (Str × List Node)} {v : Ofx.Inv401KSummaryPeriod} :
    Inv401KSummaryPeriodIs env es v ↔ TySays env Inv401KSummaryPeriod.ty es (Inv401KSummaryPeriod.toDen v) :=
  free_iff (field_iff holds_iff (field_iff holds_iff (field_iff (maybe_iff (is := Inv401KSummaryAggregateIs env) (f := Inv401KSummaryAggregate.toDen) (fun _ _ => inv401KSummaryAggregateIs_iff)) (field_iff (maybe_iff (is := Inv401KSummaryAggregateIs env) (f := Inv401KSummaryAggregate.toDen) (fun _ _ => inv401KSummaryAggregateIs_iff)) (last_iff (maybe_iff (is := Inv401KSummaryAggregateIs env) (f := Inv401KSummaryAggregate.toDen) (fun _ _ => inv401KSummaryAggregateIs_iff)))))))

theorem inv401KIs_iff {env : Env} {es : List (Str × List Node)} {v : Ofx.Inv401K} :
    Inv401KIs env es v ↔ TySays env Inv401K.ty es (Inv401K.toDen v) :=
  called_iff (field_iff holds_iff (field_iff holds_iff (field_iff maybe_leaf (field_iff holds_iff (field_iff holds_iff (field_iff holds_iff (field_iff holds_iff (field_iff holds_iff (field_iff holds_iff (field_iff holds_iff (field_iff maybe_leaf (field_iff holds_iff (field_iff holds_iff (field_iff (each_iff (is := ContribSecurityIs env) (f := ContribSecurity.toDen) (fun _ _ => contribSecurityIs_iff)) (field_iff holds_iff (field_iff (each_iff (is := VestInfoIs env) (f := VestInfo.toDen) (fun _ _ => vestInfoIs_iff)) (field_iff (each_iff (is := LoanInfoIs env) (f := LoanInfo.toDen) (fun _ _ => loanInfoIs_iff)) (field_iff inv401KSummaryPeriodIs_iff (field_iff (maybe_iff (is := Inv401KSummaryPeriodIs env) (f := Inv401KSummaryPeriod.toDen) (fun _ _ => inv401KSummaryPeriodIs_iff)) (last_iff (maybe_iff (is := Inv401KSummaryPeriodIs env) (f := Inv401KSummaryPeriod.toDen) (fun _ _ => inv401KSummaryPeriodIs_iff))))))))))))))))))))))

theorem inv401KBalIs_iff {env : Env} {es : List (Str × List Node)} {v : Ofx.Inv401KBal} :
    Inv401KBalIs env es v ↔ TySays env Inv401KBal.ty es (Inv401KBal.toDen v) :=
  called_iff (field_iff holds_iff (field_iff holds_iff (field_iff holds_iff (field_iff holds_iff (field_iff holds_iff (field_iff holds_iff (field_iff holds_iff (field_iff holds_iff (field_iff holds_iff (last_iff (each_iff (is := BalanceIs env) (f := Balance.toDen) (fun _ _ => balanceIs_iff))))))))))))

theorem positionIs_iff {env : Env} {e : Str × List Node} {v : Ofx.Position} :
    PositionIs env e v ↔ AltsSay env Position.alts e (Position.toDen v) := by
  cases v with
  | debtPosition v => exact alt_here debtPositionIs_iff
  | mfPosition v => exact alt_skip (by decide) (alt_here mFPositionIs_iff)
  | optPosition v => exact alt_skip (by decide) (alt_skip (by decide) (alt_here optPositionIs_iff))
  | otherPosition v => exact alt_skip (by decide) (alt_skip (by decide) (alt_skip (by decide) (alt_here otherPositionIs_iff)))
  | stockPosition v => exact alt_skip (by decide) (alt_skip (by decide) (alt_skip (by decide) (alt_skip (by decide) (alt_here stockPositionIs_iff))))

theorem positionListIs_iff {env : Env} {es : List (Str × List Node)} {v : Ofx.PositionList} :
    PositionListIs env es v ↔ TySays env PositionList.ty es (PositionList.toDen v) :=
  and_congr (alts_last (forall₂_map_iff (R := PositionIs env) (S := AltsSay env Position.alts) (f := Position.toDen) (fun _ _ => positionIs_iff))) Iff.rfl

theorem openOrderIs_iff {env : Env} {e : Str × List Node} {v : Ofx.OpenOrder} :
    OpenOrderIs env e v ↔ AltsSay env OpenOrder.alts e (OpenOrder.toDen v) := by
  cases v with
  | ooBuyDebt v => exact alt_here oOBuyDebtIs_iff
  | ooBuyMF v => exact alt_skip (by decide) (alt_here oOBuyMFIs_iff)
  | ooBuyOpt v => exact alt_skip (by decide) (alt_skip (by decide) (alt_here oOBuyOptIs_iff))
  | ooBuyOther v => exact alt_skip (by decide) (alt_skip (by decide) (alt_skip (by decide) (alt_here oOBuyOtherIs_iff)))
  | ooBuyStock v => exact alt_skip (by decide) (alt_skip (by decide) (alt_skip (by decide) (alt_skip (by decide) (alt_here oOBuyStockIs_iff))))
  | ooSellDebt v => exact alt_skip (by decide) (alt_skip (by decide) (alt_skip (by decide) (alt_skip (by decide) (alt_skip (by decide) (alt_here oOSellDebtIs_iff)))))
  | ooSellMF v => exact alt_skip (by decide) (alt_skip (by decide) (alt_skip (by decide) (alt_skip (by decide) (alt_skip (by decide) (alt_skip (by decide) (alt_here oOSellMFIs_iff))))))
  | ooSellOpt v => exact alt_skip (by decide) (alt_skip (by decide) (alt_skip (by decide) (alt_skip (by decide) (alt_skip (by decide) (alt_skip (by decide) (alt_skip (by decide) (alt_here oOSellOptIs_iff)))))))
  | ooSellOther v => exact alt_skip (by decide) (alt_skip (by decide) (alt_skip (by decide) (alt_skip (by decide) (alt_skip (by decide) (alt_skip (by decide) (alt_skip (by decide) (alt_skip (by decide) (alt_here oOSellOtherIs_iff))))))))
  | ooSellStock v => exact alt_skip (by decide) (alt_skip (by decide) (alt_skip (by decide) (alt_skip (by decide) (alt_skip (by decide) (alt_skip (by decide) (alt_skip (by decide) (alt_skip (by decide) (alt_skip (by decide) (alt_here oOSellStockIs_iff)))))))))
  | ooSwitchMF v => exact alt_skip (by decide) (alt_skip (by decide) (alt_skip (by decide) (alt_skip (by decide) (alt_skip (by decide) (alt_skip (by decide) (alt_skip (by decide) (alt_skip (by decide) (alt_skip (by decide) (alt_skip (by decide) (alt_here oOSwitchMFIs_iff))))))))))

theorem oOListIs_iff {env : Env} {es : List (Str × List Node)} {v : Ofx.OOList} :
    OOListIs env es v ↔ TySays env OOList.ty es (OOList.toDen v) :=
  and_congr (alts_last (forall₂_map_iff (R := OpenOrderIs env) (S := AltsSay env OpenOrder.alts) (f := OpenOrder.toDen) (fun _ _ => openOrderIs_iff))) Iff.rfl

theorem invStatementResponseIs_iff {env : Env} {es : List (Str × List Node)} {v : Ofx.InvStatementResponse} :
    InvStatementResponseIs env es v ↔ TySays env InvStatementResponse.ty es (InvStatementResponse.toDen v) :=
  called_iff (field_iff holds_iff (field_iff statusIs_iff (field_iff holds_iff (field_iff holds_iff (field_iff holds_iff (field_iff invAcctIs_iff (field_iff (maybe_iff (is := InvTranListIs env) (f := InvTranList.toDen) (fun _ _ => invTranListIs_iff)) (field_iff positionListIs_iff (field_iff (maybe_iff (is := InvBalanceIs env) (f := InvBalance.toDen) (fun _ _ => invBalanceIs_iff)) (field_iff oOListIs_iff (field_iff holds_iff (field_iff (maybe_iff (is := Inv401KIs env) (f := Inv401K.toDen) (fun _ _ => inv401KIs_iff)) (last_iff (maybe_iff (is := Inv401KBalIs env) (f := Inv401KBal.toDen) (fun _ _ => inv401KBalIs_iff)))))))))))))))

end Ofx
