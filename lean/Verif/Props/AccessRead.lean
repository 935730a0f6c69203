import Verif.Lemmas.SaysDoc
import Verif.Props.Access
/-
Property C68, reading: the methods of transactions, positions and securities return what the
document says; and C39: lists of investment transactions exactly.
-/
namespace Ofx.Props
open Ofx Ofx.Spec

/-- The elements called `n` that are inside `cs`, or inside the elements of `cs` called `wrap`,
say that the value is `part` (by the schema of its type). -/
def PartSays {α : Type} [OfxType α] (env : Env) (wrap : List Str) (n : Str) (cs : List Node) (part : α) : Prop :=
  TySays env (OfxType.ty α) (elementsAt wrap n cs) (OfxType.toDen part)

/-- Where the INVTRAN element of a transaction is: purchases and sales have it in an INVBUY or
INVSELL element, the others directly. -/
def tranWrap (kind : Str) : List Str :=
  if kind ∈ ["BUYDEBT", "BUYMF", "BUYOPT", "BUYOTHER", "BUYSTOCK"].map String.toList then ["INVBUY".toList]
  else if kind ∈ ["SELLDEBT", "SELLMF", "SELLOPT", "SELLOTHER", "SELLSTOCK"].map String.toList then ["INVSELL".toList]
  else []

local macro "find_part" h:ident : tactic => `(tactic|
  repeat (first | exact ($h).1 | exact ($h).1.2.2.1 | replace $h := ($h).2))

theorem position_part (env : Env) (e : Str × List Node) (p : Position) (h : PositionReads env e p) :
    PartSays env [] "INVPOS".toList e.2 p.InvPosition := by
  obtain ⟨n, cs⟩ := e
  cases p <;>
  · have h := (decodeNew_says env _ _ _ (by decide +kernel)).mp h.2
    obtain ⟨-, -, h⟩ := h
    rw [show [(n, cs)].flatMap (fun e => e.2) = cs from by simp] at h
    find_part h

theorem security_part (env : Env) (e : Str × List Node) (p : Security) (h : SecurityReads env e p) :
    PartSays env [] "SECINFO".toList e.2 p.SecurityInfo := by
  obtain ⟨n, cs⟩ := e
  cases p <;>
  · have h := (decodeNew_says env _ _ _ (by decide +kernel)).mp h.2
    obtain ⟨-, -, h⟩ := h
    rw [show [(n, cs)].flatMap (fun e => e.2) = cs from by simp] at h
    find_part h

theorem transaction_part (env : Env) (e : Str × List Node) (p : InvTransaction) (h : InvTransactionReads env e p) :
    PartSays env (tranWrap e.1) "INVTRAN".toList e.2 p.InvTransaction := by
  obtain ⟨n, cs⟩ := e
  have hf : [(n, cs)].flatMap (fun e => e.2) = cs := by simp
  cases p
  case buyDebt | buyMF | buyOpt | buyOther | buyStock =>
    have hw : tranWrap n = ["INVBUY".toList] := by rw [show n = _ from h.1]; decide +kernel
    have h := (decodeNew_says env _ _ _ (by decide +kernel)).mp h.2
    obtain ⟨-, -, h⟩ := h
    rw [hf] at h
    show PartSays env (tranWrap n) _ _ _
    rw [hw]
    exact h.1.2.2.1
  case sellDebt | sellMF | sellOpt | sellOther | sellStock =>
    have hw : tranWrap n = ["INVSELL".toList] := by rw [show n = _ from h.1]; decide +kernel
    have h := (decodeNew_says env _ _ _ (by decide +kernel)).mp h.2
    obtain ⟨-, -, h⟩ := h
    rw [hf] at h
    show PartSays env (tranWrap n) _ _ _
    rw [hw]
    exact h.1.2.2.1
  all_goals
    have hw : tranWrap n = [] := by rw [show n = _ from h.1]; decide +kernel
    have h := (decodeNew_says env _ _ _ (by decide +kernel)).mp h.2
    obtain ⟨-, -, h⟩ := h
    rw [hf] at h
    show PartSays env (tranWrap n) _ _ _
    rw [hw]
    exact h.1

/-- C68: of each position read, InvPosition returns what the INVPOS element in its element says. -/
theorem C68_position_says (env : Env) (name : Str) (cs : List Node) (l : PositionList) (h : decodeNew env name cs = .ok l) :
    List.Forall₂ (fun e p => InvPositionIs env (elementsAt [] "INVPOS".toList e.2) p.InvPosition) (elems cs) l :=
  ((C39_position_list env name cs l).mp h).2.imp (fun e p h => invPositionIs_iff.mpr (position_part env e p h))

/-- C68: of each security read, SecurityInfo returns what the SECINFO element in its element says. -/
theorem C68_security_says (env : Env) (name : Str) (cs : List Node) (l : SecurityList) (h : decodeNew env name cs = .ok l) :
    List.Forall₂ (fun e p => SecInfoIs env (elementsAt [] "SECINFO".toList e.2) p.SecurityInfo) (elems cs) l.Securities :=
  ((C39_security_list env name cs l).mp h).2.imp (fun e p h => secInfoIs_iff.mpr (security_part env e p h))

/-- C68: of each transaction read, InvTransaction returns what the INVTRAN element says, which
is inside INVBUY or INVSELL if it is a purchase or a sale. -/
theorem C68_transaction_says (env : Env) (name : Str) (cs : List Node) (l : InvTranList) (h : decodeNew env name cs = .ok l) :
    List.Forall₂ (fun e p => InvTranIs env (elementsAt (tranWrap e.1) "INVTRAN".toList e.2) p.InvTransaction)
      ((elems cs).filter (fun e => e.1 ∉ [("DTSTART".toList : Str), "DTEND".toList, "INVBANKTRAN".toList])) l.InvTransactions :=
  (C39_investment_transaction_list env name cs l h).2.1.imp (fun e p h => invTranIs_iff.mpr (transaction_part env e p h))

/-- A list with a purchase and a transfer. -/
example (env : Env) : ∃ l : InvTranList, decodeNew env "INVTRANLIST".toList
    [.elem "BUYSTOCK".toList [.elem "INVBUY".toList [.elem "INVTRAN".toList [.elem "FITID".toList [.text "7".toList]]]],
     .elem "TRANSFER".toList [.elem "INVTRAN".toList [.elem "FITID".toList [.text "8".toList]]]] = .ok l ∧
    l.InvTransactions.map (fun t => t.InvTransaction.FiTID) = ["7".toList, "8".toList] := ⟨_, rfl, rfl⟩

/-- C39: lists of investment transactions, exactly: white space aside there are only elements;
the dates are what the DTSTART and DTEND elements say; every other element is a bank transaction
or an investment transaction of the kind it is named after, and both keep their order. -/
theorem C39_investment_transaction_list_iff (env : Env) (name : Str) (cs : List Node) (l : InvTranList) :
    decodeNew env name cs = .ok l ↔
    OnlyElements cs ∧
    Holds env .date ((elems cs).filter (fun e => e.1 = "DTSTART".toList)) l.DtStart ∧
    Holds env .date ((elems cs).filter (fun e => e.1 = "DTEND".toList)) l.DtEnd ∧
    List.Forall₂ (InvTransactionReads env)
      ((elems cs).filter (fun e => e.1 ∉ [("DTSTART".toList : Str), "DTEND".toList, "INVBANKTRAN".toList]))
      l.InvTransactions ∧
    List.Forall₂ (fun e t => decodeNew env e.1 e.2 = .ok t)
      ((elems cs).filter (fun e => e.1 = "INVBANKTRAN".toList)) l.BankTransactions := by
  have hf : [(name, cs)].flatMap (fun e => e.2) = cs := by simp
  have hbank : ∀ (e : Str × List Node) (t : InvBankTransaction), decodeNew env e.1 e.2 = .ok t ↔
      TySays env InvBankTransaction.ty [e] (InvBankTransaction.toDen t) :=
    fun e t => decodeNew_says env _ _ t (by decide +kernel)
  have halt : ∀ (e : Str × List Node) (t : InvTransaction), InvTransactionReads env e t ↔
      AltsSay env InvTransaction.alts e (InvTransaction.toDen t) :=
    fun e t => (invTransaction_dec env e t).symm.trans (altsDec_iff env _ (by decide +kernel) e _)
  have hdisj : ∀ n ∈ altNames InvTransaction.alts, n ∉ [("DTSTART".toList : Str), "DTEND".toList, "INVBANKTRAN".toList] := by
    decide +kernel
  have hnames : ∀ (e : Str × List Node) (t : InvTransaction), InvTransactionReads env e t → e.1 ∈ altNames InvTransaction.alts := by
    intro e t h
    cases t <;> (rw [show e.1 = _ from h.1]; decide +kernel)
  constructor
  · intro h
    obtain ⟨h1, h2, h3⟩ := C39_investment_transaction_list env name cs l h
    have h := (decodeNew_says env _ _ _ (by decide +kernel)).mp h
    obtain ⟨h, -⟩ := h
    rw [hf] at h
    exact ⟨h1, h.1, h.2.1, h2, h3⟩
  · rintro ⟨h1, h2, h3, h4, h5⟩
    have hin : ∀ e ∈ (elems cs).filter (fun e => e.1 ∉ [("DTSTART".toList : Str), "DTEND".toList, "INVBANKTRAN".toList]),
        e.1 ∈ altNames InvTransaction.alts := by
      intro e he
      obtain ⟨i, hi, rfl⟩ := List.getElem_of_mem he
      have hi' := h4.length_eq ▸ hi
      exact hnames _ _ (h4.get hi hi')
    refine (decodeNew_says env _ _ _ (by decide +kernel)).mpr ⟨?_, ?_⟩
    · rw [hf]
      refine ⟨h2, h3, ?_, ?_, trivial⟩
      · have e : (elems cs).filter (fun e => e.1 ∈ altNames InvTransaction.alts) =
            (elems cs).filter (fun e => e.1 ∉ [("DTSTART".toList : Str), "DTEND".toList, "INVBANKTRAN".toList]) := by
          apply List.filter_congr
          intro e he
          rw [decide_eq_decide]
          exact ⟨hdisj _, fun hn => hin e (List.mem_filter.mpr ⟨he, by simpa using hn⟩)⟩
        show List.Forall₂ (AltsSay env InvTransaction.alts) _ (l.InvTransactions.map InvTransaction.toDen)
        rw [e, List.forall₂_map_right_iff]
        exact h4.imp (fun e t h => (halt e t).mp h)
      · show List.Forall₂ _ _ (l.BankTransactions.map InvBankTransaction.toDen)
        rw [List.forall₂_map_right_iff]
        exact h5.imp (fun e t h => (hbank e t).mp h)
    · rw [hf]
      intro c hc
      rcases h1 c hc with ⟨n, ch, rfl⟩ | hb
      · refine .inl ⟨n, ch, rfl, ?_⟩
        have hm : (n, ch) ∈ elems cs := mem_elems.mpr hc
        have hsub : ∀ m, m ∈ altNames InvTransaction.alts ∨ m ∈ [("DTSTART".toList : Str), "DTEND".toList, "INVBANKTRAN".toList] →
            m ∈ childNames InvTranList.fields [] := by
          have k1 : ∀ m ∈ altNames InvTransaction.alts, m ∈ childNames InvTranList.fields [] := by decide +kernel
          have k2 : ∀ m ∈ [("DTSTART".toList : Str), "DTEND".toList, "INVBANKTRAN".toList], m ∈ childNames InvTranList.fields [] := by
            decide +kernel
          exact fun m h => h.elim (k1 m) (k2 m)
        apply hsub
        by_cases hn : n ∈ [("DTSTART".toList : Str), "DTEND".toList, "INVBANKTRAN".toList]
        · exact .inr hn
        · exact .inl (hin (n, ch) (List.mem_filter.mpr ⟨hm, by simpa using hn⟩))
      · exact .inr hb

end Ofx.Props
