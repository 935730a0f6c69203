import Verif.Lemmas.Lists
/-
Reading the elements of the four interface types.
-/
namespace Ofx
open Spec

local macro "kind_tac" : tactic => `(tactic| (
  constructor
  · intro h
    repeat replace h := (altDec_inr.mp h).2
    have h := altDec_inl.mp h
    exact ⟨h.1, decodeNew_iff.mpr h.2⟩
  · rintro ⟨h1, h2⟩
    have h2 := decodeNew_iff.mp h2
    repeat refine altDec_inr.mpr ⟨by rw [h1]; decide, ?_⟩
    exact altDec_inl.mpr ⟨h1, h2⟩))

theorem security_dec (env : Env) (e : Str × List Node) (x : Security) :
    Security.alts.dec env e.1 e.2 = .ok (Security.toDen x) ↔ SecurityReads env e x := by
  cases x <;> kind_tac

theorem position_dec (env : Env) (e : Str × List Node) (x : Position) :
    Position.alts.dec env e.1 e.2 = .ok (Position.toDen x) ↔ PositionReads env e x := by
  cases x <;> kind_tac

theorem openOrder_dec (env : Env) (e : Str × List Node) (x : OpenOrder) :
    OpenOrder.alts.dec env e.1 e.2 = .ok (OpenOrder.toDen x) ↔ OpenOrderReads env e x := by
  cases x <;> kind_tac

theorem invTransaction_dec (env : Env) (e : Str × List Node) (x : InvTransaction) :
    InvTransaction.alts.dec env e.1 e.2 = .ok (InvTransaction.toDen x) ↔ InvTransactionReads env e x := by
  cases x <;> kind_tac

/-! ### InvTranList -/

/-- One step of reading an investment transaction list. -/
theorem invTran_step (env : Env) (v w : InvTranList.fields.Den) (e : Str × List Node)
    (h : InvTranList.fields.dec env v [] e.1 e.2 = .ok w) :
    (e.1 = "DTSTART".toList ∧ w.2 = v.2) ∨ (e.1 = "DTEND".toList ∧ w.2.2 = v.2.2) ∨
    (∃ d, InvTransaction.alts.dec env e.1 e.2 = .ok d ∧ w.2.2.1 = List.append v.2.2.1 [d] ∧ w.2.2.2 = v.2.2.2) ∨
    (e.1 = "INVBANKTRAN".toList ∧ ∃ d, InvBankTransaction.ty.dec env InvBankTransaction.ty.zero e.1 e.2 = .ok d ∧
      w.2.2.1 = v.2.2.1 ∧ w.2.2.2.1 = List.append v.2.2.2.1 [d]) ∨
    (InvTranList.fields.hits [] e.1 = false) := by
  unfold InvTranList.fields at h v w
  rw [Fields.dec] at h
  by_cases h1 : e.1 = "DTSTART".toList
  · rw [if_pos (by simp [h1])] at h
    left
    cases hd : (Ty.leaf .date).dec env v.1 e.1 e.2 with
    | error er => rw [hd] at h; cases h
    | ok x => rw [hd] at h; cases h; exact ⟨h1, rfl⟩
  right
  rw [if_neg (by simp only [Bool.and_eq_true, beq_iff_eq, not_and]; exact fun _ hh => h1 hh.symm), Fields.dec] at h
  by_cases h2 : e.1 = "DTEND".toList
  · rw [if_pos (by simp [h2])] at h
    left
    cases hd : (Ty.leaf .date).dec env v.2.1 e.1 e.2 with
    | error er => rw [hd] at h; cases h
    | ok x => rw [hd] at h; cases h; exact ⟨h2, rfl⟩
  right
  rw [if_neg (by simp only [Bool.and_eq_true, beq_iff_eq, not_and]; exact fun _ hh => h2 hh.symm), Fields.dec] at h
  by_cases h3 : InvTransaction.alts.has e.1 = true
  · rw [if_pos (by simp [h3])] at h
    left
    cases hd : InvTransaction.alts.dec env e.1 e.2 with
    | error er => rw [hd] at h; cases h
    | ok x => rw [hd] at h; cases h; exact ⟨x, rfl, rfl, rfl⟩
  right
  rw [if_neg (by simp [h3]), Fields.dec] at h
  by_cases h4 : e.1 = "INVBANKTRAN".toList
  · rw [if_pos (by simp [h4])] at h
    left
    cases hd : InvBankTransaction.ty.dec env InvBankTransaction.ty.zero e.1 e.2 with
    | error er =>
      rw [Ty.dec, hd] at h; cases h
    | ok x => rw [Ty.dec, hd] at h; cases h; exact ⟨h4, x, rfl, rfl, rfl⟩
  · right
    have n1 : ¬ "DTSTART".toList = e.1 := fun hh => h1 hh.symm
    have n2 : ¬ "DTEND".toList = e.1 := fun hh => h2 hh.symm
    have n3 : ¬ "INVBANKTRAN".toList = e.1 := fun hh => h4 hh.symm
    have b1 : ("DTSTART".toList == e.1) = false := beq_eq_false_iff_ne.mpr n1
    have b2 : ("DTEND".toList == e.1) = false := beq_eq_false_iff_ne.mpr n2
    have b3 : ("INVBANKTRAN".toList == e.1) = false := beq_eq_false_iff_ne.mpr n3
    have b4 : InvTransaction.alts.has e.1 = false := by simpa using h3
    simp only [InvTranList.fields, Fields.hits, b1, b2, b3, b4, Bool.and_false, Bool.or_false]

/-- The names in an investment transaction list that are not investment transactions. -/
theorem invTran_names (env : Env) (e : Str × List Node) (d : InvTransaction.alts.Den)
    (h : InvTransaction.alts.dec env e.1 e.2 = .ok d) :
    e.1 ≠ "DTSTART".toList ∧ e.1 ≠ "DTEND".toList ∧ e.1 ≠ "INVBANKTRAN".toList := by
  have := alts_has_iff _ env _ _ d h
  refine ⟨?_, ?_, ?_⟩ <;>
  · intro hh
    rw [hh] at this
    revert this
    decide

theorem runElems_invTran (env : Env) (es : List (Str × List Node)) (v w : InvTranList.fields.Den)
    (h : runElems env InvTranList.fields v es = .ok w) :
    (∃ ds : List InvTransaction.alts.Den, w.2.2.1 = List.append v.2.2.1 ds ∧
      List.Forall₂ (fun e d => InvTransaction.alts.dec env e.1 e.2 = .ok d)
        (es.filter (fun e => e.1 ∉ [("DTSTART".toList : Str), "DTEND".toList, "INVBANKTRAN".toList])) ds) ∧
    ∃ bs : List InvBankTransaction.ty.Den, w.2.2.2.1 = List.append v.2.2.2.1 bs ∧
      List.Forall₂ (fun e d => InvBankTransaction.ty.dec env InvBankTransaction.ty.zero e.1 e.2 = .ok d)
        (es.filter (fun e => e.1 = "INVBANKTRAN".toList)) bs := by
  induction es generalizing v with
  | nil =>
    cases h
    exact ⟨⟨[], (List.append_nil (α := InvTransaction.alts.Den) w.2.2.1).symm, .nil⟩,
      ⟨[], (List.append_nil (α := InvBankTransaction.ty.Den) w.2.2.2.1).symm, .nil⟩⟩
  | cons e es ih =>
    simp only [runElems] at h
    by_cases hh : InvTranList.fields.hits [] e.1 = true
    swap
    · rw [if_neg hh] at h; cases h
    rw [if_pos hh] at h
    cases hd : InvTranList.fields.dec env v [] e.1 e.2 with
    | error er => rw [hd] at h; cases h
    | ok v' =>
    rw [hd] at h
    obtain ⟨⟨ds, i1, i2⟩, ⟨bs, i3, i4⟩⟩ := ih v' h
    have e12 : ("DTSTART".toList : Str) ≠ "INVBANKTRAN".toList := by decide
    have e22 : ("DTEND".toList : Str) ≠ "INVBANKTRAN".toList := by decide
    rcases invTran_step env v v' e hd with ⟨k1, k2⟩ | ⟨k1, k2⟩ | ⟨d, k1, k2, k3⟩ | ⟨k1, d, k2, k3, k4⟩ | k
    · rw [k2] at i1 i3
      refine ⟨⟨ds, i1, ?_⟩, ⟨bs, i3, ?_⟩⟩
      · rw [List.filter_cons_of_neg (by simp [k1])]; exact i2
      · rw [List.filter_cons_of_neg (by rw [k1]; decide)]; exact i4
    · rw [k2] at i1 i3
      refine ⟨⟨ds, i1, ?_⟩, ⟨bs, i3, ?_⟩⟩
      · rw [List.filter_cons_of_neg (by simp [k1])]; exact i2
      · rw [List.filter_cons_of_neg (by rw [k1]; decide)]; exact i4
    · obtain ⟨m1, m2, m3⟩ := invTran_names env e d k1
      rw [k2] at i1
      rw [k3] at i3
      refine ⟨⟨d :: ds, ?_, ?_⟩, ⟨bs, i3, ?_⟩⟩
      · rw [i1]; exact List.append_assoc (show List InvTransaction.alts.Den from v.2.2.1) [d] ds
      · rw [List.filter_cons_of_pos (by simp only [List.mem_cons, List.not_mem_nil, or_false, m1, m2, m3, or_self, not_false_eq_true, decide_true])]
        exact .cons k1 i2
      · rw [List.filter_cons_of_neg (by simp only [decide_eq_true_eq]; exact m3)]; exact i4
    · rw [k3] at i1
      rw [k4] at i3
      refine ⟨⟨ds, i1, ?_⟩, ⟨d :: bs, ?_, ?_⟩⟩
      · rw [List.filter_cons_of_neg (by simp [k1])]; exact i2
      · rw [i3]; exact List.append_assoc (show List InvBankTransaction.ty.Den from v.2.2.2.1) [d] bs
      · rw [List.filter_cons_of_pos (by simp [k1])]; exact .cons k2 i4
    · rw [hh] at k; cases k

end Ofx
