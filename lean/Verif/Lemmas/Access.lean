import Verif.Spec.Access
import Verif.Lemmas.Marshal
/-
The first field of a struct is written first, for C68.
-/
namespace Ofx
open Spec

theorem findIn_append (n : Str) (a b : List Node) : findIn n (a ++ b) = findIn n a ++ findIn n b := by
  induction a with
  | nil => rfl
  | cons c cs ih => simp only [List.cons_append, findIn, ih, List.append_assoc]

theorem find_elem {n m : Str} (h : m ≠ n) (cs : List Node) : find n (.elem m cs) = findIn n cs := by
  rw [find, if_neg h]

theorem findIn_self {n : Str} {cs cs' : List Node} : (findIn n (.elem n cs :: cs')).head? = some (.elem n cs) := by
  rw [findIn, find, if_pos rfl]; rfl

theorem findIn_into {n k : Str} (hk : k ≠ n) {cs cs' : List Node} {p : Node} (h : (findIn n cs).head? = some p) :
    (findIn n (.elem k cs :: cs')).head? = some p := by
  rw [findIn, find_elem hk, List.head?_append, h]; rfl

theorem struct_first {m nm name : Str} {om o : Bool} {t : Ty} {rest : Fields}
    {v : (Ty.struct (.tag m) (.field [] nm om t rest)).Den} {ns : List Node}
    (h : (Ty.struct (.tag m) (.field [] nm om t rest)).enc name o v = .ok ns) :
    ∃ ms cs, t.enc nm om v.2.1 = .ok ms ∧ ns = [.elem m (ms ++ cs)] := by
  rw [Ty.enc] at h
  cases hf : (Fields.field [] nm om t rest).enc v.2 with
  | error e => rw [hf] at h; cases h
  | ok items =>
    rw [hf] at h; cases h
    rw [Fields.enc] at hf
    cases h1 : t.enc nm om v.2.1 with
    | error e => rw [h1] at hf; cases hf
    | ok ms =>
      rw [h1] at hf
      simp only at hf
      cases h2 : rest.enc v.2.2 with
      | error e => rw [h2] at hf; cases hf
      | ok items' =>
        rw [h2] at hf; cases hf
        cases (Fields.field [] nm om t rest).depth with
        | zero =>
          refine ⟨ms, emit 0 items', rfl, ?_⟩
          rw [emit, emit, List.flatMap_cons]; rfl
        | succ d =>
          refine ⟨ms, emitGo (emit d) none items', rfl, ?_⟩
          rw [emit, emitGo, closeGroup, List.nil_append]
          rfl

theorem part_shape {α : Type} [OfxType α] {n : Str} {gs : Fields} (hty : OfxType.ty α = .struct (.tag n) gs)
    {om : Bool} {d : (OfxType.ty α).Den} {ms : List Node} (h : (OfxType.ty α).enc n om d = .ok ms) : ∃ cs, ms = [.elem n cs] := by
  revert d
  rw [hty]
  intro d h1
  obtain ⟨cs', rfl⟩ := enc_struct_shape h1
  exact ⟨cs', rfl⟩

theorem alts_inl {d e : Str} {t : Ty} {rest : Alts} {x : t.Den} {ns : List Node}
    (h : (Alts.alt d e t rest).enc (Sum.inl x : t.Den ⊕ rest.Den) = .ok ns) :
    ∃ ms, t.enc e false x = .ok ms ∧ ns = ms.map (Node.rename e) := by
  replace h : (match t.enc e false x with
    | .ok ns => Except.ok (ns.map (Node.rename e))
    | .error e => .error e) = .ok ns := h
  cases hx : t.enc e false x with
  | error e => rw [hx] at h; cases h
  | ok ms => rw [hx] at h; cases h; exact ⟨ms, rfl, rfl⟩

theorem alts_inr {d e : Str} {t : Ty} {rest : Alts} {y : rest.Den} {ns : List Node}
    (h : (Alts.alt d e t rest).enc (Sum.inr y : t.Den ⊕ rest.Den) = .ok ns) : rest.enc y = .ok ns := h

/-- A type whose first field is the part. -/
theorem shows_direct {α : Type} [OfxType α] {n m d e : Str} {rest : Fields} {gs : Fields} {as : Alts} (part : α)
    {v : (Ty.struct (.tag m) (.field [] n false (OfxType.ty α) rest)).Den} {ns : List Node}
    (hty : OfxType.ty α = .struct (.tag n) gs) (hv : v.2.1 = OfxType.toDen part)
    (h : (Alts.alt d e (Ty.struct (.tag m) (.field [] n false (OfxType.ty α) rest)) as).enc (Sum.inl v : _ ⊕ as.Den) = .ok ns) :
    ∃ el, ns = [el] ∧ ShowsPart e n part el := by
  obtain ⟨ns', h0, rfl⟩ := alts_inl h
  obtain ⟨ms, cs, h1, rfl⟩ := struct_first h0
  obtain ⟨cs', rfl⟩ := part_shape hty h1
  rw [hv] at h1
  exact ⟨_, rfl, _, .elem n cs', rfl, h1, findIn_self⟩

/-- A type whose first field is a struct whose first field is the part. -/
theorem shows_nested {α : Type} [OfxType α] {n m k d e : Str} {rest rest' : Fields} {gs : Fields} {as : Alts} (part : α)
    {v : (Ty.struct (.tag m) (.field [] k false (.struct (.tag k) (.field [] n false (OfxType.ty α) rest')) rest)).Den}
    {ns : List Node} (hk : k ≠ n)
    (hty : OfxType.ty α = .struct (.tag n) gs) (hv : v.2.1.2.1 = OfxType.toDen part)
    (h : (Alts.alt d e (Ty.struct (.tag m) (.field [] k false (.struct (.tag k) (.field [] n false (OfxType.ty α) rest')) rest)) as).enc
      (Sum.inl v : _ ⊕ as.Den) = .ok ns) :
    ∃ el, ns = [el] ∧ ShowsPart e n part el := by
  obtain ⟨ns', h0, rfl⟩ := alts_inl h
  obtain ⟨ms, cs, h1, rfl⟩ := struct_first h0
  obtain ⟨ms', cs1, h1', rfl⟩ := struct_first h1
  obtain ⟨cs', rfl⟩ := part_shape hty h1'
  rw [hv] at h1'
  exact ⟨_, rfl, _, .elem n cs', rfl, h1', findIn_into hk findIn_self⟩

theorem transaction_shows (t : InvTransaction) (ns : List Node) (h : InvTransaction.alts.enc (InvTransaction.toDen t) = .ok ns) :
    ∃ el, ns = [el] ∧ ShowsPart t.TransactionType "INVTRAN".toList t.InvTransaction el := by
  have hty : InvTran.ty = .struct (.tag "INVTRAN".toList) InvTran.fields := rfl
  cases t with
  | buyDebt v => exact shows_nested (α := InvTran) v.InvBuy.InvTran (by decide) hty rfl h
  | buyMF v => exact shows_nested (α := InvTran) v.InvBuy.InvTran (by decide) hty rfl (alts_inr h)
  | buyOpt v => exact shows_nested (α := InvTran) v.InvBuy.InvTran (by decide) hty rfl (alts_inr (alts_inr h))
  | buyOther v => exact shows_nested (α := InvTran) v.InvBuy.InvTran (by decide) hty rfl (alts_inr (alts_inr (alts_inr h)))
  | buyStock v => exact shows_nested (α := InvTran) v.InvBuy.InvTran (by decide) hty rfl (alts_inr (alts_inr (alts_inr (alts_inr h))))
  | closureOpt v => exact shows_direct (α := InvTran) v.InvTran hty rfl (alts_inr (alts_inr (alts_inr (alts_inr (alts_inr h)))))
  | income v => exact shows_direct (α := InvTran) v.InvTran hty rfl (alts_inr (alts_inr (alts_inr (alts_inr (alts_inr (alts_inr h))))))
  | invExpense v => exact shows_direct (α := InvTran) v.InvTran hty rfl (alts_inr (alts_inr (alts_inr (alts_inr (alts_inr (alts_inr (alts_inr h)))))))
  | jrnlFund v => exact shows_direct (α := InvTran) v.InvTran hty rfl (alts_inr (alts_inr (alts_inr (alts_inr (alts_inr (alts_inr (alts_inr (alts_inr h))))))))
  | jrnlSec v => exact shows_direct (α := InvTran) v.InvTran hty rfl (alts_inr (alts_inr (alts_inr (alts_inr (alts_inr (alts_inr (alts_inr (alts_inr (alts_inr h)))))))))
  | marginInterest v => exact shows_direct (α := InvTran) v.InvTran hty rfl (alts_inr (alts_inr (alts_inr (alts_inr (alts_inr (alts_inr (alts_inr (alts_inr (alts_inr (alts_inr h))))))))))
  | reinvest v => exact shows_direct (α := InvTran) v.InvTran hty rfl (alts_inr (alts_inr (alts_inr (alts_inr (alts_inr (alts_inr (alts_inr (alts_inr (alts_inr (alts_inr (alts_inr h)))))))))))
  | retOfCap v => exact shows_direct (α := InvTran) v.InvTran hty rfl (alts_inr (alts_inr (alts_inr (alts_inr (alts_inr (alts_inr (alts_inr (alts_inr (alts_inr (alts_inr (alts_inr (alts_inr h))))))))))))
  | sellDebt v => exact shows_nested (α := InvTran) v.InvSell.InvTran (by decide) hty rfl (alts_inr (alts_inr (alts_inr (alts_inr (alts_inr (alts_inr (alts_inr (alts_inr (alts_inr (alts_inr (alts_inr (alts_inr (alts_inr h)))))))))))))
  | sellMF v => exact shows_nested (α := InvTran) v.InvSell.InvTran (by decide) hty rfl (alts_inr (alts_inr (alts_inr (alts_inr (alts_inr (alts_inr (alts_inr (alts_inr (alts_inr (alts_inr (alts_inr (alts_inr (alts_inr (alts_inr h))))))))))))))
  | sellOpt v => exact shows_nested (α := InvTran) v.InvSell.InvTran (by decide) hty rfl (alts_inr (alts_inr (alts_inr (alts_inr (alts_inr (alts_inr (alts_inr (alts_inr (alts_inr (alts_inr (alts_inr (alts_inr (alts_inr (alts_inr (alts_inr h)))))))))))))))
  | sellOther v => exact shows_nested (α := InvTran) v.InvSell.InvTran (by decide) hty rfl (alts_inr (alts_inr (alts_inr (alts_inr (alts_inr (alts_inr (alts_inr (alts_inr (alts_inr (alts_inr (alts_inr (alts_inr (alts_inr (alts_inr (alts_inr (alts_inr h))))))))))))))))
  | sellStock v => exact shows_nested (α := InvTran) v.InvSell.InvTran (by decide) hty rfl (alts_inr (alts_inr (alts_inr (alts_inr (alts_inr (alts_inr (alts_inr (alts_inr (alts_inr (alts_inr (alts_inr (alts_inr (alts_inr (alts_inr (alts_inr (alts_inr (alts_inr h)))))))))))))))))
  | split v => exact shows_direct (α := InvTran) v.InvTran hty rfl (alts_inr (alts_inr (alts_inr (alts_inr (alts_inr (alts_inr (alts_inr (alts_inr (alts_inr (alts_inr (alts_inr (alts_inr (alts_inr (alts_inr (alts_inr (alts_inr (alts_inr (alts_inr h))))))))))))))))))
  | transfer v => exact shows_direct (α := InvTran) v.InvTran hty rfl (alts_inr (alts_inr (alts_inr (alts_inr (alts_inr (alts_inr (alts_inr (alts_inr (alts_inr (alts_inr (alts_inr (alts_inr (alts_inr (alts_inr (alts_inr (alts_inr (alts_inr (alts_inr (alts_inr h)))))))))))))))))))

theorem position_shows (t : Position) (ns : List Node) (h : Position.alts.enc (Position.toDen t) = .ok ns) :
    ∃ el, ns = [el] ∧ ShowsPart t.PositionType "INVPOS".toList t.InvPosition el := by
  have hty : InvPosition.ty = .struct (.tag "INVPOS".toList) InvPosition.fields := rfl
  cases t with
  | debtPosition v => exact shows_direct (α := InvPosition) v.InvPos hty rfl h
  | mfPosition v => exact shows_direct (α := InvPosition) v.InvPos hty rfl (alts_inr h)
  | optPosition v => exact shows_direct (α := InvPosition) v.InvPos hty rfl (alts_inr (alts_inr h))
  | otherPosition v => exact shows_direct (α := InvPosition) v.InvPos hty rfl (alts_inr (alts_inr (alts_inr h)))
  | stockPosition v => exact shows_direct (α := InvPosition) v.InvPos hty rfl (alts_inr (alts_inr (alts_inr (alts_inr h))))

theorem security_shows (t : Security) (ns : List Node) (h : Security.alts.enc (Security.toDen t) = .ok ns) :
    ∃ el, ns = [el] ∧ ShowsPart t.SecurityType "SECINFO".toList t.SecurityInfo el := by
  have hty : SecInfo.ty = .struct (.tag "SECINFO".toList) SecInfo.fields := rfl
  cases t with
  | debtInfo v => exact shows_direct (α := SecInfo) v.SecInfo hty rfl h
  | mfInfo v => exact shows_direct (α := SecInfo) v.SecInfo hty rfl (alts_inr h)
  | optInfo v => exact shows_direct (α := SecInfo) v.SecInfo hty rfl (alts_inr (alts_inr h))
  | otherInfo v => exact shows_direct (α := SecInfo) v.SecInfo hty rfl (alts_inr (alts_inr (alts_inr h)))
  | stockInfo v => exact shows_direct (α := SecInfo) v.SecInfo hty rfl (alts_inr (alts_inr (alts_inr (alts_inr h))))

theorem struct_one {m : Str} {fs : Fields} {v : (Ty.struct (.tag m) fs).Den} {ns : List Node} {d e : Str} {as : Alts}
    (h : (Alts.alt d e (Ty.struct (.tag m) fs) as).enc (Sum.inl v : _ ⊕ as.Den) = .ok ns) : ∃ cs, ns = [.elem e cs] := by
  obtain ⟨ns', h0, rfl⟩ := alts_inl h
  obtain ⟨cs, rfl⟩ := enc_struct_shape h0
  exact ⟨cs, rfl⟩

theorem order_shows (t : OpenOrder) (ns : List Node) (h : OpenOrder.alts.enc (OpenOrder.toDen t) = .ok ns) :
    ∃ cs, ns = [.elem t.OrderType cs] := by
  cases t with
  | ooBuyDebt v => exact struct_one h
  | ooBuyMF v => exact struct_one (alts_inr h)
  | ooBuyOpt v => exact struct_one (alts_inr (alts_inr h))
  | ooBuyOther v => exact struct_one (alts_inr (alts_inr (alts_inr h)))
  | ooBuyStock v => exact struct_one (alts_inr (alts_inr (alts_inr (alts_inr h))))
  | ooSellDebt v => exact struct_one (alts_inr (alts_inr (alts_inr (alts_inr (alts_inr h)))))
  | ooSellMF v => exact struct_one (alts_inr (alts_inr (alts_inr (alts_inr (alts_inr (alts_inr h))))))
  | ooSellOpt v => exact struct_one (alts_inr (alts_inr (alts_inr (alts_inr (alts_inr (alts_inr (alts_inr h)))))))
  | ooSellOther v => exact struct_one (alts_inr (alts_inr (alts_inr (alts_inr (alts_inr (alts_inr (alts_inr (alts_inr h))))))))
  | ooSellStock v => exact struct_one (alts_inr (alts_inr (alts_inr (alts_inr (alts_inr (alts_inr (alts_inr (alts_inr (alts_inr h)))))))))
  | ooSwitchMF v => exact struct_one (alts_inr (alts_inr (alts_inr (alts_inr (alts_inr (alts_inr (alts_inr (alts_inr (alts_inr (alts_inr h))))))))))

end Ofx
