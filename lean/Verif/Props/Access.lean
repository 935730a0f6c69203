import Verif.Lemmas.Access
import Verif.Props.Codec
import Mathlib.Data.List.Forall2
/-
Property C68 (what the methods of transactions, positions, open orders and securities return).
-/
namespace Ofx.Props
open Ofx Ofx.Spec

theorem mapE_singles {α β : Type} {f : β → Except String (List Node)} {g : α → β} {P : α → Node → Prop} :
    ∀ {l : List α} {nss : List (List Node)}, mapE f (l.map g) = .ok nss →
      (∀ x ns, f (g x) = .ok ns → ∃ el, ns = [el] ∧ P x el) → List.Forall₂ P l nss.flatten
  | [], nss, h, _ => by cases h; exact .nil
  | x :: xs, nss, h, hp => by
    rw [List.map_cons, mapE] at h
    cases hx : f (g x) with
    | error e => rw [hx] at h; cases h
    | ok y =>
      rw [hx] at h
      cases hr : mapE f (xs.map g) with
      | error e => rw [hr] at h; cases h
      | ok ys =>
        rw [hr] at h
        cases h
        obtain ⟨el, rfl, h1⟩ := hp x y hx
        exact .cons h1 (mapE_singles hr hp)

theorem field_items {path : List Str} {nm : Str} {om : Bool} {t : Ty} {rest : Fields} {v : t.Den × rest.Den} {items : List Item}
    (h : (Fields.field path nm om t rest).enc v = .ok items) :
    ∃ ns items', t.enc nm om v.1 = .ok ns ∧ rest.enc v.2 = .ok items' ∧ items = ⟨path, t.opens v.1, ns⟩ :: items' := by
  replace h : (match t.enc nm om v.1 with
    | .error e => Except.error e
    | .ok ns =>
      match rest.enc v.2 with
      | .ok items => Except.ok ((⟨path, t.opens v.1, ns⟩ : Item) :: items)
      | .error e => .error e) = .ok items := h
  cases h1 : t.enc nm om v.1 with
  | error e => rw [h1] at h; cases h
  | ok ns =>
    rw [h1] at h
    simp only at h
    cases h2 : rest.enc v.2 with
    | error e => rw [h2] at h; cases h
    | ok items' => rw [h2] at h; cases h; exact ⟨ns, items', rfl, rfl, rfl⟩

theorem alts_items {as : Alts} {rest : Fields} {v : List as.Den × rest.Den} {items : List Item}
    (h : (Fields.alts as rest).enc v = .ok items) :
    ∃ nss items', mapE (fun x => as.enc x) v.1 = .ok nss ∧ rest.enc v.2 = .ok items' ∧ items = ⟨[], true, nss.flatten⟩ :: items' := by
  replace h : (match mapE (fun x => as.enc x) v.1 with
    | .error e => Except.error e
    | .ok nss =>
      match rest.enc v.2 with
      | .ok items => Except.ok ((⟨[], true, nss.flatten⟩ : Item) :: items)
      | .error e => .error e) = .ok items := h
  cases h1 : mapE (fun x => as.enc x) v.1 with
  | error e => rw [h1] at h; cases h
  | ok ns =>
    rw [h1] at h
    simp only at h
    cases h2 : rest.enc v.2 with
    | error e => rw [h2] at h; cases h
    | ok items' => rw [h2] at h; cases h; exact ⟨ns, items', rfl, rfl, rfl⟩

theorem list_items {lit name : Str} {g : Bool} {as : Alts} {v : List as.Den × Unit} {ns : List Node}
    (h : (Ty.closed lit g (.alts as .nil)).enc name false v = .ok ns) :
    ∃ nss, mapE (fun x => as.enc x) v.1 = .ok nss ∧ ns = [.elem lit nss.flatten] := by
  replace h : (match (Fields.alts as .nil).enc v with
    | .ok items => Except.ok [Node.elem lit (emit 0 items)]
    | .error e => .error e) = .ok ns := h
  cases hf : (Fields.alts as .nil).enc v with
  | error e => rw [hf] at h; cases h
  | ok items =>
    rw [hf] at h
    cases h
    obtain ⟨nss, items', h1, h2, rfl⟩ := alts_items hf
    cases h2
    refine ⟨nss, h1, ?_⟩
    simp [emit]

/-- C68: the elements between the dates and the bank transactions of a transaction list are
the transactions in order; each is called what `TransactionType` says, and what `InvTransaction`
returns is its INVTRAN element. -/
theorem C68_transactions (name : Str) (x : InvTranList) :
    ∃ d₁ d₂ els bank, encodeAs name x =
      .ok [.elem "INVTRANLIST".toList (.elem "DTSTART".toList d₁ :: .elem "DTEND".toList d₂ :: els ++ bank)] ∧
    List.Forall₂ (fun t el => ShowsPart t.TransactionType "INVTRAN".toList t.InvTransaction el) x.InvTransactions els ∧
    List.Forall₂ (fun _ el => ∃ cs, el = .elem "INVBANKTRAN".toList cs) x.BankTransactions bank := by
  obtain ⟨ns, h⟩ := encode_noSets (α := InvTranList) (by decide +kernel) name x
  have h0 := h
  replace h : (match InvTranList.fields.enc (InvTranList.toDen x) with
    | .ok items => Except.ok [Node.elem "INVTRANLIST".toList (emit 0 items)]
    | .error e => .error e) = .ok ns := h
  cases hf : InvTranList.fields.enc (InvTranList.toDen x) with
  | error e => rw [hf] at h; cases h
  | ok items =>
    rw [hf] at h
    cases h
    obtain ⟨n1, i1, h1, g1, rfl⟩ := field_items hf
    obtain ⟨n2, i2, h2, g2, rfl⟩ := field_items g1
    obtain ⟨nss, i3, h3, g3, rfl⟩ := alts_items g2
    obtain ⟨n4, i4, h4, g4, rfl⟩ := field_items g3
    cases g4
    cases h1
    cases h2
    replace h4 : (match mapE (fun y => InvBankTransaction.ty.enc "INVBANKTRAN".toList false y)
        (x.BankTransactions.map InvBankTransaction.toDen) with
      | .ok nss => Except.ok nss.flatten
      | .error e => .error e) = .ok n4 := h4
    cases h5 : mapE (fun y => InvBankTransaction.ty.enc "INVBANKTRAN".toList false y)
        (x.BankTransactions.map InvBankTransaction.toDen) with
    | error e => rw [h5] at h4; cases h4
    | ok mss =>
      rw [h5] at h4
      cases h4
      refine ⟨if Date.marshal x.DtStart = [] then [] else [.text (Date.marshal x.DtStart)],
        if Date.marshal x.DtEnd = [] then [] else [.text (Date.marshal x.DtEnd)], nss.flatten, mss.flatten, ?_, mapE_singles h3 transaction_shows, mapE_singles h5 (fun y ns hy => ?_)⟩
      · rw [h0]
        simp only [emit, textNode, List.flatMap_cons, List.flatMap_nil, List.append_nil, List.cons_append, List.nil_append]
        rfl
      · obtain ⟨cs, rfl⟩ := enc_struct_shape (fs := InvBankTransaction.fields) hy
        exact ⟨_, rfl, cs, rfl⟩

/-- C68: the elements of a position list are the positions in order, called what `PositionType`
says, and what `InvPosition` returns is the INVPOS element. -/
theorem C68_positions (name : Str) (x : PositionList) :
    ∃ els, encodeAs name x = .ok [.elem "INVPOSLIST".toList els] ∧
    List.Forall₂ (fun t el => ShowsPart t.PositionType "INVPOS".toList t.InvPosition el) x els := by
  obtain ⟨ns, h⟩ := encode_noSets (α := PositionList) (by decide +kernel) name x
  obtain ⟨nss, h1, rfl⟩ := list_items (as := Position.alts) h
  exact ⟨_, h, mapE_singles h1 position_shows⟩

/-- C68: the elements of an order list are the orders in order, called what `OrderType` says. -/
theorem C68_orders (name : Str) (x : OOList) :
    ∃ els, encodeAs name x = .ok [.elem "INVOOLIST".toList els] ∧
    List.Forall₂ (fun t el => ∃ cs, el = .elem t.OrderType cs) x els := by
  obtain ⟨ns, h⟩ := encode_noSets (α := OOList) (by decide +kernel) name x
  obtain ⟨nss, h1, rfl⟩ := list_items (as := OpenOrder.alts) h
  exact ⟨_, h, mapE_singles h1 (fun t ns h => let ⟨cs, h⟩ := order_shows t ns h; ⟨_, h, cs, rfl⟩)⟩

/-- C68: the elements of a security list are the securities in order, called what
`SecurityType` says, and what `SecurityInfo` returns is the SECINFO element. -/
theorem C68_securities (name : Str) (x : SecurityList) :
    ∃ els, encodeAs name x = .ok [.elem "SECLIST".toList els] ∧
    List.Forall₂ (fun t el => ShowsPart t.SecurityType "SECINFO".toList t.SecurityInfo el) x.Securities els := by
  obtain ⟨ns, h⟩ := encode_noSets (α := SecurityList) (by decide +kernel) name x
  obtain ⟨nss, h1, rfl⟩ := list_items (as := Security.alts) h
  exact ⟨_, h, mapE_singles h1 security_shows⟩

theorem kinds_of {α β : Type} {R : α → β → Prop} {f : β → Str} {g : α → Str} (h : ∀ a b, R a b → f b = g a) :
    ∀ {l : List α} {m : List β}, List.Forall₂ R l m → m.map f = l.map g
  | _, _, .nil => rfl
  | _, _, .cons h1 h2 => by rw [List.map_cons, List.map_cons, h _ _ h1, kinds_of h h2]

/-- C68: the kinds of the values read from a list are the names of its elements, in order. -/
theorem C68_read_positions (env : Env) (name : Str) (cs : List Node) (l : PositionList) (h : decodeNew env name cs = .ok l) :
    l.map Position.PositionType = (elems cs).map Prod.fst :=
  kinds_of (fun _ b h => by cases b <;> exact h.1.symm) ((C39_position_list env name cs l).mp h).2

theorem C68_read_orders (env : Env) (name : Str) (cs : List Node) (l : OOList) (h : decodeNew env name cs = .ok l) :
    l.map OpenOrder.OrderType = (elems cs).map Prod.fst :=
  kinds_of (fun _ b h => by cases b <;> exact h.1.symm) ((C39_open_order_list env name cs l).mp h).2

theorem C68_read_securities (env : Env) (name : Str) (cs : List Node) (l : SecurityList) (h : decodeNew env name cs = .ok l) :
    l.Securities.map Security.SecurityType = (elems cs).map Prod.fst :=
  kinds_of (fun _ b h => by cases b <;> exact h.1.symm) ((C39_security_list env name cs l).mp h).2

/-- C68: the same for transaction lists, whose other elements are the dates and the bank transactions. -/
theorem C68_read_transactions (env : Env) (name : Str) (cs : List Node) (l : InvTranList) (h : decodeNew env name cs = .ok l) :
    l.InvTransactions.map InvTransaction.TransactionType =
      ((elems cs).map Prod.fst).filter (fun n => n ∉ [("DTSTART".toList : Str), "DTEND".toList, "INVBANKTRAN".toList]) := by
  rw [kinds_of (g := Prod.fst) (fun _ b h => by cases b <;> exact h.1.symm) (C39_investment_transaction_list env name cs l h).2.1,
    List.filter_map]
  rfl

/-- A list with a stock and another security is written, and read as these two kinds. -/
example : ∃ cs, encodeAs "SECLIST".toList sampleSecurities = .ok [.elem "SECLIST".toList cs] ∧
    decodeNew sampleEnv "SECLIST".toList cs = .ok sampleSecurities ∧
    (elems cs).map Prod.fst = ["STOCKINFO".toList, "OTHERINFO".toList] := by
  obtain ⟨cs, x', h1, h2, -, h3⟩ := C38_roundtrip_partial sampleEnv "SECLIST".toList
    (fun n hn => (Option.some.inj hn).symm) sampleSecurities (exact_of_check _ _ _ (by decide +kernel))
  have h3 := h3 (settledB_sound _ _ _ (by decide +kernel))
  subst h3
  exact ⟨cs, h1, h2, (C68_read_securities sampleEnv _ cs _ h2).symm⟩

end Ofx.Props
