import Verif.Spec.Listed
import Verif.Lemmas.EncodeOk

/-!
C105: lists of transactions, positions, open orders and securities are written whole or not at all.
-/
namespace Ofx.Props
open Ofx Spec

section
variable {α : Type} {enc : α → Except String (List Node)}

theorem listed_values (l : List α) : encodeListed enc (values l) = .ret ((mapE enc l).map List.flatten) := by
  induction l with
  | nil => rfl
  | cons x l ih =>
    show ((ListEntry.value x).encode enc).bind _ = _
    simp only [ListEntry.encode, Outcome.bind, mapE]
    cases enc x with
    | error e => rfl
    | ok ns =>
      simp only
      rw [show encodeListed enc (List.map ListEntry.value l) = encodeListed enc (values l) from rfl, ih]
      cases mapE enc l <;> rfl

/-- Either all entries are values, or there is a first one that is not. -/
theorem listed_split (xs : List (ListEntry α)) : (∃ l, xs = values l) ∨ ∃ l y post, xs = values l ++ y :: post ∧ (Missing y ∨ Other y) := by
  induction xs with
  | nil => exact .inl ⟨[], rfl⟩
  | cons x xs ih =>
    cases x with
    | value x =>
      rcases ih with ⟨l, rfl⟩ | ⟨l, y, post, rfl, h⟩
      · exact .inl ⟨x :: l, rfl⟩
      · exact .inr ⟨x :: l, y, post, rfl, h⟩
    | pointer x => exact .inr ⟨[], _, xs, rfl, .inr (.inr ⟨x, rfl⟩)⟩
    | nilPointer => exact .inr ⟨[], _, xs, rfl, .inl (.inr rfl)⟩
    | nil => exact .inr ⟨[], _, xs, rfl, .inl (.inl rfl)⟩
    | own => exact .inr ⟨[], _, xs, rfl, .inr (.inl rfl)⟩

theorem listed_stop (ht : ∀ x, ∃ ns, enc x = .ok ns) (l : List α) (y : ListEntry α) (post : List (ListEntry α)) :
    (Missing y → encodeListed enc (values l ++ y :: post) = .panic) ∧
    (Other y → ∃ e, encodeListed enc (values l ++ y :: post) = .ret (.error e)) := by
  induction l with
  | nil =>
    refine ⟨?_, ?_⟩
    · rintro (rfl | rfl) <;> rfl
    · rintro (rfl | ⟨x, rfl⟩) <;> exact ⟨_, rfl⟩
  | cons x l ih =>
    have hstep : encodeListed enc (values (x :: l) ++ y :: post) = match enc x with
        | .error e => .ret (.error e)
        | .ok ns => (encodeListed enc (values l ++ y :: post)).bind fun r => .ret (r.map (ns ++ ·)) := by
      show ((ListEntry.value x).encode enc).bind _ = _
      simp only [ListEntry.encode, Outcome.bind]
      cases enc x <;> rfl
    obtain ⟨n, hx⟩ := ht x
    rw [hstep, hx]
    obtain ⟨h1, h2⟩ := ih
    refine ⟨fun hy => ?_, fun hy => ?_⟩
    · simp only [h1 hy]; rfl
    · obtain ⟨e, he⟩ := h2 hy
      simp only [he]
      exact ⟨_, rfl⟩

/-- The three cases for a list that is written by `whole`, as `as` if all its entries are values. -/
theorem listed_all {β : Type} (ht : ∀ x, ∃ ns, enc x = .ok ns) (whole : List (ListEntry α) → Outcome (Except String β))
    (as : List α → Except String β) (hv : ∀ l, whole (values l) = .ret (as l)) (ho : ∀ l, ∃ ns, as l = .ok ns)
    (hp : ∀ xs, encodeListed enc xs = .panic → whole xs = .panic)
    (he : ∀ xs e, encodeListed enc xs = .ret (.error e) → ∃ e, whole xs = .ret (.error e)) (xs : List (ListEntry α)) :
    (∀ ns, whole xs = .ret (.ok ns) ↔ ∃ l, xs = values l ∧ as l = .ok ns) ∧
    ((∃ e, whole xs = .ret (.error e)) ↔ ∃ l y post, xs = values l ++ y :: post ∧ Other y) ∧
    (whole xs = .panic ↔ ∃ l y post, xs = values l ++ y :: post ∧ Missing y) := by
  have hm : ∀ l y post, Missing y → whole (values l ++ y :: post) = .panic := fun l y post hy =>
    hp _ ((listed_stop ht l y post).1 hy)
  have hoth : ∀ l y post, Other y → ∃ e, whole (values l ++ y :: post) = .ret (.error e) := fun l y post hy => by
    obtain ⟨e, h⟩ := (listed_stop ht l y post).2 hy
    exact he _ e h
  refine ⟨fun ns => ⟨fun h => ?_, ?_⟩, ⟨?_, ?_⟩, ⟨fun h => ?_, ?_⟩⟩
  · rcases listed_split xs with ⟨l, rfl⟩ | ⟨l, y, post, rfl, hy | hy⟩
    · rw [hv] at h
      exact ⟨l, rfl, Outcome.ret.inj h⟩
    · rw [hm l y post hy] at h; cases h
    · obtain ⟨e, h'⟩ := hoth l y post hy
      rw [h'] at h; cases h
  · rintro ⟨l, rfl, h⟩
    rw [hv, h]
  · rintro ⟨e, h⟩
    rcases listed_split xs with ⟨l, rfl⟩ | ⟨l, y, post, rfl, hy | hy⟩
    · obtain ⟨ns, hl⟩ := ho l
      rw [hv, hl] at h; cases h
    · rw [hm l y post hy] at h; cases h
    · exact ⟨l, y, post, rfl, hy⟩
  · rintro ⟨l, y, post, rfl, hy⟩
    exact hoth l y post hy
  · rcases listed_split xs with ⟨l, rfl⟩ | ⟨l, y, post, rfl, hy | hy⟩
    · rw [hv] at h; cases h
    · exact ⟨l, y, post, rfl, hy⟩
    · obtain ⟨e, h'⟩ := hoth l y post hy
      rw [h'] at h; cases h
  · rintro ⟨l, y, post, rfl, hy⟩
    exact hm l y post hy

end

theorem mapE_map {α β γ : Type} (f : β → Except String γ) (g : α → β) (l : List α) : mapE f (l.map g) = mapE (fun x => f (g x)) l := by
  induction l with
  | nil => rfl
  | cons x l ih =>
    simp only [List.map_cons, mapE, ih]

theorem alts_total {α : Type} {as : Alts} (h : as.noSets = true) (toDen : α → as.Den) (x : α) : ∃ ns, as.enc (toDen x) = .ok ns :=
  (as.enc_ok _).mpr (as.v1_of_noSets h _)

/-- A list with nothing but such entries. -/
theorem listed_closed {α : Type} {as : Alts} (h : as.noSets = true) (toDen : α → as.Den) (lit : Str) (goSlice : Bool)
    (whole : List (ListEntry α) → Outcome (Except String (List Node)))
    (hw : ∀ xs, whole xs = (encodeListed (fun x => as.enc (toDen x)) xs).bind fun r => .ret (r.map fun ns => [.elem lit ns]))
    (xs : List (ListEntry α)) :
    (∀ ns, whole xs = .ret (.ok ns) ↔ ∃ l, xs = values l ∧
      (Ty.closed lit goSlice (.alts as .nil)).enc lit false (l.map toDen, ()) = .ok ns) ∧
    ((∃ e, whole xs = .ret (.error e)) ↔ ∃ l y post, xs = values l ++ y :: post ∧ Other y) ∧
    (whole xs = .panic ↔ ∃ l y post, xs = values l ++ y :: post ∧ Missing y) := by
  have hall : ∀ l : List α, ∃ nss, mapE (fun x => as.enc (toDen x)) l = .ok nss := fun l =>
    (mapE_ok_iff _ l).mpr fun x _ => alts_total h toDen x
  have henc : ∀ (l : List α) (nss : List (List Node)), mapE (fun x => as.enc (toDen x)) l = .ok nss →
      (Ty.closed lit goSlice (.alts as .nil)).enc lit false (l.map toDen, ()) = .ok [.elem lit nss.flatten] := by
    intro l nss hl
    have hl' : mapE (fun x => as.enc x) (l.map toDen) = .ok nss := by rw [mapE_map]; exact hl
    simp [Ty.enc, Fields.enc, hl', Fields.depth, emit]
  refine listed_all (enc := fun x => as.enc (toDen x)) (alts_total h toDen) whole
    (fun l => (Ty.closed lit goSlice (.alts as .nil)).enc lit false (l.map toDen, ())) ?_ ?_ ?_ ?_ xs
  · intro l
    obtain ⟨nss, hl⟩ := hall l
    rw [hw, listed_values, hl, henc l nss hl]
    rfl
  · intro l
    obtain ⟨nss, hl⟩ := hall l
    exact ⟨_, henc l nss hl⟩
  · intro xs hx
    rw [hw, hx]; rfl
  · intro xs e hx
    rw [hw, hx]; exact ⟨_, rfl⟩

/-! ### C105 -/

/-- C105: a list of securities is written if all its entries are values of the library's types, with all of them, in order.
It is refused if the first entry that is not is a pointer or something of the program's own.
Full statement: it is refused in all other cases.  If that entry is nil or a nil pointer the program panics. -/
theorem C105_securities_partial (xs : List (ListEntry Security)) :
    (∀ ns, marshalSecurities xs = .ret (.ok ns) ↔ ∃ l, xs = values l ∧ encodeAs "SECLIST".toList (⟨l⟩ : SecurityList) = .ok ns) ∧
    ((∃ e, marshalSecurities xs = .ret (.error e)) ↔ ∃ l y post, xs = values l ++ y :: post ∧ Other y) ∧
    (marshalSecurities xs = .panic ↔ ∃ l y post, xs = values l ++ y :: post ∧ Missing y) :=
  listed_closed (as := Security.alts) (by decide +kernel) Security.toDen "SECLIST".toList false marshalSecurities (fun _ => rfl) xs

/-- C105: so is a list of positions. -/
theorem C105_positions_partial (xs : List (ListEntry Position)) :
    (∀ ns, marshalPositions xs = .ret (.ok ns) ↔ ∃ l : PositionList, xs = values l ∧ encodeAs "INVPOSLIST".toList l = .ok ns) ∧
    ((∃ e, marshalPositions xs = .ret (.error e)) ↔ ∃ l y post, xs = values l ++ y :: post ∧ Other y) ∧
    (marshalPositions xs = .panic ↔ ∃ l y post, xs = values l ++ y :: post ∧ Missing y) :=
  listed_closed (as := Position.alts) (by decide +kernel) Position.toDen "INVPOSLIST".toList true marshalPositions (fun _ => rfl) xs

/-- C105: and one of open orders. -/
theorem C105_orders_partial (xs : List (ListEntry OpenOrder)) :
    (∀ ns, marshalOrders xs = .ret (.ok ns) ↔ ∃ l : OOList, xs = values l ∧ encodeAs "INVOOLIST".toList l = .ok ns) ∧
    ((∃ e, marshalOrders xs = .ret (.error e)) ↔ ∃ l y post, xs = values l ++ y :: post ∧ Other y) ∧
    (marshalOrders xs = .panic ↔ ∃ l y post, xs = values l ++ y :: post ∧ Missing y) :=
  listed_closed (as := OpenOrder.alts) (by decide +kernel) OpenOrder.toDen "INVOOLIST".toList true marshalOrders (fun _ => rfl) xs

theorem banks_mapE (banks : List InvBankTransaction) : ∃ nss,
    mapE (fun x => InvBankTransaction.ty.enc "INVBANKTRAN".toList false x) (banks.map InvBankTransaction.toDen) = .ok nss ∧
    encodeBankTransactions banks = .ok nss.flatten := by
  induction banks with
  | nil => exact ⟨[], rfl, rfl⟩
  | cons t ts ih =>
    obtain ⟨nss, h1, h2⟩ := ih
    obtain ⟨ns, h3⟩ := (InvBankTransaction.ty.enc_ok "INVBANKTRAN".toList false (InvBankTransaction.toDen t)).2.1
      (InvBankTransaction.ty.v1_of_noSets (by decide +kernel) _)
    have h4 : encodeAs "INVBANKTRAN".toList t = .ok ns := h3
    refine ⟨ns :: nss, ?_, ?_⟩
    · simp only [List.map_cons, mapE, h1, h3]
    · simp only [encodeBankTransactions, h4, h2, List.flatten_cons]

/-- C105: and one of investment transactions, with its dates and bank transactions. -/
theorem C105_transactions_partial (a b : GoTime) (xs : List (ListEntry InvTransaction)) (banks : List InvBankTransaction) :
    (∀ ns, marshalTransactions a b xs banks = .ret (.ok ns) ↔
      ∃ l, xs = values l ∧ encodeAs "INVTRANLIST".toList (⟨a, b, l, banks⟩ : InvTranList) = .ok ns) ∧
    ((∃ e, marshalTransactions a b xs banks = .ret (.error e)) ↔ ∃ l y post, xs = values l ++ y :: post ∧ Other y) ∧
    (marshalTransactions a b xs banks = .panic ↔ ∃ l y post, xs = values l ++ y :: post ∧ Missing y) := by
  have hn : InvTransaction.alts.noSets = true := by decide +kernel
  have hall : ∀ l : List InvTransaction, ∃ nss, mapE (fun x => InvTransaction.alts.enc x.toDen) l = .ok nss := fun l =>
    (mapE_ok_iff _ l).mpr fun x _ => alts_total hn InvTransaction.toDen x
  obtain ⟨bss, hb1, hb2⟩ := banks_mapE banks
  have henc : ∀ (l : List InvTransaction) (nss : List (List Node)), mapE (fun x => InvTransaction.alts.enc x.toDen) l = .ok nss →
      encodeAs "INVTRANLIST".toList (⟨a, b, l, banks⟩ : InvTranList) = .ok [.elem "INVTRANLIST".toList
        (textNode "DTSTART".toList (Date.marshal a) :: textNode "DTEND".toList (Date.marshal b) :: nss.flatten ++ bss.flatten)] := by
    intro l nss hl
    show (Ty.closed "INVTRANLIST".toList false InvTranList.fields).enc "INVTRANLIST".toList false
      (a, b, List.map InvTransaction.toDen l, List.map InvBankTransaction.toDen banks, ()) = _
    have hl' : mapE (fun x => InvTransaction.alts.enc x) (l.map InvTransaction.toDen) = .ok nss := by rw [mapE_map]; exact hl
    unfold InvTranList.fields
    simp only [Ty.enc, Fields.enc, hl', hb1]
    simp [Fields.depth, emit, Leaf.print]
  refine listed_all (enc := fun x => InvTransaction.alts.enc x.toDen) (alts_total hn InvTransaction.toDen)
    (fun xs => marshalTransactions a b xs banks) (fun l => encodeAs "INVTRANLIST".toList (⟨a, b, l, banks⟩ : InvTranList)) ?_ ?_ ?_ ?_ xs
  · intro l
    obtain ⟨nss, hl⟩ := hall l
    simp only [marshalTransactions, listed_values, hl, henc l nss hl, hb2]
    rfl
  · intro l
    obtain ⟨nss, hl⟩ := hall l
    exact ⟨_, henc l nss hl⟩
  · intro xs hx
    simp only [marshalTransactions, hx]; rfl
  · intro xs e hx
    simp only [marshalTransactions, hx]; exact ⟨_, rfl⟩

/-- C105: a nil entry, or a nil pointer, makes the first of them panic, whatever stands around it (the other three have the same clause). -/
theorem C105_panics (l : List Security) (post : List (ListEntry Security)) :
    marshalSecurities (values l ++ .nil :: post) = .panic ∧ marshalSecurities (values l ++ .nilPointer :: post) = .panic :=
  ⟨(C105_securities_partial _).2.2.mpr ⟨l, _, post, rfl, .inl rfl⟩, (C105_securities_partial _).2.2.mpr ⟨l, _, post, rfl, .inr rfl⟩⟩

/-- A security. -/
def fund : SecInfo := ⟨⟨"C105".toList, "CUSIP".toList⟩, "A fund".toList, [], [], [], 1, none, none, []⟩

/-- Two values; one with a pointer after it; one with nil after it; a nil pointer. -/
example : ∃ a b : Security, (∃ ns, marshalSecurities [.value a, .value b] = .ret (.ok [.elem "SECLIST".toList ns]) ∧ ns.length = 2) ∧
    (∃ e, marshalSecurities [.value a, .pointer b, .nil] = .ret (.error e)) ∧
    marshalSecurities [.value a, .nil, .pointer b] = .panic ∧ marshalSecurities [.nilPointer] = .panic := by
  refine ⟨.otherInfo ⟨fund, [], 0, []⟩, .stockInfo ⟨fund, 0, 0, none, 0, []⟩, ?_, ?_, ?_, ?_⟩
  · exact ⟨_, rfl, rfl⟩
  · exact ⟨_, rfl⟩
  · rfl
  · rfl

/-- The other lists, empty and with something of the program's own. -/
example : marshalPositions [] = .ret (.ok [.elem "INVPOSLIST".toList []]) ∧ marshalOrders [] = .ret (.ok [.elem "INVOOLIST".toList []]) ∧
    (∃ e, marshalPositions [.own] = .ret (.error e)) ∧ marshalOrders [.nil, .own] = .panic ∧
    (∃ e, marshalTransactions ⟨0, [], 0⟩ ⟨0, [], 0⟩ [.own, .nil] [] = .ret (.error e)) :=
  ⟨rfl, rfl, ⟨_, rfl⟩, rfl, ⟨_, rfl⟩⟩

end Ofx.Props
