import Verif.Model.Message
/-
The lists of investment transactions, positions, open orders and securities as Go has them: slices
of interface types, whose entries need not be values of the library's types.  (Elsewhere in the
model every entry is one.)
-/
namespace Ofx

/-- An entry of such a list (invstmt.go 530-533, 846-849, 1066-1068, seclist.go 95-98): a value of one
of the library's types; a pointer to one, as all methods have value receivers; a nil pointer to
one; nil; or something of a type of the program's own that has the methods, which are taken to
return. -/
inductive ListEntry (α : Type) where
  | value (x : α)
  | pointer (x : α)
  | nilPointer
  | nil
  | own

/-- One turn of the loops (invstmt.go 730-814, 1001-1025, 1306-1354, seclist.go 328-352): the method
that names the type is called first, which panics for nil and for nil pointers; only values are
among the cases.  The text of the error, which names list and type, is left out. -/
def ListEntry.encode {α : Type} (enc : α → Except String (List Node)) : ListEntry α → Outcome (Except String (List Node))
  | .value x => .ret (enc x)
  | .pointer _ => .ret (.error "Invalid child type")
  | .own => .ret (.error "Invalid child type")
  | .nilPointer => .panic
  | .nil => .panic

/-- The loops: invstmt.go 729-815, 1000-1026, 1305-1355, seclist.go 327-353. -/
def encodeListed {α : Type} (enc : α → Except String (List Node)) : List (ListEntry α) → Outcome (Except String (List Node))
  | [] => .ret (.ok [])
  | x :: xs =>
    (x.encode enc).bind fun r =>
      match r with
      | .error e => .ret (.error e)
      | .ok ns => (encodeListed enc xs).bind fun r => .ret (r.map (ns ++ ·))

/-- seclist.go 322-358 `SecurityList.MarshalXML`. -/
def marshalSecurities (xs : List (ListEntry Security)) : Outcome (Except String (List Node)) :=
  (encodeListed (fun x => Security.alts.enc x.toDen) xs).bind fun r => .ret (r.map fun ns => [.elem "SECLIST".toList ns])

/-- invstmt.go 995-1031 `PositionList.MarshalXML`. -/
def marshalPositions (xs : List (ListEntry Position)) : Outcome (Except String (List Node)) :=
  (encodeListed (fun x => Position.alts.enc x.toDen) xs).bind fun r => .ret (r.map fun ns => [.elem "INVPOSLIST".toList ns])

/-- invstmt.go 1300-1360 `OOList.MarshalXML`. -/
def marshalOrders (xs : List (ListEntry OpenOrder)) : Outcome (Except String (List Node)) :=
  (encodeListed (fun x => OpenOrder.alts.enc x.toDen) xs).bind fun r => .ret (r.map fun ns => [.elem "INVOOLIST".toList ns])

/-- invstmt.go 816-821: the bank transactions. -/
def encodeBankTransactions : List InvBankTransaction → Except String (List Node)
  | [] => .ok []
  | t :: ts =>
    match encodeAs "INVBANKTRAN".toList t, encodeBankTransactions ts with
    | .ok ns, .ok rest => .ok (ns ++ rest)
    | .error e, _ => .error e
    | _, .error e => .error e

/-- invstmt.go 716-826 `InvTranList.MarshalXML`. -/
def marshalTransactions (dtStart dtEnd : GoTime) (xs : List (ListEntry InvTransaction)) (banks : List InvBankTransaction) :
    Outcome (Except String (List Node)) :=
  (encodeListed (fun x => InvTransaction.alts.enc x.toDen) xs).bind fun r =>
    match r with
    | .error e => .ret (.error e)
    | .ok ns =>
      .ret ((encodeBankTransactions banks).map fun bs =>
        [.elem "INVTRANLIST".toList
          (textNode "DTSTART".toList (Date.marshal dtStart) :: textNode "DTEND".toList (Date.marshal dtEnd) :: ns ++ bs)])

end Ofx
