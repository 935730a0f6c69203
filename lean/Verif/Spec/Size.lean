import Verif.Spec.Document
import Verif.Spec.Valid
/-
How much there is in a value: bytes of texts and entries of lists.
-/
namespace Ofx.Spec
open Ofx

/-- The bytes of a text.  Dates, numbers other than amounts, currencies and constants have a
fixed size; amounts are left out here. -/
def leafSize : (l : Leaf) → l.Den → Nat
  | .str, v => bytes v
  | .uid, v => bytes v
  | .int, _ => 0
  | .bool, _ => 0
  | .amount, _ => 0
  | .date, _ => 0
  | .curr, _ => 0
  | .enum _, _ => 0

mutual
/-- The bytes of all texts in a value, plus one for each entry of a list and for each optional
structure that is there.  The XMLName fields, which hold names of elements, do not count. -/
def tySize : (t : Ty) → t.Den → Nat
  | .leaf l, v => leafSize l v
  | .struct _ fs, v => fieldsSize fs v.2
  | .closed _ _ fs, v => fieldsSize fs v
  | .ptr t, v =>
    match (show Option t.Den from v) with
    | none => 0
    | some x => 1 + tySize t x
  | .slice t, v => List.sum (List.map (fun x => 1 + tySize t x) (show List t.Den from v))
  | .msgSets fs, v =>
    List.sum (List.map (fun (x : Str × Str × fs.Den) => 1 + bytes x.2.1 + fieldsSize fs x.2.2) (show List (Str × Str × fs.Den) from v))
def fieldsSize : (fs : Fields) → fs.Den → Nat
  | .nil, _ => 0
  | .field _ _ _ t rest, v => tySize t v.1 + fieldsSize rest v.2
  | .alts as rest, v => List.sum (List.map (fun x => 1 + altSize as x) (show List as.Den from v.1)) + fieldsSize rest v.2
def altSize : (as : Alts) → as.Den → Nat
  | .nil, _ => 0
  | .alt _ _ t rest, v =>
    match (show t.Den ⊕ rest.Den from v) with
    | .inl x => tySize t x
    | .inr y => altSize rest y
end

/-- The same for a value of a Go type. -/
def valueSize {α : Type} [OfxType α] (x : α) : Nat := tySize (OfxType.ty α) (OfxType.toDen x)

/-- The same for a message. -/
def messageSize : Message → Nat
  | .statementRequest m => valueSize m
  | .statementResponse m => valueSize m
  | .ccStatementRequest m => valueSize m
  | .ccStatementResponse m => valueSize m
  | .invStatementRequest m => valueSize m
  | .invStatementResponse m => valueSize m
  | .profileRequest m => valueSize m
  | .profileResponse m => valueSize m
  | .secListRequest m => valueSize m
  | .secListResponse m => valueSize m
  | .securityList m => valueSize m
  | .acctInfoRequest m => valueSize m
  | .acctInfoResponse m => valueSize m

/-- The same for a response: its signon and its lists of messages. -/
def responseSize (r : Response Message) : Nat :=
  valueSize r.signon + (responseOrder.map (fun s => ((r.sets s.1).map (fun m => 1 + messageSize m)).sum)).sum

end Ofx.Spec
