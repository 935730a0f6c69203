import Verif.Spec.Layout
/-
Which responses can be saved without loss after they have been read: the only values a document
can hold, and the library can read, that are not written back in full.
-/
namespace Ofx.Spec
open Ofx

/-- Amounts have at most 100 decimals, and dates satisfy `D`. -/
def LeafKept (D : GoTime → Prop) : (l : Leaf) → l.Den → Prop
  | .amount, v => ∃ n : Int, (v : Rat) = (n : Rat) / 10 ^ 100
  | .date, v => D v
  | _, _ => True

mutual
/-- The same for every value inside; and the message sets a profile lists are of version 1 and
have a name, with and without the version, that is not the name of a leaf element. -/
def TyKept (D : GoTime → Prop) : (t : Ty) → t.Den → Prop
  | .leaf l, v => LeafKept D l v
  | .struct _ fs, v => FieldsKept D fs v.2
  | .closed _ _ fs, v => FieldsKept D fs v
  | .ptr t, v => ∀ x ∈ (show Option t.Den from v), TyKept D t x
  | .slice t, v => ∀ x ∈ (show List t.Den from v), TyKept D t x
  | .msgSets fs, v => ∀ x ∈ (show List (Str × Str × fs.Den) from v),
      (∃ short, x.2.1 = short ++ "V1".toList ∧ ContainerName short ∧ ContainerName x.2.1) ∧ FieldsKept D fs x.2.2
def FieldsKept (D : GoTime → Prop) : (fs : Fields) → fs.Den → Prop
  | .nil, _ => True
  | .field _ _ _ t rest, v => TyKept D t v.1 ∧ FieldsKept D rest v.2
  | .alts as rest, v => (∀ x ∈ (show List as.Den from v.1), AltsKept D as x) ∧ FieldsKept D rest v.2
def AltsKept (D : GoTime → Prop) : (as : Alts) → as.Den → Prop
  | .nil, _ => True
  | .alt _ _ t rest, v =>
    match (show t.Den ⊕ rest.Den from v) with
    | .inl x => TyKept D t x
    | .inr y => AltsKept D rest y
end

/-- The values in a message. -/
def KeptMessage (D : GoTime → Prop) : Message → Prop
  | .statementRequest m => TyKept D (OfxType.ty StatementRequest) (OfxType.toDen m)
  | .statementResponse m => TyKept D (OfxType.ty StatementResponse) (OfxType.toDen m)
  | .ccStatementRequest m => TyKept D (OfxType.ty CCStatementRequest) (OfxType.toDen m)
  | .ccStatementResponse m => TyKept D (OfxType.ty CCStatementResponse) (OfxType.toDen m)
  | .invStatementRequest m => TyKept D (OfxType.ty InvStatementRequest) (OfxType.toDen m)
  | .invStatementResponse m => TyKept D (OfxType.ty InvStatementResponse) (OfxType.toDen m)
  | .profileRequest m => TyKept D (OfxType.ty ProfileRequest) (OfxType.toDen m)
  | .profileResponse m => TyKept D (OfxType.ty ProfileResponse) (OfxType.toDen m)
  | .secListRequest m => TyKept D (OfxType.ty SecListRequest) (OfxType.toDen m)
  | .secListResponse m => TyKept D (OfxType.ty SecListResponse) (OfxType.toDen m)
  | .securityList m => TyKept D (OfxType.ty SecurityList) (OfxType.toDen m)
  | .acctInfoRequest m => TyKept D (OfxType.ty AcctInfoRequest) (OfxType.toDen m)
  | .acctInfoResponse m => TyKept D (OfxType.ty AcctInfoResponse) (OfxType.toDen m)

/-- The values in a response. -/
def Kept (D : GoTime → Prop) (r : Response Message) : Prop :=
  TyKept D (OfxType.ty SignonResponse) (OfxType.toDen r.signon) ∧ ∀ s, s ≠ .signon → ∀ m ∈ r.sets s, KeptMessage D m

/-- Responses that can be saved: every date is one that OFX can express. -/
def Savable (r : Response Message) : Prop := Kept ExactDate r

/-- The same, where in addition every date names its zone. -/
def SavableNamed (r : Response Message) : Prop := Kept (fun t => ExactDate t ∧ t.zone ≠ []) r

end Ofx.Spec
