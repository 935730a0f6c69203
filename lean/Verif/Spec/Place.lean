import Verif.Model.Bufio
/-
Reading one document on machines in different time zones.
-/
namespace Ofx.Spec
open Ofx

/-- A date as it is known on a machine: if it has an offset but no zone abbreviation, and the
clocks of that machine show that offset at that instant, it gets their abbreviation. -/
def known (here : LocalZone) (t : GoTime) : GoTime :=
  if t.zone = [] ∧ (here (t.ns / nsPerSec)).2 = t.off then { t with zone := (here (t.ns / nsPerSec)).1 } else t

def leafDates (f : GoTime → GoTime) : (l : Leaf) → l.Den → l.Den
  | .date, v => f v
  | .str, v => v
  | .uid, v => v
  | .int, v => v
  | .bool, v => v
  | .amount, v => v
  | .curr, v => v
  | .enum _, v => v

mutual
/-- A value with `f` applied to every date in it, and unchanged otherwise. -/
def onDates (f : GoTime → GoTime) : (t : Ty) → t.Den → t.Den
  | .leaf l, v => leafDates f l v
  | .struct _ fs, v => (v.1, onFieldDates f fs v.2)
  | .closed _ _ fs, v => onFieldDates f fs v
  | .ptr t, v => Option.map (onDates f t) (show Option t.Den from v)
  | .slice t, v => List.map (onDates f t) (show List t.Den from v)
  | .msgSets fs, v =>
    List.map (fun (x : Str × Str × fs.Den) => (x.1, x.2.1, onFieldDates f fs x.2.2)) (show List (Str × Str × fs.Den) from v)
def onFieldDates (f : GoTime → GoTime) : (fs : Fields) → fs.Den → fs.Den
  | .nil, _ => ()
  | .field _ _ _ t rest, v => (onDates f t v.1, onFieldDates f rest v.2)
  | .alts as rest, v => (List.map (onAltDates f as) (show List as.Den from v.1), onFieldDates f rest v.2)
def onAltDates (f : GoTime → GoTime) : (as : Alts) → as.Den → as.Den
  | .nil, v => v
  | .alt _ _ t rest, v => Sum.map (onDates f t) (onAltDates f rest) (show t.Den ⊕ rest.Den from v)
end

/-- The same for a value of a Go type. -/
def valueDates {α : Type} [OfxType α] (f : GoTime → GoTime) (x : α) : α :=
  OfxType.ofDen (onDates f (OfxType.ty α) (OfxType.toDen x))

/-- The same for a message. -/
def messageDates (f : GoTime → GoTime) : Message → Message
  | .statementRequest m => .statementRequest (valueDates f m)
  | .statementResponse m => .statementResponse (valueDates f m)
  | .ccStatementRequest m => .ccStatementRequest (valueDates f m)
  | .ccStatementResponse m => .ccStatementResponse (valueDates f m)
  | .invStatementRequest m => .invStatementRequest (valueDates f m)
  | .invStatementResponse m => .invStatementResponse (valueDates f m)
  | .profileRequest m => .profileRequest (valueDates f m)
  | .profileResponse m => .profileResponse (valueDates f m)
  | .secListRequest m => .secListRequest (valueDates f m)
  | .secListResponse m => .secListResponse (valueDates f m)
  | .securityList m => .securityList (valueDates f m)
  | .acctInfoRequest m => .acctInfoRequest (valueDates f m)
  | .acctInfoResponse m => .acctInfoResponse (valueDates f m)

/-- The same for a response. -/
def responseDates (f : GoTime → GoTime) (r : Response Message) : Response Message :=
  { version := r.version, signon := valueDates f r.signon, sets := fun s => (r.sets s).map (messageDates f) }

/-- A date without its zone abbreviation: the instant and the offset. -/
def nameless (t : GoTime) : GoTime := { t with zone := [] }

def LeafDates (P : GoTime → Prop) : (l : Leaf) → l.Den → Prop
  | .date, v => P v
  | _, _ => True

mutual
/-- Every date in a value satisfies `P`. -/
def TyDates (P : GoTime → Prop) : (t : Ty) → t.Den → Prop
  | .leaf l, v => LeafDates P l v
  | .struct _ fs, v => FieldDates P fs v.2
  | .closed _ _ fs, v => FieldDates P fs v
  | .ptr t, v => ∀ x ∈ (show Option t.Den from v), TyDates P t x
  | .slice t, v => ∀ x ∈ (show List t.Den from v), TyDates P t x
  | .msgSets fs, v => ∀ x ∈ (show List (Str × Str × fs.Den) from v), FieldDates P fs x.2.2
def FieldDates (P : GoTime → Prop) : (fs : Fields) → fs.Den → Prop
  | .nil, _ => True
  | .field _ _ _ t rest, v => TyDates P t v.1 ∧ FieldDates P rest v.2
  | .alts as rest, v => (∀ x ∈ (show List as.Den from v.1), AltDates P as x) ∧ FieldDates P rest v.2
def AltDates (P : GoTime → Prop) : (as : Alts) → as.Den → Prop
  | .nil, _ => True
  | .alt _ _ t rest, v =>
    match (show t.Den ⊕ rest.Den from v) with
    | .inl x => TyDates P t x
    | .inr y => AltDates P rest y
end

/-- Every date in a value of a Go type satisfies `P`. -/
def ValueDates {α : Type} [OfxType α] (P : GoTime → Prop) (x : α) : Prop := TyDates P (OfxType.ty α) (OfxType.toDen x)

/-- Every date in a message satisfies `P`. -/
def MessageDates (P : GoTime → Prop) : Message → Prop
  | .statementRequest m => ValueDates P m
  | .statementResponse m => ValueDates P m
  | .ccStatementRequest m => ValueDates P m
  | .ccStatementResponse m => ValueDates P m
  | .invStatementRequest m => ValueDates P m
  | .invStatementResponse m => ValueDates P m
  | .profileRequest m => ValueDates P m
  | .profileResponse m => ValueDates P m
  | .secListRequest m => ValueDates P m
  | .secListResponse m => ValueDates P m
  | .securityList m => ValueDates P m
  | .acctInfoRequest m => ValueDates P m
  | .acctInfoResponse m => ValueDates P m

/-- Every date in a response satisfies `P`. -/
def ResponseDates (P : GoTime → Prop) (r : Response Message) : Prop :=
  ValueDates P r.signon ∧ ∀ s, ∀ m ∈ r.sets s, MessageDates P m

end Ofx.Spec
