import Verif.Codec.Schema
/-
encoding/xml marshalling (marshal.go of the fork) of the schemas, together with the
hand-written MarshalXML methods of the list types.  The result is the forest of
elements written.
-/
namespace Ofx

/-- What one struct field contributes: the parents of its tag path, whether these are
opened when they are not open yet (not for nil pointers), and the elements written.
Library code run by e.Encode, request.go 52. -/
structure Item where
  path : List Str
  opens : Bool
  nodes : List Node

/-- Closing the open parent. Library code run by e.Encode, request.go 52. -/
def closeGroup (inner : List Item → List Node) : Option (Str × List Item) → List Node
  | none => []
  | some (h, acc) => [.elem h (inner acc)]

/-- encoding/xml marshal.go `marshalStruct` with its `parentStack`: consecutive fields
sharing a parent are written inside one parent element; a parent is closed as soon as a
field outside it comes. -/
def emitGo (inner : List Item → List Node) : Option (Str × List Item) → List Item → List Node
  | cur, [] => closeGroup inner cur
  | cur, ⟨[], _, ns⟩ :: rest => closeGroup inner cur ++ ns ++ emitGo inner none rest
  | none, ⟨h :: t, o, ns⟩ :: rest =>
    emitGo inner (if o then some (h, [⟨t, o, ns⟩]) else none) rest
  | some (h', acc), ⟨h :: t, o, ns⟩ :: rest =>
    if h = h' then emitGo inner (some (h', acc ++ [⟨t, o, ns⟩])) rest
    else closeGroup inner (some (h', acc)) ++
      emitGo inner (if o then some (h, [⟨t, o, ns⟩]) else none) rest

/-- `marshalStruct` for fields whose tag paths have at most `d` parents.
Library code run by e.Encode, request.go 52. -/
def emit : Nat → List Item → List Node
  | 0, items => items.flatMap Item.nodes
  | d + 1, items => emitGo (emit d) none items

/-- Longest tag path. Library code run by e.Encode, request.go 52. -/
def Fields.depth : Fields → Nat
  | .nil => 0
  | .field path _ _ _ rest => max path.length rest.depth
  | .alts _ rest => rest.depth

/-- encoding/xml marshalValue: the tag of XMLName wins, then the value of XMLName, then
the field tag. Library code run by e.Encode, request.go 52. -/
def XName.encName : (xn : XName) → Str → xn.Den → Str
  | .none, name, _ => name
  | .tag n, _, _ => n
  | .free, name, x => if (show Str from x) = [] then name else x

/-- Emptiness of a Go slice held in a hand-marshalled type.
Library code run by e.Encode, request.go 52. -/
def Fields.isEmpty : (fs : Fields) → fs.Den → Bool
  | .nil, _ => true
  | .field _ _ _ _ _, _ => false
  | .alts _ rest, v => List.isEmpty v.1 && rest.isEmpty v.2

/-- Whether a field value is something other than a nil pointer.
Library code run by e.Encode, request.go 52. -/
def Ty.opens : (t : Ty) → t.Den → Bool
  | .ptr t, v => Option.isSome (α := t.Den) v
  | .leaf _, _ => true
  | .struct _ _, _ => true
  | .closed _ _ _, _ => true
  | .slice _, _ => true
  | .msgSets _, _ => true

/-- strings.HasSuffix / TrimSuffix with "V1" (profile.go 137-140): `none` without the
suffix, or if nothing else is left (EncodeToken refuses an empty element name, line 142). -/
def trimV1 (s : Str) : Option Str :=
  if "V1".toList.isSuffixOf s ∧ 2 < s.length then some (s.take (s.length - 2)) else none

/-- profile.go 136-152: one MessageSet of a MessageSetList; `enc` marshals its tagged
fields. -/
def encMsgSet {α : Type} (enc : α → Except String (List Item)) (depth : Nat) (x : Str × Str × α) :
    Except String Node :=
  match trimV1 x.2.1 with
  | none => .error "Expected MessageSet.Name to end with \"V1\""
  | some short =>
    match enc x.2.2 with
    | .ok items => .ok (.elem short
        [.elem x.2.1 (textNode "Name".toList x.2.1 :: emit depth items)])
    | .error e => .error e

mutual
/-- `marshalValue` of a value under the element name `name`; `om` is the omitempty flag
of the field. Library code run by e.Encode, request.go 52. -/
def Ty.enc : (t : Ty) → Str → Bool → t.Den → Except String (List Node)
  | .leaf l, name, om, v =>
    if om && l.isEmpty v then .ok []
    else match l.print v with
      | some s => .ok [textNode name s]
      | none => .ok []
  | .struct xn fs, name, _, v =>
    match fs.enc v.2 with
    | .ok items => .ok [.elem (xn.encName name v.1) (emit fs.depth items)]
    | .error e => .error e
  | .closed lit goSlice fs, _, om, v =>
    if om && goSlice && fs.isEmpty v then .ok []
    else match fs.enc v with
      | .ok items => .ok [.elem lit (emit fs.depth items)]
      | .error e => .error e
  | .ptr t, name, _, v =>
    match (show Option t.Den from v) with
    | none => .ok []
    | some x => t.enc name false x
  | .slice t, name, om, v =>
    match mapE (fun x => t.enc name om x) (show List t.Den from v) with
    | .ok nss => .ok nss.flatten
    | .error e => .error e
  | .msgSets fs, _, om, v =>
    if om && List.isEmpty (show List (Str × Str × fs.Den) from v) then .ok []
    else
      match mapE (encMsgSet (fun y => fs.enc y) fs.depth) (show List (Str × Str × fs.Den) from v) with
      | .ok ns => .ok [.elem "MSGSETLIST".toList ns]
      | .error e => .error e
/-- The fields of a struct. Library code run by e.Encode, request.go 52. -/
def Fields.enc : (fs : Fields) → fs.Den → Except String (List Item)
  | .nil, _ => .ok []
  | .field path name om t rest, v =>
    match t.enc name om v.1 with
    | .error e => .error e
    | .ok ns =>
      match rest.enc v.2 with
      | .ok items => .ok (⟨path, t.opens v.1, ns⟩ :: items)
      | .error e => .error e
  | .alts as rest, v =>
    match mapE (fun x => as.enc x) v.1 with
    | .error e => .error e
    | .ok nss =>
      match rest.enc v.2 with
      | .ok items => .ok (⟨[], true, nss.flatten⟩ :: items)
      | .error e => .error e
/-- An interface value: written with the name given by its type method.
Library code run by e.Encode, request.go 52. -/
def Alts.enc : (as : Alts) → as.Den → Except String (List Node)
  | .nil, v => (show Empty from v).elim
  | .alt _ encName t rest, v =>
    match (show t.Den ⊕ rest.Den from v) with
    | .inl x =>
      match t.enc encName false x with
      | .ok ns => .ok (ns.map (Node.rename encName))
      | .error e => .error e
    | .inr y => rest.enc y
end

end Ofx
