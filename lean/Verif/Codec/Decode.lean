import Verif.Codec.Schema
/-
encoding/xml unmarshalling (read.go of the fork) of the schemas, together with the
hand-written UnmarshalXML methods of the list types.

The model decodes element trees: Go reads tokens one at a time, but `DecodeElement`
consumes exactly one balanced element or fails.  Which of several errors is reported
first is not modelled.
-/
namespace Ofx

mutual
/-- Go zero values. Variables before decoding: response.go 285, 254. -/
def Ty.zero : (t : Ty) → t.Den
  | .leaf l => l.zero
  | .struct xn fs => (match xn with
      | .none => ()
      | .tag _ => ()
      | .free => ([] : Str), fs.zero)
  | .closed _ _ fs => fs.zero
  | .ptr _ => (none : Option _)
  | .slice _ => ([] : List _)
  | .msgSets _ => ([] : List _)
/-- Variables before decoding: response.go 285, 254. -/
def Fields.zero : (fs : Fields) → fs.Den
  | .nil => ()
  | .field _ _ _ t rest => (t.zero, rest.zero)
  | .alts _ rest => (([] : List _), rest.zero)
end

/-- Names accepted for an interface element.
seclist.go 272-319, invstmt.go 558-713, 945-992, 1214-1297. -/
def Alts.has : Alts → Str → Bool
  | .nil, _ => false
  | .alt dec _ _ rest, n => n == dec || rest.has n

/-- encoding/xml read.go `unmarshalPath`: some field has exactly this path. -/
def Fields.hits : Fields → List Str → Str → Bool
  | .nil, _, _ => false
  | .field path name _ _ rest, p, n => (path == p && name == n) || rest.hits p n
  | .alts as rest, p, n => (p == [] && as.has n) || rest.hits p n

/-- `unmarshalPath`: some field lies below this path.
Library code run by d.DecodeElement, response.go 256, 328. -/
def Fields.under : Fields → List Str → Bool
  | .nil, _ => false
  | .field path _ _ _ rest, p => p.isPrefixOf path || rest.under p
  | .alts _ rest, p => rest.under p

/-- What the children of a struct element amount to.
Library code run by d.DecodeElement, response.go 256, 328. -/
inductive Ev where
  /-- an element for the field with this path and name -/
  | hit (path : List Str) (name : Str) (children : List Node)
  /-- something that only the hand-written list decoders reject -/
  | junk

mutual
/-- `unmarshalPath` and the loop around it: descend through parents of tag paths, skip
unknown elements.  (Tag paths of one struct never extend each other -- encoding/xml
refuses such types -- so the order of the two tests does not matter.)
Library code run by d.DecodeElement, response.go 256, 328. -/
def Fields.events (fs : Fields) (p : List Str) : Node → List Ev
  | .elem n cs =>
    if fs.hits p n then [.hit p n cs]
    else if fs.under (p ++ [n]) then fs.eventsL (p ++ [n]) cs
    else [.junk]
  | .text s => if (trimSpace s).isEmpty then [] else [.junk]
  | .misc => [.junk]
/-- Library code run by d.DecodeElement, response.go 256, 328. -/
def Fields.eventsL (fs : Fields) (p : List Str) : List Node → List Ev
  | [] => []
  | c :: cs => fs.events p c ++ fs.eventsL p cs
end

/-- The single element inside an <xxxMSGSET> (profile.go 103-122): exactly one element,
otherwise white space. -/
def onlyChild (cs : List Node) : Option (Str × List Node) :=
  match cs.filter (fun c => !isBlank c) with
  | [.elem n ch] => some (n, ch)
  | _ => none

/-- encoding/xml: XMLName with a tag must match the element name.
Library code run by d.DecodeElement, response.go 256, 328. -/
def XName.check : XName → Str → Bool
  | .tag t, n => t == n
  | .none, _ => true
  | .free, _ => true

/-- XMLName without a tag receives the element name.
Library code run by d.DecodeElement, response.go 256, 328. -/
def XName.set : (xn : XName) → Str → xn.Den
  | .none, _ => ()
  | .tag _, _ => ()
  | .free, n => n

/-- Run the events of a struct: unknown ones are skipped, or an error when `strict`.
Library code run by d.DecodeElement, response.go 256, 328. -/
def runEvents {α : Type} (strict : Bool) (step : α → List Str → Str → List Node → Except String α)
    (v : α) : List Ev → Except String α
  | [] => .ok v
  | .hit p n cs :: es =>
    match step v p n cs with
    | .ok v' => runEvents strict step v' es
    | .error e => .error e
  | .junk :: es => if strict then .error "Invalid child" else runEvents strict step v es

/-- profile.go 102-125: one <xxxMSGSET> element; `dec` decodes the children of the
<xxxMSGSETVn> inside.  Name is overwritten with the element name (line 114). -/
def decMsgSet {α : Type} (dec : List Node → Except String α) : Node → Except String (Str × Str × α)
  | .elem _ ch =>
    match onlyChild ch with
    | some (n, ch') =>
      match dec ch' with
      | .ok x => .ok (n, n, x)
      | .error e => .error e
    | none => .error "Invalid MSGSETLIST formatting"
  | _ => .error "MSGSETLIST didn't find an opening xxxMSGSETVn element"

mutual
/-- encoding/xml read.go `Decoder.unmarshal` of the element `name` with these children
into the existing value `v`. -/
def Ty.dec (env : Env) : (t : Ty) → t.Den → Str → List Node → Except String t.Den
  | .leaf l, _, _, cs => l.parse env (leafText cs)
  | .struct xn fs, v, name, cs =>
    if xn.check name then
      match runEvents false (fun v p n c => fs.dec env v p n c) v.2 (fs.eventsL [] cs) with
      | .ok v' => .ok (xn.set name, v')
      | .error e => .error e
    else .error "expected element type"
  | .closed _ _ fs, v, _, cs =>
    runEvents true (fun v p n c => fs.dec env v p n c) v (fs.eventsL [] cs)
  | .ptr t, v, name, cs =>
    match t.dec env ((show Option t.Den from v).getD t.zero) name cs with
    | .ok x => .ok (some x)
    | .error e => .error e
  | .slice t, v, name, cs =>
    match t.dec env t.zero name cs with
    | .ok x => .ok ((show List t.Den from v) ++ [x])
    | .error e => .error e
  | .msgSets fs, v, _, cs =>
    match mapE (decMsgSet (fun x => runEvents false (fun v p n c => fs.dec env v p n c) fs.zero (fs.eventsL [] x)))
        (cs.filter (fun c => !isBlank c)) with
    | .ok xs => .ok ((show List (Str × Str × fs.Den) from v) ++ xs)
    | .error e => .error e
/-- Store an element into the field it belongs to.
Library code run by d.DecodeElement, response.go 256, 328. -/
def Fields.dec (env : Env) : (fs : Fields) → fs.Den → List Str → Str → List Node → Except String fs.Den
  | .nil, v, _, _, _ => .ok v
  | .field path name _ t rest, v, p, n, cs =>
    if path == p && name == n then
      match t.dec env v.1 n cs with
      | .ok x => .ok (x, v.2)
      | .error e => .error e
    else
      match rest.dec env v.2 p n cs with
      | .ok y => .ok (v.1, y)
      | .error e => .error e
  | .alts as rest, v, p, n, cs =>
    if p == [] && as.has n then
      match as.dec env n cs with
      | .ok x => .ok (List.append v.1 [x], v.2)
      | .error e => .error e
    else
      match rest.dec env v.2 p n cs with
      | .ok y => .ok (v.1, y)
      | .error e => .error e
/-- Decode an element of an interface type by its name.
seclist.go 272-319, invstmt.go 558-713, 945-992, 1214-1297. -/
def Alts.dec (env : Env) : (as : Alts) → Str → List Node → Except String as.Den
  | .nil, _, _ => .error "Invalid child tag"
  | .alt dec _ t rest, n, cs =>
    if n == dec then
      match t.dec env t.zero n cs with
      | .ok x => .ok (.inl x)
      | .error e => .error e
    else
      match rest.dec env n cs with
      | .ok x => .ok (.inr x)
      | .error e => .error e
end

end Ofx
