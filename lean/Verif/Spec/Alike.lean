import Verif.Spec.Document
import Verif.Spec.LeafSays
/-
When two element contents are alike for a structure: one is obtained from the other by
adding or removing unknown elements, text and comments between elements, by exchanging
neighbouring elements with different names, or by writing a value differently, anywhere inside.
-/
namespace Ofx.Spec
open Ofx

def altNames : Alts → List Str
  | .nil => []
  | .alt dec _ _ rest => dec :: altNames rest

/-- The type of the elements called `n` of an interface list. -/
def altType : Alts → Str → Option Ty
  | .nil, _ => none
  | .alt dec _ t rest, n => if n = dec then some t else altType rest n

/-- The element names a structure knows inside its (nested) element `p`; `[]` is the
element of the structure itself. -/
def childNames : Fields → List Str → List Str
  | .nil, _ => []
  | .field path name _ _ rest, p =>
    (if path = p then [name] else if p <+: path then (path.drop p.length).take 1 else []) ++ childNames rest p
  | .alts as rest, p => (if p = [] then altNames as else []) ++ childNames rest p

/-- The type of the elements called `n` inside `p`. -/
def fieldType : Fields → List Str → Str → Option Ty
  | .nil, _, _ => none
  | .field path name _ t rest, p, n => if path = p ∧ name = n then some t else fieldType rest p n
  | .alts as rest, p, n =>
    if p = [] then
      match altType as n with
      | some t => some t
      | none => fieldType rest p n
    else fieldType rest p n

/-- No interface lists among the fields (they only occur in the hand-written list types). -/
def plainFields : Fields → Bool
  | .nil => true
  | .field _ _ _ _ rest => plainFields rest
  | .alts _ _ => false

mutual
/-- Contents of an element of type `t`. -/
inductive Alike : Ty → List Node → List Node → Prop
  | refl (t cs) : Alike t cs cs
  | symm {t cs cs'} : Alike t cs cs' → Alike t cs' cs
  | trans {t cs cs' cs''} : Alike t cs cs' → Alike t cs' cs'' → Alike t cs cs''
  | struct {xn fs cs cs'} : AlikeAt fs [] cs cs' → Alike (.struct xn fs) cs cs'
  | ptr {t cs cs'} : Alike t cs cs' → Alike (.ptr t) cs cs'
  | slice {t cs cs'} : Alike t cs cs' → Alike (.slice t) cs cs'
  /-- an element of a list -/
  | item {lit b fs t} (pre post : List Node) (n : Str) {c c'} : fieldType fs [] n = some t → Alike t c c' →
      Alike (.closed lit b fs) (pre ++ .elem n c :: post) (pre ++ .elem n c' :: post)
  /-- white space in a list -/
  | space {lit b fs} (pre post : List Node) (s : Str) : IsPadding s →
      Alike (.closed lit b fs) (pre ++ .text s :: post) (pre ++ post)
  /-- the content of a message set of a profile -/
  | set {fs} (pre post : List Node) (n m : Str) {c c'} : AlikeAt fs [] c c' →
      Alike (.msgSets fs) (pre ++ .elem n [.elem m c] :: post) (pre ++ .elem n [.elem m c'] :: post)
  /-- a value, written in another way -/
  | value {l s s'} : (∀ env v, LeafSays env l s v ↔ LeafSays env l s' v) → Alike (.leaf l) [.text s] [.text s']
  /-- the text of a value, in pieces -/
  | pieces {l} (pre post : List Node) (s s' : Str) :
      Alike (.leaf l) (pre ++ .text s :: .text s' :: post) (pre ++ .text (s ++ s') :: post)
  /-- a comment inside a value -/
  | inside {l} (pre post : List Node) : Alike (.leaf l) (pre ++ .misc :: post) (pre ++ post)
  /-- an element inside a value -/
  | element {l} (pre post : List Node) (n : Str) (c : List Node) : Alike (.leaf l) (pre ++ .elem n c :: post) (pre ++ post)
/-- Contents of the element at path `p` inside the element of a structure with fields
`fs`. -/
inductive AlikeAt : Fields → List Str → List Node → List Node → Prop
  | refl (fs p cs) : AlikeAt fs p cs cs
  | symm {fs p cs cs'} : AlikeAt fs p cs cs' → AlikeAt fs p cs' cs
  | trans {fs p cs cs' cs''} : AlikeAt fs p cs cs' → AlikeAt fs p cs' cs'' → AlikeAt fs p cs cs''
  /-- an unknown element, whatever it contains -/
  | unknown {fs p} (pre post : List Node) (n : Str) (c : List Node) : n ∉ childNames fs p →
      AlikeAt fs p (pre ++ .elem n c :: post) (pre ++ post)
  | text {fs p} (pre post : List Node) (s : Str) : AlikeAt fs p (pre ++ .text s :: post) (pre ++ post)
  | comment {fs p} (pre post : List Node) : AlikeAt fs p (pre ++ .misc :: post) (pre ++ post)
  /-- two neighbouring elements with different names -/
  | swap {fs p} (pre post : List Node) (a b : Str) (x y : List Node) : a ≠ b → plainFields fs = true →
      AlikeAt fs p (pre ++ .elem a x :: .elem b y :: post) (pre ++ .elem b y :: .elem a x :: post)
  /-- inside an element that is itself a structure -/
  | field {fs p t} (pre post : List Node) (n : Str) {c c'} : fieldType fs p n = some t → Alike t c c' →
      AlikeAt fs p (pre ++ .elem n c :: post) (pre ++ .elem n c' :: post)
  /-- inside an intermediate element -/
  | parent {fs p} (pre post : List Node) (n : Str) {c c'} : fieldType fs p n = none → AlikeAt fs (p ++ [n]) c c' →
      AlikeAt fs p (pre ++ .elem n c :: post) (pre ++ .elem n c' :: post)
end

/-- The structure behind each element of a response message set. -/
def responseTy (n : Str) : Option Ty :=
  if n = "ACCTINFOTRNRS".toList then some (OfxType.ty AcctInfoResponse)
  else if n = "STMTTRNRS".toList then some (OfxType.ty StatementResponse)
  else if n = "CCSTMTTRNRS".toList then some (OfxType.ty CCStatementResponse)
  else if n = "INVSTMTTRNRS".toList then some (OfxType.ty InvStatementResponse)
  else if n = "SECLISTTRNRS".toList then some (OfxType.ty SecListResponse)
  else if n = "SECLIST".toList then some (OfxType.ty SecurityList)
  else if n = "PROFTRNRS".toList then some (OfxType.ty ProfileResponse)
  else none

/-- Two documents that differ inside one message structure or inside the signon, and alike
there. -/
inductive AlikeDoc : Node → Node → Prop
  | signon (pre post : List Node) (p q : List Node) {n : Str} {c c' : List Node} :
      (∀ x ∈ p, ∀ m d, x ≠ .elem m d) → Alike (OfxType.ty SignonResponse) c c' →
      AlikeDoc (.elem "OFX".toList (pre ++ .elem "SIGNONMSGSRSV1".toList (p ++ .elem n c :: q) :: post))
        (.elem "OFX".toList (pre ++ .elem "SIGNONMSGSRSV1".toList (p ++ .elem n c' :: q) :: post))
  | message (pre post : List Node) (set : Str) (p q : List Node) {n : Str} {t : Ty} {c c' : List Node} :
      set ≠ "SIGNONMSGSRSV1".toList → responseTy n = some t → Alike t c c' →
      AlikeDoc (.elem "OFX".toList (pre ++ .elem set (p ++ .elem n c :: q) :: post))
        (.elem "OFX".toList (pre ++ .elem set (p ++ .elem n c' :: q) :: post))

end Ofx.Spec
