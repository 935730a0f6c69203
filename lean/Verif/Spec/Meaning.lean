import Verif.Spec.Layout
import Verif.Spec.Header
import Verif.Spec.Says
/-
What a request document says, whoever wrote it: the version its header states, and the signon
and the messages its elements say (Spec/Says).
-/
namespace Ofx.Spec
open Ofx

/-- `head`, the text before the first tag, is a header stating the version `v`. -/
def HeaderStates (v : Nat) (head : Str) : Prop :=
  (∃ n, v = n + 1 ∧ '<' ∉ head ∧ SGMLHeader n (head ++ ['<'])) ∨
  (∃ n attrs w w' w'' decl inst, v = n + 5 ∧
    head = w ++ "<?xml ".toList ++ decl ++ "?>".toList ++ w' ++ "<?OFX ".toList ++ inst ++ "?>".toList ++ w'' ∧
    IsPadding w ∧ IsPadding w' ∧ IsPadding w'' ∧ '?' ∉ decl ∧ '?' ∉ inst ∧ AttrText attrs inst ∧ XMLHeader n attrs)

mutual
/-- An element tree without white space around texts and between elements. -/
def tidy : Node → Node
  | .elem n cs => .elem n (tidyL cs)
  | .text s => .text (trimSpace s)
  | .misc => .misc
def tidyL : List Node → List Node
  | [] => []
  | c :: cs =>
    match c with
    | .text s => if trimSpace s = [] then tidyL cs else tidy c :: tidyL cs
    | _ => tidy c :: tidyL cs
end

/-- The document `bs` says: version `v`, this signon, and in each message set these messages,
in this order; and it says nothing else. -/
def SaysRequest (env : Env) (bs : List UInt8) (v : Nat) (signon : SignonRequest) (sets : MsgSet → List Message) : Prop :=
  ∃ head t cs first ch rest,
    bs = toBytes (head ++ t) ∧ HeaderStates v head ∧ Layout (decide (v < 5)) (.elem "OFX".toList cs) t ∧
    elems cs = ("SIGNONMSGSRQV1".toList, first) :: rest ∧ elems first = [("SONRQ".toList, ch)] ∧
    SignonRequestIs env [("SONRQ".toList, ch)] signon ∧
    (∀ e ∈ rest, ∃ s ∈ requestOrder, e.1 = s.2.toList) ∧
    ∀ s ∈ requestOrder, List.Forall₂ (fun (e : Str × List Node) (m : Message) =>
      e.1 = (elementName m).toList ∧ m.type = .rq s.1 ∧ MessageSays env e.1 e.2 m) (inside s.2.toList cs) (sets s.1)

/-- The signon as it is to be sent: in English unless a language is given. -/
def signonSent (s : SignonRequest) : SignonRequest :=
  { s with Language := if s.Language = [] then "ENG".toList else s.Language }

/-- A message as it is to be sent: profiles are requested without client routing. -/
def messageSent : Message → Message
  | .profileRequest m => .profileRequest { m with ClientRouting := "NONE".toList }
  | m => m

def SameSignonRequest (s s' : SignonRequest) : Prop :=
  TySame (OfxType.ty SignonRequest) "SONRQ".toList (OfxType.toDen s) (OfxType.toDen s')

/-- A signon request all of whose values can be carried by a document. -/
def ReprSignonRequest (env : Env) (s : SignonRequest) : Prop :=
  TyRepr env (OfxType.ty SignonRequest) "SONRQ".toList (OfxType.toDen s)

end Ofx.Spec
