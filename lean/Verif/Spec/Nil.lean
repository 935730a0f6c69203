import Verif.Model.Nil
/-
Which entry of its lists keeps a request or response from being marshalled.
-/
namespace Ofx.Spec
open Ofx

/-- An entry that can be written in the set of type `t`: a valid message of this set, all message sets of a profile
being of version 1, or a nil pointer to a list of securities, for which nothing is written. -/
def FineEntry (version : Nat) (t : MsgType) (e : Entry) : Prop :=
  (∃ m, e = .msg m ∧ m.type = t ∧ (m.valid version).1 = none ∧
    ∀ p, m = .profileResponse p → ∀ set ∈ p.MessageSetList, ∃ short, short ≠ [] ∧ set.Name = short ++ "V1".toList) ∨
  (e = .nilPtr .securityList ∧ t = .rs .secList)

/-- An entry that is nil, or a nil pointer to another message of the set. -/
def Hole (t : MsgType) (e : Entry) : Prop := e = .nil ∨ ∃ k, e = .nilPtr k ∧ k.type = t ∧ k ≠ .securityList

/-- The first entry that cannot be written is `e`, in the list of set `s`; `type` is `.rq` for requests and
`.rs` for responses. -/
def FirstTrouble (v : Nat) (type : MsgSet → MsgType) (f : MsgSet → List Entry) (ss : List MsgSet) (s : MsgSet) (e : Entry) : Prop :=
  ∃ before after pre post, ss = before ++ s :: after ∧ (∀ t ∈ before, ∀ e ∈ f t, FineEntry v (type t) e) ∧
    f s = pre ++ e :: post ∧ (∀ e ∈ pre, FineEntry v (type s) e) ∧ ¬ FineEntry v (type s) e

end Ofx.Spec
