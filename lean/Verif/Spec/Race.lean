import Verif.Model.Sharing
/-
Data races: two goroutines are about to access the same memory, and one of them to write it.
-/
namespace Ofx.Spec
open Ofx

/-- Places in memory. -/
inductive Place where
  | client (c : Nat)
  | request (a : Nat)
  | message (p : Nat)

/-- Valid writes to the message: profile.go 34 is the only place where it does. -/
def writesMessage : Message → Bool
  | .profileRequest m => UID.valid m.TrnUID == none
  | _ => false

/-- What the next step of a goroutine reads (`false`) or writes (`true`).  What a goroutine does
on the network touches no shared memory. -/
def touches {α : Type} (m : SMem) : SProg α → List (Place × Bool)
  | .settings c _ => [(.client c, false)]
  | .get a _ => [(.request a, false)]
  | .set a _ _ => [(.request a, true)]
  | .msg a s i _ => (.request a, false) :: (m.pointer a s i).toList.map fun p => (.message p, false)
  | .setMsg a s i _ _ => (.request a, false) :: (m.pointer a s i).toList.map fun p => (.message p, writesMessage (m.messages p))
  | .ret _ | .clock _ | .send _ _ | .close _ _ => []

/-- Two goroutines are about to access the same place, and one of them writes. -/
def Race {α : Type} (s : SRunning α) : Prop :=
  ∃ i j, i ≠ j ∧ ∃ x ∈ touches s.mem (s.progs i), ∃ y ∈ touches s.mem (s.progs j), x.1 = y.1 ∧ (x.2 = true ∨ y.2 = true)

end Ofx.Spec
