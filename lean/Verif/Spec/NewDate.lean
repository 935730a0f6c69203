import Verif.Model.NewDate
import Verif.Spec.Date
/-
What is said about constructing dates.
-/
namespace Ofx.Spec
open Ofx

/-- What a location says hangs together: the zone it names is in force at the instant asked about
and between the times it names. -/
def Consistent (loc : Location) : Prop :=
  ∀ t, (loc t).start ≤ t ∧ t < (loc t).stop ∧
    ∀ u, (loc t).start ≤ u → u < (loc t).stop → (loc u).off = (loc t).off

/-- Clocks are never more than `reach` seconds ahead or behind, and within `reach` of a time they
are changed at most once. -/
def OneChange (loc : Location) (around reach : Int) : Prop :=
  (∀ t, -reach ≤ (loc t).off ∧ (loc t).off ≤ reach) ∧
  ∃ change before after : Int,
    ∀ t, around - reach ≤ t → t ≤ around + reach → (loc t).off = if t < change then before else after

/-- The clock of a location shows `c` (and `extra` nanoseconds) at an instant (nanoseconds). -/
def ClockShows (loc : Location) (c : Civil) (extra : Nat) (t : Int) : Prop :=
  t = c.instant (loc (t / 1000000000)).off + extra

end Ofx.Spec
