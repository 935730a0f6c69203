import Verif.Model.Listed
/-
What entries of lists are.
-/
namespace Ofx.Spec
open Ofx

/-- The list with these values for entries. -/
def values {α : Type} (l : List α) : List (ListEntry α) := l.map .value

/-- There is nothing to call a method on. -/
def Missing {α : Type} (x : ListEntry α) : Prop := x = .nil ∨ x = .nilPointer

/-- The entry is there, but is not a value of one of the library's types. -/
def Other {α : Type} (x : ListEntry α) : Prop := x = .own ∨ ∃ y, x = .pointer y

end Ofx.Spec
