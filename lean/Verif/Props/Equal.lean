import Verif.Spec.Equal
import Verif.Model.Amount
import Verif.Model.Date
import Verif.Codec.Schema
import Mathlib.Data.Rat.Defs
import Mathlib.Tactic.Linarith
/-
C53: the methods Equal.
-/
namespace Ofx.Props
open Ofx Spec

theorem equality_of {α β : Type} {denotes : α → β} {eq : α → α → Bool} (h : ∀ a b, eq a b = true ↔ denotes a = denotes b) :
    EqualityOf denotes eq where
  same := h
  refl := fun a => (h a a).mpr rfl
  symm := fun a b hab => (h b a).mpr ((h a b).mp hab).symm
  trans := fun a b c hab hbc => (h a c).mpr (((h a b).mp hab).trans ((h b c).mp hbc))

/-- C53: Ints, Strings, Booleans and UIDs are equal exactly if they are the same value. -/
theorem C53_simple_equal : EqualityOf (fun i : Int => i) Int.equal ∧ EqualityOf (fun s : Str => s) OString.equal ∧
    EqualityOf (fun b : Bool => b) Boolean.equal ∧ EqualityOf (fun s : Str => s) UID.equal := by
  refine ⟨equality_of ?_, equality_of ?_, equality_of ?_, equality_of ?_⟩
  · intro a b; simp [Int.equal]
  · intro a b; simp [OString.equal]
  · intro a b; simp [Boolean.equal]
  · intro a b; simp [UID.equal]

/-- C53: currencies are equal exactly if they have the same code. -/
theorem C53_currency_equal : EqualityOf (fun c : CurrSymbol => c.code) CurrSymbol.equal := by
  refine equality_of ?_
  intro a b; simp [CurrSymbol.equal]

/-- C53: amounts are equal exactly if they are the same number. -/
theorem C53_amount_equal : EqualityOf (fun a : ℚ => a) Amount.equal := by
  refine equality_of ?_
  intro a b
  simp only [Amount.equal, beq_iff_eq]
  exact Rat.eq_iff_mul_eq_mul.symm

/-- C53: dates are equal exactly if they are the same instant, whatever their time zones. -/
theorem C53_date_equal : EqualityOf (fun d : GoTime => d.ns) Date.equal := by
  refine equality_of ?_
  intro a b; simp [Date.equal]

/-- Different zones, same instant. -/
example : Date.equal { GoTime.zero with off := 3600 } GoTime.zero = true := by decide
example : Amount.equal (1 / 2) (2 / 4) = true ∧ Amount.equal (1 / 2) (-1 / 2) = false := by
  refine ⟨(C53_amount_equal.same _ _).mpr (by norm_num), ?_⟩
  rw [← Bool.not_eq_true, C53_amount_equal.same]
  norm_num

end Ofx.Props
