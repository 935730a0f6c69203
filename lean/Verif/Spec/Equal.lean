/-
What equality methods should be.
-/
namespace Ofx.Spec

/-- `eq` is an equivalence, and holds exactly between values standing for the same thing. -/
structure EqualityOf {α β : Type} (denotes : α → β) (eq : α → α → Bool) : Prop where
  same : ∀ a b, eq a b = true ↔ denotes a = denotes b
  refl : ∀ a, eq a a = true
  symm : ∀ a b, eq a b = true → eq b a = true
  trans : ∀ a b c, eq a b = true → eq b c = true → eq a c = true

end Ofx.Spec
