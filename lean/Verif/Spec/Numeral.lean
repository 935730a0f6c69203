/-
Independent specification of decimal numerals and of text padding, used in the
statements of the properties.  Nothing here refers to the model.
-/
namespace Ofx.Spec

/-- `c` is one of the ten decimal digits. -/
def IsDecDigit (c : Char) : Prop := c ∈ ['0','1','2','3','4','5','6','7','8','9']

instance (c : Char) : Decidable (IsDecDigit c) := by unfold IsDecDigit; infer_instance

/-- The number a digit stands for. -/
def digit (c : Char) : Nat := ['0','1','2','3','4','5','6','7','8','9'].idxOf c

/-- Value of a digit string in positional notation. -/
def value : List Char → Nat
  | [] => 0
  | c :: s => digit c * 10 ^ s.length + value s

/-- A nonempty string of digits. -/
def IsNumeral (s : List Char) : Prop := s ≠ [] ∧ ∀ c ∈ s, IsDecDigit c

instance (s : List Char) : Decidable (IsNumeral s) := by unfold IsNumeral; infer_instance

/-- The Unicode White_Space characters. -/
def whiteSpace : List Nat :=
  [9, 10, 11, 12, 13, 32, 0x85, 0xA0, 0x1680, 0x2000, 0x2001, 0x2002, 0x2003, 0x2004,
   0x2005, 0x2006, 0x2007, 0x2008, 0x2009, 0x200a, 0x2028, 0x2029, 0x202f, 0x205f, 0x3000]

/-- Text consisting of white space only. -/
def IsPadding (s : List Char) : Prop := ∀ c ∈ s, c.toNat ∈ whiteSpace

instance (s : List Char) : Decidable (IsPadding s) := by unfold IsPadding; infer_instance

/-- Text that neither starts nor ends with white space. -/
def IsTrim (s : List Char) : Prop :=
  (∀ c, s.head? = some c → c.toNat ∉ whiteSpace) ∧ (∀ c, s.getLast? = some c → c.toNat ∉ whiteSpace)

/-- `core` is the text `t` without surrounding white space. -/
def TrimsTo (t core : List Char) : Prop :=
  ∃ w w', IsPadding w ∧ IsPadding w' ∧ t = w ++ core ++ w' ∧ IsTrim core

end Ofx.Spec

namespace Ofx.Spec

/-- `core` is a signed decimal numeral denoting `i`. -/
def SignedNumeral (core : List Char) (i : Int) : Prop :=
  ∃ ds, IsNumeral ds ∧
    ((core = ds ∧ i = (value ds : Int)) ∨ (core = '+' :: ds ∧ i = (value ds : Int)) ∨
     (core = '-' :: ds ∧ i = -(value ds : Int)))

/-- The signed 64-bit range. -/
def InInt64 (i : Int) : Prop := -9223372036854775808 ≤ i ∧ i ≤ 9223372036854775807

/-- Lower-case hexadecimal digits. -/
def IsHexLower (c : Char) : Prop :=
  c ∈ ['0','1','2','3','4','5','6','7','8','9','a','b','c','d','e','f']

instance (c : Char) : Decidable (IsHexLower c) := by unfold IsHexLower; infer_instance

end Ofx.Spec
