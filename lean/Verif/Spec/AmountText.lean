import Verif.Spec.Numeral
import Mathlib.Data.Rat.Defs
import Mathlib.Algebra.Order.Ring.Rat
/-
Independent specification of the number notations math/big reads, with a point or a comma as
separator: decimal, binary, octal and hexadecimal numerals with optional fraction and exponent,
and fractions of integers.  Nothing here refers to the model.
-/
namespace Ofx.Spec

/-- The number a digit stands for in bases up to sixteen (16: not a digit). -/
def digitIn (c : Char) : Nat := "0123456789abcdef".toList.idxOf c.toLower

/-- Value of a digit string in positional notation to base b. -/
def valueIn (b : Nat) : List Char → Nat
  | [] => 0
  | c :: s => digitIn c * b ^ s.length + valueIn b s

/-- `s` is written with the digits `ds` of base b, which single underscores may separate. -/
def Grouped (b : Nat) (s ds : List Char) : Prop :=
  ∃ gs : List (List Char), gs ≠ [] ∧ (∀ g ∈ gs, g ≠ [] ∧ ∀ c ∈ g, digitIn c < b) ∧
    s = (gs.intersperse ['_']).flatten ∧ ds = gs.flatten

/-- The prefixes that choose a base. -/
def basePrefixes : List (List Char × Nat) :=
  [("0b".toList, 2), ("0B".toList, 2), ("0o".toList, 8), ("0O".toList, 8), ("0x".toList, 16), ("0X".toList, 16)]

/-- `pre` is what precedes the integer digits `it` of a number to base b: nothing for decimal
numbers, otherwise a prefix, and perhaps an underscore if there are digits after it. -/
def Prefix (b : Nat) (pre it : List Char) : Prop :=
  (b = 10 ∧ pre = []) ∨ ∃ p, (p, b) ∈ basePrefixes ∧ (pre = p ∨ (it ≠ [] ∧ pre = p ++ ['_']))

/-- `s` is a whole number n: decimal without a leading zero, octal after a zero, or to a base
chosen by a prefix. -/
def WholeText (s : List Char) (n : Nat) : Prop :=
  (s = ['0'] ∧ n = 0) ∨
  (∃ ds, Grouped 10 s ds ∧ s.head? ≠ some '0' ∧ n = valueIn 10 ds) ∨
  (∃ t ds, (s = '0' :: t ∨ s = '0' :: '_' :: t) ∧ Grouped 8 t ds ∧ n = valueIn 8 ds) ∨
  ∃ b pre t ds, b ≠ 10 ∧ s = pre ++ t ∧ Prefix b pre t ∧ Grouped b t ds ∧ n = valueIn b ds

/-- `s` is an exponent: e or E for powers of ten, p or P for powers of two, a whole number with
optional sign and in the range of 64 bit.  Nothing at all is the exponent 0. -/
def ExponentText (s : List Char) (base : Nat) (e : Int) : Prop :=
  (s = [] ∧ base = 10 ∧ e = 0) ∨
  ∃ letter sign t ds, s = letter :: (sign ++ t) ∧
    ((base = 10 ∧ (letter = 'e' ∨ letter = 'E')) ∨ (base = 2 ∧ (letter = 'p' ∨ letter = 'P'))) ∧
    (sign = [] ∨ sign = ['+'] ∨ sign = ['-']) ∧ Grouped 10 t ds ∧
    e = (if sign = ['-'] then -1 else 1) * (valueIn 10 ds : Int) ∧ InInt64 e

/-- The power of 5 a number to base b with k fractional digits and this exponent is scaled by. -/
def powerOfFive (b k ebase : Nat) (e : Int) : Int :=
  (if b = 10 then -(k : Int) else 0) + (if ebase = 10 then e else 0)

/-- The power of 2 it is scaled by. -/
def powerOfTwo (b k : Nat) (e : Int) : Int :=
  (if b = 8 then -3 * (k : Int) else if b = 16 then -4 * (k : Int) else -(k : Int)) + e

/-- Both powers are within math/big's limits. -/
def InRange (b k ebase : Nat) (e : Int) : Prop :=
  |powerOfFive b k ebase e| ≤ 1000000 ∧ |powerOfTwo b k e| ≤ 10000000

/-- `s` (without sign) is a number in point notation: digits, at least one, with at most one
separator and an exponent.  After hexadecimal digits the exponent cannot start with e. -/
def PointText (s : List Char) (q : ℚ) : Prop :=
  ∃ b pre it ip frac ft fp ex ebase e, s = pre ++ it ++ frac ++ ex ∧ Prefix b pre it ∧
    ((it = [] ∧ ip = []) ∨ Grouped b it ip) ∧
    ((frac = [] ∧ fp = []) ∨ ((frac = '.' :: ft ∨ frac = ',' :: ft) ∧ ((ft = [] ∧ fp = []) ∨ Grouped b ft fp))) ∧
    ip ++ fp ≠ [] ∧ ExponentText ex ebase e ∧ (b = 16 → ex = [] ∨ ebase = 2) ∧
    (valueIn b (ip ++ fp) = 0 ∨ InRange b fp.length ebase e) ∧
    q = (valueIn b (ip ++ fp) : ℚ) / b ^ fp.length * (ebase : ℚ) ^ e

/-- `s` is an amount text denoting q: an optional sign, then a number in point notation or a
fraction of two whole numbers. -/
def AmountText (s : List Char) (q : ℚ) : Prop :=
  ∃ sign t x, s = sign ++ t ∧ (sign = [] ∨ sign = ['+'] ∨ sign = ['-']) ∧
    (PointText t x ∨ ∃ a b n d, t = a ++ '/' :: b ∧ WholeText a n ∧ WholeText b d ∧ d ≠ 0 ∧ x = (n : ℚ) / d) ∧
    q = (if sign = ['-'] then -1 else 1) * x

end Ofx.Spec
