import Verif.Spec.Numeral
import Mathlib.Data.Rat.Defs
/-
Independent specification of decimal amounts: sign, digits, at most one fractional
separator which may be a point or a comma.
-/
namespace Ofx.Spec

/-- `core` is a decimal numeral with `k` fractional digits denoting `q`. -/
def DecimalText (core : List Char) (k : Nat) (q : ℚ) : Prop :=
  ∃ sign ip frac fp : List Char,
    core = sign ++ ip ++ frac ∧
    (sign = [] ∨ sign = ['+'] ∨ sign = ['-']) ∧
    (∀ c ∈ ip, IsDecDigit c) ∧ (∀ c ∈ fp, IsDecDigit c) ∧ ip ++ fp ≠ [] ∧
    ((frac = [] ∧ fp = []) ∨ frac = '.' :: fp ∨ frac = ',' :: fp) ∧
    k = fp.length ∧
    q = (if sign = ['-'] then -1 else 1) * ((value ip : ℚ) + (value fp : ℚ) / 10 ^ fp.length)

/-- Characters a plain (no exponent, no fraction bar, no base prefix) amount is made of. -/
def IsPlainAmountChar (c : Char) : Prop := IsDecDigit c ∨ c = '+' ∨ c = '-' ∨ c = '.' ∨ c = ','

/-- Number of fractional/grouping separators in a text. -/
def separators (s : List Char) : Nat := s.countP (fun c => c = '.' ∨ c = ',')

/-- Canonical decimal text: optional minus, an integer part without superfluous leading
zeros, and optionally a point followed by digits not ending in 0. -/
def CanonicalDecimal (s : List Char) : Prop :=
  ∃ sign ip frac : List Char, s = sign ++ ip ++ frac ∧ (sign = [] ∨ sign = ['-']) ∧
    IsNumeral ip ∧ (ip = ['0'] ∨ ip.head? ≠ some '0') ∧
    (frac = [] ∨ ∃ fp, frac = '.' :: fp ∧ IsNumeral fp ∧ fp.getLast? ≠ some '0')

end Ofx.Spec
