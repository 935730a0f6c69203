import Verif.Go.Str
/-
Whole numbers as Go writes them.
-/
namespace Ofx.Spec
open Ofx

/-- The digit `c` stands for `d`; letters, small and capital, go on from ten. -/
def NumberDigit (c : Char) (d : Nat) : Prop :=
  d < 36 ∧ ("0123456789abcdefghijklmnopqrstuvwxyz".toList[d]? = some c ∨ "0123456789ABCDEFGHIJKLMNOPQRSTUVWXYZ".toList[d]? = some c)

/-- The digits `ds` of base `b`, at least one, with nothing or a single underscore between two. -/
inductive SpacedDigits (b : Nat) : List Nat → Str → Prop
  | one {c : Char} {d : Nat} (h : NumberDigit c d) (hd : d < b) : SpacedDigits b [d] [c]
  | next {c : Char} {d : Nat} {ds : List Nat} {s : Str} (h : NumberDigit c d) (hd : d < b) (hs : SpacedDigits b ds s) :
      SpacedDigits b (d :: ds) (c :: s)
  | apart {c : Char} {d : Nat} {ds : List Nat} {s : Str} (h : NumberDigit c d) (hd : d < b) (hs : SpacedDigits b ds s) :
      SpacedDigits b (d :: ds) (c :: '_' :: s)

/-- The number with these digits. -/
def digitsIn (b : Nat) (ds : List Nat) : Nat := ds.foldl (fun n d => n * b + d) 0

/-- `s` is the notation of `n` as an integer literal of Go: decimal, not beginning with zero; octal, beginning with zero; or
binary, octal or hexadecimal after 0b, 0o or 0x and perhaps an underscore. -/
def GoLiteral (s : Str) (n : Nat) : Prop :=
  (∃ ds, SpacedDigits 10 ds s ∧ ds.head? ≠ some 0 ∧ n = digitsIn 10 ds) ∨
  (∃ ds, SpacedDigits 8 (0 :: ds) s ∧ n = digitsIn 8 ds) ∨
  ∃ b x t ds, s = '0' :: x :: t ∧ (b = 2 ∧ (x = 'b' ∨ x = 'B') ∨ b = 8 ∧ (x = 'o' ∨ x = 'O') ∨ b = 16 ∧ (x = 'x' ∨ x = 'X')) ∧
    (SpacedDigits b ds t ∨ ∃ u, t = '_' :: u ∧ SpacedDigits b ds u) ∧ n = digitsIn b ds

end Ofx.Spec
