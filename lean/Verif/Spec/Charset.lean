import Verif.Go.Str
import Verif.Codec.Xml
import Mathlib.Data.List.Forall2
/-
Specification for property C91: character encodings.
-/
namespace Ofx.Spec
open Ofx

/-- The characters of bytes 128 to 159 in Windows code page 1252; five of them have none. -/
def windowsSpecials : List (Option Nat) :=
  [some 0x20AC, none, some 0x201A, some 0x0192, some 0x201E, some 0x2026, some 0x2020, some 0x2021,
   some 0x02C6, some 0x2030, some 0x0160, some 0x2039, some 0x0152, none, some 0x017D, none,
   none, some 0x2018, some 0x2019, some 0x201C, some 0x201D, some 0x2022, some 0x2013, some 0x2014,
   some 0x02DC, some 0x2122, some 0x0161, some 0x203A, some 0x0153, none, some 0x017E, some 0x0178]

/-- The character of a byte in Windows code page 1252 (CHARSET:1252). -/
def char1252 (b : UInt8) : Option Char :=
  if 128 ≤ b.toNat ∧ b.toNat < 160 then (windowsSpecials[b.toNat - 128]?.join).map Char.ofNat else some (Char.ofNat b.toNat)

/-- The bytes are the text `s` in code page 1252. -/
def Is1252 (bs : List UInt8) (s : Str) : Prop := List.Forall₂ (fun b c => char1252 b = some c) bs s

/-- The bytes are the text `s` in UTF-8. -/
def IsUtf8 (bs : List UInt8) (s : Str) : Prop := bs = s.flatMap String.utf8EncodeChar

/-- Text of characters of US-ASCII only (ENCODING:USASCII). -/
def IsAscii (s : Str) : Prop := ∀ c ∈ s, c.toNat < 128

/-- Text of characters of US-ASCII that may occur in XML. -/
def IsPlain (s : Str) : Prop := ∀ c ∈ s, c = '\t' ∨ c = '\n' ∨ c = '\r' ∨ (32 ≤ c.toNat ∧ c.toNat < 128)

mutual
/-- All element names are ASCII, and all texts plain. -/
def PlainTree : Node → Prop
  | .elem n cs => IsAscii n ∧ PlainTrees cs
  | .text s => IsPlain s
  | .misc => True
def PlainTrees : List Node → Prop
  | [] => True
  | c :: cs => PlainTree c ∧ PlainTrees cs
end

end Ofx.Spec
