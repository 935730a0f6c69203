/-
Go strings and the parts of the standard library packages `strings`, `strconv`
and `fmt` that ofxgo calls.

A Go string is modelled as the list of its Unicode scalar values (`List Char`),
i.e. valid UTF-8 text.  `blen` is Go's `len` (bytes of the UTF-8 encoding).
Simplification: Go strings holding invalid UTF-8 are not represented;
encoding/xml refuses such input, so no decoded value contains it.
-/
namespace Ofx

/-- A Go string as its sequence of code points.
The values of types String and UID, types.go 215, 281. -/
abbrev Str := List Char

/-- UTF-8 bytes of a string. types.go 297-313, signon.go 34-56. -/
def toBytes (s : Str) : List UInt8 := s.flatMap String.utf8EncodeChar

/-- Go's `len(s)`: number of UTF-8 bytes. types.go 310, signon.go 34-56. -/
def blen (s : Str) : Nat := (toBytes s).length

/-- `unicode.IsSpace` (Go standard library): '\t' '\n' '\v' '\f' '\r' ' ' U+0085
U+00A0 and the Unicode White_Space property above Latin-1.
Used by strings.TrimSpace in types.go 29. -/
def isSpace (c : Char) : Bool :=
  let n := c.toNat
  (9 ≤ n && n ≤ 13) || n == 32 || n == 0x85 || n == 0xA0 || n == 0x1680 ||
  (0x2000 ≤ n && n ≤ 0x200a) || n == 0x2028 || n == 0x2029 || n == 0x202f ||
  n == 0x205f || n == 0x3000

/-- `strings.TrimLeftFunc(s, p)`. types.go 29. -/
def trimLeftP (p : Char → Bool) (s : Str) : Str := s.dropWhile p

/-- `strings.TrimRightFunc(s, p)`. types.go 29, 75. -/
def trimRightP (p : Char → Bool) (s : Str) : Str := (s.reverse.dropWhile p).reverse

/-- `strings.TrimSpace(s)`. types.go 29, 61, 114, 225, 250, 291, 350. -/
def trimSpace (s : Str) : Str := trimRightP isSpace (trimLeftP isSpace s)

/-- `strings.TrimRight(s, "c")` for a one-character cutset. types.go 75, 121. -/
def trimRightC (c : Char) (s : Str) : Str := trimRightP (· == c) s

/-- `strings.Trim(s, "c")` for a one-character cutset. client.go 71. -/
def trimC (c : Char) (s : Str) : Str := trimRightP (· == c) (trimLeftP (· == c) s)

/-- `strings.SplitN(s, "c", 2)` for a one-character separator: the part before the
first separator, and the part after it if there is one. types.go 113, 117. -/
def splitC (c : Char) : Str → Str × Option Str
  | [] => ([], none)
  | x :: xs =>
    if x = c then ([], some xs)
    else ((x :: (splitC c xs).1), (splitC c xs).2)

/-- `strings.Replace(s, "a", "b", 1)` for one-character strings. types.go 65. -/
def replaceFirst (a b : Char) : Str → Str
  | [] => []
  | x :: xs => if x = a then b :: xs else x :: replaceFirst a b xs

/-- `strings.HasPrefix(s, p)`. basic_client.go 71. -/
def hasPrefix (p s : Str) : Bool := p.isPrefixOf s

/-- `strings.HasSuffix(s, p)`. profile.go 137. -/
def hasSuffix (p s : Str) : Bool := p.isSuffixOf s

/-- `strings.Contains(s, sub)` / `bytes.Contains`. response.go 194-195. -/
def contains {α} [BEq α] (sub : List α) : List α → Bool
  | [] => sub.isEmpty
  | x :: xs => sub.isPrefixOf (x :: xs) || contains sub xs

/-! ### Decimal numbers -/

/-- ASCII decimal digit test. types.go 31, 100. -/
def isDigit (c : Char) : Bool := 48 ≤ c.toNat && c.toNat ≤ 57

/-- The digit character of `d` (used for `d < 10`). types.go 31. -/
def digitC (d : Nat) : Char := Char.ofNat (48 + d)

/-- The value of a digit character. types.go 31. -/
def digitV (c : Char) : Nat := c.toNat - 48

/-- Fuelled decimal digits, most significant first. types.go 173. -/
def decAux : Nat → Nat → Str
  | 0, _ => []
  | f + 1, n => if n < 10 then [digitC n] else decAux f (n / 10) ++ [digitC (n % 10)]

/-- `strconv.FormatUint(n, 10)`: decimal digits of `n`, no leading zeros, "0" for 0.
types.go 173. -/
def natStr (n : Nat) : Str := decAux (n + 1) n

/-- Value of a string of decimal digits. types.go 31. -/
def digitsVal (s : Str) : Nat := s.foldl (fun a c => a * 10 + digitV c) 0

/-- `strconv.FormatInt(i, 10)`, also `fmt`'s `%d`. types.go 175. -/
def intStr (i : Int) : Str :=
  if i < 0 then '-' :: natStr i.natAbs else natStr i.natAbs

/-- Left-pad with '0' to at least `w` characters. types.go 140. -/
def padZero (w : Nat) (s : Str) : Str := List.replicate (w - s.length) '0' ++ s

/-- `fmt.Sprintf("%+0wd", i)`: explicit sign, zero padded to width `w` including
the sign. types.go 140. -/
def fmtPlusPad (w : Nat) (i : Int) : Str :=
  (if i < 0 then '-' else '+') :: padZero (w - 1) (natStr i.natAbs)

/-- `fmt.Sprintf("%0wd", n)` for a non-negative `n`. types.go 179. -/
def fmtPad (w : Nat) (n : Nat) : Str := padZero w (natStr n)

/-- Sign handling common to `strconv.ParseInt` and `Atoi`: (negative?, rest).
types.go 31, 129. -/
def splitSign : Str → Bool × Str
  | '+' :: s => (false, s)
  | '-' :: s => (true, s)
  | s => (false, s)

/-- `strconv.ParseInt(s, 10, 64)` (Go standard library; `strconv.Atoi` agrees with
it where `int` has 64 bits).  `none` is any of its errors (syntax or range).
types.go 31, 129, 134. -/
def parseInt64 (s : Str) : Option Int :=
  let (neg, ds) := splitSign s
  if ds.isEmpty || !ds.all isDigit then none
  else
    let n := digitsVal ds
    if neg then (if n ≤ 2 ^ 63 then some (-(n : Int)) else none)
    else (if n < 2 ^ 63 then some (n : Int) else none)

end Ofx
