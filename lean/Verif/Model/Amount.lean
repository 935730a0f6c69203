import Verif.Model.Types
import Mathlib.Data.Rat.Defs
/-
Model of `Amount` (types.go 45-86), including the parts of Go's math/big it uses:
`(*Rat).SetString` and `(*Rat).FloatString`.  A `big.Rat` is always kept in lowest
terms with a positive denominator, exactly like Lean's `Rat`.
-/
namespace Ofx

/-! ### math/big `nat.scan` -/

/-- Digit value used by `nat.scan`: 0-9, a-z and A-Z (base ≤ 36); anything else has no
digit value (Go uses a value above every base).
Library code (math/big) run by SetString, types.go 67. -/
def bigDigit (c : Char) : Option Nat :=
  let n := c.toNat
  if 48 ≤ n ∧ n ≤ 57 then some (n - 48)
  else if 97 ≤ n ∧ n ≤ 122 then some (n - 97 + 10)
  else if 65 ≤ n ∧ n ≤ 90 then some (n - 65 + 10)
  else none

/-- The variable `prev` of `nat.scan` and `scanExponent`: the previously seen
character is '_', a digit ('0') or anything else ('.').
Library code (math/big) run by SetString, types.go 67. -/
inductive Prev | us | dig | other
deriving DecidableEq

/-- Loop variables of `nat.scan`. Library code (math/big) run by SetString, types.go 67. -/
structure Scan where
  fracOk : Bool
  prev : Prev
  count : Nat
  dp : Option Nat
  val : Nat
  invalSep : Bool

/-- math/big natconv.go `nat.scan`, the digit loop ("convert string"), for `base == 0`
(so '_' separators are allowed) and actual base `b`.  Returns the loop variables and
the unread input. -/
def scanLoop (b : Nat) (st : Scan) : Str → Scan × Str
  | [] => (st, [])
  | c :: cs =>
    if c = '.' ∧ st.fracOk = true then
      scanLoop b { st with fracOk := false, prev := .other, dp := some st.count,
                           invalSep := st.invalSep || decide (st.prev = .us) } cs
    else if c = '_' then
      scanLoop b { st with prev := .us, invalSep := st.invalSep || decide (st.prev ≠ .dig) } cs
    else
      match bigDigit c with
      | some d =>
        if d < b then
          scanLoop b { st with prev := .dig, count := st.count + 1, val := st.val * b + d } cs
        else (st, c :: cs)
      | none => (st, c :: cs)

/-- Result of `nat.scan`: value, actual base, digit count (`count`, not positive and
counting fractional digits when there is a radix point), unread input.
Library code (math/big) run by SetString, types.go 67. -/
structure ScanResult where
  val : Nat
  base : Nat
  fcount : Int
  rest : Str

/-- Initial loop variables. Library code (math/big) run by SetString, types.go 67. -/
def scanInit (fracOk : Bool) (prev : Prev) (count : Nat) : Scan :=
  { fracOk := fracOk, prev := prev, count := count, dp := none, val := 0, invalSep := false }

/-- The code after the loop of `nat.scan`.  `octal0` is `prefix == '0'`.
Library code (math/big) run by SetString, types.go 67. -/
def scanFinish (b : Nat) (octal0 : Bool) (r : Scan × Str) : Option ScanResult :=
  let bad := r.1.invalSep || decide (r.1.prev = .us)
  if r.1.count = 0 then
    if octal0 then (if bad then none else some ⟨0, 10, 1, r.2⟩) else none
  else if bad then none
  else
    some ⟨r.1.val, b, match r.1.dp with
      | some dp => (dp : Int) - r.1.count
      | none => r.1.count, r.2⟩

/-- math/big natconv.go `nat.scan(r, 0, fracOk)`: base prefixes 0b, 0o, 0x (and a plain
leading 0 meaning octal when no fraction is allowed). -/
def natScan (fracOk : Bool) (s : Str) : Option ScanResult :=
  match s with
  | '0' :: c :: cs =>
    if c = 'b' ∨ c = 'B' then scanFinish 2 false (scanLoop 2 (scanInit fracOk .dig 0) cs)
    else if c = 'o' ∨ c = 'O' then scanFinish 8 false (scanLoop 8 (scanInit fracOk .dig 0) cs)
    else if c = 'x' ∨ c = 'X' then scanFinish 16 false (scanLoop 16 (scanInit fracOk .dig 0) cs)
    else if !fracOk then scanFinish 8 true (scanLoop 8 (scanInit fracOk .dig 0) (c :: cs))
    else scanFinish 10 false (scanLoop 10 (scanInit fracOk .dig 1) (c :: cs))
  | ['0'] => scanFinish 10 false (scanInit fracOk .dig 1, [])
  | s => scanFinish 10 false (scanLoop 10 (scanInit fracOk .other 0) s)

/-- math/big `scanSign`: `none` at end of input.
Library code (math/big) run by SetString, types.go 67. -/
def scanSign : Str → Option (Bool × Str)
  | [] => none
  | c :: cs => if c = '-' then some (true, cs) else if c = '+' then some (false, cs) else some (false, c :: cs)

/-! ### math/big `scanExponent` -/

/-- The digit loop of `scanExponent`: collected digits, `prev`, `invalSep`, unread input.
Library code (math/big) run by SetString, types.go 67. -/
def expLoop (acc : Str) (prev : Prev) (inval : Bool) : Str → Str × Prev × Bool × Str
  | [] => (acc, prev, inval, [])
  | c :: cs =>
    if isDigit c then expLoop (acc ++ [c]) .dig inval cs
    else if c = '_' then expLoop acc .us (inval || decide (prev ≠ .dig)) cs
    else (acc, prev, inval, c :: cs)

/-- math/big `scanExponent(r, true, true)`: exponent, its base (10 for e/E, 2 for p/P),
unread input. Library code (math/big) run by SetString, types.go 67. -/
def scanExponent (s : Str) : Option (Int × Nat × Str) :=
  match s with
  | [] => some (0, 10, [])
  | c :: cs =>
    if c = 'e' ∨ c = 'E' ∨ c = 'p' ∨ c = 'P' then
      let base := if c = 'e' ∨ c = 'E' then 10 else 2
      let (neg, ds) := splitSign cs
      let (digits, prev, inval, rest) := expLoop [] .other false ds
      if digits.isEmpty then none
      else
        match parseInt64 ((if neg then ['-'] else []) ++ digits) with
        | none => none
        | some e => if inval || decide (prev = .us) then none else some (e, base, rest)
    else some (0, 10, c :: cs)

/-- `x * 2^e2 * 5^e5` for integer exponents.
Library code (math/big) run by SetString, types.go 67. -/
def scale (x : Rat) (e2 e5 : Int) : Rat := x * 2 ^ e2 * 5 ^ e5

/-- math/big ratconv.go `(*Rat).SetString`. -/
def ratSetString (s : Str) : Option Rat :=
  if s = [] then none
  else
    match splitC '/' s with
    | (num, some den) =>
      -- fraction a/b: `z.a.SetString(s[:sep], 0)` then an unsigned denominator
      match scanSign num with
      | none => none
      | some (neg, num) =>
        match natScan false num with
        | none => none
        | some a =>
          if a.rest ≠ [] then none
          else
            match natScan false den with
            | none => none
            | some b =>
              if b.rest ≠ [] ∨ b.val = 0 then none
              else some ((if neg then -(a.val : Int) else (a.val : Int)) / (b.val : Rat))
    | (_, none) =>
      -- floating-point number
      match scanSign s with
      | none => none
      | some (neg, s) =>
        match natScan true s with
        | none => none
        | some m =>
          match scanExponent m.rest with
          | none => none
          | some (exp, ebase, rest) =>
            if rest ≠ [] then none
            else if m.val = 0 then some 0
            else
              -- the radix point
              let d := if m.fcount < 0 then m.fcount else 0
              let (exp2, exp5) : Int × Int :=
                if m.base = 10 then (d, d)
                else if m.base = 2 then (d, 0)
                else if m.base = 8 then (d * 3, 0)
                else (d * 4, 0)
              -- the exponent
              let exp5 := if ebase = 10 then exp5 + exp else exp5
              let exp2 := exp2 + exp
              if exp5.natAbs > 1000000 then none
              else if exp2 < -10000000 ∨ exp2 > 10000000 then none
              else some (scale (if neg then -(m.val : Rat) else (m.val : Rat)) exp2 exp5)

/-- math/big ratconv.go `(*Rat).FloatString(prec)` for `prec > 0`. -/
def floatString (x : Rat) (prec : Nat) : Str :=
  let sign : Str := if x.num < 0 then ['-'] else []
  let a := x.num.natAbs
  let b := x.den
  if b = 1 then sign ++ natStr a ++ ['.'] ++ List.replicate prec '0'
  else
    let q := a / b
    let p := 10 ^ prec
    let r := (a % b) * p / b
    let r2 := (a % b) * p % b
    let (q, r) :=
      if b ≤ 2 * r2 then
        (if p ≤ r + 1 then (q + 1, r + 1 - p) else (q, r + 1))
      else (q, r)
    sign ++ natStr q ++ ['.'] ++ padZero prec (natStr r)

/-! ### Amount -/

/-- types.go 74-76 `Amount.String`. -/
def Amount.string (a : Rat) : Str := trimRightC '.' (trimRightC '0' (floatString a 100))

/-- types.go 79-81 `Amount.MarshalXML` (the text written). -/
def Amount.marshal (a : Rat) : Str := Amount.string a

/-- types.go 53-71 `Amount.UnmarshalXML` on the element text. -/
def Amount.unmarshal (text : Str) : Except String Rat :=
  let value := trimSpace text
  let value := replaceFirst ',' '.' value
  match ratSetString value with
  | some r => .ok r
  | none => .error "Failed to parse OFX amount"

/-- types.go 84-86 `Amount.Equal`: `Cmp == 0`, comparison by cross-multiplication. -/
def Amount.equal (a b : Rat) : Bool := a.num * b.den == b.num * a.den

end Ofx
