import Verif.Model.Types
/-
Generic model of the enumerations of constants.go.  Every enumeration there is an
instance of one template (generate_constants.py 74-137; tools/gen_enums.py checks
that each method body in constants.go is literally the template instance).  An
enumeration value (Go `uint`) is a `Nat`.
-/
namespace Ofx

/-- What distinguishes one enumeration from another.
constants.go 19-33 for ofxVersion, and the corresponding lines of the others. -/
structure EnumTable where
  /-- the Go type, e.g. "acctType" -/
  goType : String
  /-- the exported prefix, e.g. "AcctType" -/
  prefix_ : String
  /-- the declared constants in order; the i-th has the value `1 + i` -/
  consts : List String
  /-- the table of strings (`var acctTypes = [...]string{...}`) -/
  names : List Str
  /-- value of the constant in `e >= C` of `Valid` -/
  first : Nat
  /-- value of the constant in `e <= C` of `Valid` -/
  last : Nat
deriving DecidableEq

namespace EnumTable

/-- constants.go `Valid` (e.g. 36-40 for ofxVersion). -/
def valid (t : EnumTable) (e : Nat) : Bool := t.first ≤ e && e ≤ t.last

/-- constants.go `String` (e.g. 42-47).  The table index `e-1` (unsigned) panics when
out of range. -/
def string (t : EnumTable) (e : Nat) : Outcome Str :=
  if t.valid e then
    match t.names[e - 1]? with
    | some s => .ret s
    | none => .panic
  else .ret ("invalid ".toList ++ t.goType.toList ++ " (".toList ++ natStr e ++ ")".toList)

/-- The `for i, s := range table` loop of `FromString`: index of the first match.
constants.go 52-57. -/
def search (value : Str) : List Str → Nat → Option Nat
  | [], _ => none
  | s :: rest, i => if s = value then some i else search value rest (i + 1)

/-- constants.go `FromString` (e.g. 49-60): the value stored in the receiver, and the
error if any. -/
def fromString (t : EnumTable) (s : Str) : Nat × Option String :=
  match search (trimSpace s) t.names 0 with
  | some i => (i + 1, none)
  | none => (0, some ("Invalid " ++ t.prefix_ ++ ": \"" ++ String.ofList s ++ "\""))

/-- constants.go `New*` (e.g. 82-89). -/
def new (t : EnumTable) (s : Str) : Nat × Option String :=
  match t.fromString s with
  | (_, some err) => (0, some err)
  | (e, none) => (e, none)

/-- constants.go `UnmarshalXML` (e.g. 62-70) on the element text. -/
def unmarshal (t : EnumTable) (text : Str) : Except String Nat :=
  match t.fromString text with
  | (e, none) => .ok e
  | (_, some err) => .error err

/-- constants.go `MarshalXML` (e.g. 72-78): `none` when nothing is written, `some s`
when one element with text `s` is written. -/
def marshal (t : EnumTable) (e : Nat) : Outcome (Option Str) :=
  if !t.valid e then .ret none
  else
    match t.names[e - 1]? with
    | some s => .ret (some s)
    | none => .panic

end EnumTable
end Ofx
