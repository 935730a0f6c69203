import Verif.Spec.Numeral
/-
Independent specification of OFX dates: the Gregorian calendar by counting year and
month lengths, the five text precisions and the bracketed zone suffix.
-/
namespace Ofx.Spec

/-- Gregorian leap years. -/
def LeapYear (y : Nat) : Prop := y % 4 = 0 ∧ (y % 100 ≠ 0 ∨ y % 400 = 0)

instance (y : Nat) : Decidable (LeapYear y) := by unfold LeapYear; infer_instance

/-- Days in a year. -/
def yearLength (y : Nat) : Nat := if LeapYear y then 366 else 365

/-- Days in a month (1-12). -/
def monthLength (y m : Nat) : Nat :=
  if m = 2 then (if LeapYear y then 29 else 28)
  else if m = 4 ∨ m = 6 ∨ m = 9 ∨ m = 11 then 30 else 31

/-- Days from 0000-01-01 to the first day of year `y`. -/
def daysBeforeYear : Nat → Nat
  | 0 => 0
  | y + 1 => daysBeforeYear y + yearLength y

/-- Days from the first day of year `y` to the first day of its `m`th month. -/
def daysBeforeMonth (y : Nat) : Nat → Nat
  | 0 => 0
  | 1 => 0
  | m + 2 => daysBeforeMonth y (m + 1) + monthLength y (m + 1)

/-- A wall clock reading with millisecond precision. -/
structure Civil where
  year : Nat
  month : Nat
  day : Nat
  hour : Nat
  minute : Nat
  second : Nat
  milli : Nat
deriving DecidableEq

/-- Readings that exist in the calendar, years 0-9999. -/
def Civil.Exists (c : Civil) : Prop :=
  c.year ≤ 9999 ∧ 1 ≤ c.month ∧ c.month ≤ 12 ∧ 1 ≤ c.day ∧ c.day ≤ monthLength c.year c.month ∧
  c.hour < 24 ∧ c.minute < 60 ∧ c.second < 60 ∧ c.milli < 1000

instance (c : Civil) : Decidable c.Exists := by unfold Civil.Exists; infer_instance

/-- Milliseconds on the wall clock since 0000-01-01T00:00:00. -/
def Civil.wall (c : Civil) : Nat :=
  ((daysBeforeYear c.year + daysBeforeMonth c.year c.month + (c.day - 1)) * 86400 +
    c.hour * 3600 + c.minute * 60 + c.second) * 1000 + c.milli

/-- The instant, in nanoseconds since 0001-01-01T00:00:00Z, at which a clock `off`
seconds ahead of UTC shows `c`. -/
def Civil.instant (c : Civil) (off : Int) : Int :=
  ((c.wall : Int) - (yearLength 0 : Int) * 86400 * 1000 - off * 1000) * 1000000

/-- `s` is the `w`-digit decimal notation of `n`. -/
def IsDigits (w n : Nat) (s : List Char) : Prop := s.length = w ∧ (∀ c ∈ s, IsDecDigit c) ∧ value s = n

instance (w n : Nat) (s : List Char) : Decidable (IsDigits w n s) := by unfold IsDigits; infer_instance

/-- Date text without zone in one of the five precisions; missing components are zero. -/
inductive DateBody (c : Civil) : List Char → Prop
  | ymd {Y M D : List Char} (hY : IsDigits 4 c.year Y) (hM : IsDigits 2 c.month M) (hD : IsDigits 2 c.day D)
      (hh : c.hour = 0) (hmi : c.minute = 0) (hs : c.second = 0) (hms : c.milli = 0) :
      DateBody c (Y ++ M ++ D)
  | ymdh {Y M D H : List Char} (hY : IsDigits 4 c.year Y) (hM : IsDigits 2 c.month M) (hD : IsDigits 2 c.day D)
      (hH : IsDigits 2 c.hour H) (hmi : c.minute = 0) (hs : c.second = 0) (hms : c.milli = 0) :
      DateBody c (Y ++ M ++ D ++ H)
  | ymdhm {Y M D H I : List Char} (hY : IsDigits 4 c.year Y) (hM : IsDigits 2 c.month M) (hD : IsDigits 2 c.day D)
      (hH : IsDigits 2 c.hour H) (hI : IsDigits 2 c.minute I) (hs : c.second = 0) (hms : c.milli = 0) :
      DateBody c (Y ++ M ++ D ++ H ++ I)
  | ymdhms {Y M D H I S : List Char} (hY : IsDigits 4 c.year Y) (hM : IsDigits 2 c.month M)
      (hD : IsDigits 2 c.day D) (hH : IsDigits 2 c.hour H) (hI : IsDigits 2 c.minute I)
      (hS : IsDigits 2 c.second S) (hms : c.milli = 0) :
      DateBody c (Y ++ M ++ D ++ H ++ I ++ S)
  | full {Y M D H I S F : List Char} (hY : IsDigits 4 c.year Y) (hM : IsDigits 2 c.month M)
      (hD : IsDigits 2 c.day D) (hH : IsDigits 2 c.hour H) (hI : IsDigits 2 c.minute I)
      (hS : IsDigits 2 c.second S) (hF : IsDigits 3 c.milli F) :
      DateBody c (Y ++ M ++ D ++ H ++ I ++ S ++ '.' :: F)

/-- A zone suffix: `[` sign hours, optionally `.` and hundredths of an hour, optionally
`:` and a name, `]`. -/
structure Zone where
  west : Bool
  hours : Nat
  hundredths : Nat
  name : List Char

/-- Seconds east of GMT that a zone suffix denotes. -/
def Zone.offset (z : Zone) : Int :=
  (if z.west then -1 else 1) * ((z.hours * 3600 + z.hundredths * 36 : Nat) : Int)

/-- Text of a zone suffix (without the closing bracket `]`). -/
def ZoneText (z : Zone) (t : List Char) : Prop :=
  ∃ sign hs frac nm : List Char, t = '[' :: (sign ++ hs ++ frac ++ nm) ∧
    ((z.west = false ∧ (sign = [] ∨ sign = ['+'])) ∨ (z.west = true ∧ sign = ['-'])) ∧
    IsNumeral hs ∧ value hs = z.hours ∧
    ((frac = [] ∧ z.hundredths = 0) ∨ (∃ f, frac = '.' :: f ∧ IsDigits 2 z.hundredths f)) ∧
    ((nm = [] ∧ z.name = []) ∨ (nm = ':' :: z.name ∧ z.name ≠ []))

/-- Upper-case letters. -/
def IsCapital (c : Char) : Prop := 'A' ≤ c ∧ c ≤ 'Z'

instance (c : Char) : Decidable (IsCapital c) := by unfold IsCapital; infer_instance

/-- Zone abbreviations Go's time package knows how to read: three capitals, or four or
five capitals ending in T (and not starting with UTC or GMT), or WITA. -/
def ReadableZone (n : List Char) : Prop :=
  (∀ c ∈ n, IsCapital c) ∧
  (n.length = 3 ∨
   ((n.length = 4 ∨ n.length = 5) ∧ n.getLast? = some 'T' ∧
     n.take 3 ≠ ['U', 'T', 'C'] ∧ n.take 3 ≠ ['G', 'M', 'T']) ∨
   n = ['W', 'I', 'T', 'A'])

instance (n : List Char) : Decidable (ReadableZone n) := by unfold ReadableZone; infer_instance

end Ofx.Spec
