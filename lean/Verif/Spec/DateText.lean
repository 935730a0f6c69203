import Verif.Spec.Date
/-
Independent specification of exactly the texts that are read as dates, wider than OFX's own
(Spec/Date): fractions of any length, a one-digit hour at the end, blanks before the zone.
-/
namespace Ofx.Spec

/-- `s` is a fraction of a second of n nanoseconds, or nothing: a point or a comma, and digits, of
which nine count, or a sign and two digits, counting milliseconds (none below zero). -/
def FractionText (n : Nat) (s : List Char) : Prop :=
  (s = [] ∧ n = 0) ∨
  ∃ sep d, s = sep :: d ∧ (sep = '.' ∨ sep = ',') ∧
    ((IsNumeral d ∧ n = value (d.take 9) * 10 ^ (9 - (d.take 9).length)) ∨
     (∃ m e, d = '+' :: e ∧ IsDigits 2 m e ∧ n = m * 1000000) ∨
     (∃ e, d = '-' :: e ∧ IsDigits 2 0 e ∧ n = 0))

/-- `s` is the time of day of c and n nanoseconds, to the hour, minute, second or fraction of one, or
nothing; what is missing is zero. -/
def TimeText (c : Civil) (n : Nat) (s : List Char) : Prop :=
  (s = [] ∧ c.hour = 0 ∧ c.minute = 0 ∧ c.second = 0 ∧ n = 0) ∨
  ((IsDigits 1 c.hour s ∨ IsDigits 2 c.hour s) ∧ c.minute = 0 ∧ c.second = 0 ∧ n = 0) ∨
  (∃ H I, s = H ++ I ∧ IsDigits 2 c.hour H ∧ IsDigits 2 c.minute I ∧ c.second = 0 ∧ n = 0) ∨
  ∃ H I S F, s = H ++ I ++ S ++ F ∧ IsDigits 2 c.hour H ∧ IsDigits 2 c.minute I ∧ IsDigits 2 c.second S ∧ FractionText n F

/-- `s` is the date and time of c and n nanoseconds. -/
def MomentText (c : Civil) (n : Nat) (s : List Char) : Prop :=
  ∃ Y M D T, s = Y ++ M ++ D ++ T ∧ IsDigits 4 c.year Y ∧ IsDigits 2 c.month M ∧ IsDigits 2 c.day D ∧ TimeText c n T

/-- The offset a zone suffix is read as: hundredths of an hour are rounded down to minutes, a minus
counts only if the hours are not zero, and for a zone named UTC the numbers do not count. -/
def Zone.readAs (z : Zone) : Int :=
  if z.name = ['U', 'T', 'C'] then 0
  else (if z.west = true ∧ z.hours ≠ 0 then -1 else 1) * ((z.hours * 3600 + z.hundredths * 60 / 100 * 60 : Nat) : Int)

/-- `text` denotes the instant `i` (nanoseconds since 0001-01-01T00:00:00Z), with an offset of `off`
seconds in a zone called `name`: without what follows the first closing bracket and without
surrounding white space, it is a date and time that exist in the calendar, perhaps followed by blanks
and a zone suffix of at most 24 hours (and a fraction) and without name or with one Go can read.
Without a zone, or in a nameless one without offset, it is GMT. -/
def DateText (text : List Char) (i off : Int) (name : List Char) : Prop :=
  ∃ head tail core c n, text = head ++ tail ∧ ']' ∉ head ∧ (tail = [] ∨ tail.head? = some ']') ∧ TrimsTo head core ∧
    c.Exists ∧ c.milli = 0 ∧
    ((MomentText c n core ∧ off = 0 ∧ name = ['G', 'M', 'T']) ∨
     ∃ body blanks zt z, core = body ++ blanks ++ zt ∧ MomentText c n body ∧ (∀ x ∈ blanks, x = ' ') ∧ ZoneText z zt ∧
       z.hours ≤ 24 ∧ (z.name = [] ∨ ReadableZone z.name) ∧ off = z.readAs ∧
       name = if z.name = [] ∧ z.readAs = 0 then ['G', 'M', 'T'] else z.name) ∧
    i = c.instant off + n

/-- The zone name a date is given on a machine where `loc` is the name and the offset of the local zone
at an instant (in seconds): a zone without name is the local one if the offsets agree. -/
def zoneShown (loc : Int → List Char × Int) (i off : Int) (name : List Char) : List Char :=
  if name ≠ [] then name else if (loc (i / 1000000000)).2 = off then (loc (i / 1000000000)).1 else []

end Ofx.Spec
