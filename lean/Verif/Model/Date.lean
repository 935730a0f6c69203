import Verif.Model.Types
/-
Model of `Date` (types.go 88-212) together with the parts of Go's package `time` it
uses: `time.Parse` for the five OFX layouts, `Time.Format`, `Time.Zone`, `time.Date`.
-/
namespace Ofx

/-! ### Calendar (Go package time) -/

/-- time.go `isLeap`. -/
def isLeap (y : Int) : Bool := y % 4 == 0 && (y % 100 != 0 || y % 400 == 0)

/-- time.go `daysBefore`: days before the given 0-based month in a non-leap year. -/
def daysBefore : List Nat := [0, 31, 59, 90, 120, 151, 181, 212, 243, 273, 304, 334, 365]

/-- time.go `daysIn`. -/
def daysIn (m : Nat) (y : Int) : Nat :=
  if m = 2 ∧ isLeap y = true then 29
  else daysBefore.getD m 0 - daysBefore.getD (m - 1) 0

/-- time.go `daysSinceEpoch`.  Simplification: Go counts from 1 January of the year
absoluteZeroYear (which is 1 modulo 400) in unsigned arithmetic; the model counts from
1 January of year 1 with floor division, which differs by a constant multiple of the
400-year cycle. -/
def daysSinceEpoch (year : Int) : Int :=
  let y := year - 1
  let n400 := y / 400
  let y := y - 400 * n400
  let n100 := y / 100
  let y := y - 100 * n100
  let n4 := y / 4
  let y := y - 4 * n4
  146097 * n400 + 36524 * n100 + 1461 * n4 + 365 * y

/-- time.go `Date`: the day number (days since 0001-01-01) of a date within range. -/
def dayOf (y : Int) (m d : Nat) : Int :=
  daysSinceEpoch y + daysBefore.getD (m - 1) 0 + (if isLeap y = true ∧ 3 ≤ m then 1 else 0) + ((d : Int) - 1)

/-- time.go `absDate`, second half: month and day from the day within the year. -/
def monthDay (leap : Bool) (yday : Nat) : Nat × Nat :=
  if leap = true ∧ yday = 31 + 29 - 1 then (2, 29)
  else
    let day := if leap = true ∧ yday > 31 + 29 - 1 then yday - 1 else yday
    let month := day / 31
    let end_ := daysBefore.getD (month + 1) 0
    if day ≥ end_ then (month + 2, day - end_ + 1)
    else (month + 1, day - daysBefore.getD month 0 + 1)

/-- time.go `absDate`: year, month and day of a day number. -/
def civil (d : Int) : Int × Nat × Nat :=
  let n := d / 146097
  let y := 400 * n
  let d := d - 146097 * n
  let n := d / 36524
  let n := n - n / 4
  let y := y + 100 * n
  let d := d - 36524 * n
  let n := d / 1461
  let y := y + 4 * n
  let d := d - 1461 * n
  let n := d / 365
  let n := n - n / 4
  let y := y + n
  let d := d - 365 * n
  let year := y + 1
  let md := monthDay (isLeap year) d.toNat
  (year, md.1, md.2)

/-- Go `time.Time`: the instant in nanoseconds since 0001-01-01T00:00:00Z and what
`Zone()` reports for it (zone name and offset east of UTC in seconds). types.go 89-91. -/
structure GoTime where
  ns : Int
  zone : Str
  off : Int
deriving DecidableEq

/-- Nanoseconds per second. types.go 89-91. -/
def nsPerSec : Int := 1000000000

/-- `time.Date(y, m, d, h, mi, s, ns, UTC)` for fields within range: the instant.
Library code (time) run by time.Parse, types.go 159. -/
def goDate (y : Int) (m d h mi s ns : Nat) : Int :=
  (dayOf y m d * 86400 + (h * 3600 + mi * 60 + s : Nat)) * nsPerSec + ns

/-! ### time.Parse -/

/-- The layout elements occurring in the OFX layouts (format.go `nextStdChunk`):
"2006", "01", "02", "15", "04", "05", ".000", the literal blank, "-0700", "MST". -/
inductive Chunk
  | year | month | day | hour | minute | second | frac3 | blank | numTZ | tz
deriving DecidableEq

/-- Variables of format.go `parse`. -/
structure PState where
  year : Nat := 0
  month : Nat := 1
  day : Nat := 1
  hour : Nat := 0
  minute : Nat := 0
  second : Nat := 0
  nsec : Nat := 0
  utc : Bool := false
  off : Option Int := none
  zone : Str := []

/-- format.go `getnum`. -/
def getnum (fixed : Bool) : Str → Option (Nat × Str)
  | [] => none
  | [a] => if isDigit a && !fixed then some (digitV a, []) else none
  | a :: b :: r =>
    if isDigit a then
      if isDigit b then some (digitV a * 10 + digitV b, r)
      else if fixed then none else some (digitV a, b :: r)
    else none

/-- format.go `atoi` on a non-negative result; a negative result is rejected by its only
caller `parseNanoseconds`. -/
def atoiNonneg (s : Str) : Option Nat :=
  match s with
  | '+' :: ds => if ds.all isDigit && !ds.isEmpty then some (digitsVal ds) else none
  | '-' :: ds => if ds.all isDigit && !ds.isEmpty && digitsVal ds == 0 then some 0 else none
  | ds => if ds.all isDigit && !ds.isEmpty then some (digitsVal ds) else none

/-- format.go `parseNanoseconds(value, 1 + digits.length)` where `digits` are the
characters after the separator. -/
def parseNanos (digits : Str) : Option Nat :=
  let ds := digits.take 9
  (atoiNonneg ds).map (fun n => n * 10 ^ (9 - ds.length))

/-- Upper-case ASCII letter. Library code (time) run by time.Parse, types.go 159. -/
def isUpper (c : Char) : Bool := 65 ≤ c.toNat && c.toNat ≤ 90

/-- format.go `parseSignedOffset`: number of characters of a "+h" suffix. -/
def parseSignedOffset (s : Str) : Nat :=
  match s with
  | c :: ds =>
    if c = '+' ∨ c = '-' then
      let n := (ds.takeWhile isDigit)
      if n.isEmpty || digitsVal n > 23 then 0 else 1 + n.length
    else 0
  | [] => 0

/-- format.go `parseTimeZone`: length of the zone abbreviation at the start. -/
def parseTimeZone (s : Str) : Option Nat :=
  if s.length < 3 then none
  else if s.take 4 = "ChST".toList ∨ s.take 4 = "MeST".toList then some 4
  else if s.take 3 = "GMT".toList then some (3 + parseSignedOffset (s.drop 3))
  else if s.head? = some '+' ∨ s.head? = some '-' then
    let n := parseSignedOffset s
    if n > 0 then some n else none
  else
    let u := (s.take 6).takeWhile isUpper
    if u.length = 3 then some 3
    else if u.length = 4 then
      (if u.getLast? = some 'T' ∨ u = "WITA".toList then some 4 else none)
    else if u.length = 5 then (if u.getLast? = some 'T' then some 5 else none)
    else none

/-- format.go `parse`, the "-0700" case. -/
def parseNumTZ : Str → Option (Int × Str)
  | sg :: h1 :: h2 :: m1 :: m2 :: r =>
    match getnum true [h1, h2], getnum true [m1, m2] with
    | some (hr, _), some (mm, _) =>
      if hr > 24 ∨ mm > 60 then none
      else if sg = '+' then some (((hr * 60 + mm) * 60 : Nat), r)
      else if sg = '-' then some (-(((hr * 60 + mm) * 60 : Nat) : Int), r)
      else none
    | _, _ => none
  | _ => none

/-- Comma or period. Library code (time) run by time.Parse, types.go 159. -/
def commaOrPeriod (c : Char) : Bool := c = '.' || c = ','

/-- The special case after "05": a fraction in the input without one in the layout.
Library code (time) run by time.Parse, types.go 159. -/
def implicitFrac (v : Str) : Option (Nat × Str) :=
  match v with
  | c :: d :: r =>
    if commaOrPeriod c && isDigit d then
      let ds := (d :: r).takeWhile isDigit
      (parseNanos ds).map (fun n => (n, (d :: r).dropWhile isDigit))
    else some (0, v)
  | _ => some (0, v)

/-- One layout element of format.go `parse`: `hasFrac` tells whether the next layout
element is a fractional second. -/
def parseChunk (c : Chunk) (hasFrac : Bool) (st : PState) (v : Str) : Option (PState × Str) :=
  match c with
  | .blank =>
    match v with
    | [] => some (st, [])
    | x :: _ => if x = ' ' then some (st, v.dropWhile (· == ' ')) else none
  | .year =>
    let p := v.take 4
    if p.length = 4 && p.all isDigit then some ({ st with year := digitsVal p }, v.drop 4) else none
  | .month =>
    match getnum true v with
    | some (n, r) => if n = 0 ∨ 12 < n then none else some ({ st with month := n }, r)
    | none => none
  | .day =>
    match getnum true v with
    | some (n, r) => some ({ st with day := n }, r)
    | none => none
  | .hour =>
    match getnum false v with
    | some (n, r) => if 24 ≤ n then none else some ({ st with hour := n }, r)
    | none => none
  | .minute =>
    match getnum true v with
    | some (n, r) => if 60 ≤ n then none else some ({ st with minute := n }, r)
    | none => none
  | .second =>
    match getnum true v with
    | some (n, r) =>
      if 60 ≤ n then none
      else if hasFrac then some ({ st with second := n }, r)
      else (implicitFrac r).map (fun x => ({ st with second := n, nsec := x.1 }, x.2))
    | none => none
  | .frac3 =>
    match v with
    | c :: a :: b :: d :: r =>
      if commaOrPeriod c then (parseNanos [a, b, d]).map (fun n => ({ st with nsec := n }, r)) else none
    | _ => none
  | .numTZ => (parseNumTZ v).map (fun x => ({ st with off := some x.1 }, x.2))
  | .tz =>
    if v.take 3 = "UTC".toList then some ({ st with utc := true }, v.drop 3)
    else (parseTimeZone v).map (fun n => ({ st with zone := v.take n }, v.drop n))

/-- The loop of format.go `parse` over the layout. -/
def parseChunks : List Chunk → PState → Str → Option PState
  | [], st, v => if v = [] then some st else none
  | c :: cs, st, v =>
    match parseChunk c (decide (cs.head? = some .frac3)) st v with
    | some (st', v') => parseChunks cs st' v'
    | none => none

/-- The system's local zone: zone name and offset in force at an instant (seconds since
0001-01-01T00:00:00Z).  External: it depends on the machine.
Library code (time) run by time.Parse, types.go 159. -/
abbrev LocalZone := Int → Str × Int

/-- The end of format.go `parse`: day check, time zone choice. -/
def parseFinish (loc : LocalZone) (st : PState) : Option GoTime :=
  if st.day < 1 ∨ st.day > daysIn st.month st.year then none
  else
    let t := goDate st.year st.month st.day st.hour st.minute st.second st.nsec
    if st.utc then some ⟨t, "UTC".toList, 0⟩
    else
      match st.off with
      | some o =>
        let t := t - o * nsPerSec
        let l := loc (t / nsPerSec)
        if l.2 = o ∧ (st.zone = [] ∨ l.1 = st.zone) then some ⟨t, l.1, o⟩
        else some ⟨t, st.zone, o⟩
      | none => some ⟨t, "UTC".toList, 0⟩

/-- `time.Parse(layout, value)`. Library code (time) run by time.Parse, types.go 159. -/
def timeParse (loc : LocalZone) (layout : List Chunk) (value : Str) : Option GoTime :=
  (parseChunks layout {} value).bind (parseFinish loc)

/-! ### Date -/

/-- types.go 93-99 `ofxDateFormats`. -/
def ofxDateFormats : List (List Chunk) :=
  [[.year, .month, .day, .hour, .minute, .second, .frac3],
   [.year, .month, .day, .hour, .minute, .second],
   [.year, .month, .day, .hour, .minute],
   [.year, .month, .day, .hour],
   [.year, .month, .day]]

/-- types.go 100 `ofxDateZoneRegex`, the optional part `(:([A-Z]+))?$`. -/
def zoneName (r : Str) : Option Str :=
  match r with
  | [] => some []
  | ':' :: n => if n.all isUpper && !n.isEmpty then some n else none
  | _ => none

/-- types.go 100: the optional sign `[+-]?` of the zone expression. -/
def zoneSign : Str → Str
  | '+' :: _ => ['+']
  | '-' :: _ => ['-']
  | _ => []

/-- types.go 100 `ofxDateZoneRegex`: `^([+-]?[0-9]+)(\.([0-9]{2}))?(:([A-Z]+))?$`, giving
submatches 1, 3 and 5 (an unmatched group is the empty string). -/
def zoneRegex (z : Str) : Option (Str × Str × Str) :=
  let sg := zoneSign z
  let r := z.drop sg.length
  let ds := r.takeWhile isDigit
  if ds.isEmpty then none
  else
    match r.dropWhile isDigit with
    | '.' :: a :: b :: r' =>
      if isDigit a && isDigit b then (zoneName r').map (fun n => (sg ++ ds, [a, b], n)) else none
    | r' => (zoneName r').map (fun n => (sg ++ ds, [], n))

/-- types.go 106-166, first half: from the text inside the brackets to what is appended
to the value and to the layout. -/
def zoneOf (z : Str) : Except String (Str × List Chunk) :=
  match zoneRegex z with
  | none => .error "Invalid OFX Date timezone format"
  | some (m1, m3, m5) =>
    match parseInt64 m1 with
    | none => .error "strconv.Atoi"
    | some zonehours =>
      let zoneminutes := if m3.length > 0 then digitsVal m3 * 60 / 100 else 0
      let zone := ' ' :: (fmtPlusPad 3 zonehours ++ fmtPad 2 zoneminutes)
      if m5.length > 0 then .ok (zone ++ ' ' :: m5, [.blank, .numTZ, .blank, .tz])
      else if zonehours = 0 ∧ zoneminutes = 0 then
        .ok (zone ++ " GMT".toList, [.blank, .numTZ, .blank, .tz])
      else .ok (zone, [.blank, .numTZ])

/-- types.go 157-164: the loop over the formats. -/
def tryFormats (loc : LocalZone) (zoneFormat : List Chunk) (v : Str) : List (List Chunk) → Except String GoTime
  | [] => .error "OFX: Couldn't parse date"
  | f :: fs =>
    match timeParse loc (f ++ zoneFormat) v with
    | some t => .ok t
    | none => tryFormats loc zoneFormat v fs

/-- types.go 106-166 `Date.UnmarshalXML` on the element text. -/
def Date.unmarshal (loc : LocalZone) (text : Str) : Except String GoTime :=
  let value := (splitC ']' text).1
  let value := trimSpace value
  match splitC '[' value with
  | (v, some z) =>
    match zoneOf (trimRightC ']' z) with
    | .error e => .error e
    | .ok (zone, fmt) => tryFormats loc fmt (v ++ zone) ofxDateFormats
  | (_, none) => tryFormats loc [.blank, .numTZ, .blank, .tz] (value ++ " +0000 GMT".toList) ofxDateFormats

/-- `od.Format("20060102150405.000")`: wall clock fields; the fraction is truncated to
milliseconds.  `appendInt(year, 4)` pads to four digits. types.go 170. -/
def Date.format (t : GoTime) : Str :=
  let wall := t.ns + t.off * nsPerSec
  let secs := wall / nsPerSec
  let nanos := wall % nsPerSec
  let c := civil (secs / 86400)
  let sod := (secs % 86400).toNat
  (if c.1 < 0 then '-' :: fmtPad 4 c.1.natAbs else fmtPad 4 c.1.natAbs) ++
  fmtPad 2 c.2.1 ++ fmtPad 2 c.2.2 ++
  fmtPad 2 (sod / 3600) ++ fmtPad 2 (sod % 3600 / 60) ++ fmtPad 2 (sod % 60) ++
  '.' :: fmtPad 3 (nanos.toNat / 1000000)

/-- types.go 169-188 `Date.String`. Go's `/` and `%` truncate toward zero. -/
def Date.string (t : GoTime) : Str :=
  let f := Date.format t
  let f := if t.off < 0 then f ++ '[' :: fmtPlusPad 0 (t.off.tdiv 3600) else f ++ '[' :: intStr (t.off.tdiv 3600)
  let frac := (t.off.tmod 3600).tdiv 36
  let f :=
    if frac > 0 then f ++ '.' :: fmtPad 2 frac.natAbs
    else if frac < 0 then f ++ '.' :: fmtPad 2 frac.natAbs
    else f
  if t.zone.length > 0 then f ++ ':' :: t.zone ++ [']'] else f ++ [']']

/-- types.go 191-193 `Date.MarshalXML` (the text written). -/
def Date.marshal (t : GoTime) : Str := Date.string t

/-- types.go 197-199 `Date.Equal`: same instant. -/
def Date.equal (a b : GoTime) : Bool := a.ns == b.ns

end Ofx
