import Verif.Model.Date
/-
The constructors of dates (types.go 201-212) and Go's `time.Date`, which they call.  Integers do
not overflow.
-/
namespace Ofx

/-- time.go `norm`: overflow of a field carried into the next larger one. types.go 203, 211. -/
def norm (hi lo base : Int) : Int × Int :=
  let a := if lo < 0 then (hi - ((-lo - 1).tdiv base + 1), lo + ((-lo - 1).tdiv base + 1) * base) else (hi, lo)
  if a.2 ≥ base then (a.1 + a.2.tdiv base, a.2 - a.2.tdiv base * base) else a

/-- What a time.Location says about an instant (in seconds since 0001-01-01T00:00:00Z): the name
and offset of the zone in force, and since and until when. Go's `Location.lookup`.
types.go 203, 206. -/
structure ZoneLookup where
  name : Str
  off : Int
  start : Int
  stop : Int

/-- A time.Location. types.go 202. -/
abbrev Location := Int → ZoneLookup

/-- time.FixedZone: the same zone from the beginning to the end of time (alpha and omega, the
least and largest int64, in Unix seconds). types.go 206. -/
def fixedZone (name : Str) (off : Int) : Location :=
  fun _ => ⟨name, off, -(2 ^ 63) + 62135596800, 2 ^ 63 - 1 + 62135596800⟩

/-- types.go 206 `gmt`. -/
def gmt : Location := fixedZone "GMT".toList 0

/-- types.go 201-204 `NewDate`: time.Date(year, month, day, hour, min, sec, nsec, loc). -/
def newDate (year month day hour min sec nsec : Int) (loc : Location) : GoTime :=
  let ym := norm year (month - 1) 12
  let sn := norm sec nsec 1000000000
  let ms := norm min sn.1 60
  let hm := norm hour ms.1 60
  let dh := norm day hm.1 24
  let d := daysSinceEpoch ym.1 + daysBefore.getD ym.2.toNat 0 +
    (if isLeap ym.1 = true ∧ ym.2 + 1 ≥ 3 then 1 else 0) + (dh.1 - 1)
  let wall := d * 86400 + (dh.2 * 3600 + hm.2 * 60 + ms.2)
  let off :=
    if (loc wall).off = 0 then 0
    else
      let utc := wall - (loc wall).off
      if utc < (loc wall).start ∨ utc ≥ (loc wall).stop then (loc utc).off else (loc wall).off
  let t := wall - off
  ⟨t * nsPerSec + sn.2, (loc t).name, (loc t).off⟩

/-- types.go 208-212 `NewDateGMT`. -/
def newDateGMT (year month day hour min sec nsec : Int) : GoTime := newDate year month day hour min sec nsec gmt

end Ofx
