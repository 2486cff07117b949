import Verif.Model.Limits
import Verif.Model.TwStats
/-!
# Model of the delays and their buckets (`owamp/stats.c`, `OWPDelay`, `OWPNum64ToDouble`)

The floating point that `Stats.Cfg` and `TwStats.Cfg` leave open. A number of seconds that is a multiple of 2⁻³² s is modelled by the integer number of
these units: what `double` cannot hold is rounded, to nearest and to even, as IEEE 754 has it. Not modelled: times that have no value as `double` (there are
none below 2⁶⁴ units), other rounding modes.
-/
namespace Owamp.Buckets
open Owamp.Policy (toDouble)

/-- The `double` for an integer number of units (53 leading bits, to nearest, ties to even). Dividing by 2³² (`OWPNum64ToDouble`, arithm64.c:342-347) is
exact, so it is only a change of the unit. -/
def toDoubleI (x : Int) : Int := if x < 0 then -(toDouble x.natAbs : Int) else toDouble x.natAbs

/-- `OWPDelay` (capi.c:1390-1397), in units of 2⁻³² s: two conversions and a subtraction. -/
def delay (a b : Time.TimeStamp) : Int := toDoubleI ((toDouble b.owptime.toNat : Int) - toDouble a.owptime.toNat)

/-- What the conversion to `int` gives, and subtraction of `int` values: undefined out of the range of `int`. -/
def toInt (x : Int) : Option Int := if -2 ^ 31 ≤ x ∧ x < 2 ^ 31 then some x else none

/-- The number of the bucket of delay `d` (stats.c:486-487) before the conversion to `int`. `rnd` is the rounding of the quotient, `w` the width of a bucket in
the unit of the delays. -/
def bucketNo (rnd : Rat → Rat) (w : Rat) (d : Int) : Int :=
  let x := rnd ((d : Rat) / w)
  if x < 0 then x.floor else x.ceil

/-- `BucketIncrementDelay` (stats.c:466-545), the number it works with (stats.c:486-487). -/
def bucket (rnd : Rat → Rat) (w : Rat) (d : Int) : Option Int := toInt (bucketNo rnd w d)

/-- `BucketBufferSortCmp` (stats.c:1576-1585). -/
def bucketCmp (b1 b2 : Int) : Option Int := toInt (b1 - b2)

/-- What `BucketBufferSortPercentile` (stats.c:1587-1616) reports for a bucket (stats.c:1614). The rounding of this product is not modelled. -/
def value (w : Rat) (b : Int) : Rat := b * w

end Owamp.Buckets
