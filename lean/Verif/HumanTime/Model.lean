import Mathlib.Algebra.Order.Floor.Ring
import Mathlib.Algebra.Order.Field.Basic
set_option autoImplicit false
/-!
# Printing times for humans

Models `Simulator::humanReadableTime`, opm/models/utils/simulator.hh lines 817-888.

Simplifications: exact arithmetic instead of `double`; an `int` is unbounded (years
beyond 2^31 overflow in the code); the number of digits shown
(`std::setprecision(4)`) is not modelled, so the numbers are those handed to the
stream.
-/
namespace HumanTime
variable {K : Type} [Field K] [LinearOrder K] [IsStrictOrderedRing K] [FloorRing K]

/-- The units that appear in the text. -/
inductive TimeUnit | years | days | hours | minutes | seconds
  deriving DecidableEq, Repr

/-- `static_cast<int>` of a number that is not negative. -/
def truncate (x : K) : K := (⌊x⌋ : K)

/-- `std::round` of a number that is not negative. -/
def round (x : K) : K := (⌊x + 1 / 2⌋ : K)

/-- A year has 365.25 days, opm/models/utils/simulator.hh 829. -/
def year : K := 365.25 * 24 * 60 * 60

/-- The numbers and units of the text; `none` stands for the empty text.
opm/models/utils/simulator.hh 823-888.  `isAmendment` also puts the text in
parentheses, which is not part of the result here. -/
def humanReadableTime (t : K) (isAmendment : Bool) : Option (List (K × TimeUnit)) :=
  if t ≥ year then
    let years := truncate (t / year)
    let days := truncate ((t - years * year) / (24 * 60 * 60))
    let accuracy : K := 1 / 100
    let hours := round (1 / accuracy * (t - years * year - days * (24 * 60 * 60)) / (60 * 60))
      * accuracy
    some [(years, .years), (days, .days), (hours, .hours)]
  else if t ≥ 24 * 60 * 60 then
    let days := truncate (t / (24 * 60 * 60))
    let hours := truncate ((t - days * (24 * 60 * 60)) / (60 * 60))
    let accuracy : K := 1 / 100
    let minutes := round (1 / accuracy * (t - days * (24 * 60 * 60) - hours * (60 * 60)) / 60)
      * accuracy
    some [(days, .days), (hours, .hours), (minutes, .minutes)]
  else if t ≥ 60 * 60 then
    let hours := truncate (t / (60 * 60))
    let minutes := truncate ((t - hours * (60 * 60)) / 60)
    let accuracy : K := 1 / 100
    let seconds := round (1 / accuracy * (t - hours * (60 * 60) - minutes * 60)) * accuracy
    some [(hours, .hours), (minutes, .minutes), (seconds, .seconds)]
  else if t ≥ 60 then
    let minutes := truncate (t / 60)
    let accuracy : K := 1 / 1000
    let seconds := round (1 / accuracy * (t - minutes * 60)) * accuracy
    some [(minutes, .minutes), (seconds, .seconds)]
  else if !isAmendment then some [(t, .seconds)]
  else none

end HumanTime
