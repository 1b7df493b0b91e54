import Mathlib.Algebra.Order.Round
import Mathlib.Data.Int.Log
import Mathlib.Algebra.Order.Ring.Rat
import Mathlib.Data.Rat.Floor

set_option autoImplicit false
/-
Model of how floating point numbers are written to and read from text.

The library writes numbers with `operator<<` of a standard stream of a given precision: 6 digits by default
(`/repo/opm/models/utils/parametersystem.hh`:898-900 and 1003-1005 for default values of parameters,
`/repo/opm/models/io/restart.hh`:85-86 for the time in the name of restart files), 20 digits in restart files
(opm/models/io/restart.hh:110).  It reads them with `operator>>`, `strtod` or `from_chars`.  The C and C++ standards say what these
do: the text denotes the number rounded to the given number of significant decimal digits, and reading gives a
nearest floating point number to the number denoted by the text.  The model works with the denoted numbers; the layout
of the text (fixed or scientific notation, trailing zeros) is not modelled, and neither are infinity, NaN and the
limits of the exponent.
-/
namespace Verif.Numbers

/-- IEEE double precision numbers: `m·2^e` with an integer mantissa of at most 53 bits (the exponent is unbounded in
the model). -/
def IsDouble (x : ℚ) : Prop := ∃ (m e : ℤ), |m| ≤ 2 ^ 53 ∧ x = m * (2 : ℚ) ^ e

/-- The weight of the last of `p` significant decimal digits of `x`. -/
def unit (p : ℕ) (x : ℚ) : ℚ := (10 : ℚ) ^ (Int.log 10 |x| + 1 - (p : ℤ))

/-- The number denoted by the text which `operator<<` writes for `x` with precision `p`: `x` rounded to `p`
significant digits. -/
def printed (p : ℕ) (x : ℚ) : ℚ := round (x / unit p x) * unit p x

/-- `read` reads numbers: it returns a nearest double to the denoted number. -/
def Reads (read : ℚ → ℚ) : Prop := ∀ q, IsDouble (read q) ∧ ∀ y, IsDouble y → |read q - q| ≤ |y - q|

end Verif.Numbers
