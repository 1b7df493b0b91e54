import Verif.HumanTime.Model
set_option autoImplicit false
/-!
# What the text means to a reader
-/
namespace HumanTime
variable {K : Type} [Field K] [LinearOrder K] [IsStrictOrderedRing K] [FloorRing K]

/-- The length of a unit in seconds (a year has 365 days and 6 hours). -/
def length : TimeUnit → K
  | .years => 365 * 86400 + 6 * 3600
  | .days => 86400
  | .hours => 3600
  | .minutes => 60
  | .seconds => 1

/-- The time a text denotes. -/
def denotes (parts : List (K × TimeUnit)) : K := (parts.map fun p => p.1 * length p.2).sum

/-- How far the text may be from the time: half of the last digit that the code keeps. -/
def tolerance (t : K) : K :=
  if t ≥ length .years then length .hours / 200
  else if t ≥ length .days then length .minutes / 200
  else if t ≥ length .hours then length .seconds / 200
  else length .seconds / 2000

/-- A whole number that is not negative. -/
def Whole (x : K) : Prop := ∃ n : ℕ, x = n

end HumanTime
