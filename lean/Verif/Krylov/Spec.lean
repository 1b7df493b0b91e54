import Mathlib.Algebra.Field.Basic
import Mathlib.Algebra.Module.Pi

/-
The published algorithm (https://en.wikipedia.org/wiki/Biconjugate_gradient_stabilized_method, as cited in
opm/simulators/linalg/bicgstabsolver.hh:139-143) with the preconditioner applied from the right and the initial solution zero: the iterates as
sequences, without breakdowns, convergence checks or reuse of memory.
-/

set_option autoImplicit false

namespace Verif.Krylov.Spec

variable {K V : Type} [Field K] [AddCommGroup V] [Module K V]

/-- The data of the algorithm: matrix, inverse of the preconditioner, scalar product and right-hand side. -/
structure Data (K V : Type) where
  A : V → V
  Kinv : V → V
  dot : V → V → K
  b : V

/-- What the published algorithm carries from one step to the next. -/
structure Iterate (K V : Type) where
  x : V
  r : V
  v : V
  p : V
  rho : K
  alpha : K
  omega : K

/-- x₀ = 0, r₀ = b, ρ₀ = α = ω₀ = 1, v₀ = p₀ = 0. -/
def initial (d : Data K V) : Iterate K V := ⟨0, d.b, 0, 0, 1, 1, 1⟩

/-- ρᵢ = (r̂₀, rᵢ₋₁) with r̂₀ = b. -/
def rhoI (d : Data K V) (it : Iterate K V) : K := d.dot d.b it.r

/-- β = (ρᵢ/ρᵢ₋₁)(α/ωᵢ₋₁). -/
def beta (d : Data K V) (it : Iterate K V) : K := (rhoI d it / it.rho) * (it.alpha / it.omega)

/-- pᵢ = rᵢ₋₁ + β(pᵢ₋₁ − ωᵢ₋₁vᵢ₋₁). -/
def pI (d : Data K V) (it : Iterate K V) : V := it.r + beta d it • (it.p - it.omega • it.v)

/-- y = K⁻¹pᵢ. -/
def y (d : Data K V) (it : Iterate K V) : V := d.Kinv (pI d it)

/-- vᵢ = Ay. -/
def vI (d : Data K V) (it : Iterate K V) : V := d.A (y d it)

/-- α = ρᵢ/(r̂₀, vᵢ). -/
def alphaI (d : Data K V) (it : Iterate K V) : K := rhoI d it / d.dot d.b (vI d it)

/-- h = xᵢ₋₁ + αy. -/
def h (d : Data K V) (it : Iterate K V) : V := it.x + alphaI d it • y d it

/-- s = rᵢ₋₁ − αvᵢ. -/
def s (d : Data K V) (it : Iterate K V) : V := it.r - alphaI d it • vI d it

/-- z = K⁻¹s. -/
def z (d : Data K V) (it : Iterate K V) : V := d.Kinv (s d it)

/-- t = Az. -/
def t (d : Data K V) (it : Iterate K V) : V := d.A (z d it)

/-- ωᵢ = (t, s)/(t, t). -/
def omegaI (d : Data K V) (it : Iterate K V) : K := d.dot (t d it) (s d it) / d.dot (t d it) (t d it)

/-- xᵢ = h + ωᵢz, rᵢ = s − ωᵢt. -/
def step (d : Data K V) (it : Iterate K V) : Iterate K V :=
  { x := h d it + omegaI d it • z d it, r := s d it - omegaI d it • t d it, v := vI d it, p := pI d it
    rho := rhoI d it, alpha := alphaI d it, omega := omegaI d it }

/-- The iterates of the published algorithm. -/
def iterate (d : Data K V) : ℕ → Iterate K V
  | 0 => initial d
  | i + 1 => step d (iterate d i)

end Verif.Krylov.Spec
