import Verif.Criteria.Model
import Mathlib.Logic.Function.Basic
import Mathlib.Algebra.Module.Pi

/-
The stabilized bi-conjugate gradient solver.

Models `Opm::Linear::BiCGStabSolver::apply` (opm/simulators/linalg/bicgstabsolver.hh:127-330) and the report it fills
(opm/simulators/linalg/linearsolverreport.hh:44-80).

Simplifications: numbers are elements of an ordered field; the blocks of the vectors are flattened to scalar entries.  The
operator, the preconditioner and the scalar product are arbitrary functions: the theorems say what is assumed of them.
The results of the preconditioner may depend on how often it has been called.  Printing and the timer are left out, and
so is the debugging check that the preconditioner's `pre` leaves the initial solution alone (opm/simulators/linalg/bicgstabsolver.hh:157-167).
-/

set_option autoImplicit false

namespace Verif.Krylov

open Verif.Criteria

variable {K : Type} [Field K] [LinearOrder K] [IsStrictOrderedRing K]
variable {I S : Type} [DecidableEq I]

/-- Everything which a solver works with (opm/simulators/linalg/bicgstabsolver.hh:47-70,336-350). -/
structure System (I K S : Type) where
  /-- the indices of the entries of a vector, in the order of the loops -/
  indices : List I
  /-- `A_->apply(x, y)` overwrites `y` by this -/
  operator : (I → K) → (I → K)
  /-- `preconditioner_.pre(x, r)` -/
  pre : (I → K) → (I → K) → (I → K) × (I → K)
  /-- call number `k` of `preconditioner_.apply(y, d)` overwrites `y` by `precondition k y d` -/
  precondition : ℕ → (I → K) → (I → K) → (I → K)
  /-- `preconditioner_.post(x)` -/
  post : (I → K) → (I → K)
  /-- `scalarProduct_.dot` -/
  dot : (I → K) → (I → K) → K
  criterion : Criterion (I → K) S
  /-- `*b_` -/
  rhs : I → K
  /-- `breakdownEps` (opm/simulators/linalg/bicgstabsolver.hh:123) -/
  breakdownEps : K
  maxIterations : ℕ

/-- The memory of `apply` (opm/simulators/linalg/bicgstabsolver.hh:145-190).  `h` is the same object as `x`, `s` as `r` and `t` as `y`. -/
structure Memory (I K S : Type) where
  x : I → K
  r : I → K
  v : I → K
  p : I → K
  y : I → K
  z : I → K
  rho : K
  alpha : K
  omega : K
  criterion : S
  iterations : ℕ

/-- What `apply` does: it throws `NumericalProblem`, or returns `report_.converged()` with the contents of `x` and
`report_.iterations()`. -/
inductive Outcome (I K : Type) where
  | breakdown (iterations : ℕ)
  | returned (converged : Bool) (x : I → K) (iterations : ℕ)

/-- What the body of the loop does: leave the function, or reach its end. -/
inductive Progress (I K S : Type) where
  | leave (outcome : Outcome I K)
  | next (memory : Memory I K S)

/-- The loop which updates `p` (opm/simulators/linalg/bicgstabsolver.hh:208-220): `tmp = v[i]; tmp *= omega; tmp -= p[i]; tmp *= -beta;
p[i] = r[i]; p[i] += tmp`. -/
def loopP (indices : List I) (omega beta : K) (r v p : I → K) : I → K :=
  indices.foldl (fun p i => Function.update p i (r i + (v i * omega - p i) * -beta)) p

/-- The loop which updates `h` and `s`, that is `x` and `r` (opm/simulators/linalg/bicgstabsolver.hh:238-248): `tmp = y[i]; tmp *= alpha;
tmp += x[i]; h[i] = tmp; tmp = v[i]; tmp *= alpha; s[i] -= tmp`. -/
def loopHS (indices : List I) (alpha : K) (y v : I → K) (x r : I → K) : (I → K) × (I → K) :=
  indices.foldl
    (fun (xr : (I → K) × (I → K)) i =>
      (Function.update xr.1 i (y i * alpha + xr.1 i), Function.update xr.2 i (xr.2 i - v i * alpha)))
    (x, r)

/-- `a.axpy(c, b)`, which adds `c*b` to `a` entry by entry. -/
def axpy (indices : List I) (c : K) (b a : I → K) : I → K :=
  indices.foldl (fun a i => Function.update a i (a i + c * b i)) a

/-- The second half of the loop's body (opm/simulators/linalg/bicgstabsolver.hh:275-327). -/
def secondHalf (sys : System I K S) (m : Memory I K S) : Progress I K S :=
  -- z = s; preconditioner_.apply(z, s); t = z; A_->apply(z, t);
  let z := sys.precondition (2 * m.iterations + 1) m.r m.r
  let t := sys.operator z
  let denom := sys.dot t t
  if |denom| ≤ sys.breakdownEps then .leave (.breakdown m.iterations)
  else
    let omega := sys.dot t m.r / denom
    if |omega| ≤ sys.breakdownEps then .leave (.breakdown m.iterations)
    else
      let x := axpy sys.indices omega z m.x
      let crit := sys.criterion.update m.criterion x z m.r
      if sys.criterion.converged crit then .leave (.returned true (sys.post x) m.iterations)
      else if sys.criterion.failed crit then .leave (.returned false x m.iterations)
      else
        .next { m with x := x, z := z, y := t, omega := omega, criterion := crit, r := axpy sys.indices (-omega) t m.r
                       iterations := m.iterations + 1 }

/-- The loop's body (opm/simulators/linalg/bicgstabsolver.hh:193-327); the increment of the iterations (line 193) is at the end of
`secondHalf`. -/
def body (sys : System I K S) (m : Memory I K S) : Progress I K S :=
  let rhoI := sys.dot sys.rhs m.r
  if |m.rho| ≤ sys.breakdownEps ∨ |m.omega| ≤ sys.breakdownEps then .leave (.breakdown m.iterations)
  else
    let beta := (rhoI / m.rho) * (m.alpha / m.omega)
    let p := loopP sys.indices m.omega beta m.r m.v m.p
    let y := sys.precondition (2 * m.iterations) m.y p
    let v := sys.operator y
    let denom := sys.dot sys.rhs v
    if |denom| ≤ sys.breakdownEps then .leave (.breakdown m.iterations)
    else
      let alpha := rhoI / denom
      if |alpha| ≤ sys.breakdownEps then .leave (.breakdown m.iterations)
      else
        let hs := loopHS sys.indices alpha y v m.x m.r
        let crit := sys.criterion.update m.criterion hs.1 y hs.2
        if sys.criterion.converged crit then .leave (.returned true (sys.post hs.1) m.iterations)
        else if sys.criterion.failed crit then .leave (.returned false hs.1 m.iterations)
        else
          secondHalf sys { m with rho := rhoI, p := p, y := y, v := v, alpha := alpha, x := hs.1, r := hs.2
                                  criterion := crit }

/-- The loop (opm/simulators/linalg/bicgstabsolver.hh:193-329); `fuel` is `maxIterations_ - report_.iterations()`. -/
def loop (sys : System I K S) : ℕ → Memory I K S → Outcome I K
  | 0, m => .returned false m.x m.iterations
  | fuel + 1, m =>
    match body sys m with
    | .leave outcome => outcome
    | .next m' => loop sys fuel m'

/-- The memory when the loop is entered (opm/simulators/linalg/bicgstabsolver.hh:145-190). -/
def start (sys : System I K S) (s : S) : Memory I K S :=
  let xr := sys.pre (fun _ => 0) sys.rhs
  { x := xr.1, r := xr.2, v := fun _ => 0, p := fun _ => 0, y := xr.1, z := xr.1, rho := 1, alpha := 1, omega := 1
    criterion := sys.criterion.setInitial s xr.1 xr.2, iterations := 0 }

/-- `apply(x)` (opm/simulators/linalg/bicgstabsolver.hh:127-330) when the criterion is in the state `s`. -/
def apply (sys : System I K S) (s : S) : Outcome I K :=
  let m := start sys s
  if sys.criterion.converged m.criterion then .returned true m.x 0
  else loop sys sys.maxIterations m

end Verif.Krylov
