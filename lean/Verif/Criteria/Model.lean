import Mathlib.Algebra.Order.Field.Basic
import Mathlib.Data.Fintype.Lattice
import Mathlib.Order.Fin.Basic
import Mathlib.Data.List.FinRange

/-
The convergence criteria of the linear solvers.

Models `ConvergenceCriterion` (opm/simulators/linalg/convergencecriterion.hh:55-140), `ResidReductionCriterion`
(opm/simulators/linalg/residreductioncriterion.hh:52-150), `CombinedCriterion` (opm/simulators/linalg/combinedcriterion.hh:53-240), `FixPointCriterion`
(opm/simulators/linalg/fixpointcriterion.hh:57-185) and `WeightedResidualReductionCriterion` (opm/simulators/linalg/weightedresidreductioncriterion.hh:57-320).

Simplifications: numbers are elements of an ordered field; the blocks of a vector are flattened; the collective
operations `comm.max` and `comm.min` are the maximum and minimum over all processes, so the state that is computed by
them is the same everywhere and modelled once.  Printing is left out.
-/

set_option autoImplicit false

namespace Verif.Criteria

variable {K : Type} [Field K] [LinearOrder K] [IsStrictOrderedRing K]

/-- A distributed vector: the process `p` of `P + 1` has `n p` scalar entries. -/
abbrev Vec (P : ℕ) (n : Fin (P + 1) → ℕ) (K : Type) : Type :=
  (Σ p : Fin (P + 1), Fin (n p)) → K

/-- The interface of a criterion with internal state `S` (opm/simulators/linalg/convergencecriterion.hh:55-140): `setInitial(curSol, curResid)`,
`update(curSol, changeIndicator, curResid)`, `converged()` and `failed()`. -/
structure Criterion (V S : Type) where
  setInitial : S → V → V → S
  update : S → V → V → V → S
  converged : S → Bool
  failed : S → Bool

/-- `comm.max(value)`: every process gets the maximum of the values of all. -/
def commMax {P : ℕ} (f : Fin (P + 1) → K) : K := Finset.univ.sup' Finset.univ_nonempty f

/-- `comm.min(flag)` of a Boolean: it is true everywhere if it was true on all processes. -/
def commAnd {P : ℕ} (f : Fin (P + 1) → Bool) : Bool := (List.finRange (P + 1)).all f

/-! ### The reduction of the two-norm -/

/-- The members of `ResidReductionCriterion` (opm/simulators/linalg/residreductioncriterion.hh:142-147). -/
structure ReductionState (K : Type) where
  initialDefect : K
  curDefect : K
  lastDefect : K

/-- `ResidReductionCriterion` (opm/simulators/linalg/residreductioncriterion.hh:57-116).  `norm` is `scalarProduct_.norm` and `tiny` is
`numeric_limits<Scalar>::min()*1e10`.  `failed()` is inherited: it is always false (opm/simulators/linalg/convergencecriterion.hh:109-110). -/
def residReduction {V : Type} (norm : V → K) (tiny tolerance : K) : Criterion V (ReductionState K) where
  setInitial _ _ curResid :=
    -- opm/simulators/linalg/residreductioncriterion.hh:81-91
    { curDefect := norm curResid, lastDefect := norm curResid, initialDefect := max (norm curResid) tiny }
  update s _ _ curResid :=
    -- opm/simulators/linalg/residreductioncriterion.hh:96-102
    { s with lastDefect := s.curDefect, curDefect := norm curResid }
  converged s := decide (s.curDefect / s.initialDefect ≤ tolerance)
  failed _ := false

/-! ### The maximum of the residual -/

/-- The members of `CombinedCriterion` which change (opm/simulators/linalg/combinedcriterion.hh:207-232). -/
structure CombinedState (K : Type) where
  lastResidualError : K
  residualError : K
  initialResidualError : K
  stagnates : Bool

variable {P : ℕ} {n : Fin (P + 1) → ℕ}

/-- The loop of `updateErrors_` on the process `p` (opm/simulators/linalg/combinedcriterion.hh:182-196): the maximum of the absolute values of the
residual and whether no entry of the change indicator is different from zero. -/
def combinedLoop (changeIndicator curResid : Vec P n K) (p : Fin (P + 1)) : K × Bool :=
  (List.finRange (n p)).foldl
    (fun (st : K × Bool) i =>
      (max st.1 |curResid ⟨p, i⟩|, if st.2 && decide (changeIndicator ⟨p, i⟩ ≠ 0) then false else st.2))
    (0, true)

/-- `CombinedCriterion::updateErrors_` (opm/simulators/linalg/combinedcriterion.hh:180-202). -/
def combinedUpdateErrors (s : CombinedState K) (changeIndicator curResid : Vec P n K) : CombinedState K :=
  { s with
    lastResidualError := s.residualError
    residualError := commMax fun p => (combinedLoop changeIndicator curResid p).1
    stagnates := commAnd fun p => (combinedLoop changeIndicator curResid p).2 }

/-- `residualReduction()` (opm/simulators/linalg/combinedcriterion.hh:86-91). -/
def residualReduction (s : CombinedState K) : K := s.residualError / max (1 / 10 ^ 20) s.initialResidualError

/-- `CombinedCriterion::converged` (opm/simulators/linalg/combinedcriterion.hh:136-144). -/
def combinedConverged (reductionTolerance absTolerance : K) (s : CombinedState K) : Bool :=
  decide (residualReduction s ≤ reductionTolerance) || decide (s.residualError ≤ absTolerance)

/-- `CombinedCriterion` (opm/simulators/linalg/combinedcriterion.hh:53-232). -/
def combined (tiny reductionTolerance absTolerance maxResidual : K) : Criterion (Vec P n K) (CombinedState K) where
  setInitial s curSol curResid :=
    -- opm/simulators/linalg/combinedcriterion.hh:114-125
    let s1 := combinedUpdateErrors s curSol curResid
    let e := max s1.residualError tiny
    { stagnates := false, residualError := e, initialResidualError := e, lastResidualError := e }
  update s _ changeIndicator curResid := combinedUpdateErrors s changeIndicator curResid
  converged s := combinedConverged reductionTolerance absTolerance s
  failed s :=
    -- opm/simulators/linalg/combinedcriterion.hh:149-150
    !combinedConverged reductionTolerance absTolerance s && (s.stagnates || decide (maxResidual < s.residualError))

/-! ### The difference between solutions -/

/-- The members of `FixPointCriterion` which change (opm/simulators/linalg/fixpointcriterion.hh:172-178). -/
structure FixPointState (V K : Type) where
  lastSol : V
  delta : K

/-- `weight(i, j)` (opm/simulators/linalg/fixpointcriterion.hh:109-110): one, if no weights were set. -/
def weight (weights : Option (Vec P n K)) (p : Fin (P + 1)) (i : Fin (n p)) : K :=
  match weights with
  | none => 1
  | some w => w ⟨p, i⟩

/-- `FixPointCriterion` (opm/simulators/linalg/fixpointcriterion.hh:57-185).  `failed()` is inherited. -/
def fixPoint (weights : Option (Vec P n K)) (tolerance : K) : Criterion (Vec P n K) (FixPointState (Vec P n K) K) where
  setInitial _ curSol _ :=
    -- opm/simulators/linalg/fixpointcriterion.hh:134-138
    { lastSol := curSol, delta := 1000 * tolerance }
  update s curSol _ _ :=
    -- opm/simulators/linalg/fixpointcriterion.hh:143-160
    { delta := commMax fun p =>
        (List.finRange (n p)).foldl (fun d i => max d (weight weights p i * |curSol ⟨p, i⟩ - s.lastSol ⟨p, i⟩|)) 0
      lastSol := curSol }
  converged s := decide (s.delta < tolerance)
  failed _ := false

/-! ### The weighted maximum of the residual -/

/-- The members of `WeightedResidualReductionCriterion` which change (opm/simulators/linalg/weightedresidreductioncriterion.hh:287-306). -/
structure WeightedState (V K : Type) where
  lastSol : V
  fixPointError : K
  residualError : K
  lastResidualError : K
  initialResidualError : K

/-- `WeightedResidualReductionCriterion::updateErrors_` (opm/simulators/linalg/weightedresidreductioncriterion.hh:258-280). -/
def weightedUpdateErrors (weights : Option (Vec P n K)) (s : WeightedState (Vec P n K) K) (curSol curResid : Vec P n K) :
    WeightedState (Vec P n K) K :=
  { s with
    residualError := commMax fun p =>
      (List.finRange (n p)).foldl (fun e i => max e (weight weights p i * |curResid ⟨p, i⟩|)) 0
    fixPointError := commMax fun p =>
      (List.finRange (n p)).foldl (fun e i => max e (|curSol ⟨p, i⟩ - s.lastSol ⟨p, i⟩| / max 1 (curSol ⟨p, i⟩))) 0
    lastSol := curSol }

/-- `converged()` (opm/simulators/linalg/weightedresidreductioncriterion.hh:199-206). -/
def weightedConverged (reductionTolerance absTolerance : K) {V : Type} (s : WeightedState V K) : Bool :=
  decide (s.residualError / max (1 / 10 ^ 20) s.initialResidualError ≤ reductionTolerance) ||
    decide (s.residualError ≤ absTolerance)

/-- `WeightedResidualReductionCriterion` (opm/simulators/linalg/weightedresidreductioncriterion.hh:57-320). -/
def weighted (weights : Option (Vec P n K)) (reductionTolerance fixPointTolerance absTolerance maxError : K) :
    Criterion (Vec P n K) (WeightedState (Vec P n K) K) where
  setInitial s curSol curResid :=
    -- opm/simulators/linalg/weightedresidreductioncriterion.hh:168-182
    let s1 := weightedUpdateErrors weights { s with lastResidualError := 10 ^ 100, lastSol := curSol } curSol curResid
    let e := max s1.residualError (1 / 10 ^ 20)
    { s1 with fixPointError := 10 ^ 100, residualError := e, initialResidualError := e }
  update s curSol _ curResid :=
    -- opm/simulators/linalg/weightedresidreductioncriterion.hh:187-193
    weightedUpdateErrors weights { s with lastResidualError := s.residualError } curSol curResid
  converged s := weightedConverged reductionTolerance absTolerance s
  failed s :=
    -- opm/simulators/linalg/weightedresidreductioncriterion.hh:211-216
    (!weightedConverged reductionTolerance absTolerance s && decide (s.fixPointError ≤ fixPointTolerance)) ||
      decide (maxError < s.residualError)

/-- A solver's use of a criterion: one `setInitial(x, r)` and any number of `update(x, delta, r)`. -/
def use {V S : Type} (c : Criterion V S) (s : S) (initial : V × V) (updates : List (V × V × V)) : S :=
  updates.foldl (fun s u => c.update s u.1 u.2.1 u.2.2) (c.setInitial s initial.1 initial.2)

end Verif.Criteria
