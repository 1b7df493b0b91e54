import Verif.Krylov.Lemmas

/-
Two runs of the solver, one of which works with copies of the entries of the other.
-/

set_option autoImplicit false
set_option linter.unusedSectionVars false

namespace Verif.Krylov

open Verif.Criteria

variable {K : Type} [Field K] [LinearOrder K] [IsStrictOrderedRing K]
variable {I J S : Type} [DecidableEq I] [DecidableEq J]

/-- The entry `i` of the vectors of `par` is a copy of the entry `c i` of those of `seq`: whatever the solver calls gives copies of
results for copies of arguments. -/
structure Copies (c : I → J) (seq : System J K S) (par : System I K S) : Prop where
  seqNodup : seq.indices.Nodup
  seqComplete : ∀ j, j ∈ seq.indices
  parNodup : par.indices.Nodup
  parComplete : ∀ i, i ∈ par.indices
  operator : ∀ X, par.operator (fun i => X (c i)) = fun i => seq.operator X (c i)
  pre : par.pre (fun _ => 0) par.rhs =
    (fun i => (seq.pre (fun _ => 0) seq.rhs).1 (c i), fun i => (seq.pre (fun _ => 0) seq.rhs).2 (c i))
  precondition : ∀ k Y D, par.precondition k (fun i => Y (c i)) (fun i => D (c i)) = fun i => seq.precondition k Y D (c i)
  post : ∀ X, par.post (fun i => X (c i)) = fun i => seq.post X (c i)
  dot : ∀ X Y, par.dot (fun i => X (c i)) (fun i => Y (c i)) = seq.dot X Y
  setInitial : ∀ s X R, par.criterion.setInitial s (fun i => X (c i)) (fun i => R (c i)) = seq.criterion.setInitial s X R
  update : ∀ s X D R, par.criterion.update s (fun i => X (c i)) (fun i => D (c i)) (fun i => R (c i)) =
    seq.criterion.update s X D R
  converged : par.criterion.converged = seq.criterion.converged
  failed : par.criterion.failed = seq.criterion.failed
  rhs : par.rhs = fun i => seq.rhs (c i)
  breakdownEps : par.breakdownEps = seq.breakdownEps
  maxIterations : par.maxIterations = seq.maxIterations

/-- Copies of the solution -/
def Outcome.copy (c : I → J) : Outcome J K → Outcome I K
  | .breakdown n => .breakdown n
  | .returned b x n => .returned b (fun i => x (c i)) n

/-- Copies of all vectors -/
def Memory.copy (c : I → J) (m : Memory J K S) : Memory I K S :=
  { x := fun i => m.x (c i), r := fun i => m.r (c i), v := fun i => m.v (c i), p := fun i => m.p (c i), y := fun i => m.y (c i)
    z := fun i => m.z (c i), rho := m.rho, alpha := m.alpha, omega := m.omega, criterion := m.criterion, iterations := m.iterations }

def Progress.copy (c : I → J) : Progress J K S → Progress I K S
  | .leave o => .leave (o.copy c)
  | .next m => .next (m.copy c)

variable {c : I → J} {seq : System J K S} {par : System I K S}

theorem axpy_copy (h : Copies c seq par) (a : K) (b x : J → K) :
    axpy par.indices a (fun i => b (c i)) (fun i => x (c i)) = fun i => axpy seq.indices a b x (c i) := by
  rw [axpy_eq _ h.parNodup h.parComplete, axpy_eq _ h.seqNodup h.seqComplete]; rfl

theorem loopP_copy (h : Copies c seq par) (omega beta : K) (r v p : J → K) :
    loopP par.indices omega beta (fun i => r (c i)) (fun i => v (c i)) (fun i => p (c i)) =
      fun i => loopP seq.indices omega beta r v p (c i) := by
  rw [loopP_eq _ h.parNodup h.parComplete, loopP_eq _ h.seqNodup h.seqComplete]; rfl

theorem loopHS_copy (h : Copies c seq par) (alpha : K) (y v x r : J → K) :
    loopHS par.indices alpha (fun i => y (c i)) (fun i => v (c i)) (fun i => x (c i)) (fun i => r (c i)) =
      (fun i => (loopHS seq.indices alpha y v x r).1 (c i), fun i => (loopHS seq.indices alpha y v x r).2 (c i)) := by
  rw [loopHS_eq _ h.parNodup h.parComplete, loopHS_eq _ h.seqNodup h.seqComplete]; rfl

theorem secondHalf_copy (h : Copies c seq par) (m : Memory J K S) :
    secondHalf par (m.copy c) = (secondHalf seq m).copy c := by
  unfold secondHalf
  simp only [Memory.copy, h.precondition, h.operator, h.dot, h.breakdownEps, axpy_copy h, h.update, h.converged, h.failed, h.post]
  split_ifs <;> rfl

theorem body_copy (h : Copies c seq par) (m : Memory J K S) : body par (m.copy c) = (body seq m).copy c := by
  unfold body
  simp only [Memory.copy, h.rhs, h.precondition, h.operator, h.dot, h.breakdownEps, loopP_copy h, loopHS_copy h, h.update,
    h.converged, h.failed, h.post]
  split_ifs
  · rfl
  · rfl
  · rfl
  · rfl
  · rfl
  · rw [← secondHalf_copy h]; rfl

theorem loop_copy (h : Copies c seq par) (fuel : ℕ) (m : Memory J K S) : loop par fuel (m.copy c) = (loop seq fuel m).copy c := by
  induction fuel generalizing m with
  | zero => rfl
  | succ fuel ih =>
    unfold loop
    rw [body_copy h]
    cases body seq m with
    | leave o => rfl
    | next m' => exact ih m'

/-- The runs have the same outcome, after the same number of iterations. -/
theorem apply_copy (h : Copies c seq par) (s : S) : apply par s = (apply seq s).copy c := by
  have e : start par s = (start seq s).copy c := by
    unfold start Memory.copy
    simp only [h.pre, h.setInitial]
  unfold apply
  simp only [e]
  have e2 : (Memory.copy c (start seq s)).criterion = (start seq s).criterion := rfl
  rw [e2, h.converged, h.maxIterations, loop_copy h]
  split_ifs <;> rfl

end Verif.Krylov
