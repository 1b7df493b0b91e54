import Mathlib.Algebra.BigOperators.Fin
import Mathlib.Data.Fintype.BigOperators
import Mathlib.Tactic.Linarith
import Verif.BlackOil.PrimaryVars

/-
C56: the number of degrees of freedom for which the meaning of the primary variables was switched.
-/

set_option autoImplicit false

namespace Verif.BlackOil

/-! ### The model -/

/-- What one process does in the loop over its degrees of freedom: cells with constraints and, if only some are updated, those with a
zero update, are skipped.  `switched` is what `adaptPrimaryVariables` returns. -/
structure Visit where
  /-- the global identity of the cell; the code does not know it -/
  cell : ℕ
  switched : Bool

/-- `numPriVarsSwitched_` of one process after `beginIteration_` (opm/models/blackoil/blackoilnewtonmethod.hh:144-148) and the loop of `update_`, which
calls `updatePrimaryVariables_` for the degrees of freedom (opm/models/blackoil/blackoilnewtonmethod.hh:415-421, opm/models/nonlinear/newtonmethod.hh:`update_`). -/
def loopCount (visits : List Visit) : ℕ := visits.foldl (fun n v => if v.switched then n + 1 else n) 0

/-- `comm.sum` and `MPI_Allreduce(…, MPI_SUM, …)`: each process gets the sum of the contributions.  Overflow of `int` is not modelled. -/
def commSum {P : ℕ} (x : Fin P → ℕ) : Fin P → ℕ := fun _ => ∑ r, x r

/-- `numPriVarsSwitched_` of each process after `update_` (opm/models/blackoil/blackoilnewtonmethod.hh:174-200; all processes succeeded) -/
def afterUpdate {P : ℕ} (visits : Fin P → List Visit) : Fin P → ℕ := commSum fun r => loopCount (visits r)

/-- `numPriVarsSwitched_` of each process after `endIteration_`, and what it prints (opm/models/blackoil/blackoilnewtonmethod.hh:153-172); `mpi` is whether
MPI is available. -/
def afterEndIteration {P : ℕ} (mpi : Bool) (n : Fin P → ℕ) : Fin P → ℕ := if mpi then commSum n else n

/-- A whole iteration; if the Newton method does not proceed (opm/models/nonlinear/newtonmethod.hh:302-312), nothing is updated. -/
def iterationCount {P : ℕ} (mpi proceed : Bool) (visits : Fin P → List Visit) : Fin P → ℕ :=
  afterEndIteration mpi (if proceed then afterUpdate visits else fun _ => 0)

/-! ### The specification -/

/-- The cells for which a process switched -/
def switchedCells (visits : List Visit) : List ℕ := (visits.filter (·.switched)).map (·.cell)

/-- Each process visits each of its cells once. -/
def Once (visits : List Visit) : Prop := (visits.map (·.cell)).Nodup

/-- The number of cells on all processes for which the meaning was switched: a cell counts once -/
def numSwitchedCells {P : ℕ} (visits : Fin P → List Visit) : ℕ :=
  (Finset.univ.biUnion fun r => (switchedCells (visits r)).toFinset).card

/-- No cell is switched on two processes. -/
def Disjointly {P : ℕ} (visits : Fin P → List Visit) : Prop :=
  ∀ r s, r ≠ s → List.Disjoint (switchedCells (visits r)) (switchedCells (visits s))

/-! ### Theorems -/

theorem loopCount_eq (visits : List Visit) : loopCount visits = (switchedCells visits).length := by
  suffices h : ∀ n, visits.foldl (fun n v => if v.switched then n + 1 else n) n = n + (switchedCells visits).length by
    rw [loopCount, h, Nat.zero_add]
  induction visits with
  | nil => intro n; rfl
  | cons v l ih =>
    intro n
    rw [List.foldl_cons, ih]
    unfold switchedCells
    by_cases h : v.switched <;> simp [h]
    omega

/-- What is reported, exactly: the sum over the processes, times the number of processes -/
theorem C56_reported {P : ℕ} (visits : Fin P → List Visit) (r : Fin P) :
    iterationCount true true visits r = P * ∑ s, (switchedCells (visits s)).length ∧
    iterationCount false true visits r = ∑ s, (switchedCells (visits s)).length ∧
    iterationCount true false visits r = 0 ∧ iterationCount false false visits r = 0 := by
  simp [iterationCount, afterEndIteration, afterUpdate, commSum, loopCount_eq]

theorem length_eq_card {l : List Visit} (h : Once l) : (switchedCells l).length = (switchedCells l).toFinset.card := by
  rw [List.toFinset_card_of_nodup]
  exact h.sublist (List.Sublist.map _ List.filter_sublist)

theorem numSwitchedCells_eq {P : ℕ} {visits : Fin P → List Visit} (h : ∀ r, Once (visits r)) (hd : Disjointly visits) :
    numSwitchedCells visits = ∑ r, (switchedCells (visits r)).length := by
  unfold numSwitchedCells
  rw [Finset.card_biUnion]
  · exact Finset.sum_congr rfl fun r _ => (length_eq_card (h r)).symm
  · intro r _ s _ hrs
    show Disjoint (switchedCells (visits r)).toFinset (switchedCells (visits s)).toFinset
    rw [List.disjoint_toFinset_iff_disjoint]
    exact hd r s hrs

/-- **C56** The number is right on one process. -/
theorem C56_partial (visits : Fin 1 → List Visit) (h : Once (visits 0)) (mpi : Bool) (r : Fin 1) :
    iterationCount mpi true visits r = numSwitchedCells visits := by
  rw [numSwitchedCells_eq]
  · obtain ⟨h1, h2, -⟩ := C56_reported visits r
    cases mpi
    · exact h2
    · rw [h1, Nat.one_mul]
  · intro r; rw [Fin.eq_zero r]; exact h
  · intro r s hrs
    exact absurd (Subsingleton.elim r s) hrs

example : Once [⟨0, true⟩, ⟨1, false⟩, ⟨2, true⟩] := by unfold Once; decide +kernel

/-- **C56** The number is wrong on any larger number of processes whenever something is switched, even if each cell is on one process
only: it is too large by the number of processes. -/
theorem C56_violated {P : ℕ} (hP : 2 ≤ P) (visits : Fin P → List Visit) (h : ∀ r, Once (visits r)) (hd : Disjointly visits)
    (hs : numSwitchedCells visits ≠ 0) (r : Fin P) :
    iterationCount true true visits r = P * numSwitchedCells visits ∧ iterationCount true true visits r ≠ numSwitchedCells visits := by
  have h1 := (C56_reported visits r).1
  rw [← numSwitchedCells_eq h hd] at h1
  refine ⟨h1, ?_⟩
  rw [h1]
  have : 0 < numSwitchedCells visits := Nat.pos_of_ne_zero hs
  nlinarith

example : let visits : Fin 2 → List Visit := fun r => if r = 0 then [⟨0, true⟩, ⟨1, false⟩] else [⟨2, true⟩]
    (∀ r, Once (visits r)) ∧ numSwitchedCells visits = 2 ∧ iterationCount true true visits 0 = 4 := by
  unfold Once
  decide +kernel

/-- The number is also zero if, and only if, nothing is switched, so that it can be used as a flag. -/
theorem C56_zero {P : ℕ} (visits : Fin P → List Visit) (mpi : Bool) (r : Fin P) :
    iterationCount mpi true visits r = 0 ↔ ∀ s, ∀ v ∈ visits s, v.switched = false := by
  have hP : P ≠ 0 := fun h => absurd r.2 (by omega)
  have e : iterationCount mpi true visits r = 0 ↔ ∑ s, (switchedCells (visits s)).length = 0 := by
    obtain ⟨h1, h2, -⟩ := C56_reported visits r
    cases mpi
    · rw [h2]
    · rw [h1, Nat.mul_eq_zero]
      simp [hP]
  rw [e, Finset.sum_eq_zero_iff]
  constructor
  · intro h s v hv
    have := h s (Finset.mem_univ _)
    rw [List.length_eq_zero_iff] at this
    unfold switchedCells at this
    rw [List.map_eq_nil_iff, List.filter_eq_nil_iff] at this
    simpa using this v hv
  · intro h s _
    rw [List.length_eq_zero_iff]
    unfold switchedCells
    rw [List.map_eq_nil_iff, List.filter_eq_nil_iff]
    intro v hv
    simp [h s v hv]

end Verif.BlackOil
