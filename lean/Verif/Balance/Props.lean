import Verif.Balance.Lemmas

set_option autoImplicit false
set_option linter.unusedSectionVars false
/-
C160: the balance of mass of a whole simulation.
-/
namespace Verif.Balance

open TimeLoop

section
variable {K PV W M C X : Type} {m : ℕ}
variable [Field K] [LinearOrder K] [IsStrictOrderedRing K] [AddCommGroup M] [Module K M]

/-- **C160** (partial) At any point of any run, the amount of each conserved quantity in the domain is what it was at the beginning
plus what sources and the boundary supplied during the time steps which have been integrated, each with the size it ended up with after
retries, up to an error which is bounded by the sum over these steps of the step size times the tolerance of the Newton method, divided by the
weights of the equations and summed over the cells.  Attempts which failed, episodes, output, the selection of step sizes and all callbacks
leave no trace in the balance.  Missing for the full property: steps which begin at a solution which already meets the tolerance
(`C160_balance_violated`) and simulations which go on after the Newton method failed (`C160_continue_violated`). -/
theorem C160_balance_partial (f : Physics K PV M C X m) (q : Numerics K PV W M X m) (h : Hooks K PV X) (rev : C → C)
    (sim : Sim K) (own : X) (s0 : ℕ → PV) (n : ℕ) (k : Fin m)
    (hcons : Conservative f rev) (hcont : q.continueOnError = false) (htol : 0 ≤ q.tolerance)
    (hvol : ∀ i < f.numCells, 0 < f.volume i) (hweight : ∀ i < f.numCells, ∀ k : Fin m, 0 < q.weight i k)
    (hunsettled : ∀ j < n, Integrates (problem f q h) (run (problem f q h) j (start sim ⟨own, s0, s0⟩)) →
      Unsettled f q (run (problem f q h) j (start sim ⟨own, s0, s0⟩)).prob.own
        (run (problem f q h) (j + 1) (start sim ⟨own, s0, s0⟩)).sim.dt (run (problem f q h) j (start sim ⟨own, s0, s0⟩)).prob.sol0) :
    let c : ℕ → Conf K (St PV X) := fun j => run (problem f q h) j (start sim ⟨own, s0, s0⟩)
    let steps := (Finset.range n).filter fun j => Integrates (problem f q h) (c j)
    |amount f (c n).prob.sol0 k - amount f s0 k
        - ∑ j ∈ steps, (c (j + 1)).sim.dt * supply f (c j).prob.own (c (j + 1)).sim.dt (c (j + 1)).prob.sol0 k|
      ≤ ∑ j ∈ steps, |(c (j + 1)).sim.dt| * ∑ i ∈ Finset.range f.numCells, q.tolerance / q.weight i k := by
  intro c steps
  have hc : ∀ j, c (j + 1) = step (problem f q h) (c j) := fun j => run_succ _ _ _
  have key : ∀ n', n' ≤ n →
      amount f (c n').prob.sol0 k - amount f s0 k
        - ∑ j ∈ (Finset.range n').filter fun j => Integrates (problem f q h) (c j),
            (c (j + 1)).sim.dt * supply f (c j).prob.own (c (j + 1)).sim.dt (c (j + 1)).prob.sol0 k =
      ∑ j ∈ (Finset.range n').filter fun j => Integrates (problem f q h) (c j),
        (c (j + 1)).sim.dt * ∑ i ∈ Finset.range f.numCells,
          imbalance f (c j).prob.own (c (j + 1)).sim.dt (c (j + 1)).prob.sol0 (c j).prob.sol0 i k := by
    intro n'
    induction n' with
    | zero =>
      intro _
      have h0 : (c 0).prob.sol0 = s0 := rfl
      simp [h0]
    | succ n' ih =>
      intro hn
      rw [Finset.range_add_one, Finset.filter_insert]
      by_cases hI : Integrates (problem f q h) (c n')
      · rw [if_pos hI, Finset.sum_insert (by simp), Finset.sum_insert (by simp), ← ih (by omega)]
        have hd := (integrates_small f q h (c n') (run_level f q h sim own s0 n') hI hcont htol hvol
          (by have := hunsettled n' (by omega) hI; rw [← hc]; exact this)).1
        rw [← hc] at hd
        rw [← step_balance f rev hcons (c n').prob.own _ hd]
        ring
      · rw [if_neg hI, ← ih (by omega), hc, step_sol f q h _ hI]
  rw [key n le_rfl]
  refine (Finset.abs_sum_le_sum_abs _ _).trans (Finset.sum_le_sum fun j hj => ?_)
  rw [Finset.mem_filter, Finset.mem_range] at hj
  rw [abs_mul]
  refine mul_le_mul_of_nonneg_left ?_ (abs_nonneg _)
  refine (Finset.abs_sum_le_sum_abs _ _).trans (Finset.sum_le_sum fun i hi => ?_)
  have hi := Finset.mem_range.1 hi
  have hs := (integrates_small f q h (c j) (run_level f q h sim own s0 j) hj.2 hcont htol hvol
    (by have := hunsettled j hj.1 hj.2; rw [← hc]; exact this)).2 i hi k
  rw [← hc, abs_mul, abs_of_pos (hweight i hi k)] at hs
  rwa [le_div_iff₀ (hweight i hi k)]

end

/-! ### Two cells which exchange something, with a source in the first one -/

/-- What flows is the difference of the values of the two cells; the source supplies one per unit of time, and a third of the value of the
second cell leaves the domain there. -/
def twoCells : Physics ℚ ℚ ℚ Unit Unit 1 where
  numCells := 2
  nb := fun i => if i = 0 then [(1, ())] else if i = 1 then [(0, ())] else []
  area := fun _ => 1
  volume := fun _ => 1
  storage := fun _ x => (fun _ => x, 1)
  flux := fun _ _ s i j _ => (fun _ => s i - s j, 1)
  source := fun _ _ _ i => (fun _ => if i = 0 then 1 else 0, 0)
  boundary := fun _ _ s => [{ cell := 1, none := false, area := 1 / 3, flux := (fun _ => s 1, 1) },
    { cell := 0, none := true, area := 1, flux := (fun _ => 7, 1) }]

theorem twoCells_conservative : Conservative twoCells id := by
  intro own dt s
  refine ⟨?_, ?_, ?_, ?_, ?_⟩
  · intro i hi e he
    have : i = 0 ∨ i = 1 := by simp only [net, twoCells] at hi; omega
    rcases this with rfl | rfl <;> simp [net, twoCells] at he ⊢ <;> subst he <;> decide
  · intro i hi j hj
    have h1 : i = 0 ∨ i = 1 := by simp only [net, twoCells] at hi; omega
    have h2 : j = 0 ∨ j = 1 := by simp only [net, twoCells] at hj; omega
    rcases h1 with rfl | rfl <;> rcases h2 with rfl | rfl <;> simp [net, twoCells]
  · intro c; rfl
  · intro i _ e _
    funext k
    simp [net, twoCells]
  · simp [net, twoCells]

/-- A Newton method whose linear solver works `works dt` and, if so, finds the update `u dt s`. -/
def numerics (works : ℚ → Bool) (u : ℚ → (ℕ → ℚ) → ℕ → ℚ) (tolerance : ℚ) (cont : Bool) : Numerics ℚ ℚ ℚ ℚ Unit 1 where
  weight := fun i _ => i + 1
  tolerance := tolerance
  base := fun _ _ dt _ =>
    { numGridDof := 0, numTotalDof := 0, volume := fun _ => 0, weight := fun _ _ => 0, constraints := fun _ => none,
      beginIterationOk := fun _ => true, endIterationOk := fun _ => true, linearize := fun _ _ => .caught,
      solve := fun _ s => if works dt then .update (u dt s) true else .notConverged,
      updatePrimaryVariables := fun _ x u => x - u, subtract := fun x u => x - u, tolerance := 0, maxError := 1000,
      maxIterations := 10, targetIterations := 5 }
  leftError := fun _ _ _ _ => .nan
  leftLastError := fun _ _ _ _ => .num 3
  failure := fun _ _ _ _ _ _ => none
  system := fun _ _ _ _ _ => ⟨fun _ _ => 77, fun _ _ => 88⟩
  fuel := 20
  maxFails := 10
  minDt := 1 / 100
  continueOnError := cont

/-- The exact solution of a step of size `dt` which begins at `s`, by Cramer's rule. -/
def exact (dt : ℚ) (s : ℕ → ℚ) (i : ℕ) : ℚ :=
  let a := 1 / dt + 1
  let d := 1 / dt + 4 / 3
  let r0 := s 0 / dt + 1
  let r1 := s 1 / dt
  if i = 0 then (r0 * d + r1) / (a * d - 1) else (a * r1 + r0) / (a * d - 1)

/-- Callbacks which do nothing. -/
def idle : Hooks ℚ ℚ Unit where
  beginEpisode := fun x _ _ => some (x, [])
  endEpisode := fun x _ _ => some (x, [])
  beginTimeStep := fun x _ _ => some (x, [])
  endTimeStep := fun x _ _ => some (x, [])
  writeOutput := fun x _ _ => some (x, [])
  advanceTimeLevel := fun x _ _ => some (x, [])
  writeRestart := fun x _ _ => some (x, [])
  finalize := fun x _ _ => some (x, [])
  nextTimeStepSize := fun _ _ s => s.dt
  forcedTimeSteps := []

def clock (dt : ℚ) : Sim ℚ := ⟨0, 0, 100, dt, 0, 0, 0, 100, false⟩

/-- The linear solver works for steps of at most one half and makes an error of a thousandth. -/
def rough : Numerics ℚ ℚ ℚ ℚ Unit 1 :=
  numerics (fun dt => dt ≤ 1 / 2) (fun dt s i => if i = 0 then s 0 - exact dt s 0 - 1 / 1000 else s i - exact dt s i) (1 / 100) false

def conf (n : ℕ) : Conf ℚ (St ℚ Unit) := run (problem twoCells rough idle) n (start (clock 1) ⟨(), fun i => i, fun i => i⟩)

instance (f : Physics ℚ ℚ ℚ Unit Unit 1) (q : Numerics ℚ ℚ ℚ ℚ Unit 1) (own : Unit) (dt : ℚ) (s : ℕ → ℚ) : Decidable (Unsettled f q own dt s) := by
  unfold Unsettled; infer_instance

/-- Two time steps: the first attempt of the first one fails; all hypotheses are met, and the balance is not exact. -/
example :
    (∀ j < 15, Integrates (problem twoCells rough idle) (conf j) →
      Unsettled twoCells rough (conf j).prob.own (conf (j + 1)).sim.dt (conf j).prob.sol0) ∧
    ((List.range 15).filter fun j => Integrates (problem twoCells rough idle) (conf j)) = [3, 11] ∧
    (conf 15).sim.time = 1 ∧ (conf 4).sim.dt = 1 / 2 ∧ (conf 12).sim.dt = 1 / 2 ∧
    amount twoCells (conf 0).prob.sol0 0 = 1 ∧ amount twoCells (conf 15).prob.sol0 0 = 1272431 / 729000 ∧
    supply twoCells () (1 / 2) (conf 4).prob.sol0 0 = 1 - 7 / 27 ∧
    (1272431 / 729000 : ℚ) - 1 ≠
      1 / 2 * supply twoCells () (1 / 2) (conf 4).prob.sol0 0 + 1 / 2 * supply twoCells () (1 / 2) (conf 12).prob.sol0 0 := by
  decide +kernel

example : Conservative twoCells id ∧ rough.continueOnError = false ∧ 0 ≤ rough.tolerance ∧
    (∀ i < twoCells.numCells, 0 < twoCells.volume i) ∧ (∀ i < twoCells.numCells, ∀ k : Fin 1, 0 < rough.weight i k) := by
  refine ⟨twoCells_conservative, rfl, by norm_num [rough, numerics], fun i _ => by norm_num [twoCells], fun i _ k => ?_⟩
  simp only [rough, numerics]
  positivity

/-! ### What is missing -/

/-- One cell with the source `g`. -/
def oneCell (g : ℚ → ℚ) : Physics ℚ ℚ ℚ Unit Unit 1 where
  numCells := 1
  nb := fun _ => []
  area := fun _ => 1
  volume := fun _ => 1
  storage := fun _ x => (fun _ => x, 1)
  flux := fun _ _ _ _ _ _ => (fun _ => 0, 0)
  source := fun _ _ s i => (fun _ => g (s i), 0)
  boundary := fun _ _ _ => []

theorem oneCell_conservative (g : ℚ → ℚ) : Conservative (oneCell g) id := by
  intro own dt s
  refine ⟨?_, ?_, ?_, ?_, ?_⟩ <;> simp [net, oneCell]

/-- The balance of a whole run as in `C160_balance_partial`. -/
def Balanced (f : Physics ℚ ℚ ℚ Unit Unit 1) (q : Numerics ℚ ℚ ℚ ℚ Unit 1) (sim : Sim ℚ) (s0 : ℕ → ℚ) (n : ℕ) : Prop :=
  let c : ℕ → Conf ℚ (St ℚ Unit) := fun j => run (problem f q idle) j (start sim ⟨(), s0, s0⟩)
  let steps := (List.range n).filter fun j => Integrates (problem f q idle) (c j)
  |amount f (c n).prob.sol0 0 - amount f s0 0
      - (steps.map fun j => (c (j + 1)).sim.dt * supply f () (c (j + 1)).sim.dt (c (j + 1)).prob.sol0 0).sum|
    ≤ (steps.map fun j => |(c (j + 1)).sim.dt| * ((List.range f.numCells).map fun i => q.tolerance / q.weight i 0).sum).sum

instance (f : Physics ℚ ℚ ℚ Unit Unit 1) (q : Numerics ℚ ℚ ℚ ℚ Unit 1) (sim : Sim ℚ) (s0 : ℕ → ℚ) (n : ℕ) : Decidable (Balanced f q sim s0 n) := by
  unfold Balanced; infer_instance

/-- Without the hypothesis that steps begin at a solution which does not meet the tolerance yet, the balance is FALSE, even with the exact
Newton method: the residual of one step is `x² + 1/10`, which is less than the tolerance of 1/5 for the initial solution; the Newton
method makes one update all the same, never looks at the residual of the result, which is 121/400, and reports success. -/
theorem C160_balance_violated :
    ∃ g u, Conservative (oneCell g) id ∧ ¬ Balanced (oneCell g) (numerics (fun _ => true) u (1 / 5) false) (clock 1) (fun _ => 1 / 10) 4 := by
  refine ⟨fun x => x - 1 / 10 - (x * x + 1 / 10), fun _ s i => (s i * s i + 1 / 10) / (2 * s i), oneCell_conservative _, ?_⟩
  decide +kernel

/-- If the simulation is told to continue after the Newton method failed, the balance is FALSE although every step begins at a solution
which does not meet the tolerance: the solution of the previous time level is kept, while the source supplies something. -/
theorem C160_continue_violated :
    ∃ g u, Conservative (oneCell g) id ∧
      (∀ dt s, 0 < dt → Unsettled (oneCell g) (numerics (fun _ => false) u (1 / 5) true) () dt s) ∧
      ¬ Balanced (oneCell g) (numerics (fun _ => false) u (1 / 5) true) (clock (1 / 100)) (fun _ => 3) 4 := by
  refine ⟨fun _ => 1, fun _ _ _ => 0, oneCell_conservative _, fun dt s hdt => ?_, ?_⟩
  · refine ⟨0, by norm_num [oneCell], 0, ?_⟩
    simp [imbalance, oneCell, numerics]
    norm_num
  · decide +kernel

/-- The steps of both examples are there. -/
example : ¬ Balanced (oneCell fun _ => 1) (numerics (fun _ => false) (fun _ _ _ => 0) (1 / 5) true) (clock (1 / 100)) (fun _ => 3) 4 ∧
    Balanced (oneCell fun _ => 1) (numerics (fun _ => true) (fun dt _ i => if i = 0 then -dt else 0) (1 / 5) false) (clock 1) (fun _ => 3) 4 := by
  decide +kernel

end Verif.Balance
