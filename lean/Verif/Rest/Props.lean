import Verif.Rest.Lemmas
import Verif.Flux.BoundaryProps
import Verif.Krylov.Model

set_option autoImplicit false
set_option linter.unusedSectionVars false
/-
C168: a simulation which begins in equilibrium stays there.
-/
namespace Verif.Rest

open Verif.TimeLoop Verif.Balance Verif.Flux

variable {K PV W M C X : Type} {m : ℕ} [Field K] [LinearOrder K] [IsStrictOrderedRing K] [AddCommGroup M] [Module K M]

/-- **C168** A simulation which begins in a stationary state stays in it, at both time levels and whatever the time step sizes, callbacks,
failures and retries are, if the linear solver solves systems without right hand side by zero, and updates by zero change nothing. -/
theorem C168_stationary (f : Physics K PV M C X m) (q : Numerics K PV W M X m) (h : Hooks K PV X) (zero : W) (s : ℕ → PV)
    (hs : Stationary f s) (hz : ZeroForZero f q zero) (hn : NoChange f q zero s) (sim : Sim K) (own : X) (n : ℕ) :
    (run (problem f q h) n (start sim ⟨own, s, s⟩)).prob.sol0 = s ∧ (run (problem f q h) n (start sim ⟨own, s, s⟩)).prob.sol1 = s :=
  run_fine (G := fun x => x = s) (fun own => solver_stays hs hz hn own) h sim ⟨own, s, s⟩ ⟨rfl, rfl⟩ n

/-- **C168** If nothing fails in this state, then every time integration of such a simulation succeeds with the time step size it was
started with, unless that is zero. -/
theorem C168_first_attempt (f : Physics K PV M C X m) (q : Numerics K PV W M X m) (h : Hooks K PV X) (zero : W) (s : ℕ → PV)
    (hs : Stationary f s) (hz : ZeroForZero f q zero) (hn : NoChange f q zero s) (hw : Works f q s) (sim : Sim K) (own : X) (n : ℕ) :
    let c := run (problem f q h) n (start sim ⟨own, s, s⟩)
    c.pc = .integrate → c.sim.dt ≠ 0 → (step (problem f q h) c).pc = .endStep ∧ (step (problem f q h) c).sim.dt = c.sim.dt := by
  intro c hpc hdt
  obtain ⟨h0, h1⟩ := C168_stationary f q h zero s hs hz hn sim own n
  obtain ⟨k, hk⟩ := Nat.exists_eq_add_of_le hw.attempts
  have ht : (problem f q h).timeIntegration c.prob c.sim = some (c.prob, c.sim.dt) := by
    have e0 : c.prob.sol0 = s := h0
    have e1 : c.prob.sol1 = s := h1
    have hr := solver_rest hs hz hn hw c.prob.own 0 c.sim.dt hdt
    have : TimeInt.timeIntegration q.maxFails q.minDt q.continueOnError (solver f q c.prob.own) ⟨c.prob.sol0, c.prob.sol1, c.sim.dt⟩ =
        ⟨.converged, ⟨s, s, c.sim.dt⟩, [c.sim.dt]⟩ := by
      rw [hk, Nat.add_comm, e0, e1]
      simp only [TimeInt.timeIntegration, TimeInt.attempts, TimeInt.update, hr]
    simp only [problem, this, Option.some.injEq, Prod.mk.injEq, and_true]
    rw [← e0]
    conv_rhs => rw [show c.prob = ⟨c.prob.own, c.prob.sol0, c.prob.sol1⟩ from rfl, e1, ← e0]
  simp [step, hpc, ht]

/-- **C168** Fluids which are at rest in a reservoir whose cells exchange them with the transmissibility based fluxes, and with fluids at
openings of its boundary, are in a stationary state: any number of phases and components, compressible or not, any grid. -/
theorem C168_hydrostatic {ι : Type} [Fintype ι] (r : Reservoir K PV C ι m) (g : K) (s : ℕ → PV) (hs : r.Hydrostatic g s) :
    Stationary (M := M) (X := X) (r.physics g) s := by
  intro own dt i hi k
  have e1 : ∀ e ∈ r.nb i, r.area e.2 * (∑ p, transContentFlux g (r.trans e.2) (r.cell p i (s i)) (r.cell p e.1 (s e.1))
      (r.content p (s i) k) (r.content p (s e.1) k)) = 0 := by
    intro e he
    rw [Finset.sum_eq_zero, mul_zero]
    intro p _
    exact C83_transmissibility _ _ _ _ _ _ (hs.cells p i hi e he)
  have e2 : ∀ o ∈ r.openings, ∀ p, r.openingFlux g s o p k = 0 := by
    intro o ho p
    unfold Reservoir.openingFlux
    rw [C167_hydrostatic _ _ _ _ _ (hs.openings p o ho), zero_mul]
  have z1 : ((r.nb i).map fun e => r.area e.2 * (∑ p, transContentFlux g (r.trans e.2) (r.cell p i (s i)) (r.cell p e.1 (s e.1))
      (r.content p (s i) k) (r.content p (s e.1) k))).sum = 0 := by
    rw [List.map_congr_left e1]
    simp
  simp only [Reservoir.physics, Pi.zero_apply, mul_zero]
  rw [z1, zero_add]
  refine List.sum_eq_zero fun x hx => ?_
  simp only [List.mem_map, List.mem_filter] at hx
  obtain ⟨b, ⟨⟨o, ho, rfl⟩, -⟩, rfl⟩ := hx
  simp only
  rw [Finset.sum_eq_zero fun p _ => e2 o ho p, mul_zero]

/-- A fluid of constant density is at rest if its pressure grows linearly with depth. -/
theorem C168_constant_density {ι : Type} [Fintype ι] (r : Reservoir K PV C ι m) (g : K) (s : ℕ → PV) (p0 rho : ι → K)
    (hc : ∀ p i, (r.cell p i (s i)).density = rho p ∧ (r.cell p i (s i)).pressure = p0 p + rho p * g * (r.cell p i (s i)).z)
    (ho : ∀ p, ∀ o ∈ r.openings, (o.fluid p).density = rho p ∧ (o.fluid p).pressure = p0 p + rho p * g * o.z) : r.Hydrostatic g s := by
  constructor
  · intro p i _ e _
    rw [(hc p i).1, (hc p i).2, (hc p e.1).1, (hc p e.1).2]; ring
  · intro p o h
    rw [(hc p o.cell).1, (hc p o.cell).2, (ho p o h).1, (ho p o h).2]; ring

/-- **C168** A simulation which begins with fluids at rest changes nothing. -/
theorem C168_rest {ι : Type} [Fintype ι] (r : Reservoir K PV C ι m) (g : K) (s : ℕ → PV) (hs : r.Hydrostatic g s)
    (q : Numerics K PV W M X m) (h : Hooks K PV X) (zero : W) (hz : ZeroForZero (r.physics g) q zero) (hn : NoChange (r.physics g) q zero s)
    (sim : Sim K) (own : X) (n : ℕ) : (run (problem (r.physics g) q h) n (start sim ⟨own, s, s⟩)).prob.sol0 = s :=
  (C168_stationary (r.physics g) q h zero s (C168_hydrostatic r g s hs) hz hn sim own n).1

/-! ### The linear solver -/

section
variable {I S : Type} [DecidableEq I]
open Krylov Criteria

/-- **C168** The stabilized bi-conjugate gradient solver solves a system without right hand side by zero, without any iteration, if the
reduction of the two-norm is its criterion, whatever operator and preconditioner are. -/
theorem C168_zero_reduction (sys : Krylov.System I K (ReductionState K)) (norm : (I → K) → K) (tiny tolerance : K) (st : ReductionState K)
    (hc : sys.criterion = residReduction norm tiny tolerance) (hr : sys.rhs = 0) (hp : sys.pre 0 0 = (0, 0)) (h0 : norm 0 = 0)
    (ht : 0 ≤ tolerance) : Krylov.apply sys st = .returned true 0 0 := by
  have hp' : sys.pre (fun _ => 0) sys.rhs = (0, 0) := by rw [hr]; exact hp
  unfold Krylov.apply Krylov.start
  simp only [hp', hc, residReduction, h0, zero_div, ht, decide_true, if_true]

/-- **C168** The same for the maximum of the residual, which is the criterion of the default solver. -/
theorem C168_zero_combined {P : ℕ} {n : Fin (P + 1) → ℕ} (sys : Krylov.System (Σ p : Fin (P + 1), Fin (n p)) K (CombinedState K))
    (tiny red absTol maxRes : K) (st : CombinedState K) (hc : sys.criterion = combined tiny red absTol maxRes) (hr : sys.rhs = 0)
    (hp : sys.pre 0 0 = (0, 0)) (hti : 0 ≤ tiny) (ht : tiny ≤ red / 10 ^ 20) : Krylov.apply sys st = .returned true 0 0 := by
  have hp' : sys.pre (fun _ => 0) sys.rhs = (0, 0) := by rw [hr]; exact hp
  have hloop : ∀ p, (combinedLoop (n := n) (0 : Criteria.Vec P n K) 0 p).1 = 0 := by
    intro p
    unfold combinedLoop
    have : ∀ (l : List (Fin (n p))) (b : Bool), (l.foldl (fun (st : K × Bool) i =>
        (max st.1 |(0 : Criteria.Vec P n K) ⟨p, i⟩|, if st.2 && decide ((0 : Criteria.Vec P n K) ⟨p, i⟩ ≠ 0) then false else st.2)) (0, b)).1 = 0 := by
      intro l
      induction l with
      | nil => intro b; rfl
      | cons a l ih => intro b; rw [List.foldl_cons, show max (0, b).1 |(0 : Criteria.Vec P n K) ⟨p, a⟩| = (0 : K) by simp]; exact ih _
    exact this _ _
  have hmax : commMax (fun p => (combinedLoop (n := n) (0 : Criteria.Vec P n K) 0 p).1) = 0 := by
    simp only [hloop, commMax, Finset.sup'_const]
  have hred : tiny / max (1 / 10 ^ 20) tiny ≤ red := by
    have hpos : (0 : K) < max (1 / 10 ^ 20) tiny := lt_of_lt_of_le (by positivity) (le_max_left _ _)
    rw [div_le_iff₀ hpos]
    have hr0 : 0 ≤ red := by
      have h1 : 0 ≤ red / 10 ^ 20 := le_trans hti ht
      have h2 : (0 : K) < 10 ^ 20 := by positivity
      have h3 := mul_nonneg h1 h2.le
      rwa [div_mul_cancel₀ _ h2.ne'] at h3
    calc tiny ≤ red / 10 ^ 20 := ht
      _ = red * (1 / 10 ^ 20) := by ring
      _ ≤ red * max (1 / 10 ^ 20) tiny := mul_le_mul_of_nonneg_left (le_max_left _ _) hr0
  unfold Krylov.apply Krylov.start
  simp only [hp', hc]
  rw [if_pos]
  simp only [combined, combinedUpdateErrors, hmax, combinedConverged, residualReduction, max_eq_right hti]
  exact Bool.or_eq_true_iff.2 (Or.inl (decide_eq_true hred))

/-- "The linear solver solves systems without right hand side" is FALSE with the criterion which looks at the difference between
successive solutions: the solver throws in its first iteration, whatever operator and preconditioner are. -/
theorem C168_fixpoint_violated {P : ℕ} {n : Fin (P + 1) → ℕ}
    (sys : Krylov.System (Σ p : Fin (P + 1), Fin (n p)) K (FixPointState (Criteria.Vec P n K) K))
    (weights : Option (Criteria.Vec P n K)) (tolerance : K) (st : FixPointState (Criteria.Vec P n K) K)
    (hc : sys.criterion = fixPoint weights tolerance) (hr : sys.rhs = 0) (hp : sys.pre 0 0 = (0, 0)) (hd : ∀ v, sys.dot 0 v = 0)
    (ht : 0 < tolerance) (he : 0 ≤ sys.breakdownEps) (hi : 0 < sys.maxIterations) : Krylov.apply sys st = .breakdown 0 := by
  have hp' : sys.pre (fun _ => 0) sys.rhs = (0, 0) := by rw [hr]; exact hp
  obtain ⟨k, hk⟩ := Nat.exists_eq_add_of_le hi
  unfold Krylov.apply Krylov.start
  simp only [hp', hc]
  rw [if_neg]
  · rw [hk, Nat.add_comm (Nat.succ 0) k, Krylov.loop]
    unfold Krylov.body
    simp only [hr, hd, abs_zero, he, if_true]
    split_ifs <;> rfl
  · simp only [fixPoint, decide_eq_true_eq, not_lt]
    linarith

end

/-! ### Cases -/

/-- Two cells, one above the other, and an opening at the top; the unknown is the pressure of water of density one. -/
def twoCells : Reservoir ℚ ℚ Unit (Fin 1) 1 :=
  { numCells := 2, nb := fun i => if i = 0 then [(1, ())] else if i = 1 then [(0, ())] else [], area := fun _ => 1, volume := fun _ => 2
    trans := fun _ => 3, storage := fun _ v _ => 1 + v / 1000, cell := fun _ i v => ⟨2, i, i, v, 1, 1⟩, content := fun _ _ _ => 1
    openings := [⟨1, 1, 6, 3/2, fun _ => ⟨85, 1, 1, 1⟩, fun _ _ => 1⟩] }

/-- Pressures 100 and 90, with a gravity of 10. -/
def twoPressures : ℕ → ℚ := fun i => 100 - 10 * i

theorem twoCells_hydrostatic : twoCells.Hydrostatic (-10) twoPressures := by
  refine C168_constant_density twoCells (-10) twoPressures (fun _ => 100) (fun _ => 1) (fun p i => ⟨rfl, ?_⟩) (fun p o ho => ?_)
  · simp only [twoCells, twoPressures]; ring
  · simp only [twoCells, List.mem_singleton] at ho
    subst ho
    exact ⟨rfl, by norm_num⟩

/-- A solver which answers with zero if the residual vanishes, and with the difference to the equilibrium otherwise. -/
def twoNumerics : Numerics ℚ ℚ ℚ Unit Unit 1 :=
  { weight := fun _ _ => 1, tolerance := 1/100
    base := fun own _ dt old =>
      { numGridDof := 0, numTotalDof := 0, volume := fun _ => 0, weight := fun _ _ => 0, constraints := fun _ => none,
        beginIterationOk := fun _ => true, endIterationOk := fun _ => true, linearize := fun _ _ => .caught,
        solve := fun _ s => .update (fun i => if ∀ i < 2, ∀ k, imbalance (M := Unit) (twoCells.physics (-10)) own dt s old i k = 0 then 0
          else s i - twoPressures i) true,
        updatePrimaryVariables := fun _ x w => x - w, subtract := fun x w => x - w, tolerance := 0, maxError := 100, maxIterations := 10,
        targetIterations := 5 }
    leftError := fun _ _ _ _ => .nan, leftLastError := fun _ _ _ _ => .nan, failure := fun _ _ _ _ _ _ => none,
    system := fun _ _ _ _ _ => ⟨fun _ => 0, fun _ _ => 0⟩, fuel := 5, maxFails := 3, minDt := 1/100, continueOnError := false }

theorem twoNumerics_zero : ZeroForZero (twoCells.physics (-10)) twoNumerics 0 := by
  intro own attempt dt old it s u finite h hu i hi
  simp only [twoNumerics, Newton.SolveResult.update.injEq] at hu
  rw [← hu.1]
  exact if_pos h

theorem twoNumerics_none : NoChange (twoCells.physics (-10)) twoNumerics 0 twoPressures :=
  fun _ _ _ _ i _ => sub_zero (twoPressures i)

theorem twoNumerics_works : Works (M := Unit) (X := Unit) (twoCells.physics (-10)) twoNumerics twoPressures :=
  ⟨fun _ _ _ _ => rfl, fun _ _ _ _ => rfl, fun _ _ _ _ => rfl, fun _ _ _ _ => ⟨_, rfl⟩, fun _ _ _ => by norm_num [twoNumerics],
    by norm_num [twoNumerics], by norm_num [twoNumerics], by norm_num [twoNumerics]⟩

example (h : Hooks ℚ ℚ Unit) (sim : Sim ℚ) (n : ℕ) :
    (run (problem (twoCells.physics (-10)) twoNumerics h) n (start sim ⟨(), twoPressures, twoPressures⟩)).prob.sol0 = twoPressures :=
  C168_rest twoCells (-10) twoPressures twoCells_hydrostatic twoNumerics h 0 twoNumerics_zero twoNumerics_none sim () n

-- the pressures matter: if they are equal, water sinks
example : imbalance (K := ℚ) (M := Unit) (X := Unit) (twoCells.physics (-10)) () 1 (fun _ => 100) (fun _ => 100) 0 0 = -30 := by decide +kernel

end Verif.Rest
