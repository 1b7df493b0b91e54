import Verif.ParRest.Spec

set_option autoImplicit false
set_option linter.unusedSectionVars false

namespace Verif.ParRest

open Verif.TimeLoop Verif.Newton Verif.ParNewton Verif.ParSolve.Block Verif.ParSim Verif.Overlap Verif.Rest Verif.ParBalance
open Verif.ParSolve (Enumerates)

variable {P N E : ℕ} {G K V X : Type} [Field K] [LinearOrder K] [IsStrictOrderedRing K] [Inhabited V]
variable {cell : Fin N → G} {task : Task G E K V X} {x : ℕ → V}

/-- The linear solver finds zero. -/
theorem solve_zero (own : X) (dt : K) (mem : Memory K) (h : Stationary task cell (onCells cell fun k => x k)) (ha : Accepts task) :
    Krylov.apply (linearSystem (task.equations own dt (onCells cell fun k => x k)) cell (task.settings own dt mem).solver x)
      (task.settings own dt mem).criterion = .returned true 0 0 := by
  refine C168_zero_combined (P := 0) (n := fun _ => N * E) _ _ _ _ _ _ rfl ?_ rfl (ha own dt mem).1 (ha own dt mem).2
  funext i
  show ((rowAt (task.equations own dt (onCells cell fun k => x k)) cell x (finProdFinEquiv.symm i.2).1).elim 0 fun r => r.1)
    (finProdFinEquiv.symm i.2).2 = 0
  cases hr : rowAt (task.equations own dt (onCells cell fun k => x k)) cell x (finProdFinEquiv.symm i.2).1 with
  | none => rfl
  | some r =>
    obtain ⟨r, J⟩ := r
    have := h own dt _ r J hr
    rw [Option.elim_some, this]
    rfl

theorem env_stays (hE : Function.Injective cell) (own : X) (dt : K) (mem : Memory K)
    (h : Stationary task cell (onCells cell fun k => x k)) (ha : Accepts task) (hn : NoChange task cell (onCells cell fun k => x k))
    (hz : ∀ own dt, (task.equations own dt (onCells cell fun k => x k)).constraint = fun _ => none) :
    Stays (single (task.equations own dt (onCells cell fun k => x k)) cell (task.settings own dt mem)) x := by
  have hcon : ∀ i, (single (task.equations own dt (onCells cell fun k => x k)) cell (task.settings own dt mem)).constraints i = none := fun i => by
    show (if h : i < N then (task.equations own dt (onCells cell fun k => x k)).constraint (cell ⟨i, h⟩) else none) = none
    rw [hz]
    split_ifs <;> rfl
  refine ⟨hcon, fun it u finite hu => ?_⟩
  simp only [single, solve_zero own dt mem h ha, Newton.SolveResult.update.injEq] at hu
  obtain ⟨rfl, -⟩ := hu
  funext i
  unfold updateSolution
  simp only [hcon]
  change (if i < N then (if h : i < N then (task.equations own dt (onCells cell fun k => x k)).update (cell ⟨i, h⟩) (x i)
    (if h : i < N then block (0 : (Σ _ : Fin (0 + 1), Fin (N * E)) → K) ⟨i, h⟩ else 0) else x i) else if i < N then x i else x i) = x i
  by_cases hi : i < N
  · rw [if_pos hi, dif_pos hi, dif_pos hi]
    have := hn own dt ⟨i, hi⟩
    rw [onCells_cell hE] at this
    exact this
  · rw [if_neg hi, if_neg hi]

/-- The solver keeps the solution `x`. -/
def Keeps {S : Type} (solver : Solver K S) (x : S) : Prop :=
  ∀ dt mem, (solver dt mem x x).1 = .thrown x ∨ ∃ b, (solver dt mem x x).1 = .returned x b

theorem one_keeps (hE : Function.Injective cell) (own : X) (fuel : ℕ) (h : Stationary task cell (onCells cell fun k => x k))
    (ha : Accepts task) (hn : NoChange task cell (onCells cell fun k => x k))
    (hz : ∀ own dt, (task.equations own dt (onCells cell fun k => x k)).constraint = fun _ => none) :
    Keeps (oneSolver (fun dt mem old =>
      single (task.equations own dt (onCells cell fun k => old k)) cell (task.settings own dt mem)) fuel) x := by
  intro dt mem
  unfold oneSolver
  cases he : Newton.apply (single (task.equations own dt (onCells cell fun k => x k)) cell (task.settings own dt mem)) x mem.error
      mem.lastError fuel with
  | none => exact Or.inl rfl
  | some r =>
    obtain ⟨o, st⟩ := r
    have := loop_stays (env_stays hE own dt mem h ha hn hz) fuel ⟨x, mem.error, mem.lastError, 0⟩ rfl o st he
    cases o
    · exact Or.inr ⟨true, by simp only [this]⟩
    · exact Or.inr ⟨false, by simp only [this]⟩
    · exact Or.inl (by simp only [this])

theorem attempts_keeps {S : Type} {solver : Solver K S} {x : S} (hk : Keeps solver x) (minDt : K) (cont : Bool) (n : ℕ) :
    ∀ (st : TimeInt.St K S) (mem : Memory K), st.sol0 = x → st.sol1 = x →
      (attempts minDt cont solver n st mem).2.1.sol0 = x ∧ (attempts minDt cont solver n st mem).2.1.sol1 = x := by
  induction n with
  | zero => intro st mem h0 h1; exact ⟨h0, h1⟩
  | succ n ih =>
    intro st mem h0 h1
    rw [attempts, update]
    rcases hs : solver st.dt mem st.sol0 st.sol1 with ⟨r, m'⟩
    have hr := hk st.dt mem
    rw [← h0] at hr
    nth_rw 2 [h0] at hr
    nth_rw 4 [h0] at hr
    rw [← h1, hs] at hr
    simp only at hr
    rcases hr with rfl | ⟨b, rfl⟩
    · exact ⟨h0, h1⟩
    · cases b
      · simp only
        split
        · split <;> exact ⟨h1, h1⟩
        · exact ih _ _ h1 h1
      · exact ⟨h0, h1⟩

theorem step_keeps {S : Type} {solver : X → Solver K S} {h : Hooks K S X} {x : S} (hk : ∀ own, Keeps (solver own) x)
    (c : Conf K (ParSim.St K S X)) (hc : c.prob.sol0 = x ∧ c.prob.sol1 = x) :
    (step (problem solver h) c).prob.sol0 = x ∧ (step (problem solver h) c).prob.sol1 = x := by
  cases hpc : c.pc <;> simp only [step, hpc]
  case integrate =>
    have := attempts_keeps (hk c.prob.own) h.minDt h.continueOnError h.maxFails ⟨c.prob.sol0, c.prob.sol1, c.sim.dt⟩ c.prob.memory hc.1 hc.2
    cases ht : (problem solver h).timeIntegration c.prob c.sim with
    | none => exact hc
    | some r =>
      obtain ⟨p, d⟩ := r
      simp only [problem] at ht
      split at ht
      · next e => rw [e] at this; cases ht; exact this
      · next e => rw [e] at this; cases ht; exact this
      · cases ht
      · cases ht
  case head => split <;> (try split) <;> exact hc
  case select => exact hc
  case advance =>
    simp only [call, problem]
    split
    · exact hc
    · next p cmds hp =>
      simp only [Option.map_eq_some_iff, Prod.mk.injEq] at hp
      obtain ⟨r, -, rfl, rfl⟩ := hp
      try split
      all_goals exact ⟨hc.1, hc.1⟩
  all_goals first | exact hc | skip
  all_goals
    simp only [call, problem, lift]
    split
    · exact hc
    · next p cmds hp =>
      simp only [Option.map_eq_some_iff, Prod.mk.injEq] at hp
      obtain ⟨r, -, rfl, rfl⟩ := hp
      try split
      all_goals exact hc

theorem run_keeps {S : Type} {solver : X → Solver K S} {h : Hooks K S X} {x : S} (hk : ∀ own, Keeps (solver own) x) (sim : Sim K) (own : X)
    (mem : Memory K) (n : ℕ) : (run (problem solver h) n (start sim ⟨own, x, x, mem⟩)).prob.sol0 = x ∧
      (run (problem solver h) n (start sim ⟨own, x, x, mem⟩)).prob.sol1 = x := by
  induction n with
  | zero => exact ⟨rfl, rfl⟩
  | succ n ih => rw [ParBalance.run_succ]; exact step_keeps hk _ ih

/-- The residual at the start is zero. -/
theorem error_rest (own : X) (dt : K) (mem : Memory K) (h : Stationary task cell (onCells cell fun k => x k)) :
    computeError (single (task.equations own dt (onCells cell fun k => x k)) cell (task.settings own dt mem))
      (fun i => if h : i < N then List.ofFn fun j => .num ((rowAt (task.equations own dt (onCells cell fun k => x k)) cell x ⟨i, h⟩).elim 0
        (fun r => r.1) j) else []) = .num 0 := by
  have hall : ∀ y ∈ entries (single (task.equations own dt (onCells cell fun k => x k)) cell (task.settings own dt mem))
      (fun i => if h : i < N then List.ofFn fun j => Fl.num ((rowAt (task.equations own dt (onCells cell fun k => x k)) cell x ⟨i, h⟩).elim 0
        (fun r => r.1) j) else []), y = .num 0 := by
    intro y hy
    obtain ⟨d, hd, j, z, hz, rfl⟩ := (mem_entries _ _ _).1 hy
    split at hz
    · next hd' =>
      rw [List.getElem?_eq_some_iff] at hz
      obtain ⟨hj, rfl⟩ := hz
      have hzero : ∀ m, (rowAt (task.equations own dt (onCells cell fun k => x k)) cell x ⟨d, hd'⟩).elim 0 (fun r => r.1) m = 0 := by
        intro m
        cases hr : rowAt (task.equations own dt (onCells cell fun k => x k)) cell x ⟨d, hd'⟩ with
        | none => rfl
        | some r =>
          obtain ⟨r, J⟩ := r
          rw [Option.elim_some, h own dt _ r J hr]
          rfl
      simp only [List.getElem_ofFn, Fl.scale, hzero, zero_mul]
    · simp at hz
  rw [computeError_eq]
  obtain ⟨b, h1, -, -, h4⟩ := foldl_max_defined (entries (single (task.equations own dt (onCells cell fun k => x k)) cell
      (task.settings own dt mem)) (fun i => if h : i < N then List.ofFn fun j =>
        Fl.num ((rowAt (task.equations own dt (onCells cell fun k => x k)) cell x ⟨i, h⟩).elim 0 (fun r => r.1) j) else []))
    (fun x hx => by rw [hall x hx]; simp) 0
  rw [h1]
  rcases h4 with rfl | ⟨z, hz, rfl⟩
  · rfl
  · have := hall _ hz
    cases this; simp

theorem one_rest (hE : Function.Injective cell) (own : X) (dt : K) (mem : Memory K) (h : Stationary task cell (onCells cell fun k => x k))
    (ha : Accepts task) (hn : NoChange task cell (onCells cell fun k => x k)) {maxFails : ℕ}
    (hw : Works task cell (onCells cell fun k => x k) maxFails)
    (hz : ∀ own dt, (task.equations own dt (onCells cell fun k => x k)).constraint = fun _ => none) (hdt : dt ≠ 0) :
    (oneSolver (fun dt mem old => single (task.equations own dt (onCells cell fun k => old k)) cell (task.settings own dt mem)) task.fuel
      dt mem x x).1 = .returned x true := by
  obtain ⟨n, hf⟩ := Nat.exists_eq_add_of_le hw.fuel
  have hl : (single (task.equations own dt (onCells cell fun k => x k)) cell (task.settings own dt mem)).linearize 0 x =
      .residual fun i => if h : i < N then List.ofFn fun j =>
        .num ((rowAt (task.equations own dt (onCells cell fun k => x k)) cell x ⟨i, h⟩).elim 0 (fun r => r.1) j) else [] := by
    simp only [single]
    rw [if_pos]
    exact fun k => hw.row own dt k hdt
  have hs : (single (task.equations own dt (onCells cell fun k => x k)) cell (task.settings own dt mem)).solve 0 x =
      .update (fun i => if h : i < N then block (0 : (Σ _ : Fin (0 + 1), Fin (N * E)) → K) ⟨i, h⟩ else 0) true := by
    simp only [single, solve_zero own dt mem h ha]
  have := apply_rest (env_stays hE own dt mem h ha hn hz) mem.error mem.lastError n _ _ (hw.beginIteration own dt mem) hl
    (error_rest own dt mem h) (hw.maxError own dt mem) hs (hw.endIteration own dt mem) (hw.tolerance own dt mem)
  unfold oneSolver
  rw [hf, Nat.add_comm, this]

theorem step_rest {S : Type} {solver : X → Solver K S} {x : S}
    (hr : ∀ own dt mem, dt ≠ 0 → (solver own dt mem x x).1 = .returned x true) (h : Hooks K S X) (hf : 1 ≤ h.maxFails)
    (c : Conf K (ParSim.St K S X)) (h0 : c.prob.sol0 = x) (h1 : c.prob.sol1 = x) (hpc : c.pc = .integrate) (hdt : c.sim.dt ≠ 0) :
    (step (problem solver h) c).pc = .endStep ∧ (step (problem solver h) c).sim = c.sim := by
  obtain ⟨n, hn⟩ := Nat.exists_eq_add_of_le hf
  have hs := hr c.prob.own c.sim.dt c.prob.memory hdt
  rcases hq : solver c.prob.own c.sim.dt c.prob.memory x x with ⟨r, m⟩
  rw [hq] at hs
  simp only at hs
  subst hs
  have ht : (problem solver h).timeIntegration c.prob c.sim = some (⟨c.prob.own, x, x, m⟩, c.sim.dt) := by
    simp only [problem]
    rw [hn, Nat.add_comm, attempts, update, h0, h1, hq]
  rw [step, hpc]
  simp only [ht]
  exact ⟨trivial, trivial⟩

end Verif.ParRest
