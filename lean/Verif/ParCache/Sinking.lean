import Verif.ParCache.Lemmas
import Mathlib.Tactic.NormNum

/-
Lemmas about the example of `C182_violated`: a quantity which is exchanged quickly between the cells of a row and decreases everywhere.
-/

set_option autoImplicit false
set_option linter.unusedSectionVars false

namespace Verif.ParCache

open Verif.TimeLoop Verif.Newton Verif.ParNewton Verif.ParSolve.Block Verif.ParSim Verif.Overlap
open Verif.ParSolve (Enumerates wide_one row_enumerates)

/-- `dY/dt = -1 - 100 * (sum of the differences to the neighbours)` with the implicit Euler method; the matrix is the identity instead of
the derivative. -/
def sinkEquations (dt : ℚ) (old : ℕ → Blk 2 ℚ) : Equations ℕ 2 ℚ (Blk 2 ℚ) :=
  { rowEquations with
    row := fun c Y => some ((1 / dt) • (Y c - old c) + 1 + (100 : ℚ) • ((rowEquations.stencil c).map fun c' => Y c - Y c').sum,
      fun c' => if c' = c then 1 else 0) }

def sinking : Task ℕ 2 ℚ (Blk 2 ℚ) Unit where
  equations _ dt old := sinkEquations dt old
  settings _ _ _ := rowSettings
  fuel := 2

theorem sinking_local : LocalTask sinking where
  loc _ dt old :=
    { nodup := rowEquations_local.nodup
      self := rowEquations_local.self
      row := fun c X Y h => by
        have hc : X c = Y c := h c (rowEquations_local.self c)
        have hs : ((rowEquations.stencil c).map fun c' => X c - X c') = (rowEquations.stencil c).map fun c' => Y c - Y c' :=
          List.map_congr_left fun c' hc' => by rw [hc, h c' hc']
        simp only [sinking, sinkEquations, hs]
        rw [hc] }
  stencil _ _ _ _ _ _ := rfl
  row _ dt old old' c h := by simp only [sinking, sinkEquations, h]
  volume _ _ _ _ _ _ := rfl
  weight _ _ _ _ _ _ := rfl
  update _ _ _ _ _ _ := rfl

abbrev six : Fin 6 → ℕ := fun k => (k : ℕ)

theorem stencil_lt : ∀ k : Fin 6, ∀ c ∈ rowEquations.stencil k, c < 6 := by decide

/-- The equations of one process for equal values in all cells -/
theorem sink_row (dt : ℚ) (u : Blk 2 ℚ) (x : ℕ → Blk 2 ℚ) (old : ℕ → Blk 2 ℚ) (hx : ∀ k : Fin 6, x k = u) (ho : ∀ k : Fin 6, old k = u)
    (k : Fin 6) : rowAt (sinkEquations dt (onCells six fun k => old k)) six x k = some (1, fun c' => if c' = (k : ℕ) then 1 else 0) := by
  have hcell : ∀ (y : ℕ → Blk 2 ℚ), (∀ k : Fin 6, y k = u) → ∀ c < 6, onCells six (fun k : Fin 6 => y k) c = u := by
    intro y hy c hc
    have := onCells_apply row_enumerates (fun k : Fin 6 => y k) ⟨c, hc⟩
    exact this.trans (hy _)
  simp only [rowAt, sinkEquations]
  have hs : ((rowEquations.stencil (six k)).map fun c' => onCells six (fun j : Fin 6 => x j) (six k) - onCells six (fun j : Fin 6 => x j) c') =
      (rowEquations.stencil (six k)).map fun _ => 0 := by
    refine List.map_congr_left fun c' hc' => ?_
    rw [hcell x hx _ k.2, hcell x hx _ (stencil_lt k c' hc'), sub_self]
  rw [hs, hcell x hx _ k.2, hcell old ho _ k.2]
  have : ((rowEquations.stencil (six k)).map fun _ => (0 : Blk 2 ℚ)).sum = 0 := by simp
  rw [this, sub_self, smul_zero, smul_zero, zero_add, add_zero]

theorem sink_system (eqs : Equations ℕ 2 ℚ (Blk 2 ℚ)) (hst : eqs.stencil = rowEquations.stencil) (x : ℕ → Blk 2 ℚ)
    (hrow : ∀ k : Fin 6, rowAt eqs six x k = some (1, fun c' => if c' = (k : ℕ) then 1 else 0)) :
    linearSystem eqs six rowSettings.solver x = linearSystem rowEquations six rowSettings.solver fun _ => 1 := by
  have h1 : ∀ k : Fin 6, rowAt rowEquations six (fun _ => (1 : Blk 2 ℚ)) k = some (1, fun c' => if c' = (k : ℕ) then 1 else 0) := by
    intro k
    simp only [rowAt, rowEquations]
    rw [onCells_apply row_enumerates (fun _ => (1 : Blk 2 ℚ)) k]
  have hp : product eqs six x = product rowEquations six fun _ => 1 := by
    funext y k
    unfold product
    rw [hrow, h1, hst]
  unfold linearSystem
  simp only [hp, hrow, h1]

/-- One process needs one iteration. -/
theorem sink_single (dt : ℚ) (u : Blk 2 ℚ) (x : ℕ → Blk 2 ℚ) (old : ℕ → Blk 2 ℚ) (hx : ∀ k : Fin 6, x k = u) (ho : ∀ k : Fin 6, old k = u)
    (error lastError : Fl ℚ) : ∃ t, Newton.apply (single (sinkEquations dt (onCells six fun k => old k)) six rowSettings) x
      error lastError 2 = some (.success, t) ∧ t.iterations = 1 ∧ ∀ k : Fin 6, t.sol k = u - 1 := by
  set eqs := sinkEquations dt (onCells six fun k : Fin 6 => old k) with heqs
  have hrow := sink_row dt u x old hx ho
  rw [← heqs] at hrow
  set env := single eqs six rowSettings with henv
  have hcon : ∀ i, env.constraints i = none := fun i => by
    show (if h : i < 6 then none else none) = none
    split_ifs <;> rfl
  have hlin : env.linearize 0 x = .residual fun i => if i < 6 then [.num 1, .num 1] else [] := by
    simp only [henv, single]
    rw [if_pos (fun k => by rw [hrow]; rfl)]
    congr 1
    funext i
    split_ifs with h
    · rw [hrow]; rfl
    · rfl
  obtain ⟨e, he, hy⟩ := computeError_spec env (fun _ => 1) rfl (fun i => if i < 6 then [.num 1, .num 1] else [])
    (fun i hi => by
      have hi' : i < 6 := hi
      simp only [if_pos hi']
      rfl)
  have he1 : e = 1 := by
    refine eq_of_forall_ge_iff fun y => ?_
    rw [hy]
    constructor
    · rintro ⟨-, h⟩
      have := h 0 (by show 0 < 6; decide) ⟨by show (0 : ℚ) < 1; norm_num, hcon 0⟩ 0
      have e : env.weight 0 (0 : Fin 2) = 1 := rfl
      rw [e] at this
      simpa using this
    · intro h
      refine ⟨le_trans (by norm_num) h, fun i hi _ l => ?_⟩
      have hi' : i < 6 := hi
      have e : env.weight i l = 1 := by
        show (if h : i < 6 ∧ (l : ℕ) < 2 then (1 : ℚ) else 0) = 1
        rw [dif_pos ⟨hi', l.2⟩]
      rw [e]
      simpa using h
  subst he1
  have hsys := sink_system eqs rfl x hrow
  have hsolve : env.solve 0 x = .update (fun i => if h : i < 6 then 1 else 0) true := by
    simp only [henv, single, hsys]
    have : Krylov.apply (linearSystem rowEquations six rowSettings.solver fun _ => 1) rowSettings.criterion = .returned true (fun _ => 1) 0 := row_solve
    rw [this]
    rfl
  have happ : applyConstraints env x = x := applyConstraints_none env hcon _
  have hpass : Newton.pass env { sol := x, error := error, lastError := lastError, iterations := 0 } =
      .again { sol := updateSolution env x x (fun i => if h : i < 6 then 1 else 0), error := .num 1, lastError := error
               iterations := 1 } := by
    unfold Newton.pass
    simp only [happ, hlin, he, hsolve]
    have h1 : env.beginIterationOk 0 = true := rfl
    have h2 : (Fl.num env.maxError).lt (.num 1) = false := by
      show decide ((10 : ℚ) < 1) = false
      decide
    have h3 : proceed env { sol := x, error := .num 1, lastError := error, iterations := 0 } = true := rfl
    simp only [h1, h2, h3]
    rfl
  have hconv : ∀ x, converged env { sol := x, error := .num 1, lastError := error, iterations := 1 } = true := by
    intro x
    show decide ((1 : ℚ) ≤ 1) = true
    decide
  refine ⟨{ sol := updateSolution env x x (fun i => if h : i < 6 then 1 else 0), error := .num 1, lastError := error
            iterations := 1 }, ?_, rfl, fun k => ?_⟩
  · unfold Newton.apply Newton.loop
    rw [if_pos (show proceed env _ = true from rfl), hpass]
    simp only
    unfold Newton.loop
    have : proceed env { sol := updateSolution env x x (fun i => if h : i < 6 then 1 else 0), error := .num 1
                         lastError := error, iterations := 1 } = false := by
      unfold proceed
      rw [if_neg (by simp), if_pos (hconv _)]
    rw [this]
    simp only [Bool.false_eq_true, if_false]
    unfold afterLoop
    rw [if_pos (hconv _)]
  · have hk : (k : ℕ) < 6 := k.2
    have hk' : (k : ℕ) < env.numGridDof := hk
    simp only [updateSolution, if_pos hk', hcon]
    show (if h : (k : ℕ) < 6 then x k - (if h : (k : ℕ) < 6 then 1 else 0) else x k) = u - 1
    rw [dif_pos hk, dif_pos hk, hx]

/-- The residual after this iteration -/
theorem sink_row_again (u : Blk 2 ℚ) (x : ℕ → Blk 2 ℚ) (old : ℕ → Blk 2 ℚ) (hx : ∀ k : Fin 6, x k = u - 1) (ho : ∀ k : Fin 6, old k = u)
    (k : Fin 6) : rowAt (sinkEquations 1 (onCells six fun k => old k)) six x k = some (0, fun c' => if c' = (k : ℕ) then 1 else 0) := by
  have hcell : ∀ (u : Blk 2 ℚ) (y : ℕ → Blk 2 ℚ), (∀ k : Fin 6, y k = u) → ∀ c < 6, onCells six (fun k : Fin 6 => y k) c = u := by
    intro u y hy c hc
    have := onCells_apply row_enumerates (fun k : Fin 6 => y k) ⟨c, hc⟩
    exact this.trans (hy _)
  simp only [rowAt, sinkEquations]
  have hs : ((rowEquations.stencil (six k)).map fun c' => onCells six (fun j : Fin 6 => x j) (six k) - onCells six (fun j : Fin 6 => x j) c') =
      (rowEquations.stencil (six k)).map fun _ => 0 := by
    refine List.map_congr_left fun c' hc' => ?_
    rw [hcell _ x hx _ k.2, hcell _ x hx _ (stencil_lt k c' hc'), sub_self]
  rw [hs, hcell _ x hx _ k.2, hcell _ old ho _ k.2]
  have : ((rowEquations.stencil (six k)).map fun _ => (0 : Blk 2 ℚ)).sum = 0 := by simp
  rw [this]
  simp

/-- The settings with another tolerance -/
def fineSettings : Settings ℚ := { rowSettings with tolerance := 1 / 2 }

def fineSinking : Task ℕ 2 ℚ (Blk 2 ℚ) Unit := { sinking with settings := fun _ _ _ => fineSettings }

/-- Then one process needs two iterations. -/
theorem fine_single (u : Blk 2 ℚ) (x : ℕ → Blk 2 ℚ) (old : ℕ → Blk 2 ℚ) (hx : ∀ k : Fin 6, x k = u) (ho : ∀ k : Fin 6, old k = u)
    (error lastError : Fl ℚ) : ∃ t, Newton.apply (single (sinkEquations 1 (onCells six fun k => old k)) six fineSettings) x
      error lastError 2 = some (.success, t) ∧ t.iterations = 2 ∧ ∀ k : Fin 6, t.sol k = u - 1 := by
  set eqs := sinkEquations 1 (onCells six fun k : Fin 6 => old k) with heqs
  have hrow := sink_row 1 u x old hx ho
  rw [← heqs] at hrow
  set env := single eqs six fineSettings with henv
  have hcon : ∀ i, env.constraints i = none := fun i => by
    show (if h : i < 6 then none else none) = none
    split_ifs <;> rfl
  have hlin : ∀ (i : ℕ) (v : ℚ) x, (∀ k : Fin 6, rowAt eqs six x k = some (fun _ => v, fun c' => if c' = (k : ℕ) then 1 else 0)) →
      env.linearize i x = .residual fun i => if i < 6 then [.num v, .num v] else [] := by
    intro i v x hrow
    simp only [henv, single]
    rw [if_pos (fun k => by rw [hrow]; rfl)]
    congr 1
    funext i
    split_ifs with h
    · rw [hrow]; rfl
    · rfl
  have herr : ∀ v : ℚ, 0 ≤ v → computeError env (fun i => if i < 6 then [.num v, .num v] else []) = .num v := by
    intro v hv
    obtain ⟨e, he, hy⟩ := computeError_spec env (fun _ _ => v) rfl (fun i => if i < 6 then [.num v, .num v] else [])
      (fun i hi => by
        have hi' : i < 6 := hi
        simp only [if_pos hi']
        rfl)
    rw [he]
    congr 1
    refine eq_of_forall_ge_iff fun y => ?_
    rw [hy]
    constructor
    · rintro ⟨-, h⟩
      have := h 0 (by show 0 < 6; decide) ⟨by show (0 : ℚ) < 1; norm_num, hcon 0⟩ 0
      have e : env.weight 0 (0 : Fin 2) = 1 := rfl
      rw [e, mul_one, abs_of_nonneg hv] at this
      exact this
    · intro h
      refine ⟨le_trans hv h, fun i hi _ l => ?_⟩
      have hi' : i < 6 := hi
      have e : env.weight i l = 1 := by
        show (if h : i < 6 ∧ (l : ℕ) < 2 then (1 : ℚ) else 0) = 1
        rw [dif_pos ⟨hi', l.2⟩]
      rw [e, mul_one, abs_of_nonneg hv]
      exact h
  have hsys := sink_system eqs rfl x hrow
  have hsolve : env.solve 0 x = .update (fun i => if h : i < 6 then 1 else 0) true := by
    have hsys' : linearSystem eqs six fineSettings.solver x = linearSystem rowEquations six rowSettings.solver fun _ => 1 := hsys
    simp only [henv, single, hsys']
    have : Krylov.apply (linearSystem rowEquations six rowSettings.solver fun _ => 1) fineSettings.criterion = .returned true (fun _ => 1) 0 := row_solve
    rw [this]
    rfl
  have happ : ∀ x, applyConstraints env x = x := fun x => applyConstraints_none env hcon _
  set y := updateSolution env x x (fun i => if h : i < 6 then (1 : Blk 2 ℚ) else 0) with hy
  have hyk : ∀ k : Fin 6, y k = u - 1 := by
    intro k
    have hk : (k : ℕ) < 6 := k.2
    have hk' : (k : ℕ) < env.numGridDof := hk
    simp only [hy, updateSolution, if_pos hk', hcon]
    show (if h : (k : ℕ) < 6 then x k - (if h : (k : ℕ) < 6 then 1 else 0) else x k) = u - 1
    rw [dif_pos hk, dif_pos hk, hx]
  have hpass : Newton.pass env { sol := x, error := error, lastError := lastError, iterations := 0 } =
      .again { sol := y, error := .num 1, lastError := error, iterations := 1 } := by
    unfold Newton.pass
    simp only [happ, hlin 0 1 x hrow, herr 1 zero_le_one, hsolve]
    have h1 : env.beginIterationOk 0 = true := rfl
    have h2 : (Fl.num env.maxError).lt (.num 1) = false := by
      show decide ((10 : ℚ) < 1) = false
      decide
    have h3 : proceed env { sol := x, error := .num 1, lastError := error, iterations := 0 } = true := rfl
    simp only [h1, h2, h3]
    rfl
  have hrow' := sink_row_again u y old hyk ho
  rw [← heqs] at hrow'
  have hconv : ∀ i, converged env { sol := y, error := .num 0, lastError := .num 1, iterations := i } = true := by
    intro i
    show decide ((0 : ℚ) ≤ 1 / 2) = true
    decide +kernel
  have hpass' : Newton.pass env { sol := y, error := .num 1, lastError := error, iterations := 1 } =
      .leave { sol := y, error := .num 0, lastError := .num 1, iterations := 2 } := by
    unfold Newton.pass
    simp only [happ, hlin 1 0 y hrow', herr 0 le_rfl]
    have h1 : env.beginIterationOk 1 = true := rfl
    have h2 : (Fl.num env.maxError).lt (.num 0) = false := by
      show decide ((10 : ℚ) < 0) = false
      decide
    have h3 : proceed env { sol := y, error := .num 0, lastError := .num 1, iterations := 1 } = false := by
      unfold proceed
      rw [if_neg (by simp), if_pos (hconv _)]
    simp only [h1, h2, h3]
    rfl
  refine ⟨{ sol := y, error := .num 0, lastError := .num 1, iterations := 2 }, ?_, rfl, hyk⟩
  unfold Newton.apply Newton.loop
  rw [if_pos (show proceed env _ = true from rfl), hpass]
  simp only
  unfold Newton.loop
  have : proceed env { sol := y, error := .num 1, lastError := error, iterations := 1 } = true := by
    have hc : converged env { sol := y, error := .num 1, lastError := error, iterations := 1 } = false := by
      show decide ((1 : ℚ) ≤ 1 / 2) = false
      decide +kernel
    unfold proceed
    rw [if_neg (by simp), if_neg (by rw [hc]; simp)]
    rfl
  rw [if_pos this, hpass']
  simp only
  unfold afterLoop
  rw [if_pos (hconv _)]

/-- One process fails if the residual of a cell is too large. -/
theorem large_fails (eqs : Equations ℕ 2 ℚ (Blk 2 ℚ)) (hw : eqs.weight = fun _ _ => 1) (hv : eqs.volume = fun _ => 1) (hn : eqs.constraint = fun _ => none)
    (x : ℕ → Blk 2 ℚ)
    (hsome : ∀ k : Fin 6, (rowAt eqs six x k).isSome = true) (k : Fin 6) (hlarge : 10 < |(rowAt eqs six x k).elim 0 (fun r => r.1) 0|)
    (error lastError : Fl ℚ) : ∃ t, Newton.apply (single eqs six rowSettings) x error lastError 1 = some (.failure, t) := by
  set env := single eqs six rowSettings with henv
  have hcon : ∀ i, env.constraints i = none := fun i => by
    show (if h : i < 6 then eqs.constraint (six ⟨i, h⟩) else none) = none
    rw [hn]
    split_ifs <;> rfl
  set rs : ℕ → List (Fl ℚ) := fun i => if h : i < 6 then List.ofFn fun j => .num ((rowAt eqs six x ⟨i, h⟩).elim 0 (fun r => r.1) j) else [] with hrs
  have hlin : env.linearize 0 x = .residual rs := by
    simp only [henv, single]
    rw [if_pos hsome]
  obtain ⟨e, he, hy⟩ := computeError_spec env (fun i => if h : i < 6 then (rowAt eqs six x ⟨i, h⟩).elim 0 (fun r => r.1) else 0)
    rfl rs
    (fun i hi => by
      have hi' : i < 6 := hi
      simp only [hrs, dif_pos hi'])
  have he1 : 10 < e := by
    refine lt_of_lt_of_le hlarge ?_
    have := ((hy e).1 le_rfl).2 k k.2 ⟨by
      show (0 : ℚ) < if h : (k : ℕ) < 6 then eqs.volume (six ⟨k, h⟩) else 0
      rw [dif_pos k.2, hv]
      norm_num, hcon k⟩ 0
    have e1 : env.weight k (0 : Fin 2) = 1 := by
      show (if h : (k : ℕ) < 6 ∧ ((0 : Fin 2) : ℕ) < 2 then eqs.weight _ _ else 0) = 1
      rw [dif_pos ⟨k.2, by decide⟩, hw]
    rw [e1, mul_one, dif_pos k.2] at this
    exact this
  have happ : applyConstraints env x = x := applyConstraints_none env hcon _
  have hpass : ∃ t, Newton.pass env { sol := x, error := error, lastError := lastError, iterations := 0 } = .failure t := by
    unfold Newton.pass
    simp only [happ, hlin, he]
    have h1 : env.beginIterationOk 0 = true := rfl
    have h2 : (Fl.num env.maxError).lt (.num e) = true := by
      show decide ((10 : ℚ) < e) = true
      simpa using he1
    simp only [h1, h2]
    exact ⟨_, rfl⟩
  obtain ⟨t, ht⟩ := hpass
  unfold Newton.apply Newton.loop
  rw [if_pos (show proceed env _ = true from rfl), ht]
  exact ⟨_, rfl⟩

/-! ### The time loop -/

/-- Callbacks which do nothing -/
def idleHooks {S : Type} : Hooks ℚ S Unit where
  beginEpisode own _ _ _ := some (own, [])
  endEpisode own _ _ _ := some (own, [])
  beginTimeStep own _ _ _ := some (own, [])
  endTimeStep own _ _ _ := some (own, [])
  writeOutput own _ _ _ := some (own, [])
  advanceTimeLevel own _ _ _ := some (own, [])
  writeRestart own _ _ _ := some (own, [])
  finalize own _ _ _ := some (own, [])
  nextTimeStepSize _ _ _ _ := 1
  forcedTimeSteps := []
  maxFails := 10
  minDt := 1 / 100
  continueOnError := false

/-- Time steps of size one until the time ten -/
def tenSteps : Sim ℚ :=
  { startTime := 0, time := 0, endTime := 10, dt := 1, timeStepIdx := 0, episodeIdx := 0, episodeStart := 0, episodeLength := 10
    finishedFlag := false }

/-- The clock after the first time step -/
def nineSteps : Sim ℚ := { tenSteps with time := 1, timeStepIdx := 1 }

variable {S : Type}

theorem integrate_returned (solver : Unit → Solver ℚ S) (s0 s1 z : S) (m m' : Memory ℚ) (sim : Sim ℚ) (hdt : sim.dt = 1)
    (h : solver () 1 m s0 s1 = (.returned z true, m')) :
    (problem solver idleHooks).timeIntegration ⟨(), s0, s1, m⟩ sim = some (⟨(), z, s1, m'⟩, 1) := by
  simp only [problem, idleHooks, attempts, update, hdt, h]

theorem attempts_fail (solver : Solver ℚ S) (s : S) (minDt : ℚ) (h : ∀ dt m, ∃ z m', solver dt m s s = (.returned z false, m')) :
    ∀ n dt m, (attempts minDt false solver n ⟨s, s, dt⟩ m).1 = .gaveUp
  | 0, _, _ => rfl
  | n + 1, dt, m => by
    obtain ⟨z, m', hz⟩ := h dt m
    simp only [attempts, update, hz]
    by_cases hc : dt < minDt * (1 + TimeInt.relTol ℚ)
    · rw [if_pos hc, if_neg (by simp)]
    · rw [if_neg hc]
      exact attempts_fail solver s minDt h n _ _

theorem integrate_fails (solver : Unit → Solver ℚ S) (s : S) (m : Memory ℚ) (sim : Sim ℚ)
    (h : ∀ dt m, ∃ z m', solver () dt m s s = (.returned z false, m')) :
    (problem solver idleHooks).timeIntegration ⟨(), s, s, m⟩ sim = none := by
  have := attempts_fail (solver ()) s (1 / 100) h 10 sim.dt m
  simp only [problem, idleHooks]
  cases hr : attempts (1 / 100) false (solver ()) 10 ⟨s, s, sim.dt⟩ m with
  | mk o r =>
    rw [hr] at this
    simp only at this
    subst this
    rfl

/-- The first time step -/
theorem first_step (solver : Unit → Solver ℚ S) (s z : S) (m m' : Memory ℚ) (h : solver () 1 m s s = (.returned z true, m')) :
    (run (problem solver idleHooks) 11 (start tenSteps ⟨(), s, s, m⟩)).pc = .integrate ∧
      (run (problem solver idleHooks) 11 (start tenSteps ⟨(), s, s, m⟩)).prob = ⟨(), z, z, m'⟩ ∧
        (run (problem solver idleHooks) 11 (start tenSteps ⟨(), s, s, m⟩)).sim = nineSteps ∧
          (run (problem solver idleHooks) 4 (start tenSteps ⟨(), s, s, m⟩)).prob.memory = m' ∧
            ∀ j < 11, j ≠ 3 → (run (problem solver idleHooks) j (start tenSteps ⟨(), s, s, m⟩)).pc ≠ .integrate := by
  set Q := problem solver idleHooks with hQ
  have hfin : tenSteps.finished = false := by decide +kernel
  have hfin' : nineSteps.finished = false := by decide +kernel
  have hover : nineSteps.episodeIsOver = false := by decide +kernel
  have hmax : min nineSteps.maxTimeStepSize 1 = 1 := by decide +kernel
  have hint := integrate_returned solver s s z m m' tenSteps rfl h
  rw [← hQ] at hint
  have b1 : ∀ p s, Q.beginEpisode p s = some (p, []) := fun _ _ => rfl
  have b2 : ∀ p s, Q.beginTimeStep p s = some (p, []) := fun _ _ => rfl
  have b3 : ∀ p s, Q.endTimeStep p s = some (p, []) := fun _ _ => rfl
  have b4 : ∀ p s, Q.writeOutput p s = some (p, []) := fun _ _ => rfl
  have b5 : ∀ p s, Q.advanceTimeLevel p s = some ({ p with sol1 := p.sol0 }, []) := fun _ _ => rfl
  have b6 : ∀ p s, Q.writeRestart p s = some (p, []) := fun _ _ => rfl
  have b7 : Q.forcedTimeSteps = [] := rfl
  have b8 : ∀ p s, Q.nextTimeStepSize p s = 1 := fun _ _ => rfl
  have s1 : step Q (start tenSteps ⟨(), s, s, m⟩) = ⟨.beginEp, tenSteps, ⟨(), s, s, m⟩, true, []⟩ := by
    have : (tenSteps.episodeIsOver || decide (tenSteps.timeStepIdx = 0)) = true := by decide +kernel
    simp only [step, start, hfin, this]
    rfl
  have s2 : step Q ⟨.beginEp, tenSteps, ⟨(), s, s, m⟩, true, []⟩ = ⟨.beginStep, tenSteps, ⟨(), s, s, m⟩, false, [.beginEpisode]⟩ := by
    simp [step, call, b1, hfin]
  have s3 : ∀ b t, step Q ⟨.beginStep, tenSteps, ⟨(), s, s, m⟩, b, t⟩ = ⟨.integrate, tenSteps, ⟨(), s, s, m⟩, b, t ++ [.beginTimeStep]⟩ := by
    intro b t
    simp [step, call, b2, hfin]
  have s4 : ∀ b t, step Q ⟨.integrate, tenSteps, ⟨(), s, s, m⟩, b, t⟩ = ⟨.endStep, tenSteps, ⟨(), z, s, m'⟩, b, t ++ [.integrated tenSteps 1]⟩ := by
    intro b t
    simp only [step, hint]
    rfl
  have s5 : ∀ b t, step Q ⟨.endStep, tenSteps, ⟨(), z, s, m'⟩, b, t⟩ = ⟨.output, tenSteps, ⟨(), z, s, m'⟩, b, t ++ [.endTimeStep]⟩ := by
    intro b t
    simp [step, call, b3]
  have s6 : ∀ b t, step Q ⟨.output, tenSteps, ⟨(), z, s, m'⟩, b, t⟩ = ⟨.advance, tenSteps, ⟨(), z, s, m'⟩, b, t ++ []⟩ := by
    intro b t
    simp [step, call, b4]
  have s7 : ∀ b t, step Q ⟨.advance, tenSteps, ⟨(), z, s, m'⟩, b, t⟩ = ⟨.select, nineSteps, ⟨(), z, z, m'⟩, b, (t ++ []) ++ [.advanced 1]⟩ := by
    intro b t
    have e : ({ tenSteps with time := tenSteps.time + tenSteps.dt, timeStepIdx := tenSteps.timeStepIdx + 1 } : Sim ℚ) = nineSteps := by
      decide +kernel
    simp only [step, call, b5, List.foldl_nil, e, hover]
    rfl
  have s8 : ∀ b t, step Q ⟨.select, nineSteps, ⟨(), z, z, m'⟩, b, t⟩ = ⟨.restart, nineSteps, ⟨(), z, z, m'⟩, b, t⟩ := by
    intro b t
    have : ¬nineSteps.timeStepIdx < (([] : List ℚ).length : ℤ) := by decide +kernel
    simp only [step, b7, b8, if_neg this, hmax]
    rfl
  have s9 : ∀ b t, step Q ⟨.restart, nineSteps, ⟨(), z, z, m'⟩, b, t⟩ = ⟨.head, nineSteps, ⟨(), z, z, m'⟩, b, t ++ []⟩ := by
    intro b t
    simp [step, call, b6]
  have s10 : ∀ t, step Q ⟨.head, nineSteps, ⟨(), z, z, m'⟩, false, t⟩ = ⟨.beginStep, nineSteps, ⟨(), z, z, m'⟩, false, t⟩ := by
    intro t
    simp [step, hfin']
  have s11 : ∀ b t, step Q ⟨.beginStep, nineSteps, ⟨(), z, z, m'⟩, b, t⟩ = ⟨.integrate, nineSteps, ⟨(), z, z, m'⟩, b, t ++ [.beginTimeStep]⟩ := by
    intro b t
    simp [step, call, b2, hfin']
  simp only [run, Function.iterate_succ, Function.iterate_zero, Function.comp_apply, id, s1, s2, s3, s4, s5, s6, s7, s8, s9, s10, s11, true_and]
  intro j hj hj3
  have : j = 0 ∨ j = 1 ∨ j = 2 ∨ j = 4 ∨ j = 5 ∨ j = 6 ∨ j = 7 ∨ j = 8 ∨ j = 9 ∨ j = 10 := by omega
  rcases this with h | h | h | h | h | h | h | h | h | h <;> subst h <;>
    simp only [Function.iterate_succ, Function.iterate_zero, Function.comp_apply, id, s1, s2, s3, s4, s5, s6, s7, s8, s9, s10] <;>
    simp [start]

theorem step_integrate {σ : Type} (Q : Problem ℚ σ) (c : Conf ℚ σ) (h : c.pc = .integrate) :
    ((step Q c).pc = match Q.timeIntegration c.prob c.sim with | none => .thrown | some _ => .endStep) ∧
      (step Q c).prob = match Q.timeIntegration c.prob c.sim with | none => c.prob | some r => r.1 := by
  obtain ⟨pc, sim, prob, b, t⟩ := c
  simp only at h
  subst h
  simp only [step]
  cases Q.timeIntegration prob sim <;> exact ⟨rfl, rfl⟩

/-- The second time step -/
theorem second_step_returned (solver : Unit → Solver ℚ S) (s z z' : S) (m m' m'' : Memory ℚ) (h : solver () 1 m s s = (.returned z true, m'))
    (h' : solver () 1 m' z z = (.returned z' true, m'')) : (run (problem solver idleHooks) 12 (start tenSteps ⟨(), s, s, m⟩)).pc = .endStep ∧
      (run (problem solver idleHooks) 12 (start tenSteps ⟨(), s, s, m⟩)).prob.memory = m'' := by
  obtain ⟨h1, h2, h3, -⟩ := first_step solver s z m m' h
  rw [run, Function.iterate_succ_apply', ← run, (step_integrate _ _ h1).1, (step_integrate _ _ h1).2, h2, h3,
    integrate_returned solver z z z' m' m'' nineSteps rfl h']
  exact ⟨rfl, rfl⟩

theorem second_step_thrown (solver : Unit → Solver ℚ S) (s z : S) (m m' : Memory ℚ) (h : solver () 1 m s s = (.returned z true, m'))
    (h' : ∀ dt m, ∃ y m', solver () dt m z z = (.returned y false, m')) :
    (run (problem solver idleHooks) 12 (start tenSteps ⟨(), s, s, m⟩)).pc = .thrown := by
  obtain ⟨h1, h2, h3, -⟩ := first_step solver s z m m' h
  rw [run, Function.iterate_succ_apply', ← run, (step_integrate _ _ h1).1, h2, h3, integrate_fails solver z m' nineSteps h']

/-! ### Three processes with all intensive quantities in their caches -/

abbrev Machines := Unit → ℚ → Memory ℚ → (Fin 3 → ℕ → Blk 2 ℚ) → ParNewton.Machine 2 2 ℚ (Blk 2 ℚ)

theorem row_owned (p : Fin 3) (c : ℕ) (hc : c ∈ rowMesh.toGrid.cells p) : c ∈ rowMesh.toGrid.all := rowMesh_correct.owned p c hc

/-- The first time step: own cells lose one unit, copies keep their values. -/
theorem cached_first {machine : Machines} (hM : Performs sinking rowMesh.toGrid six machine) (m : Memory ℚ) :
    ∃ z m', cachedSolver (machine ()) (fun _ _ _ _ => true) 2 1 m (fun _ _ => 1) (fun _ _ => 1) = (.returned z true, m') ∧
      HaveOwn rowMesh.toGrid six z (fun _ => 0) ∧ z 0 2 = 1 := by
  have hall : HaveAll rowMesh.toGrid six (fun _ _ => (1 : Blk 2 ℚ)) (fun _ => 1) := fun _ _ _ _ => rfl
  have hown := haveOwn_of_all hall
  have hst := started_cache (hM () 1 m (fun _ _ => 1) _ (own_of_haveOwn row_enumerates row_owned hown)).1 (fun _ _ => true) (fun _ _ => 1)
  have hfresh : Fresh rowMesh.toGrid six (withCache (machine () 1 m fun _ _ => 1) (fun _ _ => true) fun _ _ => 1).cache
      (constrain (sinking.equations () 1 (onCells six fun _ => 1)) six fun _ => 1) := by
    rw [constrain_none rfl]
    exact fresh_cache (machine () 1 m fun _ _ => 1) (fun _ _ => true) hall
  have hsame := C161_newton_partial hst hown hfresh m.error m.lastError 2
  obtain ⟨t, ht, hit, hsol⟩ := sink_single 1 1 (fun _ => 1) (fun _ => 1) (fun _ => rfl) (fun _ => rfl) m.error m.lastError
  have ht' : Newton.apply (single (sinking.equations () 1 (onCells six fun _ => 1)) six (sinking.settings () 1 m)) (fun _ => 1) m.error m.lastError
    2 = some (.success, t) := ht
  rw [ht'] at hsame
  cases hr : ParNewton.apply (withCache (machine () 1 m fun _ _ => 1) (fun _ _ => true) fun _ _ => 1) (fun _ _ => 1) m.error m.lastError 2 with
  | none => rw [hr] at hsame; exact hsame.elim
  | some e =>
    cases e with
    | deadlock => rw [hr] at hsame; exact hsame.elim
    | finished r =>
      rw [hr] at hsame
      have hout := (hsame.1 0).1
      refine ⟨fun p => (r p).2.sol, ⟨(r 0).2.error, (r 0).2.lastError, (r 0).2.iterations, m.calls + 1⟩, ?_, fun p i k hk ho => ?_, ?_⟩
      · simp only [cachedSolver, allSolver, hr, hout]
      · simp only [hsame.2 p i k hk ho, hsol, sub_self]
      · have := C161_stale hst hown hfresh m.error m.lastError 2 r hr ⟨0, hout⟩ ⟨0, (hsame.1 0).2.2.2.trans hit⟩ 0 2 2 (by decide) (by decide)
        refine Eq.trans this ?_
        show (1 : Blk 2 ℚ) - 0 = 1
        rw [sub_zero]

/-- The second time step: the processes believe that the values in neighbouring cells are different. -/
theorem cached_second {machine : Machines} (hM : Performs sinking rowMesh.toGrid six machine) (z : Fin 3 → ℕ → Blk 2 ℚ)
    (hown : HaveOwn rowMesh.toGrid six z fun _ => 0) (hz : z 0 2 = 1) (dt : ℚ) (m : Memory ℚ) :
    ∃ y m', cachedSolver (machine ()) (fun _ _ _ _ => true) 2 dt m z z = (.returned y false, m') := by
  classical
  have hst := started_cache (hM () dt m z _ (own_of_haveOwn row_enumerates row_owned hown)).1 (fun _ _ => true) z
  set M := withCache (machine () dt m z) (fun _ _ => true) z with hMdef
  have hc : M.cache = fun p i => some (z p i) := by
    funext p i
    simp [hMdef, withCache]
  obtain ⟨r, hr, hout⟩ := fails_frozen hst (fun _ _ => rfl) hown m.error m.lastError
    (large_fails _ rfl rfl rfl _ (fun _ => rfl) 1 (by
      have h00 : z 0 0 = 0 := hown 0 0 0 (by decide) (by decide)
      have h01 : z 0 1 = 0 := hown 0 1 1 (by decide) (by decide)
      have hold : onCells six (fun _ : Fin 6 => (0 : Blk 2 ℚ)) 1 = 0 := onCells_apply row_enumerates (fun _ : Fin 6 => (0 : Blk 2 ℚ)) 1
      have hst : rowEquations.stencil (six 1) = [0, 1, 2] := by decide
      have ho : rowMesh.toGrid.owner (six 1) = 0 := by decide
      have hv : ∀ X j c', (rowMesh.toGrid.cells 0)[j]? = some c' → frozenValues rowMesh.toGrid M.cache (six 1) X c' = z 0 j := by
        intro X j c' hj
        rw [frozenValues_apply X ho (rowMesh_correct.nodup 0) hj, hc]
        rfl
      have v0 := fun X => hv X 0 0 (by decide)
      have v1 := fun X => hv X 1 1 (by decide)
      have v1' : ∀ X, frozenValues rowMesh.toGrid M.cache (six 1) X (six 1) = z 0 1 := v1
      have v2 := fun X => hv X 2 2 (by decide)
      simp only [rowAt, frozenEquations, sinking, sinkEquations, hst, List.map_cons, List.map_nil, List.sum_cons, List.sum_nil,
        v0, v1, v1', v2, h00, h01, hz, Option.elim_some]
      rw [show onCells (fun k : Fin 6 => (k : ℕ)) (fun _ : Fin 6 => (0 : Blk 2 ℚ)) (six 1) = 0 from hold]
      simp
      norm_num) m.error m.lastError) 1
  refine ⟨fun p => (r p).2.sol, ⟨(r 0).2.error, (r 0).2.lastError, (r 0).2.iterations, m.calls + 1⟩, ?_⟩
  simp only [cachedSolver, allSolver, ← hMdef, hr, hout]

end Verif.ParCache
