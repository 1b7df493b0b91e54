import Verif.ParCache.Sinking

/-
Lemmas about the examples of C183.
-/

set_option autoImplicit false
set_option linter.unusedSectionVars false

namespace Verif.ParRestart

open Verif.TimeLoop Verif.Newton Verif.ParNewton Verif.ParSolve.Block Verif.ParSim Verif.ParCache Verif.Overlap
open Verif.ParSolve (Enumerates wide_one row_enumerates)

/-- The settings of `fineSinking` for a Newton method which may only do one iteration -/
def hastySettings : Settings ℚ := { fineSettings with maxIterations := 1 }

def hastySinking : Task ℕ 2 ℚ (Blk 2 ℚ) Unit := { sinking with settings := fun _ _ _ => hastySettings }

/-- A new Newton method does a second iteration and converges. -/
theorem hasty_ok (u : Blk 2 ℚ) (x : ℕ → Blk 2 ℚ) (old : ℕ → Blk 2 ℚ) (hx : ∀ k : Fin 6, x k = u) (ho : ∀ k : Fin 6, old k = u)
    (E : ℚ) (hEl : 4 < E) (lastError : Fl ℚ) : ∃ t, Newton.apply (single (sinkEquations 1 (onCells six fun k => old k)) six hastySettings) x
      (.num E) lastError 2 = some (.success, t) ∧ t.error = .num 0 ∧ ∀ k : Fin 6, t.sol k = u - 1 := by
  set error : Fl ℚ := .num E with herror
  set eqs := sinkEquations 1 (onCells six fun k : Fin 6 => old k) with heqs
  have hrow := sink_row 1 u x old hx ho
  rw [← heqs] at hrow
  set env := single eqs six hastySettings with henv
  have hcon : ∀ i, env.constraints i = none := fun i => by
    show (if h : i < 6 then none else none) = none
    split_ifs <;> rfl
  have hlin : ∀ (i : ℕ) (v : ℚ) x, (∀ k : Fin 6, rowAt eqs six x k = some (fun _ => v, fun c' => if c' = (k : ℕ) then 1 else 0)) →
      env.linearize i x = .residual fun i => if i < 6 then [.num v, .num v] else [] := by
    intro i v x hrow
    simp only [henv, single]
    rw [if_pos (fun k => by rw [hrow]; rfl)]
    congr 1
    funext i
    split_ifs with h
    · rw [hrow]; rfl
    · rfl
  have herr : ∀ v : ℚ, 0 ≤ v → computeError env (fun i => if i < 6 then [.num v, .num v] else []) = .num v := by
    intro v hv
    obtain ⟨e, he, hy⟩ := computeError_spec env (fun _ _ => v) rfl (fun i => if i < 6 then [.num v, .num v] else [])
      (fun i hi => by
        have hi' : i < 6 := hi
        simp only [if_pos hi']
        rfl)
    rw [he]
    congr 1
    refine eq_of_forall_ge_iff fun y => ?_
    rw [hy]
    constructor
    · rintro ⟨-, h⟩
      have := h 0 (by show 0 < 6; decide) ⟨by show (0 : ℚ) < 1; norm_num, hcon 0⟩ 0
      have e : env.weight 0 (0 : Fin 2) = 1 := rfl
      rw [e, mul_one, abs_of_nonneg hv] at this
      exact this
    · intro h
      refine ⟨le_trans hv h, fun i hi _ l => ?_⟩
      have hi' : i < 6 := hi
      have e : env.weight i l = 1 := by
        show (if h : i < 6 ∧ (l : ℕ) < 2 then (1 : ℚ) else 0) = 1
        rw [dif_pos ⟨hi', l.2⟩]
      rw [e, mul_one, abs_of_nonneg hv]
      exact h
  have hsys := sink_system eqs rfl x hrow
  have hsolve : env.solve 0 x = .update (fun i => if h : i < 6 then 1 else 0) true := by
    have hsys' : linearSystem eqs six hastySettings.solver x = linearSystem rowEquations six rowSettings.solver fun _ => 1 := hsys
    simp only [henv, single, hsys']
    have : Krylov.apply (linearSystem rowEquations six rowSettings.solver fun _ => 1) hastySettings.criterion = .returned true (fun _ => 1) 0 := row_solve
    rw [this]
    rfl
  have happ : ∀ x, applyConstraints env x = x := fun x => applyConstraints_none env hcon _
  set y := updateSolution env x x (fun i => if h : i < 6 then (1 : Blk 2 ℚ) else 0) with hy
  have hyk : ∀ k : Fin 6, y k = u - 1 := by
    intro k
    have hk : (k : ℕ) < 6 := k.2
    have hk' : (k : ℕ) < env.numGridDof := hk
    simp only [hy, updateSolution, if_pos hk', hcon]
    show (if h : (k : ℕ) < 6 then x k - (if h : (k : ℕ) < 6 then 1 else 0) else x k) = u - 1
    rw [dif_pos hk, dif_pos hk, hx]
  have hpass : Newton.pass env { sol := x, error := error, lastError := lastError, iterations := 0 } =
      .again { sol := y, error := .num 1, lastError := error, iterations := 1 } := by
    unfold Newton.pass
    simp only [happ, hlin 0 1 x hrow, herr 1 zero_le_one, hsolve]
    have h1 : env.beginIterationOk 0 = true := rfl
    have h2 : (Fl.num env.maxError).lt (.num 1) = false := by
      show decide ((10 : ℚ) < 1) = false
      decide
    have h3 : proceed env { sol := x, error := .num 1, lastError := error, iterations := 0 } = true := rfl
    simp only [h1, h2, h3]
    rfl
  have hrow' := sink_row_again u y old hyk ho
  rw [← heqs] at hrow'
  have hconv : ∀ i, converged env { sol := y, error := .num 0, lastError := .num 1, iterations := i } = true := by
    intro i
    show decide ((0 : ℚ) ≤ 1 / 2) = true
    decide +kernel
  have hpass' : Newton.pass env { sol := y, error := .num 1, lastError := error, iterations := 1 } =
      .leave { sol := y, error := .num 0, lastError := .num 1, iterations := 2 } := by
    unfold Newton.pass
    simp only [happ, hlin 1 0 y hrow', herr 0 le_rfl]
    have h1 : env.beginIterationOk 1 = true := rfl
    have h2 : (Fl.num env.maxError).lt (.num 0) = false := by
      show decide ((10 : ℚ) < 0) = false
      decide
    have h3 : proceed env { sol := y, error := .num 0, lastError := .num 1, iterations := 1 } = false := by
      unfold proceed
      rw [if_neg (by simp), if_pos (hconv _)]
    simp only [h1, h2, h3]
    rfl
  refine ⟨{ sol := y, error := .num 0, lastError := .num 1, iterations := 2 }, ?_, rfl, hyk⟩
  unfold Newton.apply Newton.loop
  rw [if_pos (show proceed env _ = true from rfl), hpass]
  simp only
  unfold Newton.loop
  have : proceed env { sol := y, error := .num 1, lastError := error, iterations := 1 } = true := by
    have hc : converged env { sol := y, error := .num 1, lastError := error, iterations := 1 } = false := by
      show decide ((1 : ℚ) ≤ 1 / 2) = false
      decide +kernel
    unfold proceed
    rw [if_neg (by simp), if_neg (by rw [hc]; simp), if_pos (show env.maxIterations ≤ 1 from le_refl 1), herror]
    show decide ((1 : ℚ) * 4 < E) = true
    simpa using hEl
  rw [if_pos this, hpass']
  simp only
  unfold afterLoop
  rw [if_pos (hconv _)]

/-- One which was used before fails. -/
theorem hasty_bad (dt : ℚ) (u : Blk 2 ℚ) (x : ℕ → Blk 2 ℚ) (old : ℕ → Blk 2 ℚ) (hx : ∀ k : Fin 6, x k = u) (ho : ∀ k : Fin 6, old k = u)
    (e : ℚ) (hEl : e ≤ 4) (lastError : Fl ℚ) : ∃ t, Newton.apply (single (sinkEquations dt (onCells six fun k => old k)) six hastySettings) x
      (.num e) lastError 2 = some (.failure, t) ∧ t.error = .num 1 := by
  set error : Fl ℚ := .num e with herror
  set eqs := sinkEquations dt (onCells six fun k : Fin 6 => old k) with heqs
  have hrow := sink_row dt u x old hx ho
  rw [← heqs] at hrow
  set env := single eqs six hastySettings with henv
  have hcon : ∀ i, env.constraints i = none := fun i => by
    show (if h : i < 6 then none else none) = none
    split_ifs <;> rfl
  have hlin : ∀ (i : ℕ) (v : ℚ) x, (∀ k : Fin 6, rowAt eqs six x k = some (fun _ => v, fun c' => if c' = (k : ℕ) then 1 else 0)) →
      env.linearize i x = .residual fun i => if i < 6 then [.num v, .num v] else [] := by
    intro i v x hrow
    simp only [henv, single]
    rw [if_pos (fun k => by rw [hrow]; rfl)]
    congr 1
    funext i
    split_ifs with h
    · rw [hrow]; rfl
    · rfl
  have herr : ∀ v : ℚ, 0 ≤ v → computeError env (fun i => if i < 6 then [.num v, .num v] else []) = .num v := by
    intro v hv
    obtain ⟨e, he, hy⟩ := computeError_spec env (fun _ _ => v) rfl (fun i => if i < 6 then [.num v, .num v] else [])
      (fun i hi => by
        have hi' : i < 6 := hi
        simp only [if_pos hi']
        rfl)
    rw [he]
    congr 1
    refine eq_of_forall_ge_iff fun y => ?_
    rw [hy]
    constructor
    · rintro ⟨-, h⟩
      have := h 0 (by show 0 < 6; decide) ⟨by show (0 : ℚ) < 1; norm_num, hcon 0⟩ 0
      have e : env.weight 0 (0 : Fin 2) = 1 := rfl
      rw [e, mul_one, abs_of_nonneg hv] at this
      exact this
    · intro h
      refine ⟨le_trans hv h, fun i hi _ l => ?_⟩
      have hi' : i < 6 := hi
      have e : env.weight i l = 1 := by
        show (if h : i < 6 ∧ (l : ℕ) < 2 then (1 : ℚ) else 0) = 1
        rw [dif_pos ⟨hi', l.2⟩]
      rw [e, mul_one, abs_of_nonneg hv]
      exact h
  have hsys := sink_system eqs rfl x hrow
  have hsolve : env.solve 0 x = .update (fun i => if h : i < 6 then 1 else 0) true := by
    have hsys' : linearSystem eqs six hastySettings.solver x = linearSystem rowEquations six rowSettings.solver fun _ => 1 := hsys
    simp only [henv, single, hsys']
    have : Krylov.apply (linearSystem rowEquations six rowSettings.solver fun _ => 1) hastySettings.criterion = .returned true (fun _ => 1) 0 := row_solve
    rw [this]
    rfl
  have happ : ∀ x, applyConstraints env x = x := fun x => applyConstraints_none env hcon _
  set y := updateSolution env x x (fun i => if h : i < 6 then (1 : Blk 2 ℚ) else 0) with hy
  have hyk : ∀ k : Fin 6, y k = u - 1 := by
    intro k
    have hk : (k : ℕ) < 6 := k.2
    have hk' : (k : ℕ) < env.numGridDof := hk
    simp only [hy, updateSolution, if_pos hk', hcon]
    show (if h : (k : ℕ) < 6 then x k - (if h : (k : ℕ) < 6 then 1 else 0) else x k) = u - 1
    rw [dif_pos hk, dif_pos hk, hx]
  have hpass : Newton.pass env { sol := x, error := error, lastError := lastError, iterations := 0 } =
      .again { sol := y, error := .num 1, lastError := error, iterations := 1 } := by
    unfold Newton.pass
    simp only [happ, hlin 0 1 x hrow, herr 1 zero_le_one, hsolve]
    have h1 : env.beginIterationOk 0 = true := rfl
    have h2 : (Fl.num env.maxError).lt (.num 1) = false := by
      show decide ((10 : ℚ) < 1) = false
      decide
    have h3 : proceed env { sol := x, error := .num 1, lastError := error, iterations := 0 } = true := rfl
    simp only [h1, h2, h3]
    rfl
  have hc : converged env { sol := y, error := .num 1, lastError := error, iterations := 1 } = false := by
    show decide ((1 : ℚ) ≤ 1 / 2) = false
    decide +kernel
  have hp : proceed env { sol := y, error := .num 1, lastError := error, iterations := 1 } = false := by
    unfold proceed
    rw [if_neg (by simp), if_neg (by rw [hc]; simp), if_pos (show env.maxIterations ≤ 1 from le_refl 1), herror]
    show decide ((1 : ℚ) * 4 < e) = false
    simpa using hEl
  refine ⟨failedState env { sol := y, error := .num 1, lastError := error, iterations := 1 }, ?_, rfl⟩
  unfold Newton.apply Newton.loop
  rw [if_pos (show proceed env _ = true from rfl), hpass]
  simp only
  unfold Newton.loop
  rw [if_neg (by rw [hp]; simp)]
  unfold afterLoop
  rw [if_neg (by rw [hc]; simp)]

variable {S : Type}

/-- After the first time step restart files are written. -/
theorem first_restart (solver : Unit → Solver ℚ S) (s z : S) (m m' : Memory ℚ) (h : solver () 1 m s s = (.returned z true, m')) :
    run (problem solver idleHooks) 8 (start tenSteps ⟨(), s, s, m⟩) = ⟨.restart, nineSteps, ⟨(), z, z, m'⟩, false,
      [.beginEpisode, .beginTimeStep, .integrated tenSteps 1, .endTimeStep, .advanced 1]⟩ := by
  set Q := problem solver idleHooks with hQ
  have hfin : tenSteps.finished = false := by decide +kernel
  have hover : nineSteps.episodeIsOver = false := by decide +kernel
  have hmax : min nineSteps.maxTimeStepSize 1 = 1 := by decide +kernel
  have hint := integrate_returned solver s s z m m' tenSteps rfl h
  rw [← hQ] at hint
  have b1 : ∀ p s, Q.beginEpisode p s = some (p, []) := fun _ _ => rfl
  have b2 : ∀ p s, Q.beginTimeStep p s = some (p, []) := fun _ _ => rfl
  have b3 : ∀ p s, Q.endTimeStep p s = some (p, []) := fun _ _ => rfl
  have b4 : ∀ p s, Q.writeOutput p s = some (p, []) := fun _ _ => rfl
  have b5 : ∀ p s, Q.advanceTimeLevel p s = some ({ p with sol1 := p.sol0 }, []) := fun _ _ => rfl
  have b7 : Q.forcedTimeSteps = [] := rfl
  have b8 : ∀ p s, Q.nextTimeStepSize p s = 1 := fun _ _ => rfl
  have s1 : step Q (start tenSteps ⟨(), s, s, m⟩) = ⟨.beginEp, tenSteps, ⟨(), s, s, m⟩, true, []⟩ := by
    have : (tenSteps.episodeIsOver || decide (tenSteps.timeStepIdx = 0)) = true := by decide +kernel
    simp only [step, start, hfin, this]
    rfl
  have s2 : step Q ⟨.beginEp, tenSteps, ⟨(), s, s, m⟩, true, []⟩ = ⟨.beginStep, tenSteps, ⟨(), s, s, m⟩, false, [.beginEpisode]⟩ := by
    simp [step, call, b1, hfin]
  have s3 : ∀ b t, step Q ⟨.beginStep, tenSteps, ⟨(), s, s, m⟩, b, t⟩ = ⟨.integrate, tenSteps, ⟨(), s, s, m⟩, b, t ++ [.beginTimeStep]⟩ := by
    intro b t
    simp [step, call, b2, hfin]
  have s4 : ∀ b t, step Q ⟨.integrate, tenSteps, ⟨(), s, s, m⟩, b, t⟩ = ⟨.endStep, tenSteps, ⟨(), z, s, m'⟩, b, t ++ [.integrated tenSteps 1]⟩ := by
    intro b t
    simp only [step, hint]
    rfl
  have s5 : ∀ b t, step Q ⟨.endStep, tenSteps, ⟨(), z, s, m'⟩, b, t⟩ = ⟨.output, tenSteps, ⟨(), z, s, m'⟩, b, t ++ [.endTimeStep]⟩ := by
    intro b t
    simp [step, call, b3]
  have s6 : ∀ b t, step Q ⟨.output, tenSteps, ⟨(), z, s, m'⟩, b, t⟩ = ⟨.advance, tenSteps, ⟨(), z, s, m'⟩, b, t ++ []⟩ := by
    intro b t
    simp [step, call, b4]
  have s7 : ∀ b t, step Q ⟨.advance, tenSteps, ⟨(), z, s, m'⟩, b, t⟩ = ⟨.select, nineSteps, ⟨(), z, z, m'⟩, b, (t ++ []) ++ [.advanced 1]⟩ := by
    intro b t
    have e : ({ tenSteps with time := tenSteps.time + tenSteps.dt, timeStepIdx := tenSteps.timeStepIdx + 1 } : Sim ℚ) = nineSteps := by
      decide +kernel
    simp only [step, call, b5, List.foldl_nil, e, hover]
    rfl
  have s8 : ∀ b t, step Q ⟨.select, nineSteps, ⟨(), z, z, m'⟩, b, t⟩ = ⟨.restart, nineSteps, ⟨(), z, z, m'⟩, b, t⟩ := by
    intro b t
    have : ¬nineSteps.timeStepIdx < (([] : List ℚ).length : ℤ) := by decide +kernel
    simp only [step, b7, b8, if_neg this, hmax]
    rfl
  simp only [run, Function.iterate_succ, Function.iterate_zero, Function.comp_apply, id, s1, s2, s3, s4, s5, s6, s7, s8]
  rfl

/-- The next time step of new processes -/
theorem next_step (solver : Unit → Solver ℚ S) (s z : S) (m m' : Memory ℚ) (h : solver () 1 m s s = (.returned z true, m')) :
    (run (problem solver idleHooks) 3 (start nineSteps ⟨(), s, s, m⟩)).pc = .endStep := by
  set Q := problem solver idleHooks with hQ
  have hfin' : nineSteps.finished = false := by decide +kernel
  have hint := integrate_returned solver s s z m m' nineSteps rfl h
  rw [← hQ] at hint
  have b2 : ∀ p s, Q.beginTimeStep p s = some (p, []) := fun _ _ => rfl
  have s1 : step Q (start nineSteps ⟨(), s, s, m⟩) = ⟨.beginStep, nineSteps, ⟨(), s, s, m⟩, false, []⟩ := by
    have : (nineSteps.episodeIsOver || decide (nineSteps.timeStepIdx = 0)) = false := by decide +kernel
    simp only [step, start, hfin', this]
    rfl
  have s2 : step Q ⟨.beginStep, nineSteps, ⟨(), s, s, m⟩, false, []⟩ = ⟨.integrate, nineSteps, ⟨(), s, s, m⟩, false, [.beginTimeStep]⟩ := by
    simp [step, call, b2, hfin']
  have s3 : step Q ⟨.integrate, nineSteps, ⟨(), s, s, m⟩, false, [.beginTimeStep]⟩ =
      ⟨.endStep, nineSteps, ⟨(), z, s, m'⟩, false, [.beginTimeStep] ++ [.integrated nineSteps 1]⟩ := by
    simp only [step, hint]
    rfl
  simp only [run, Function.iterate_succ, Function.iterate_zero, Function.comp_apply, id, s1, s2, s3]

theorem attempts_fail (I : Memory ℚ → Prop) (solver : Solver ℚ S) (s : S) (minDt : ℚ)
    (h : ∀ dt m, I m → ∃ z m', solver dt m s s = (.returned z false, m') ∧ I m') :
    ∀ n dt m, I m → (attempts minDt false solver n ⟨s, s, dt⟩ m).1 = .gaveUp
  | 0, _, _, _ => rfl
  | n + 1, dt, m, hm => by
    obtain ⟨z, m', hz, hm'⟩ := h dt m hm
    simp only [attempts, update, hz]
    by_cases hc : dt < minDt * (1 + TimeInt.relTol ℚ)
    · rw [if_pos hc, if_neg (by simp)]
    · rw [if_neg hc]
      exact attempts_fail I solver s minDt h n _ _ hm'

/-- The second time step of the first processes -/
theorem second_step_gives_up (I : Memory ℚ → Prop) (solver : Unit → Solver ℚ S) (s z : S) (m m' : Memory ℚ)
    (h : solver () 1 m s s = (.returned z true, m')) (hm : I m')
    (h' : ∀ dt m, I m → ∃ y m', solver () dt m z z = (.returned y false, m') ∧ I m') :
    (run (problem solver idleHooks) 12 (start tenSteps ⟨(), s, s, m⟩)).pc = .thrown := by
  obtain ⟨h1, h2, h3, -⟩ := first_step solver s z m m' h
  have hint : (problem solver idleHooks).timeIntegration ⟨(), z, z, m'⟩ nineSteps = none := by
    have := attempts_fail I (solver ()) z (1 / 100) h' 10 nineSteps.dt m' hm
    simp only [problem, idleHooks]
    cases hr : attempts (1 / 100) false (solver ()) 10 ⟨z, z, nineSteps.dt⟩ m' with
    | mk o r =>
      rw [hr] at this
      simp only at this
      subst this
      rfl
  rw [run, Function.iterate_succ_apply', ← run, (step_integrate _ _ h1).1, h2, h3, hint]

end Verif.ParRestart
