import Verif.Rest.Spec
import Verif.Bounds.Lemmas

set_option autoImplicit false
set_option linter.unusedSectionVars false
/-
Lemmas for C168.
-/
namespace Verif.Rest

open Verif.Newton Verif.TimeLoop Verif.Balance Verif.Bounds

section
variable {K V W : Type} [Field K] [LinearOrder K]

/-- Updates which are found at the solution `s` do not change it. -/
structure Stays (env : Env K V W) (s : Newton.Vec V) : Prop where
  free : ∀ i, env.constraints i = none
  update : ∀ it u finite, env.solve it s = .update u finite → updateSolution env s s u = s

variable {env : Env K V W} {s : Newton.Vec V}

theorem applyConstraints_none (h : Stays env s) (x : Newton.Vec V) : applyConstraints env x = x := by
  funext i
  simp [applyConstraints, h.free i]

theorem pass_stays (h : Stays env s) (st : NState K V) (hs : st.sol = s) : (PassResult.state (pass env st)).sol = s := by
  unfold pass
  simp only [applyConstraints_none h]
  split
  · exact hs
  · split
    · exact hs
    · exact hs
    · split
      · exact hs
      · split
        · rw [endIteration_sol _ _ fun _ => rfl]; exact hs
        · split
          · exact hs
          · exact hs
          · exact hs
          · next u finite hu =>
            split
            · exact hs
            · rw [endIteration_sol _ _ fun _ => rfl]
              simp only [hs] at hu ⊢
              exact h.update _ _ _ hu

theorem loop_stays (h : Stays env s) (fuel : ℕ) (st : NState K V) (hs : st.sol = s) (o : Outcome) (st' : NState K V)
    (he : loop env fuel st = some (o, st')) : st'.sol = s := by
  induction fuel generalizing st with
  | zero => cases he
  | succ fuel ih =>
    rw [loop] at he
    split at he
    · have hp := pass_stays h st hs
      split at he
      · next st1 e => rw [e] at hp; exact ih st1 hp he
      · next st1 e =>
        rw [e] at hp
        have := congrArg (fun x => x.map fun y => y.2.sol) he
        simp only [Option.map_some, afterLoop_sol, Option.some.injEq] at this
        rw [← this]; exact hp
      · next st1 e =>
        rw [e] at hp
        cases he; exact hp
      · next st1 e =>
        rw [e] at hp
        cases he; exact hp
    · have := congrArg (fun x => x.map fun y => y.2.sol) he
      simp only [Option.map_some, afterLoop_sol, Option.some.injEq] at this
      rw [← this]; exact hs

/-- If the residual at the start vanishes and nothing fails, the Newton method ends after one iteration. -/
theorem apply_rest (h : Stays env s) (e le : Fl K) (fuel : ℕ) (r : Newton.Vec (List (Fl K))) (u : Newton.Vec W)
    (hb : env.beginIterationOk 0 = true) (hl : env.linearize 0 s = .residual r) (hz : computeError env r = .num 0) (hm : 0 ≤ env.maxError)
    (hu : env.solve 0 s = .update u true) (he : env.endIterationOk 1 = true) (ht : 0 ≤ env.tolerance) :
    apply env s e le (fuel + 2) = some (.success, ⟨s, .num 0, e, 1⟩) := by
  have hp : pass env ⟨s, e, le, 0⟩ = .again ⟨s, .num 0, e, 1⟩ := by
    unfold pass
    simp only [hb, applyConstraints_none h, hl, hz, Fl.lt, not_lt.2 hm, proceed, hu, endIteration, he, h.update _ _ _ hu]
    simp
  unfold apply
  rw [loop, if_pos (by simp [proceed]), hp]
  simp only
  rw [loop, if_neg (by simp [proceed, converged, Fl.le, ht])]
  simp [afterLoop, converged, Fl.le, ht]

end

section
variable {K PV W M C X : Type} {m : ℕ} [Field K] [LinearOrder K] [IsStrictOrderedRing K] [AddCommGroup M] [Module K M]
variable {f : Physics K PV M C X m} {q : Numerics K PV W M X m} {s : ℕ → PV} {zero : W}

theorem imbalance_rest (h : Stationary f s) (own : X) (dt : K) (i : ℕ) (hi : i < f.numCells) (k : Fin m) : imbalance f own dt s s i k = 0 := by
  have := h own dt i hi k
  unfold imbalance
  rw [sub_self, mul_zero, ← this]
  ring

theorem env_stays (h : Stationary f s) (hz : ZeroForZero f q zero) (hn : NoChange f q zero s) (own : X) (attempt : ℕ) (dt : K) :
    Stays (env f q own attempt dt s) s := by
  refine ⟨fun _ => rfl, fun it u finite hu => ?_⟩
  have hu' := hz own attempt dt s it s u finite (fun i hi k => imbalance_rest h own dt i hi k) hu
  funext i
  change (if i < f.numCells then (q.base own attempt dt s).updatePrimaryVariables i (s i) (u i)
    else if i < f.numCells then (q.base own attempt dt s).subtract (s i) (u i) else s i) = s i
  by_cases hi : i < f.numCells
  · rw [if_pos hi, hu' i hi]; exact hn own attempt dt s i hi
  · rw [if_neg hi, if_neg hi]

theorem solver_stays (h : Stationary f s) (hz : ZeroForZero f q zero) (hn : NoChange f q zero s) (own : X) :
    Fine (fun x => x = s) (solver f q own) := by
  rintro a dt x old rfl rfl
  unfold solver
  cases ha : Newton.apply (env f q own a dt old) old (q.leftError own a dt old) (q.leftLastError own a dt old) q.fuel with
  | none => rfl
  | some r =>
    obtain ⟨o, st⟩ := r
    have := loop_stays (env_stays h hz hn own a dt) q.fuel ⟨old, q.leftError own a dt old, q.leftLastError own a dt old, 0⟩ rfl o st ha
    cases o <;> exact this

/-- A property of both time levels which the solver keeps is kept by the time loop. -/
theorem step_fine {G : (ℕ → PV) → Prop} (h : ∀ own, Fine G (solver f q own)) (hk : Hooks K PV X) (c : Conf K (Balance.St PV X))
    (hc : G c.prob.sol0 ∧ G c.prob.sol1) : G (step (problem f q hk) c).prob.sol0 ∧ G (step (problem f q hk) c).prob.sol1 := by
  cases hpc : c.pc <;> simp only [step, hpc]
  case integrate =>
    have := attempts_fine (h c.prob.own) q.minDt q.continueOnError q.maxFails 0 ⟨c.prob.sol0, c.prob.sol1, c.sim.dt⟩ hc.1 hc.2
    cases ht : (problem f q hk).timeIntegration c.prob c.sim with
    | none => exact hc
    | some r =>
      obtain ⟨p, d⟩ := r
      simp only [problem] at ht
      split at ht
      · cases ht; exact this
      · cases ht; exact this
      · cases ht
      · cases ht
  case head => split <;> (try split) <;> exact hc
  case select => exact hc
  case advance =>
    simp only [call, problem]
    split
    · exact hc
    · next p cmds hp =>
      simp only [Option.map_eq_some_iff, Prod.mk.injEq] at hp
      obtain ⟨r, -, rfl, rfl⟩ := hp
      try split
      all_goals exact ⟨hc.1, hc.1⟩
  all_goals first | exact hc | skip
  all_goals
    simp only [call, problem, lift]
    split
    · exact hc
    · next p cmds hp =>
      simp only [Option.map_eq_some_iff, Prod.mk.injEq] at hp
      obtain ⟨r, -, rfl, rfl⟩ := hp
      try split
      all_goals exact hc

theorem run_fine {G : (ℕ → PV) → Prop} (h : ∀ own, Fine G (solver f q own)) (hk : Hooks K PV X) (sim : Sim K) (p : Balance.St PV X)
    (hp : G p.sol0 ∧ G p.sol1) (n : ℕ) :
    G (run (problem f q hk) n (start sim p)).prob.sol0 ∧ G (run (problem f q hk) n (start sim p)).prob.sol1 := by
  induction n with
  | zero => exact hp
  | succ n ih => rw [Balance.run_succ]; exact step_fine h hk _ ih

theorem computeError_rest (h : Stationary f s) (own : X) (attempt : ℕ) (dt : K) (it : ℕ) (hdt : dt ≠ 0) :
    computeError (env f q own attempt dt s) (fun i => List.ofFn fun k : Fin m =>
      if dt = 0 then Fl.nan else .num (residual f (q.system own attempt dt s it) own dt s s i k)) = .num 0 := by
  have hall : ∀ y ∈ entries (env f q own attempt dt s) (fun i => List.ofFn fun k : Fin m =>
      if dt = 0 then Fl.nan else .num (residual f (q.system own attempt dt s it) own dt s s i k)), y = .num 0 := by
    intro y hy
    obtain ⟨d, hd, j, x, hx, rfl⟩ := (mem_entries _ _ _).1 hy
    rw [List.getElem?_eq_some_iff] at hx
    obtain ⟨hj, rfl⟩ := hx
    have hd' : d < f.numCells := hd.1
    simp only [List.getElem_ofFn, hdt, if_false, Fl.scale]
    rw [residual_eq f _ own dt s s d hd', imbalance_rest h own dt d hd', zero_mul]
  rw [computeError_eq]
  obtain ⟨b, h1, -, -, h4⟩ := foldl_max_defined (entries (env f q own attempt dt s) (fun i => List.ofFn fun k : Fin m =>
      if dt = 0 then Fl.nan else .num (residual f (q.system own attempt dt s it) own dt s s i k)))
    (fun x hx => by rw [hall x hx]; simp) 0
  rw [h1]
  rcases h4 with rfl | ⟨x, hx, rfl⟩
  · rfl
  · have := hall _ hx
    cases this; simp

theorem solver_rest (h : Stationary f s) (hz : ZeroForZero f q zero) (hn : NoChange f q zero s) (hw : Works f q s) (own : X) (a : ℕ) (dt : K)
    (hdt : dt ≠ 0) : solver f q own a dt s s = .returned s true := by
  obtain ⟨n, hf⟩ := Nat.exists_eq_add_of_le hw.fuel
  obtain ⟨u, hu⟩ := hw.solve own a dt 0
  have hlin : (env f q own a dt s).linearize 0 s = .residual (fun i => List.ofFn fun k : Fin m =>
      if dt = 0 then Fl.nan else .num (residual f (q.system own a dt s 0) own dt s s i k)) := by
    simp only [env, hw.linearize]
  have := apply_rest (env_stays h hz hn own a dt) (q.leftError own a dt s) (q.leftLastError own a dt s) n _ u
    (hw.beginIteration own a dt 0) hlin (computeError_rest h own a dt 0 hdt) (hw.maxError own a dt) hu (hw.endIteration own a dt 1) hw.tolerance
  unfold solver
  rw [hf, Nat.add_comm, this]

end

end Verif.Rest
