import Verif.ParNewton.Props

/-
C161: a case with a constraint, on three processes.
-/

set_option autoImplicit false

namespace Verif.ParNewton

open Verif.Mpi Verif.Sync Verif.Overlap Verif.OverlapMatrix Verif.Newton Verif.Criteria Verif.ParSolve.Block Verif.GridComm
open Verif.ParSolve (Enumerates Wide Steps Covered mem_all steps_mem wide_one row_enumerates)

/-- The equations `X c = 0`, two for each cell of the row of cells of `rowMesh`, except that the values of the second cell are given; its row
of the linear system of equations is `u = 0` (opm/models/discretization/common/fvbaselinearizer.hh lines 647-666). -/
def tiedEquations : Equations ℕ 2 ℚ (Blk 2 ℚ) :=
  { rowEquations with
    row := fun c X => some (if c = 1 then 0 else X c, fun c' => if c' = c then 1 else 0)
    constraint := fun c => if c = 1 then some fun _ => 7 else none }

theorem tiedEquations_local : Local tiedEquations where
  nodup := rowEquations_local.nodup
  self := rowEquations_local.self
  row c X Y h := by
    have := h c (rowEquations_local.self c)
    simp only [tiedEquations, this]

/-- Where the Newton method starts -/
def tiedStart : ℕ → Blk 2 ℚ := constrain tiedEquations (fun k : Fin 6 => (k : ℕ)) fun _ => 1

/-- The residual there -/
def tiedRhs : (Σ _ : Fin (0 + 1), Fin (6 * 2)) → ℚ := flat fun k : Fin 6 => if (k : ℕ) = 1 then 0 else 1

theorem tied_row (k : Fin 6) : rowAt tiedEquations (fun k : Fin 6 => (k : ℕ)) tiedStart k =
    some (if (k : ℕ) = 1 then 0 else 1, fun c' => if c' = (k : ℕ) then 1 else 0) := by
  simp only [rowAt, tiedEquations]
  rw [onCells_apply row_enumerates (fun k => tiedStart k) k]
  split_ifs with h
  · rfl
  · have : tiedStart k = 1 := by
      simp [tiedStart, constrain, tiedEquations, h]
    rw [this]

theorem tied_product (y : (Σ _ : Fin (0 + 1), Fin (6 * 2)) → ℚ) (k : Fin 6) :
    product tiedEquations (fun k : Fin 6 => (k : ℕ)) tiedStart y k = block y k := by
  rw [← row_product (fun _ => 1) y k]
  unfold product
  simp only [rowAt, tiedEquations, rowEquations, Option.elim_some]

/-- The linear solver finds the solution at once. -/
theorem tied_solve : Krylov.apply (linearSystem tiedEquations (fun k : Fin 6 => (k : ℕ)) rowSettings.solver tiedStart) rowSettings.criterion =
    .returned true tiedRhs 0 := by
  set sys := linearSystem tiedEquations (fun k : Fin 6 => (k : ℕ)) rowSettings.solver tiedStart with hsys
  have hflat : ∀ y : (Σ _ : Fin (0 + 1), Fin (6 * 2)) → ℚ, flat (fun k => block y k) = y := fun y => by
    funext ⟨p, k⟩
    have : p = 0 := Fin.ext (by have := p.2; simp only [Fin.val_zero]; omega)
    subst this
    show y ⟨0, finProdFinEquiv (finProdFinEquiv.symm k)⟩ = _
    rw [Equiv.apply_symm_apply]
  have hop : ∀ y, sys.operator y = y := fun y => by
    rw [hsys]
    simp only [linearSystem, tied_product]
    exact hflat y
  have hpre : ∀ k y r, sys.precondition k y r = r := fun k y r => by
    rw [hsys]
    simp only [linearSystem, rowSettings, Function.iterate_one, tied_product]
    refine Eq.trans ?_ (hflat r)
    congr 1
    funext k
    have : ((rowAt tiedEquations (fun k : Fin 6 => (k : ℕ)) tiedStart k).elim 0 fun r => r.2 k) = 1 := by
      simp [tied_row]
    rw [this, inv_one, _root_.Matrix.one_mulVec, one_smul]
    abel
  have hrhs : sys.rhs = tiedRhs := by
    rw [hsys]
    simp only [linearSystem, tied_row, Option.elim_some]
    rfl
  have hdot : sys.dot tiedRhs tiedRhs = 10 := by
    show ∑ k : (Σ _ : Fin (0 + 1), Fin (6 * 2)), tiedRhs k * tiedRhs k = 10
    decide +kernel
  have hn : sys.indices.Nodup := Finset.nodup_toList _
  have hc : ∀ i, i ∈ sys.indices := fun i => Finset.mem_toList.2 (Finset.mem_univ i)
  have hstart : (Krylov.start sys rowSettings.criterion).x = (fun _ => 0) ∧ (Krylov.start sys rowSettings.criterion).r = tiedRhs :=
    ⟨rfl, hrhs⟩
  have hconv : sys.criterion.converged (Krylov.start sys rowSettings.criterion).criterion = false := by
    have key : ∀ e : ℚ, combinedConverged (0 : ℚ) 0
        { stagnates := false, residualError := max e (1 / 1000), initialResidualError := max e (1 / 1000)
          lastResidualError := max e (1 / 1000) } = false := by
      intro e
      have h1 : (0 : ℚ) < max e (1 / 1000) := lt_of_lt_of_le (by norm_num) (le_max_right _ _)
      unfold combinedConverged residualReduction
      simp only [Bool.or_eq_false_iff, decide_eq_false_iff_not, not_le]
      exact ⟨div_pos h1 (lt_of_lt_of_le h1 (le_max_right _ _)), h1⟩
    exact key _
  have hupd : ∀ s x z, sys.criterion.converged (sys.criterion.update s x z fun _ => 0) = true := by
    intro s x z
    show combinedConverged (0 : ℚ) 0 (combinedUpdateErrors s z fun _ => 0) = true
    have : (combinedUpdateErrors (P := 0) (n := fun _ => 6 * 2) s z fun _ => (0 : ℚ)).residualError = 0 := by
      show Criteria.commMax (fun p => (combinedLoop (P := 0) (n := fun _ => 6 * 2) z (fun _ => (0 : ℚ)) p).1) = 0
      have h0 : (fun p => (combinedLoop (P := 0) (n := fun _ => 6 * 2) z (fun _ => (0 : ℚ)) p).1) = fun _ => 0 := by
        funext p
        rw [combinedLoop_fst]
        exact List.foldl_fixed' (fun _ => by simp) _
      rw [h0]
      simp [Criteria.commMax]
    unfold combinedConverged
    rw [this]
    simp
  unfold Krylov.apply
  simp only [hconv, Bool.false_eq_true, if_false]
  show Krylov.loop sys 10 _ = _
  unfold Krylov.loop Krylov.body
  simp only [Krylov.loopP_eq _ hn hc, Krylov.loopHS_eq _ hn hc, hop, hpre, hrhs, hstart.1, hstart.2]
  have e1 : (Krylov.start sys rowSettings.criterion).rho = 1 := rfl
  have e2 : (Krylov.start sys rowSettings.criterion).omega = 1 := rfl
  have e3 : (Krylov.start sys rowSettings.criterion).alpha = 1 := rfl
  have e4 : (Krylov.start sys rowSettings.criterion).p = fun _ => 0 := rfl
  have e5 : (Krylov.start sys rowSettings.criterion).v = fun _ => 0 := rfl
  have e6 : (Krylov.start sys rowSettings.criterion).iterations = 0 := rfl
  have e7 : sys.breakdownEps = 0 := rfl
  have e8 : ∀ x, sys.post x = x := fun _ => rfl
  have e9 : ∀ b : ℚ, (tiedRhs + b • ((fun _ => 0) - (1 : ℚ) • fun _ => 0) : (Σ _ : Fin (0 + 1), Fin (6 * 2)) → ℚ) = tiedRhs := fun b => by
    funext i; simp
  have e10 : (tiedRhs - (1 : ℚ) • tiedRhs : (Σ _ : Fin (0 + 1), Fin (6 * 2)) → ℚ) = fun _ => 0 := by
    funext i; simp
  have e11 : ((fun _ => 0) + (1 : ℚ) • tiedRhs : (Σ _ : Fin (0 + 1), Fin (6 * 2)) → ℚ) = tiedRhs := by
    funext i; simp
  have e12 : (10 : ℚ) / 10 = 1 := by norm_num
  simp only [e1, e2, e3, e4, e5, e6, e7, e8, e9, hdot, e12, e10, e11, hupd, if_true]
  norm_num

/-- One process needs one iteration. -/
theorem tied_single (error lastError : Fl ℚ) : ∃ t, Newton.apply (single tiedEquations (fun k : Fin 6 => (k : ℕ)) rowSettings) (fun _ => 1)
    error lastError 2 = some (.success, t) ∧ t.iterations = 1 ∧ ∀ k : Fin 6, t.sol k = if (k : ℕ) = 1 then (fun _ => 7 : Blk 2 ℚ) else 0 := by
  set env := single tiedEquations (fun k : Fin 6 => (k : ℕ)) rowSettings with henv
  have hlin : env.linearize 0 tiedStart = .residual fun i => if i < 6 then (if i = 1 then [.num 0, .num 0] else [.num 1, .num 1]) else [] := by
    simp only [henv, single]
    rw [if_pos (fun k => by rw [tied_row]; rfl)]
    congr 1
    funext i
    by_cases h : i < 6
    · rw [dif_pos h, if_pos h, tied_row]
      by_cases h1 : i = 1
      · simp [h1]
      · simp [h1]
    · rw [dif_neg h, if_neg h]
  obtain ⟨e, he, hy⟩ := computeError_spec env (fun i => if i = 1 then 0 else 1) rfl
    (fun i => if i < 6 then (if i = 1 then [.num 0, .num 0] else [.num 1, .num 1]) else [])
    (fun i hi => by
      have hi' : i < 6 := hi
      simp only [if_pos hi']
      split_ifs <;> rfl)
  have he1 : e = 1 := by
    refine eq_of_forall_ge_iff fun y => ?_
    rw [hy]
    constructor
    · rintro ⟨-, h⟩
      have := h 0 (by show 0 < 6; decide) ⟨by show (0 : ℚ) < 1; norm_num, rfl⟩ 0
      have e : env.weight 0 (0 : Fin 2) = 1 := rfl
      rw [e] at this
      simpa using this
    · intro h
      refine ⟨le_trans (by norm_num) h, fun i hi _ l => ?_⟩
      have hi' : i < 6 := hi
      have e : env.weight i l = 1 := by
        show (if h : i < 6 ∧ (l : ℕ) < 2 then (1 : ℚ) else 0) = 1
        rw [dif_pos ⟨hi', l.2⟩]
      rw [e]
      split_ifs
      · exact le_trans (by simp) h
      · simpa using h
  subst he1
  have hsolve : env.solve 0 tiedStart = .update (fun i => if h : i < 6 then (if i = 1 then 0 else 1) else 0) true := by
    simp only [henv, single, tied_solve]
    congr 1
    funext i
    split_ifs with h h1
    · funext j; simp [block, tiedRhs, flat, h1]
    · funext j; simp [block, tiedRhs, flat, h1]
    · rfl
  have happ : applyConstraints env (fun _ => (1 : Blk 2 ℚ)) = tiedStart := applyConstraints_single _
  have hpass : Newton.pass env { sol := fun _ => 1, error := error, lastError := lastError, iterations := 0 } =
      .again { sol := updateSolution env tiedStart (fun _ => 1) (fun i => if h : i < 6 then (if i = 1 then 0 else 1) else 0), error := .num 1, lastError := error
               iterations := 1 } := by
    unfold Newton.pass
    simp only [happ, hlin, he, hsolve]
    have h1 : env.beginIterationOk 0 = true := rfl
    have h2 : (Fl.num env.maxError).lt (.num 1) = false := by
      show decide ((10 : ℚ) < 1) = false
      decide
    have h3 : proceed env { sol := tiedStart, error := .num 1, lastError := error, iterations := 0 } = true := rfl
    simp only [h1, h2, h3]
    rfl
  have hconv : ∀ x, converged env { sol := x, error := .num 1, lastError := error, iterations := 1 } = true := by
    intro x
    show decide ((1 : ℚ) ≤ 1) = true
    decide
  refine ⟨{ sol := updateSolution env tiedStart (fun _ => 1) (fun i => if h : i < 6 then (if i = 1 then 0 else 1) else 0), error := .num 1, lastError := error
            iterations := 1 }, ?_, rfl, fun k => ?_⟩
  · unfold Newton.apply Newton.loop
    rw [if_pos (show proceed env _ = true from rfl), hpass]
    simp only
    unfold Newton.loop
    have : proceed env { sol := updateSolution env tiedStart (fun _ => 1) (fun i => if h : i < 6 then (if i = 1 then 0 else 1) else 0), error := .num 1
                         lastError := error, iterations := 1 } = false := by
      unfold proceed
      rw [if_neg (by simp), if_pos (hconv _)]
    rw [this]
    simp only [Bool.false_eq_true, if_false]
    unfold afterLoop
    rw [if_pos (hconv _)]
  · have hk : (k : ℕ) < 6 := k.2
    have hk' : (k : ℕ) < env.numGridDof := hk
    have hc : env.constraints k = if (k : ℕ) = 1 then some fun _ => 7 else none := by
      show (if h : (k : ℕ) < 6 then (if (k : ℕ) = 1 then some (fun _ => (7 : ℚ)) else none) else none) = _
      rw [dif_pos hk]
    by_cases h1 : (k : ℕ) = 1
    · simp only [updateSolution, if_pos hk', hc, if_pos h1]
    · simp only [updateSolution, if_pos hk', hc, if_neg h1]
      show (if h : (k : ℕ) < 6 then (1 : Blk 2 ℚ) - (if h : (k : ℕ) < 6 then 1 else 0) else 1) = 0
      rw [dif_pos hk, dif_pos hk, sub_self]

/-- Three processes with two cells each: all succeed, and every process which has the second cell has the given values for it afterwards, also
the process which only has a copy; the other cells have been solved for. -/
example (error lastError : Fl ℚ) : ∃ (M : Machine 2 2 ℚ (Blk 2 ℚ)) (r : Fin 3 → Newton.Outcome × NState ℚ (Blk 2 ℚ)),
    Started tiedEquations rowSettings rowMesh.toGrid (fun k : Fin 6 => (k : ℕ)) M ∧
      apply M (fun _ _ => 1) error lastError 2 = some (.finished r) ∧ (∀ p, (r p).1 = .success) ∧ (r 0).2.sol 1 = (fun _ => 7) ∧
        (r 1).2.sol 0 = (fun _ => 7) ∧ (r 0).2.sol 0 = 0 ∧ rowMesh.toGrid.owner 1 = 0 := by
  have hp : Pattern (P := 2) tiedEquations rowMesh.toGrid fun p => (rowMesh.native p).cols :=
    ⟨rowEquations_pattern.nodup, rowEquations_pattern.range, rowEquations_pattern.own⟩
  obtain ⟨M, hM, hc⟩ := C161_exists (P := 2) (overlapSize := 1) (d := rowMesh.native) (set := rowSettings) tiedEquations_local
    row_enumerates rowMesh_correct (by decide) (wide_one rowMesh_correct (by decide) _) hp
  have hfresh : Fresh rowMesh.toGrid (fun k : Fin 6 => (k : ℕ)) M.cache (constrain tiedEquations (fun k : Fin 6 => (k : ℕ)) fun _ => 1) := by
    intro p i k _ w hw
    rw [hc] at hw
    exact absurd hw (by simp)
  have hown : HaveOwn rowMesh.toGrid (fun k : Fin 6 => (k : ℕ)) (fun _ _ => (1 : Blk 2 ℚ)) fun _ => 1 := fun _ _ _ _ _ => rfl
  have hsame := C161_newton_partial hM hown hfresh error lastError 2
  obtain ⟨t, ht, -, hsol⟩ := tied_single error lastError
  rw [ht] at hsame
  cases hr : apply M (fun _ _ => 1) error lastError 2 with
  | none => rw [hr] at hsame; exact hsame.elim
  | some e =>
    cases e with
    | deadlock => rw [hr] at hsame; exact hsame.elim
    | finished r =>
      rw [hr] at hsame
      refine ⟨M, r, hM, hr, fun p => (hsame.1 p).1,
        C161_constraints hM _ error lastError 2 r hr 0 (hsame.1 0).1 1 1 (by decide) _ rfl,
        C161_constraints hM _ error lastError 2 r hr 1 (hsame.1 1).1 0 1 (by decide) _ rfl, ?_, by decide⟩
      have := hsame.2 0 0 0 (by decide) (by decide)
      rw [hsol] at this
      exact this

end Verif.ParNewton
