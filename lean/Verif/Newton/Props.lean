import Verif.Newton.Spec
import Verif.Newton.Lemmas
import Mathlib.Algebra.Order.Archimedean.Basic
import Mathlib.Algebra.Order.Field.Rat
import Mathlib.Tactic.FieldSimp
import Mathlib.Tactic.NormNum
import Mathlib.LinearAlgebra.Matrix.Notation

set_option autoImplicit false
set_option linter.unusedSectionVars false
/-
Properties C09, C10, C12, C13, C14: the Newton method.
-/
namespace Verif.Newton
variable {K V W : Type} [Field K] [LinearOrder K]

/-! ### How the error relates to the residual -/

/-- All weighted residual entries which count, in the order in which the code visits them. -/
def entries (env : Env K V W) (r : Vec (List (Fl K))) : List (Fl K) :=
  (List.range env.numTotalDof).flatMap fun dof =>
    if considered env dof then (r dof).zipIdx.map (fun p => p.1.scale (env.weight dof p.2)) else []

theorem computeError_eq (env : Env K V W) (r : Vec (List (Fl K))) :
    computeError env r = (entries env r).foldl (fun acc x => Fl.max (Fl.abs x) acc) (.num 0) := by
  unfold computeError entries
  generalize (Fl.num (0 : K)) = acc
  induction List.range env.numTotalDof generalizing acc with
  | nil => rfl
  | cons d l ih =>
    simp only [List.foldl_cons, List.flatMap_cons, List.foldl_append, ih]
    congr 1
    split
    · simp [errorOfDof, List.foldl_map]
    · rfl

theorem considered_iff (env : Env K V W) (dof : ℕ) :
    considered env dof = true ∧ dof < env.numTotalDof ↔ Counts env dof := by
  simp only [considered, Counts, Bool.and_eq_true, decide_eq_true_eq, Option.isNone_iff_eq_none]
  tauto

theorem mem_entries (env : Env K V W) (r : Vec (List (Fl K))) (y : Fl K) :
    y ∈ entries env r ↔ ∃ dof, Counts env dof ∧ ∃ (eq : ℕ) (x : Fl K), (r dof)[eq]? = some x ∧ y = x.scale (env.weight dof eq) := by
  simp only [entries, List.mem_flatMap, List.mem_range]
  constructor
  · rintro ⟨dof, h1, h2⟩
    split at h2
    · next hc =>
      simp only [List.mem_map] at h2
      obtain ⟨⟨x, eq⟩, h3, h4⟩ := h2
      exact ⟨dof, (considered_iff env dof).1 ⟨hc, h1⟩, eq, x,
        by simpa [List.mem_zipIdx_iff_getElem?] using h3, h4.symm⟩
    · simp at h2
  · rintro ⟨dof, h1, eq, x, h2, rfl⟩
    obtain ⟨hc, hlt⟩ := (considered_iff env dof).2 h1
    refine ⟨dof, hlt, ?_⟩
    rw [if_pos hc, List.mem_map]
    exact ⟨(x, eq), by simpa [List.mem_zipIdx_iff_getElem?] using h2, rfl⟩

theorem foldl_max_defined (l : List (Fl K)) (hl : ∀ x ∈ l, x ≠ .nan) (a : K) :
    ∃ b, l.foldl (fun acc x => Fl.max (Fl.abs x) acc) (.num a) = .num b ∧ a ≤ b ∧
      (∀ x, Fl.num x ∈ l → |x| ≤ b) ∧ (b = a ∨ ∃ x, Fl.num x ∈ l ∧ b = |x|) := by
  induction l generalizing a with
  | nil => exact ⟨a, rfl, le_refl _, by simp, Or.inl rfl⟩
  | cons x l ih =>
    have hx := hl x (by simp)
    cases x with
    | nan => exact absurd rfl hx
    | num x =>
      have hstep : Fl.max (Fl.abs (Fl.num x)) (Fl.num a) = Fl.num (max |x| a) := by
        simp only [Fl.abs, Fl.max, Fl.lt, decide_eq_true_eq]
        split
        · next h => rw [max_eq_right h.le]
        · next h => rw [max_eq_left (not_lt.1 h)]
      obtain ⟨b, h1, h2, h3, h4⟩ := ih (fun y hy => hl y (by simp [hy])) (max |x| a)
      refine ⟨b, by rw [List.foldl_cons, hstep, h1], le_trans (le_max_right _ _) h2, ?_, ?_⟩
      · intro y hy
        rcases List.mem_cons.1 hy with h | h
        · cases h; exact le_trans (le_max_left _ _) h2
        · exact h3 y h
      · rcases h4 with rfl | ⟨y, hy, rfl⟩
        · rcases max_choice |x| a with h | h
          · exact Or.inr ⟨x, by simp, h⟩
          · exact Or.inl h
        · exact Or.inr ⟨y, by simp [hy], rfl⟩

theorem scale_ne_nan {x : Fl K} {w : K} : x.scale w ≠ .nan ↔ x ≠ .nan := by
  cases x <;> simp [Fl.scale]

/-- Without undefined entries the convergence test is exact: the measured error is at most the tolerance
if and only if the weighted residual of every equation which counts is. -/
theorem C09_error_is_exact (env : Env K V W) (r : Vec (List (Fl K))) (htol : 0 ≤ env.tolerance)
    (hd : Defined env r) :
    (computeError env r).le (.num env.tolerance) = true ↔ SmallResidual env r := by
  have hne : ∀ x ∈ entries env r, x ≠ .nan := by
    intro y hy
    obtain ⟨dof, h1, eq, x, h2, rfl⟩ := (mem_entries env r y).1 hy
    exact scale_ne_nan.2 (hd dof h1 eq x h2)
  obtain ⟨b, h1, h2, h3, h4⟩ := foldl_max_defined (entries env r) hne 0
  rw [computeError_eq, h1]
  simp only [Fl.le, decide_eq_true_eq]
  constructor
  · intro hb dof hdof eq x hx
    cases x with
    | nan => exact absurd rfl (hd dof hdof eq _ hx)
    | num a =>
      refine ⟨a, rfl, le_trans (h3 _ ?_) hb⟩
      exact (mem_entries env r _).2 ⟨dof, hdof, eq, _, hx, rfl⟩
  · intro hs
    rcases h4 with rfl | ⟨x, hx, rfl⟩
    · exact htol
    · obtain ⟨dof, h5, eq, y, h6, h7⟩ := (mem_entries env r _).1 hx
      obtain ⟨a, rfl, ha⟩ := hs dof h5 eq y h6
      simp only [Fl.scale, Fl.num.injEq] at h7
      rw [h7]; exact ha

/-! ### C09: success means converged -/

/-- If the Newton method reports success, then at least one iteration was done, the residual computed in the
last iteration passes the convergence test, and either (two or more iterations) the returned solution is
exactly the one for which this residual was computed, or (a single iteration) it is that solution after one
further update.  Missing for the full property: the second case, see `C09_returned_solution_violated`. -/
theorem C09_success_partial (env : Env K V W) (s0 : Vec V) (e le : Fl K) (fuel : ℕ) (st : NState K V)
    (h : apply env s0 e le fuel = some (.success, st)) :
    1 ≤ st.iterations ∧ ∃ s r, env.linearize (st.iterations - 1) s = .residual r ∧
      (computeError env r).le (.num env.tolerance) = true ∧
      ((2 ≤ st.iterations ∧ st.sol = s) ∨ (st.iterations = 1 ∧ ∃ u, env.solve 0 s = .update u true)) := by
  obtain ⟨h1, s, r, cur, h2, h3, h4, h5, h6⟩ := loop_success env fuel _ st (Or.inl rfl) h
  refine ⟨h1, s, r, h2, h3 ▸ h4, ?_⟩
  rcases h6 with h6 | ⟨h6, u, h7, -⟩
  · exact Or.inl h6
  · exact Or.inr ⟨h6, u, h7⟩

/-- If at least two iterations were done and no residual is ever undefined, success means that the weighted
residual of the returned solution is at most the tolerance everywhere. -/
theorem C09_success_small_residual_partial (env : Env K V W) (s0 : Vec V) (e le : Fl K) (fuel : ℕ)
    (st : NState K V) (htol : 0 ≤ env.tolerance)
    (h : apply env s0 e le fuel = some (.success, st)) (h2 : 2 ≤ st.iterations)
    (hd : ∀ k s r, env.linearize k s = .residual r → Defined env r) :
    ∃ r, env.linearize (st.iterations - 1) st.sol = .residual r ∧ SmallResidual env r := by
  obtain ⟨-, s, r, h3, h4, h5⟩ := C09_success_partial env s0 e le fuel st h
  rcases h5 with ⟨-, rfl⟩ | ⟨h5, -⟩
  · exact ⟨r, h3, (C09_error_is_exact env r htol (hd _ _ _ h3)).1 h4⟩
  · omega

/-- A scalar problem: find x with x^2 + 1/10 small (at most 1/5), by the exact Newton method. -/
def parabola : Env ℚ ℚ ℚ where
  numGridDof := 1
  numTotalDof := 1
  volume := fun _ => 1
  weight := fun _ _ => 1
  constraints := fun _ => none
  beginIterationOk := fun _ => true
  endIterationOk := fun _ => true
  linearize := fun _ s => .residual (fun _ => [.num (s 0 * s 0 + 1/10)])
  solve := fun _ s => .update (fun _ => (s 0 * s 0 + 1/10) / (2 * s 0)) true
  updatePrimaryVariables := fun _ x u => x - u
  subtract := fun x u => x - u
  tolerance := 1/5
  maxError := 1000
  maxIterations := 20
  targetIterations := 10

/-- "Success implies that the residual of the returned solution is below the tolerance" is FALSE, even for the
exact Newton method: if the initial solution already fulfils the tolerance, one update is done anyway and the
residual of the result is never looked at. -/
theorem C09_returned_solution_violated :
    ∃ (s0 : Vec ℚ) (st : NState ℚ ℚ), apply parabola s0 (.num 0) (.num 0) 10 = some (.success, st) ∧
      ∃ r, parabola.linearize st.iterations st.sol = .residual r ∧ ¬ SmallResidual parabola r := by
  refine ⟨fun _ => 1/10, ?_⟩
  have hce : ∀ x : ℚ, computeError parabola (fun _ => [Fl.num x]) = Fl.num |x| := by
    intro x
    simp [computeError, parabola, considered, errorOfDof, Fl.max, Fl.abs, Fl.scale, Fl.lt, List.range_succ]
  refine ⟨⟨fun i => if i = 0 then -9/20 else 1/10, .num (11/100), .num 0, 1⟩, ?_, ?_⟩
  · have e1 : |((1:ℚ)/10) * (1/10) + 1/10| = 11/100 := by rw [abs_of_nonneg] <;> norm_num
    have hp : pass parabola ⟨fun _ => 1/10, .num 0, .num 0, 0⟩ =
        .again ⟨fun i => if i = 0 then -9/20 else 1/10, .num (11/100), .num 0, 1⟩ := by
      have hc := hce ((1:ℚ)/10 * (1/10) + 1/10)
      rw [e1] at hc
      have hl : parabola.linearize 0 (fun _ => 1/10) = .residual (fun _ => [.num ((1:ℚ)/10 * (1/10) + 1/10)]) := rfl
      have ha : applyConstraints parabola (fun _ => (1:ℚ)/10) = fun _ => 1/10 := by
        funext i; simp [applyConstraints, parabola]
      have hu : updateSolution parabola (fun _ => 1/10) (fun _ => 1/10)
          (fun _ => ((1:ℚ)/10 * (1/10) + 1/10) / (2 * (1/10))) = fun i => if i = 0 then -9/20 else 1/10 := by
        funext i
        simp only [updateSolution, parabola]
        by_cases hi : i = 0
        · subst hi; norm_num
        · simp [hi]
      have hs : parabola.solve 0 (fun _ => 1/10) =
        .update (fun _ => ((1:ℚ)/10 * (1/10) + 1/10) / (2 * (1/10))) true := rfl
      unfold pass
      simp only [ha, hl, hc, hs, hu]
      simp [parabola, Fl.lt, proceed, endIteration]
      norm_num
    rw [apply, loop]
    have : proceed parabola ⟨fun _ => 1/10, .num 0, .num 0, 0⟩ = true := by simp [proceed]
    rw [if_pos this, hp]
    simp only
    rw [loop, if_neg]
    · simp [afterLoop, converged, Fl.le, parabola]; norm_num
    · simp [proceed, converged, Fl.le, parabola]; norm_num
  · refine ⟨_, rfl, ?_⟩
    intro h
    obtain ⟨a, ha, hb⟩ := h 0 (by simp [Counts, parabola]) 0 _ rfl
    simp only [Fl.num.injEq] at ha
    subst ha
    simp only [parabola, if_true, mul_one] at hb
    rw [abs_of_nonneg (by norm_num)] at hb
    norm_num at hb

-- a run with three iterations which succeeds: the hypotheses of the theorems above can be met
example : (apply { parabola with tolerance := 2/3, linearize := fun _ s => .residual (fun _ => [.num (s 0)]),
                                 solve := fun _ s => .update (fun _ => s 0 / 2) true }
    (fun _ => 2) (.num 0) (.num 0) 10).map (fun p => (p.1, p.2.iterations, p.2.sol 0)) =
    some (.success, 3, 1/2) := by decide +kernel

/-! ### C10: termination -/

section
variable [IsStrictOrderedRing K]

/-- For every environment the loop is left after at most `max 1 maxIterations + m` iterations, where `m` is
the number of quarterings between the largest admissible error and the tolerance. -/
theorem C10_terminates (env : Env K V W) (m : ℕ) (hm : env.maxError ≤ env.tolerance * 4 ^ m)
    (s0 : Vec V) (e le : Fl K) :
    apply env s0 e le (max 1 env.maxIterations + m + 1) ≠ none := by
  apply loop_terminates env m hm
  · refine ⟨by simp, ?_, by simp⟩
    intro j hj
    simp only at hj
    omega
  · simp

/-- For a positive tolerance such an `m` exists, whatever the largest admissible error is. -/
theorem C10_terminates_always [Archimedean K] (env : Env K V W) (htol : 0 < env.tolerance) :
    ∃ bound, ∀ (s0 : Vec V) (e le : Fl K), apply env s0 e le bound ≠ none := by
  obtain ⟨m, hm⟩ := pow_unbounded_of_one_lt (env.maxError / env.tolerance) (show (1:K) < 4 by norm_num)
  refine ⟨_, fun s0 e le => C10_terminates env m ?_ s0 e le⟩
  rw [div_lt_iff₀ htol] at hm
  rw [mul_comm]; exact hm.le

/-- More fuel does not change the result, so "the" result of `apply` is well defined. -/
theorem C10_result_unique (env : Env K V W) (s0 : Vec V) (e le : Fl K) (n m : ℕ)
    (a b : Outcome × NState K V) (ha : apply env s0 e le n = some a) (hb : apply env s0 e le m = some b) :
    a = b := by
  have mono : ∀ n st a, loop env n st = some a → ∀ k, loop env (n + k) st = some a := by
    intro n
    induction n with
    | zero => intro st a h; cases h
    | succ n ih =>
      intro st a h k
      rw [Nat.succ_add]
      rw [loop] at h ⊢
      split
      · next hp =>
        rw [if_pos hp] at h
        split
        · next st' hpass => rw [hpass] at h; exact ih _ _ h k
        · next st' hpass => rw [hpass] at h; exact h
        · next st' hpass => rw [hpass] at h; exact h
        · next st' hpass => rw [hpass] at h; exact h
      · next hp => rw [if_neg hp] at h; exact h
  have h1 := mono n _ a ha m
  have h2 := mono m _ b hb n
  rw [Nat.add_comm] at h2
  have := h1.symm.trans h2
  exact Option.some.inj this

end

/-- An environment which quarters (more than quarters) the error each time. -/
def shrinking : Env ℚ ℚ ℚ where
  numGridDof := 1
  numTotalDof := 1
  volume := fun _ => 1
  weight := fun _ _ => 1
  constraints := fun _ => none
  beginIterationOk := fun _ => true
  endIterationOk := fun _ => true
  linearize := fun k _ => .residual (fun _ => [.num ((1/5) ^ k)])
  solve := fun _ _ => .update (fun _ => 0) true
  updatePrimaryVariables := fun _ x u => x - u
  subtract := fun x u => x - u
  tolerance := 0
  maxError := 1000
  maxIterations := 3
  targetIterations := 2

/-- The hypothesis on the tolerance is needed: with tolerance zero there is an environment for which the loop
never ends. -/
theorem C10_zero_tolerance_diverges (fuel : ℕ) : apply shrinking (fun _ => 0) (.num 0) (.num 0) fuel = none := by
  have hce : ∀ k, computeError shrinking (fun _ => [Fl.num ((1/5:ℚ) ^ k)]) = Fl.num ((1/5) ^ k) := by
    intro k
    have : (0:ℚ) ≤ (1/5) ^ k := by positivity
    simp only [computeError, shrinking, considered, errorOfDof, Fl.max, Fl.abs, Fl.scale, Fl.lt, List.range_succ]
    simp
  -- one pass
  have hpass : ∀ k e le, (k = 0 ∨ ∃ j, k = j + 1 ∧ e = Fl.num ((1/5:ℚ) ^ j)) →
      pass shrinking ⟨fun _ => 0, e, le, k⟩ = .again ⟨fun _ => 0, .num ((1/5) ^ k), e, k + 1⟩ := by
    intro k e le hk
    have hpos : (0:ℚ) < (1/5) ^ k := by positivity
    have hle1 : ((1:ℚ)/5) ^ k ≤ 1 := pow_le_one₀ (by norm_num) (by norm_num)
    have hl : shrinking.linearize k (fun _ => 0) = .residual (fun _ => [.num ((1/5:ℚ) ^ k)]) := rfl
    have ha : applyConstraints shrinking (fun _ => (0:ℚ)) = fun _ => 0 := by
      funext i; simp [applyConstraints, shrinking]
    have hu : updateSolution shrinking (fun _ => 0) (fun _ => 0) (fun _ => (0:ℚ)) = fun _ => 0 := by
      funext i; simp [updateSolution, shrinking]
    have hs : shrinking.solve k (fun _ => 0) = .update (fun _ => (0:ℚ)) true := rfl
    have hm : (Fl.num shrinking.maxError).lt (Fl.num ((1/5:ℚ) ^ k)) = false := by
      have : ¬ (1000 < ((1:ℚ)/5) ^ k) := not_lt.2 (by linarith)
      simp [Fl.lt, shrinking] at this ⊢; exact this
    have hp : proceed shrinking ⟨fun _ => 0, Fl.num ((1/5:ℚ) ^ k), e, k⟩ = true := by
      simp only [proceed, converged, Fl.le, shrinking]
      rcases hk with rfl | ⟨j, rfl, rfl⟩
      · simp
      · have h5 : ¬ ((1/5:ℚ) ^ (j+1) ≤ 0) := not_le.2 (by positivity)
        simp only [h5, decide_false, Fl.scale, Fl.lt]
        simp
        right
        have hj : (0:ℚ) < (5 ^ j)⁻¹ := by positivity
        rw [pow_succ, mul_inv]
        linarith
    unfold pass
    simp only [ha, hl, hce, hm, hp, hs, hu]
    simp [shrinking, endIteration]
  have main : ∀ fuel k e le, ((k = 0 ∧ e = Fl.num (0:ℚ)) ∨ ∃ j, k = j + 1 ∧ e = Fl.num ((1/5:ℚ) ^ j) ∧
      (le = .num 0 ∧ j = 0 ∨ ∃ i, j = i + 1 ∧ le = Fl.num ((1/5:ℚ) ^ i))) →
      loop shrinking fuel ⟨fun _ => 0, e, le, k⟩ = none := by
    intro fuel
    induction fuel with
    | zero => intro k e le _; rfl
    | succ fuel ih =>
      intro k e le hk
      rw [loop]
      have hproc : proceed shrinking ⟨fun _ => 0, e, le, k⟩ = true := by
        rcases hk with ⟨rfl, rfl⟩ | ⟨j, rfl, rfl, h⟩
        · simp [proceed]
        · have h5 : ¬ ((1/5:ℚ) ^ j ≤ 0) := not_le.2 (by positivity)
          simp only [proceed, converged, Fl.le, shrinking, h5, decide_false, Fl.scale, Fl.lt]
          rcases h with ⟨rfl, rfl⟩ | ⟨i, rfl, rfl⟩
          · simp
          · simp
            right
            have hj : (0:ℚ) < (5 ^ i)⁻¹ := by positivity
            rw [pow_succ, mul_inv]
            linarith
      rw [if_pos hproc, hpass k e le (by rcases hk with h | ⟨j, h1, h2, _⟩; exact Or.inl h.1; exact Or.inr ⟨j, h1, h2⟩)]
      apply ih
      right
      refine ⟨k, rfl, rfl, ?_⟩
      rcases hk with ⟨rfl, rfl⟩ | ⟨j, rfl, rfl, h⟩
      · exact Or.inl ⟨rfl, rfl⟩
      · exact Or.inr ⟨j, rfl, rfl⟩
  exact main fuel 0 _ _ (Or.inl ⟨rfl, rfl⟩)

/-! ### C12: constrained degrees of freedom -/

/-- Whatever happens in between, a run of the Newton method which reports success leaves every constrained
degree of freedom of the grid at exactly its prescribed value. -/
theorem C12_success_keeps_constraints (env : Env K V W) (s0 : Vec V) (e le : Fl K) (fuel : ℕ)
    (st : NState K V) (h : apply env s0 e le fuel = some (.success, st)) (i : ℕ) (c : V)
    (hi : i < env.numGridDof) (hc : env.constraints i = some c) : st.sol i = c := by
  obtain ⟨-, s, r, cur, -, -, -, h5, h6⟩ := loop_success env fuel _ st (Or.inl rfl) h
  rcases h6 with ⟨-, h7⟩ | ⟨-, u, -, h7⟩
  · rw [h7, h5]; simp [applyConstraints, hc]
  · rw [h7]; simp [updateSolution, hi, hc]

/-- The same holds for every single update, and the value does not depend on the update vector. -/
theorem C12_update_keeps_constraints (env : Env K V W) (next current : Vec V) (u : Vec W) (i : ℕ) (c : V)
    (hi : i < env.numGridDof) (hc : env.constraints i = some c) :
    updateSolution env next current u i = c := by
  simp [updateSolution, hi, hc]

/-- The residual at constrained degrees of freedom (and of auxiliary ones, and of those without volume) has
no influence on the error. -/
theorem C12_constraints_do_not_count (env : Env K V W) (r r' : Vec (List (Fl K)))
    (h : ∀ dof, Counts env dof → r dof = r' dof) : computeError env r = computeError env r' := by
  rw [computeError_eq, computeError_eq]
  congr 1
  unfold entries
  rw [List.flatMap_def, List.flatMap_def]
  congr 1
  apply List.map_congr_left
  intro dof hdof
  split
  · next hc => rw [h dof ((considered_iff env dof).1 ⟨hc, by simpa using hdof⟩)]
  · rfl

/-- Unconstrained degrees of freedom do get the update. -/
theorem C12_unconstrained_updated (env : Env K V W) (next current : Vec V) (u : Vec W) (i : ℕ)
    (hi : i < env.numGridDof) (hc : env.constraints i = none) :
    updateSolution env next current u i = env.updatePrimaryVariables i (current i) (u i) := by
  simp [updateSolution, hi, hc]

/-- What `applyConstraintsToLinearization_` (opm/models/discretization/common/fvbaselinearizer.hh:649-666) does with the row of a constrained
degree of freedom (one equation per degree of freedom): identity row, zero right-hand side. -/
def constrainSystem {n : ℕ} (constrained : Fin n → Bool) (A : Matrix (Fin n) (Fin n) K) (b : Fin n → K) :
    Matrix (Fin n) (Fin n) K × (Fin n → K) :=
  (fun i j => if constrained i then (if i = j then 1 else 0) else A i j,
   fun i => if constrained i then 0 else b i)

/-- Every exact solution of the constrained linear system has no update at constrained degrees of freedom. -/
theorem C12_linear_solve_zero_update {n : ℕ} (constrained : Fin n → Bool) (A : Matrix (Fin n) (Fin n) K)
    (b x : Fin n → K) (i : Fin n) (hi : constrained i = true)
    (hx : (constrainSystem constrained A b).1.mulVec x = (constrainSystem constrained A b).2) : x i = 0 := by
  have := congrFun hx i
  simpa [constrainSystem, Matrix.mulVec, dotProduct, hi] using this

-- a constrained degree of freedom in a successful run (prescribed value 7)
example : (apply { parabola with numGridDof := 2, numTotalDof := 2, constraints := fun i => if i = 1 then some 7 else none }
    (fun _ => 1/10) (.num 0) (.num 0) 10).map (fun p => (p.1, p.2.sol 0, p.2.sol 1)) =
    some (.success, -9/20, 7) := by decide +kernel

/-! ### C13: undefined residuals -/

theorem foldl_max_last_nan (l : List (Fl K)) (a : Fl K) :
    (l ++ [Fl.nan]).foldl (fun acc x => Fl.max (Fl.abs x) acc) a = .nan := by
  simp [Fl.max, Fl.abs, Fl.lt]

/-- An undefined entry is noticed if it is the last one that counts.  Missing for the full property: an
undefined entry in any other place is masked, see `C13_nan_accepted_violated`. -/
theorem C13_last_entry_nan_partial (env : Env K V W) (r : Vec (List (Fl K)))
    (h : (entries env r).getLast? = some Fl.nan) :
    (computeError env r).le (.num env.tolerance) = false := by
  rw [computeError_eq]
  obtain ⟨l, hl⟩ := List.getLast?_eq_some_iff.1 h
  rw [hl, foldl_max_last_nan]
  rfl

/-- Two degrees of freedom; the residual of the first one is undefined. -/
def masked : Env ℚ ℚ ℚ where
  numGridDof := 2
  numTotalDof := 2
  volume := fun _ => 1
  weight := fun _ _ => 1
  constraints := fun _ => none
  beginIterationOk := fun _ => true
  endIterationOk := fun _ => true
  linearize := fun _ _ => .residual (fun dof => if dof = 0 then [.nan] else [.num 0])
  solve := fun _ _ => .update (fun _ => 0) true
  updatePrimaryVariables := fun _ x u => x - u
  subtract := fun x u => x - u
  tolerance := 1
  maxError := 1000
  maxIterations := 20
  targetIterations := 10

/-- "A residual with an undefined entry is never accepted" is FALSE: `std::max(NaN, x)` and
`std::max(x, NaN)` both return the first argument, so that the next entry replaces the NaN. -/
theorem C13_nan_accepted_violated :
    ∃ r : Vec (List (Fl ℚ)), Counts masked 0 ∧ (r 0)[0]? = some Fl.nan ∧
      (computeError masked r).le (.num masked.tolerance) = true ∧
      ∃ st, apply masked (fun _ => 0) (.num 0) (.num 0) 5 = some (.success, st) ∧
        masked.linearize (st.iterations - 1) st.sol = .residual r := by
  refine ⟨fun dof => if dof = 0 then [.nan] else [.num 0], by simp [Counts, masked], rfl, by decide +kernel, ?_⟩
  have hs : (apply masked (fun _ => 0) (.num 0) (.num 0) 5).map Prod.fst = some .success := by decide +kernel
  cases hr : apply masked (fun _ => 0) (.num 0) (.num 0) 5 with
  | none => rw [hr] at hs; cases hs
  | some p =>
    obtain ⟨o, st⟩ := p
    rw [hr] at hs
    cases hs
    exact ⟨st, rfl, rfl⟩

/-! ### C14: suggested time step sizes -/

section
variable [IsStrictOrderedRing K]

/-- Never below the minimum. -/
theorem C14_at_least_minimum (minDt oldDt : K) (t n : ℕ) : minDt ≤ suggestTimeStepSize minDt t n oldDt := by
  unfold suggestTimeStepSize
  split <;> exact le_max_left _ _

/-- More iterations than wanted: the old size divided by n/t, which is smaller than the old size, or the
minimum. -/
theorem C14_reduction (minDt oldDt : K) (t n : ℕ) (ht : 0 < t) (hn : t < n) (hdt : 0 < oldDt) :
    suggestTimeStepSize minDt t n oldDt = max minDt (oldDt / (n / t)) ∧ oldDt / ((n : K) / t) < oldDt := by
  have ht' : (0:K) < t := by exact_mod_cast ht
  have hn' : (t:K) < n := by exact_mod_cast hn
  constructor
  · rw [suggestTimeStepSize, if_pos hn]
    congr 2
    rw [Nat.cast_sub hn.le]
    field_simp
    ring
  · have hn0 : (0:K) < n := lt_trans ht' hn'
    rw [div_lt_iff₀ (by positivity)]
    have : 1 < (n : K) / t := by rw [lt_div_iff₀ ht']; linarith
    nlinarith

/-- At most as many iterations as wanted: between the old size and 1 + 1/1.2 times the old size, or the
minimum. -/
theorem C14_increase (minDt oldDt : K) (t n : ℕ) (ht : 0 < t) (hn : n ≤ t) (hdt : 0 < oldDt) :
    max minDt oldDt ≤ suggestTimeStepSize minDt t n oldDt ∧
      suggestTimeStepSize minDt t n oldDt ≤ max minDt (oldDt * (1 + 1 / (12/10))) := by
  have ht' : (0:K) < t := by exact_mod_cast ht
  rw [suggestTimeStepSize, if_neg (not_lt.2 hn), Nat.cast_sub hn]
  have hn' : (n:K) ≤ t := by exact_mod_cast hn
  have h0 : (0:K) ≤ ((t:K) - n) / t := div_nonneg (by linarith) ht'.le
  have h1 : ((t:K) - n) / t ≤ 1 := by
    rw [div_le_one ht']
    have : (0:K) ≤ n := Nat.cast_nonneg n
    linarith
  constructor
  · apply max_le_max le_rfl
    nlinarith [div_nonneg h0 (show (0:K) ≤ 6/5 by norm_num)]
  · apply max_le_max le_rfl
    apply mul_le_mul_of_nonneg_left _ hdt.le
    have : ((t:K) - n) / t / (6/5) ≤ 1 / (6/5) := div_le_div_of_nonneg_right h1 (by norm_num)
    have h3 : (6/5 : K) = 12/10 := by norm_num
    rw [h3] at this ⊢
    linarith

/-- The suggestion never grows with the number of iterations. -/
theorem C14_monotone (minDt oldDt : K) (t n m : ℕ) (ht : 0 < t) (hdt : 0 < oldDt) (hnm : n ≤ m) :
    suggestTimeStepSize minDt t m oldDt ≤ suggestTimeStepSize minDt t n oldDt := by
  have ht' : (0:K) < t := by exact_mod_cast ht
  by_cases hm : t < m
  · rw [(C14_reduction minDt oldDt t m ht hm hdt).1]
    by_cases hn : t < n
    · rw [(C14_reduction minDt oldDt t n ht hn hdt).1]
      apply max_le_max le_rfl
      have hn' : (0:K) < n := by exact_mod_cast (by omega : 0 < n)
      have hnm' : (n:K) ≤ m := by exact_mod_cast hnm
      apply div_le_div_of_nonneg_left hdt.le (by positivity)
      exact div_le_div_of_nonneg_right hnm' ht'.le
    · refine le_trans ?_ (C14_increase minDt oldDt t n ht (not_lt.1 hn) hdt).1
      exact max_le_max le_rfl (C14_reduction minDt oldDt t m ht hm hdt).2.le
  · have hn : ¬ t < n := by omega
    rw [suggestTimeStepSize, suggestTimeStepSize, if_neg hm, if_neg hn]
    apply max_le_max le_rfl
    apply mul_le_mul_of_nonneg_left _ hdt.le
    have : ((t - m : ℕ) : K) ≤ ((t - n : ℕ) : K) := by exact_mod_cast (by omega : t - m ≤ t - n)
    have := div_le_div_of_nonneg_right (div_le_div_of_nonneg_right this ht'.le) (show (0:K) ≤ 6/5 by norm_num)
    linarith

/-- After a failed solve (`failed_` sets the number of iterations to twice the target) half of the old size
is suggested. -/
theorem C14_after_failure (env : Env K V W) (st : NState K V) (minDt oldDt : K)
    (ht : 0 < env.targetIterations) :
    suggestTimeStepSize minDt env.targetIterations (failedState env st).iterations oldDt =
      max minDt (oldDt / 2) := by
  have ht' : (0:K) < env.targetIterations := by exact_mod_cast ht
  have hn : env.targetIterations < env.targetIterations * 2 := by omega
  rw [suggestTimeStepSize, failedState, if_pos hn]
  congr 2
  have : env.targetIterations * 2 - env.targetIterations = env.targetIterations := by omega
  simp only [this]
  field_simp
  norm_num

end

example : suggestTimeStepSize (1:ℚ) 10 20 100 = 50 ∧ suggestTimeStepSize (1:ℚ) 10 4 100 = 150 ∧
    suggestTimeStepSize (60:ℚ) 10 20 100 = 60 := by
  refine ⟨?_, ?_, ?_⟩ <;> norm_num [suggestTimeStepSize]

end Verif.Newton
