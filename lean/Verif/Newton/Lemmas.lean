import Verif.Newton.Model
import Mathlib.Tactic.Linarith
import Mathlib.Tactic.Ring
import Mathlib.Tactic.Positivity

set_option autoImplicit false
set_option linter.unusedSectionVars false
namespace Verif.Newton
variable {K V W : Type} [Field K] [LinearOrder K]

theorem endIteration_again {env : Env K V W} {st st' : NState K V}
    (h : endIteration env st .again = .again st') : st' = { st with iterations := st.iterations + 1 } := by
  unfold endIteration at h
  simp only at h
  split at h <;> simp_all

theorem endIteration_leave {env : Env K V W} {st st' : NState K V}
    (h : endIteration env st .leave = .leave st') : st' = { st with iterations := st.iterations + 1 } := by
  unfold endIteration at h
  simp only at h
  split at h <;> simp_all

theorem endIteration_leave_not_again {env : Env K V W} {st st' : NState K V} :
    endIteration env st .leave ≠ .again st' := by
  unfold endIteration
  simp only
  split <;> simp

theorem endIteration_again_not_leave {env : Env K V W} {st st' : NState K V} :
    endIteration env st .again ≠ .leave st' := by
  unfold endIteration
  simp only
  split <;> simp

/-- A pass which continues with the loop: everything that must have happened. -/
theorem pass_again {env : Env K V W} {st st' : NState K V} (h : pass env st = .again st') :
    ∃ r u, env.linearize st.iterations (applyConstraints env st.sol) = .residual r ∧
      (Fl.num env.maxError).lt (computeError env r) = false ∧
      proceed env { sol := applyConstraints env st.sol, error := computeError env r, lastError := st.error,
                    iterations := st.iterations } = true ∧
      env.solve st.iterations (applyConstraints env st.sol) = .update u true ∧
      st' = { sol := updateSolution env (applyConstraints env st.sol) st.sol u, error := computeError env r,
              lastError := st.error, iterations := st.iterations + 1 } := by
  unfold pass at h
  simp only at h
  split at h
  · cases h
  · split at h
    · cases h
    · cases h
    · next r hr =>
      split at h
      · cases h
      · next hm =>
        split at h
        · exact absurd h endIteration_leave_not_again
        · next hp =>
          split at h
          · cases h
          · cases h
          · cases h
          · next u fin hu =>
            split at h
            · cases h
            · next hf =>
              refine ⟨r, u, hr, by simpa using hm, by simpa using hp, ?_, ?_⟩
              · rw [hu]; simp at hf; rw [hf]
              · have := endIteration_again h; simpa using this

/-- A pass which ends with `break`. -/
theorem pass_leave {env : Env K V W} {st st' : NState K V} (h : pass env st = .leave st') :
    ∃ r, env.linearize st.iterations (applyConstraints env st.sol) = .residual r ∧
      proceed env { sol := applyConstraints env st.sol, error := computeError env r, lastError := st.error,
                    iterations := st.iterations } = false ∧
      st' = { sol := applyConstraints env st.sol, error := computeError env r, lastError := st.error,
              iterations := st.iterations + 1 } := by
  unfold pass at h
  simp only at h
  split at h
  · cases h
  · split at h
    · cases h
    · cases h
    · next r hr =>
      split at h
      · cases h
      · next hm =>
        split at h
        · next hp =>
          exact ⟨r, hr, by simpa using hp, by have := endIteration_leave h; simpa using this⟩
        · split at h
          · cases h
          · cases h
          · cases h
          · split at h
            · cases h
            · exact absurd h endIteration_again_not_leave

/-- What is known at the condition of the loop. -/
def HeadInv (env : Env K V W) (st : NState K V) : Prop :=
  st.iterations = 0 ∨
  (1 ≤ st.iterations ∧ ∃ s r u cur, env.linearize (st.iterations - 1) s = .residual r ∧
    st.error = computeError env r ∧ (converged env st = true → st.iterations = 1) ∧
    env.solve (st.iterations - 1) s = .update u true ∧ s = applyConstraints env cur ∧
    st.sol = updateSolution env s cur u)

/-- What is known about a successful result. -/
def SuccessFacts (env : Env K V W) (st : NState K V) : Prop :=
  1 ≤ st.iterations ∧ ∃ s r cur, env.linearize (st.iterations - 1) s = .residual r ∧
    st.error = computeError env r ∧ st.error.le (.num env.tolerance) = true ∧ s = applyConstraints env cur ∧
    ((2 ≤ st.iterations ∧ st.sol = s) ∨
     (st.iterations = 1 ∧ ∃ u, env.solve 0 s = .update u true ∧ st.sol = updateSolution env s cur u))

theorem loop_success (env : Env K V W) (fuel : ℕ) : ∀ st st' : NState K V, HeadInv env st →
    loop env fuel st = some (.success, st') → SuccessFacts env st' := by
  induction fuel with
  | zero => intro st st' _ h; cases h
  | succ fuel ih =>
    intro st st' hinv h
    rw [loop] at h
    split at h
    · next hp =>
      split at h
      · next st1 hpass =>
        refine ih st1 st' ?_ h
        obtain ⟨r, u, h1, h2, h3, h4, rfl⟩ := pass_again hpass
        right
        refine ⟨by simp, _, r, u, st.sol, by simpa using h1, rfl, ?_, by simpa using h4, rfl, rfl⟩
        intro hc
        by_contra hne
        simp only [proceed] at h3
        have hi : ¬ st.iterations < 1 := by simp only at hne; omega
        have hc' : converged env ⟨applyConstraints env st.sol, computeError env r, st.error, st.iterations⟩ =
            true := hc
        simp [hi, hc'] at h3
      · next st1 hpass =>
        obtain ⟨r, h1, h2, rfl⟩ := pass_leave hpass
        simp only [afterLoop] at h
        split at h
        · next hc =>
          simp only [Option.some.injEq, Prod.mk.injEq, true_and] at h
          subst h
          have hi : ¬ st.iterations < 1 := by
            intro hi
            simp [proceed, hi] at h2
          refine ⟨by simp, _, r, st.sol, by simpa using h1, rfl, hc, rfl, Or.inl ⟨?_, rfl⟩⟩
          simp only; omega
        · simp at h
      · simp at h
      · simp at h
    · next hp =>
      simp only [afterLoop] at h
      split at h
      · next hc =>
        simp only [Option.some.injEq, Prod.mk.injEq, true_and] at h
        subst h
        rcases hinv with h0 | ⟨h1, s, r, u, cur, h2, h3, h4, h5, h6, h7⟩
        · simp [proceed, h0] at hp
        · have := h4 hc
          refine ⟨h1, s, r, cur, h2, h3, hc, h6, Or.inr ⟨this, u, ?_, h7⟩⟩
          simpa [this] using h5
      · simp at h

/-! ### Termination -/

section Terminates
variable [IsStrictOrderedRing K]

/-- How many more times the error can be quartered. -/
def TermInv (env : Env K V W) (m : ℕ) (st : NState K V) (fuel : ℕ) : Prop :=
  (1 ≤ st.iterations → ∀ e, st.error = .num e → e ≤ env.maxError) ∧
  (∀ j, st.iterations = Max.max 1 env.maxIterations + j → ∀ e, st.error = .num e → e * 4 ^ j ≤ env.maxError) ∧
  st.iterations + fuel = Max.max 1 env.maxIterations + m + 1

theorem fl_le_of_not_lt {a : K} {e : K} (h : (Fl.num a).lt (Fl.num e) = false) : e ≤ a := by
  simpa [Fl.lt] using h

theorem loop_terminates (env : Env K V W) (m : ℕ)
    (hm : env.maxError ≤ env.tolerance * 4 ^ m) (fuel : ℕ) : ∀ st : NState K V, TermInv env m st (fuel + 1) →
    st.iterations ≤ Max.max 1 env.maxIterations + m →
    loop env (fuel + 1) st ≠ none := by
  induction fuel with
  | zero =>
    intro st hinv hle
    obtain ⟨-, h2, h3⟩ := hinv
    rw [loop]
    split
    · next hp =>
      -- all quarterings are used up: the loop condition cannot hold
      exfalso
      have hit : st.iterations = Max.max 1 env.maxIterations + m := by omega
      have h1 : ¬ st.iterations < 1 := by omega
      simp only [proceed, h1, if_false] at hp
      split at hp
      · simp at hp
      · next hnc =>
        have hmax : env.maxIterations ≤ st.iterations := by omega
        simp only [hmax, if_true] at hp
        cases he : st.error with
        | nan => rw [he] at hp; simp [Fl.scale, Fl.lt] at hp
        | num e =>
          have := h2 m hit e he
          rw [converged, he] at hnc
          simp only [Fl.le, decide_eq_true_eq, not_le] at hnc
          have h4 : (0:K) < 4 ^ m := by positivity
          nlinarith [mul_lt_mul_of_pos_right hnc h4]
    · simp
  | succ fuel ih =>
    intro st hinv hle
    obtain ⟨hi1, hi2, hi3⟩ := hinv
    rw [loop]
    split
    · next hp =>
      split
      · next st1 hpass =>
        obtain ⟨r, u, h1, h2, h3, h4, rfl⟩ := pass_again hpass
        apply ih
        · refine ⟨?_, ?_, ?_⟩
          · intro _ e he
            simp only at he
            rw [he] at h2
            exact fl_le_of_not_lt h2
          · intro j hj e he
            simp only at hj he
            cases j with
            | zero =>
              rw [he] at h2
              simpa using fl_le_of_not_lt h2
            | succ j =>
              have hj' : st.iterations = Max.max 1 env.maxIterations + j := by omega
              simp only [proceed] at h3
              have hnot : ¬ st.iterations < 1 := by omega
              simp only [hnot, if_false] at h3
              split at h3
              · simp at h3
              · have hmax : env.maxIterations ≤ st.iterations := by omega
                simp only [hmax, if_true] at h3
                rw [he] at h3
                cases hse : st.error with
                | nan => rw [hse] at h3; simp [Fl.scale, Fl.lt] at h3
                | num e0 =>
                  rw [hse] at h3
                  simp only [Fl.scale, Fl.lt, decide_eq_true_eq] at h3
                  have := hi2 j hj' e0 hse
                  have h4 : (0:K) < 4 ^ j := by positivity
                  calc e * 4 ^ (j + 1) = (e * 4) * 4 ^ j := by ring
                    _ ≤ e0 * 4 ^ j := by nlinarith [mul_lt_mul_of_pos_right h3 h4]
                    _ ≤ env.maxError := this
          · simp only; omega
        · simp only
          by_contra hcon
          omega
      · simp
      · simp
      · simp
    · simp

end Terminates

end Verif.Newton
