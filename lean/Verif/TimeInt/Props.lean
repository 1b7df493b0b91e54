import Verif.TimeInt.Model
import Mathlib.Algebra.Order.Field.Rat
import Mathlib.Tactic.Linarith
import Mathlib.Tactic.FieldSimp
import Mathlib.Tactic.Ring
import Mathlib.Tactic.Positivity
import Mathlib.Tactic.NormNum

set_option autoImplicit false
/-
Properties C15 and C16: retries of the time integration.
-/
set_option linter.unusedSectionVars false
namespace Verif.TimeInt
variable {K S : Type} [Field K] [LinearOrder K] [IsStrictOrderedRing K]

/-- Specification: the size of the `k`-th attempt (counted from 0) for a step of size `dt`. -/
def attemptSize (minDt dt : K) (k : ℕ) : K := if k = 0 then dt else max minDt (dt / 2 ^ k)

/-- Specification: the size is considered to be the minimum already. -/
def AtMinimum (minDt dt : K) : Prop := dt < minDt * (1 + 1 / 1000000000)

theorem next_size (minDt dt : K) (hmin : 0 ≤ minDt) (k : ℕ) :
    attemptSize minDt (if dt / 2 < minDt then minDt else dt / 2) k = attemptSize minDt dt (k + 1) := by
  have hstep : (if dt / 2 < minDt then minDt else dt / 2) = max minDt (dt / 2) := by
    split
    · next h => rw [max_eq_left h.le]
    · next h => rw [max_eq_right (not_lt.1 h)]
  rw [hstep]
  cases k with
  | zero => simp [attemptSize]
  | succ k =>
    have h2 : (0:K) < 2 ^ (k+1) := by positivity
    simp only [attemptSize, Nat.succ_ne_zero, if_false]
    have h3 : dt / 2 / 2 ^ (k+1) = dt / 2 ^ (k + 1 + 1) := by rw [div_div, pow_succ' _ (k+1)]
    rw [← h3]
    rcases max_choice minDt (dt/2) with h | h
    · rw [h]
      have h4 : minDt / 2 ^ (k+1) ≤ minDt := div_le_self hmin (one_le_pow₀ (by norm_num))
      have h5 : dt / 2 / 2 ^ (k+1) ≤ minDt / 2 ^ (k+1) :=
        div_le_div_of_nonneg_right (by rw [← h]; exact le_max_right _ _) h2.le
      rw [max_eq_left h4, max_eq_left (le_trans h5 h4)]
    · rw [h]

/-- The attempts are made with the sizes dt, max(min, dt/2), max(min, dt/4), …, there are at most `maxFails` of
them, and the run stops as soon as one of them converges, throws, or was made with the minimum size. -/
theorem C15_attempts (maxFails : ℕ) (minDt : K) (cont : Bool) (solver : Solver K S) (st : St K S)
    (hmin : 0 ≤ minDt) :
    ∃ n ≤ maxFails,
      (timeIntegration maxFails minDt cont solver st).attempts = (List.range n).map (attemptSize minDt st.dt) ∧
      -- all but the last attempt were made with more than the minimum size
      (∀ k, k + 1 < n → ¬ AtMinimum minDt (attemptSize minDt st.dt k)) ∧
      match (timeIntegration maxFails minDt cont solver st).outcome with
      | .converged => 0 < n ∧ (timeIntegration maxFails minDt cont solver st).st.dt = attemptSize minDt st.dt (n-1)
      | .accepted => 0 < n ∧ cont = true ∧ AtMinimum minDt (attemptSize minDt st.dt (n-1)) ∧
          (timeIntegration maxFails minDt cont solver st).st.dt = attemptSize minDt st.dt (n-1)
      | .gaveUp => n = maxFails ∨ (0 < n ∧ cont = false ∧ AtMinimum minDt (attemptSize minDt st.dt (n-1)))
      | .thrown => 0 < n := by
  suffices H : ∀ (m i : ℕ) (st : St K S), ∃ n ≤ m,
      (attempts minDt cont solver m i st).attempts = (List.range n).map (attemptSize minDt st.dt) ∧
      (∀ k, k + 1 < n → ¬ AtMinimum minDt (attemptSize minDt st.dt k)) ∧
      match (attempts minDt cont solver m i st).outcome with
      | .converged => 0 < n ∧ (attempts minDt cont solver m i st).st.dt = attemptSize minDt st.dt (n-1)
      | .accepted => 0 < n ∧ cont = true ∧ AtMinimum minDt (attemptSize minDt st.dt (n-1)) ∧
          (attempts minDt cont solver m i st).st.dt = attemptSize minDt st.dt (n-1)
      | .gaveUp => n = m ∨ (0 < n ∧ cont = false ∧ AtMinimum minDt (attemptSize minDt st.dt (n-1)))
      | .thrown => 0 < n by
    exact H maxFails 0 st
  intro m
  induction m with
  | zero => intro i st; exact ⟨0, le_refl _, by simp [attempts], by simp, by simp [attempts]⟩
  | succ m ih =>
    intro i st
    rw [attempts]
    rcases hu : update solver i st with ⟨_ | b, st'⟩
    · exact ⟨1, by omega, by simp [attemptSize], by simp, by simp⟩
    have hdt : st'.dt = st.dt := by
      have := congrArg (fun p => p.2.dt) hu
      simp only [update] at this
      split at this <;> simpa using this.symm
    cases b with
    | true => exact ⟨1, by omega, by simp [attemptSize], by simp, by simp [attemptSize, hdt]⟩
    | false =>
      simp only
      split
      · next hlt =>
        have hat : AtMinimum minDt (attemptSize minDt st.dt 0) := by
          rw [hdt] at hlt; simpa [AtMinimum, attemptSize, relTol] using hlt
        cases cont with
        | true => exact ⟨1, by omega, by simp [attemptSize], by simp, by simpa [hdt, attemptSize] using hat⟩
        | false => exact ⟨1, by omega, by simp [attemptSize], by simp, by simpa using Or.inr hat⟩
      · next hlt =>
        obtain ⟨n, h1, h2, h3, h4⟩ := ih (i+1) { st' with dt := if st'.dt / 2 < minDt then minDt else st'.dt / 2 }
        simp only [hdt] at h2 h3 h4 ⊢
        have hsz : ∀ k, attemptSize minDt (if st.dt / 2 < minDt then minDt else st.dt / 2) k =
            attemptSize minDt st.dt (k + 1) := next_size minDt st.dt hmin
        refine ⟨n + 1, by omega, ?_, ?_, ?_⟩
        · rw [h2, List.range_succ_eq_map]
          simp only [List.map_cons, List.map_map]
          congr 1
          apply List.map_congr_left
          intro k _
          simpa using hsz k
        · intro k hk
          cases k with
          | zero => rw [hdt] at hlt; simpa [AtMinimum, attemptSize, relTol] using hlt
          | succ k => rw [← hsz]; exact h3 k (by omega)
        · clear h2
          revert h4
          generalize attempts minDt cont solver m (i + 1)
            { sol0 := st'.sol0, sol1 := st'.sol1, dt := if st.dt / 2 < minDt then minDt else st.dt / 2 } = R
          obtain ⟨o, s, l⟩ := R
          cases o with
          | converged =>
            rintro ⟨h5, h6⟩
            obtain ⟨j, rfl⟩ : ∃ j, n = j + 1 := ⟨n - 1, by omega⟩
            exact ⟨by omega, by rw [h6]; simpa using hsz j⟩
          | accepted =>
            rintro ⟨h5, h6, h7, h8⟩
            obtain ⟨j, rfl⟩ : ∃ j, n = j + 1 := ⟨n - 1, by omega⟩
            simp only [Nat.add_sub_cancel] at h7 h8 ⊢
            rw [hsz] at h7 h8
            exact ⟨by omega, h6, h7, h8⟩
          | gaveUp =>
            rintro (h5 | ⟨h5, h6, h7⟩)
            · left; omega
            · right
              obtain ⟨j, rfl⟩ : ∃ j, n = j + 1 := ⟨n - 1, by omega⟩
              simp only [Nat.add_sub_cancel] at h7 ⊢
              rw [hsz] at h7
              exact ⟨by omega, h6, h7⟩
          | thrown => intro _; exact Nat.succ_pos n

/-- No retry uses less than the minimum size. -/
theorem C15_retries_at_least_minimum (maxFails : ℕ) (minDt : K) (cont : Bool) (solver : Solver K S) (st : St K S)
    (hmin : 0 ≤ minDt) (k : ℕ) (d : K) (hk : 0 < k)
    (h : (timeIntegration maxFails minDt cont solver st).attempts[k]? = some d) : minDt ≤ d := by
  obtain ⟨n, -, h1, -⟩ := C15_attempts maxFails minDt cont solver st hmin
  rw [h1] at h
  simp only [List.getElem?_map, Option.map_eq_some_iff] at h
  obtain ⟨j, hj, rfl⟩ := h
  rw [List.getElem?_eq_some_iff] at hj
  obtain ⟨h2, h3⟩ := hj
  simp only [List.getElem_range] at h3
  subst h3
  rw [attemptSize, if_neg (by omega)]
  exact le_max_left _ _

/-- On success the solution is the one computed by the last attempt, which converged, for the time step size
in force; the old time level is never touched, whatever happens. -/
theorem C15_result_is_last_attempt (maxFails : ℕ) (minDt : K) (cont : Bool) (solver : Solver K S) (st : St K S) :
    (timeIntegration maxFails minDt cont solver st).st.sol1 = st.sol1 ∧
    ((timeIntegration maxFails minDt cont solver st).outcome = .converged →
      ∃ i s, solver i (timeIntegration maxFails minDt cont solver st).st.dt s st.sol1 =
        .returned (timeIntegration maxFails minDt cont solver st).st.sol0 true ∧
        (s = st.sol0 ∨ s = st.sol1)) ∧
    ((timeIntegration maxFails minDt cont solver st).outcome = .gaveUp → 0 < maxFails →
      (timeIntegration maxFails minDt cont solver st).st.sol0 = st.sol1) := by
  suffices H : ∀ (m i : ℕ) (st : St K S),
      (attempts minDt cont solver m i st).st.sol1 = st.sol1 ∧
      ((attempts minDt cont solver m i st).outcome = .converged →
        ∃ k s, solver k (attempts minDt cont solver m i st).st.dt s st.sol1 =
          .returned (attempts minDt cont solver m i st).st.sol0 true ∧ (s = st.sol0 ∨ s = st.sol1)) ∧
      ((attempts minDt cont solver m i st).outcome = .gaveUp →
        (0 < m ∨ st.sol0 = st.sol1) → (attempts minDt cont solver m i st).st.sol0 = st.sol1) by
    exact ⟨(H maxFails 0 st).1, (H maxFails 0 st).2.1, fun h1 h2 => (H maxFails 0 st).2.2 h1 (Or.inl h2)⟩
  intro m
  induction m with
  | zero => intro i st; simp [attempts]
  | succ m ih =>
    intro i st
    rw [attempts, update]
    cases hs : solver i st.dt st.sol0 st.sol1 with
    | thrown it => simp
    | returned it b =>
      cases b with
      | true =>
        simp only [true_and, forall_const]
        exact ⟨⟨i, st.sol0, hs, Or.inl rfl⟩, by simp⟩
      | false =>
        simp only
        split
        · cases cont <;> simp
        · obtain ⟨h1, h2, h3⟩ := ih (i+1) ⟨st.sol1, st.sol1, if st.dt / 2 < minDt then minDt else st.dt / 2⟩
          simp only at h1 h2 h3 ⊢
          refine ⟨h1, fun h => ?_, fun h _ => h3 h (Or.inr trivial)⟩
          obtain ⟨k, s, h4, h5⟩ := h2 h
          exact ⟨k, s, h4, Or.inr (by tauto)⟩

/-! ### C16 -/

/-- Whenever the time integration accepts a step although the solver failed, the solution which is accepted is
that of the OLD time level and not the last iterate: `update` has already reset it.  This is the opposite of what
the option `ContinueOnConvergenceError` documents. -/
theorem C16_accepted_solution_is_old (maxFails : ℕ) (minDt : K) (cont : Bool) (solver : Solver K S) (st : St K S)
    (h : (timeIntegration maxFails minDt cont solver st).outcome = .accepted) :
    (timeIntegration maxFails minDt cont solver st).st.sol0 = st.sol1 := by
  suffices H : ∀ (m i : ℕ) (st : St K S), (attempts minDt cont solver m i st).outcome = .accepted →
      (attempts minDt cont solver m i st).st.sol0 = st.sol1 by
    exact H maxFails 0 st h
  intro m
  induction m with
  | zero => intro i st; simp [attempts]
  | succ m ih =>
    intro i st
    rw [attempts, update]
    cases hs : solver i st.dt st.sol0 st.sol1 with
    | thrown it => simp
    | returned it b =>
      cases b with
      | true => simp
      | false =>
        simp only
        split
        · cases cont <;> simp
        · exact fun h => ih (i+1) ⟨st.sol1, st.sol1, _⟩ h

/-- The documented behaviour, "the accepted solution is the last iterate", is FALSE. -/
theorem C16_continue_with_iterate_violated :
    ¬ ∀ (maxFails : ℕ) (minDt : ℚ) (solver : Solver ℚ ℚ) (st : St ℚ ℚ),
      (timeIntegration maxFails minDt true solver st).outcome = .accepted →
      ∃ i dt s it, solver i dt s st.sol1 = .returned it false ∧
        (timeIntegration maxFails minDt true solver st).st.sol0 = it := by
  intro h
  obtain ⟨i, dt, s, it, h1, h2⟩ := h 10 1 (fun _ _ _ _ => .returned 7 false) ⟨5, 0, 1⟩ (by decide +kernel)
  have h3 : (timeIntegration 10 (1:ℚ) true (fun _ _ _ _ => .returned (7:ℚ) false) ⟨5, 0, 1⟩).st.sol0 = 0 := by
    decide +kernel
  rw [h3] at h2
  simp only [SolveResult.returned.injEq] at h1
  rw [← h2] at h1
  norm_num at h1

-- four attempts 8, 4, 2, 1.5 (the minimum), then the step is accepted with the old solution 0
example : let r := timeIntegration (K := ℚ) 10 (3/2) true (fun _ _ s0 _ => .returned (s0 + 1) false) ⟨5, 0, 8⟩
    r.outcome = .accepted ∧ r.attempts = [8, 4, 2, 3/2] ∧ r.st.sol0 = (0:ℚ) := by decide +kernel
-- success in the third attempt
example : let r := timeIntegration (K := ℚ) 10 (3/2) true (fun i _ s0 _ => .returned (s0 + 1) (i == 2)) ⟨5, 0, 8⟩
    r.outcome = .converged ∧ r.attempts = [8, 4, 2] ∧ r.st.sol0 = (1:ℚ) ∧ r.st.dt = 2 := by decide +kernel

end Verif.TimeInt
