import Verif.Newton.Props

set_option autoImplicit false
/-
C13, for the whole Newton method instead of one evaluation of its error: what undefined numbers can do.
-/
namespace Verif.Newton

variable {K V W : Type} [Field K] [LinearOrder K]

/-- If the last entry that counts is undefined in every residual, the Newton method never reports success,
whatever else happens.  Missing for the full property: an undefined entry in any other place, see
`C13_nan_accepted_violated`. -/
theorem C13_undefined_never_succeeds_partial (env : Env K V W) (s0 : Vec V) (e le : Fl K) (fuel : ℕ)
    (st : NState K V)
    (hnan : ∀ k s r, env.linearize k s = .residual r → (entries env r).getLast? = some Fl.nan) :
    apply env s0 e le fuel ≠ some (.success, st) := by
  intro h
  obtain ⟨-, s, r, h1, h2, -⟩ := C09_success_partial env s0 e le fuel st h
  rw [C13_last_entry_nan_partial env r (hnan _ _ _ h1)] at h2
  cases h2

/-- Success means that the last entry that counts of the residual it was decided upon is a number. -/
theorem C13_success_last_entry_defined_partial (env : Env K V W) (s0 : Vec V) (e le : Fl K) (fuel : ℕ)
    (st : NState K V) (h : apply env s0 e le fuel = some (.success, st)) :
    ∃ s r, env.linearize (st.iterations - 1) s = .residual r ∧ (entries env r).getLast? ≠ some Fl.nan := by
  obtain ⟨-, s, r, h1, h2, -⟩ := C09_success_partial env s0 e le fuel st h
  refine ⟨s, r, h1, fun hn => ?_⟩
  rw [C13_last_entry_nan_partial env r hn] at h2
  cases h2

/-- A first update which is not finite is never applied: the Newton method fails and the solution is the initial
one with the constraints applied. -/
theorem C13_undefined_update_rejected (env : Env K V W) (s0 : Vec V) (e le : Fl K) (fuel : ℕ)
    (o : Outcome) (st : NState K V)
    (hu : ∀ u fin, env.solve 0 (applyConstraints env s0) = .update u fin → fin = false)
    (h : apply env s0 e le fuel = some (o, st)) :
    o ≠ .success ∧ (st.sol = s0 ∨ st.sol = applyConstraints env s0) := by
  unfold apply at h
  cases fuel with
  | zero => cases h
  | succ fuel =>
    rw [loop] at h
    have hp : ∀ s e le, proceed env (⟨s, e, le, 0⟩ : NState K V) = true := by intros; rfl
    rw [if_pos (hp _ _ _)] at h
    unfold pass at h
    simp only at h
    cases hb : env.beginIterationOk 0 with
    | false => rw [hb] at h; simp [failedState] at h; obtain ⟨rfl, rfl⟩ := h; simp
    | true =>
      rw [hb] at h
      simp only [Bool.not_true, Bool.false_eq_true, if_false] at h
      cases hl : env.linearize 0 (applyConstraints env s0) with
      | caught => rw [hl] at h; simp [failedState] at h; obtain ⟨rfl, rfl⟩ := h; simp
      | other => rw [hl] at h; simp at h; obtain ⟨rfl, rfl⟩ := h; simp
      | residual r =>
        rw [hl] at h
        simp only at h
        by_cases hm : (Fl.num env.maxError).lt (computeError env r) = true
        · rw [if_pos hm] at h; simp [failedState] at h; obtain ⟨rfl, rfl⟩ := h; simp
        · rw [if_neg hm, hp] at h
          simp only [Bool.not_true, Bool.false_eq_true, if_false] at h
          cases hs : env.solve 0 (applyConstraints env s0) with
          | caught => rw [hs] at h; simp [failedState] at h; obtain ⟨rfl, rfl⟩ := h; simp
          | other => rw [hs] at h; simp at h; obtain ⟨rfl, rfl⟩ := h; simp
          | notConverged => rw [hs] at h; simp [failedState] at h; obtain ⟨rfl, rfl⟩ := h; simp
          | update u fin =>
            rw [hs] at h
            rw [hu u fin hs] at h
            simp [failedState] at h; obtain ⟨rfl, rfl⟩ := h; simp

-- the hypotheses are met: a residual which is undefined in its last entry, an update which is not finite
example : (apply { masked with linearize := fun _ _ => .residual (fun dof => if dof = 1 then [.nan] else [.num 0]) }
    (fun _ => 0) (.num 0) (.num 0) 50).map Prod.fst = some .failure := by decide +kernel
example : (apply { masked with solve := fun _ _ => .update (fun _ => 3) false } (fun _ => 8) (.num 0) (.num 0) 50).map
    (fun p => (p.1, p.2.sol 0)) = some (.failure, 8) := by decide +kernel

end Verif.Newton
