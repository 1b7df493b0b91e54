import Verif.Retry.Model
import Mathlib.Algebra.Order.Ring.Rat
import Mathlib.Tactic.Linarith
import Mathlib.Tactic.NormNum

/-
C188: retries of time steps with constraints.
-/

set_option autoImplicit false
set_option linter.unusedSectionVars false

namespace Verif.Retry

open Verif.TimeInt (St Res SolveResult Outcome)

variable {K V : Type} [Field K] [LinearOrder K] [IsStrictOrderedRing K]

/-! ### Specification -/

/-- What the task asks for with the step size `d`, if the last time step ended with the solution `s`: the Newton method succeeds with the
solution `new`, where both time levels have the prescribed values of constrained degrees of freedom, and `s` elsewhere. -/
def Direct (t : Task K V) (s : ℕ → V) (d : K) (old new : ℕ → V) : Prop :=
  (∀ i, old i = match t.constraints d i with
    | some v => v
    | none => s i) ∧ t.newton d old old = .returned new true

/-- What is constrained for a step is constrained for all smaller ones. -/
def Steady (t : Task K V) : Prop := ∀ d d' i, d' ≤ d → t.constraints d i ≠ none → t.constraints d' i ≠ none

/-! ### Lemmas -/

theorem apply_apply {c c' : ℕ → Option V} (h : ∀ i, c i ≠ none → c' i ≠ none) (s : ℕ → V) :
    applyConstraints c' (applyConstraints c s) = applyConstraints c' s := by
  funext i
  unfold applyConstraints
  cases h' : c' i with
  | some v => rfl
  | none =>
    have : c i = none := by
      by_contra hn
      exact h i hn h'
    rw [this]; rfl

theorem update_spec (t : Task K V) (i : ℕ) (st : St K (ℕ → V)) (h01 : st.sol0 = st.sol1) :
    (update t i st).2.dt = st.dt ∧
      ((update t i st).1 = some true → (update t i st).2.sol1 = applyConstraints (t.constraints st.dt) st.sol1 ∧
        t.newton st.dt (update t i st).2.sol1 (update t i st).2.sol1 = .returned (update t i st).2.sol0 true) ∧
      ((update t i st).1 = some false → (update t i st).2.sol0 = (update t i st).2.sol1) ∧
      ((update t i st).2.sol1 = applyConstraints (t.constraints st.dt) st.sol1 ∨ (update t i st).2.sol1 = st.sol1) := by
  unfold update
  rw [h01]
  split
  · dsimp only
    cases hn : t.newton st.dt (applyConstraints (t.constraints st.dt) st.sol1) (applyConstraints (t.constraints st.dt) st.sol1) with
    | thrown it => exact ⟨rfl, by simp, by simp, .inl rfl⟩
    | returned it b =>
      cases b
      · exact ⟨rfl, by simp, fun _ => rfl, .inl rfl⟩
      · exact ⟨rfl, fun _ => ⟨rfl, hn⟩, by simp, .inl rfl⟩
  · exact ⟨rfl, by simp, fun _ => rfl, .inr rfl⟩

theorem attempts_spec {minDt : K} (hmin : 0 ≤ minDt) (cont : Bool) {t : Task K V} (ht : Steady t) (s : ℕ → V) :
    ∀ (n i : ℕ) (st : St K (ℕ → V)), st.sol0 = st.sol1 →
      (∀ d ≤ st.dt, applyConstraints (t.constraints d) st.sol1 = applyConstraints (t.constraints d) s) →
      (attempts minDt cont t n i st).outcome = .converged →
      (attempts minDt cont t n i st).st.sol1 = applyConstraints (t.constraints (attempts minDt cont t n i st).st.dt) s ∧
        t.newton (attempts minDt cont t n i st).st.dt (attempts minDt cont t n i st).st.sol1 (attempts minDt cont t n i st).st.sol1 =
          .returned (attempts minDt cont t n i st).st.sol0 true := by
  intro n
  induction n with
  | zero => intro i st _ _ h; cases h
  | succ n ih =>
    intro i st h01 hinv h
    obtain ⟨u1, u2, u3, u4⟩ := update_spec t i st h01
    unfold attempts at h ⊢
    generalize update t i st = r at *
    obtain ⟨b, st'⟩ := r
    dsimp only at u1 u2 u3 u4
    match b with
    | none => cases h
    | some true =>
      dsimp only at h ⊢
      obtain ⟨a1, a2⟩ := u2 rfl
      rw [u1]
      exact ⟨a1.trans (hinv st.dt le_rfl), a2⟩
    | some false =>
      dsimp only at h ⊢
      split at h
      · split at h <;> cases h
      · next hlt =>
        rw [if_neg hlt]
        dsimp only at h ⊢
        have hge : minDt ≤ st.dt := by
          rw [u1] at hlt
          have : 0 ≤ minDt * TimeInt.relTol K := mul_nonneg hmin (by unfold TimeInt.relTol; positivity)
          have h2 := not_lt.1 hlt
          rw [mul_add, mul_one] at h2
          linarith
        have hnext : (if st'.dt / 2 < minDt then minDt else st'.dt / 2) ≤ st.dt := by
          rw [u1]
          split
          · exact hge
          · linarith
        refine ih (i + 1) _ (u3 rfl) (fun d hd => ?_) h
        have hd' : d ≤ st.dt := le_trans hd hnext
        show applyConstraints (t.constraints d) st'.sol1 = _
        rcases u4 with e | e
        · rw [e, apply_apply (fun j hj => ht _ _ j hd' hj), hinv d hd']
        · rw [e, hinv d hd']

theorem apply_eq (c : ℕ → Option V) (s : ℕ → V) (i : ℕ) : applyConstraints c s i = match c i with
    | some v => v
    | none => s i := by
  unfold applyConstraints
  cases c i <;> rfl

/-! ### C188 -/

/-- **C188** (partial) A time step which succeeds after any number of failed attempts is the one which would have been made with the last
time step size right away, if whatever is constrained for a step is constrained for smaller ones, too.  Missing: degrees of freedom which
are constrained only for larger steps, see below. -/
theorem C188_retry_partial (maxFails : ℕ) (minDt : K) (hmin : 0 ≤ minDt) (cont : Bool) (t : Task K V) (ht : Steady t) (s : ℕ → V) (dt : K) :
    let r := timeIntegration maxFails minDt cont t ⟨s, s, dt⟩
    r.outcome = .converged → Direct t s r.st.dt r.st.sol1 r.st.sol0 := by
  intro r h
  obtain ⟨h1, h2⟩ := attempts_spec hmin cont ht s maxFails 0 ⟨s, s, dt⟩ rfl (fun _ _ => rfl) h
  exact ⟨fun i => (congrFun h1 i).trans (apply_eq _ _ i), h2⟩

/-- **C188** However the attempts end: a degree of freedom which is constrained for none of the time step sizes which were tried keeps its
value of the previous time level. -/
theorem C188_untouched (maxFails : ℕ) (minDt : K) (cont : Bool) (t : Task K V) (s0 s1 : ℕ → V) (dt : K) (k : ℕ) :
    let r := timeIntegration maxFails minDt cont t ⟨s0, s1, dt⟩
    (∀ d ∈ r.attempts, t.constraints d k = none) → r.st.sol1 k = s1 k := by
  suffices H : ∀ (n i : ℕ) (st : St K (ℕ → V)), (∀ d ∈ (attempts minDt cont t n i st).attempts, t.constraints d k = none) →
      (attempts minDt cont t n i st).st.sol1 k = st.sol1 k from H maxFails 0 ⟨s0, s1, dt⟩
  intro n
  induction n with
  | zero => intro i st _; rfl
  | succ n ih =>
    intro i st h
    have hu : t.constraints st.dt k = none → (update t i st).2.sol1 k = st.sol1 k := by
      intro hc
      unfold update
      split
      · dsimp only
        split <;> simp [applyConstraints, hc]
      · rfl
    unfold attempts at h ⊢
    generalize update t i st = r at *
    obtain ⟨b, st'⟩ := r
    match b with
    | none => exact hu (h _ (by simp))
    | some true => exact hu (h _ (by simp))
    | some false =>
      dsimp only at h hu ⊢
      split
      · next hlt =>
        rw [if_pos hlt] at h
        cases cont <;> exact hu (h _ (by simp))
      · next hlt =>
        rw [if_neg hlt] at h
        exact (ih (i + 1) _ fun d hd => h d (List.mem_cons_of_mem _ hd)).trans (hu (h _ (List.mem_cons_self)))

/-- **C188** If the Newton method keeps the prescribed values (C12), a time step which succeeds ends with those which are prescribed for its
size, not with those of failed attempts. -/
theorem C188_prescribed (maxFails : ℕ) (minDt : K) (hmin : 0 ≤ minDt) (cont : Bool) (t : Task K V) (ht : Steady t)
    (hk : ∀ d old new, t.newton d old old = .returned new true → ∀ i v, t.constraints d i = some v → old i = v → new i = v)
    (s : ℕ → V) (dt : K) (i : ℕ) (v : V) :
    let r := timeIntegration maxFails minDt cont t ⟨s, s, dt⟩
    r.outcome = .converged → t.constraints r.st.dt i = some v → r.st.sol0 i = v ∧ r.st.sol1 i = v := by
  intro r h hv
  obtain ⟨h1, h2⟩ := C188_retry_partial maxFails minDt hmin cont t ht s dt h
  have e : r.st.sol1 i = v := by
    have := h1 i
    rw [hv] at this
    exact this
  exact ⟨hk _ _ _ h2 i v hv e, e⟩

/-! ### Examples and limits -/

/-- The first cell has the time as prescribed value; everywhere else one per unit of time is added. Steps which are larger than one fail. -/
def clock : Task ℚ ℚ where
  constraints d i := if i = 0 then some d else none
  beginOk _ _ := true
  newton d old _ := if 1 < d then .returned (fun _ => -1) false else .returned (fun i => if i = 0 then d else old i + d) true

example : Steady clock ∧ (timeIntegration 10 (1 / 10) false clock ⟨fun _ => 0, fun _ => 0, 4⟩).outcome = .converged ∧
    (timeIntegration 10 (1 / 10) false clock ⟨fun _ => 0, fun _ => 0, 4⟩).attempts = [4, 2, 1] ∧
    (timeIntegration 10 (1 / 10) false clock ⟨fun _ => 0, fun _ => 0, 4⟩).st.sol0 0 = 1 := by
  refine ⟨fun d d' i _ h => ?_, by decide +kernel, by decide +kernel, by decide +kernel⟩
  unfold clock at h ⊢
  dsimp only at h ⊢
  split
  · simp
  · next hi => rw [if_neg hi] at h; exact absurd rfl h

/-- The value five is prescribed from some time on; before, one per unit of time is added. Steps which are larger than one fail. -/
def later : Task ℚ ℚ where
  constraints d _ := if 3 / 2 ≤ d then some 5 else none
  beginOk _ _ := true
  newton d old _ := if 1 < d then .returned (fun _ => -1) false else .returned (fun i => old i + d) true

/-- **C188** is FALSE for constraints which begin between the end of the step which is made and the end of an attempt which failed: the failed
attempt has written the prescribed values into the solution of the previous time level, and nothing brings the old ones back.  Here the step
of size one leads from 0 to 1, but after a failed attempt with the size two it ends with 6. -/
theorem C188_violated : ∃ (t : Task ℚ ℚ) (s : ℕ → ℚ) (dt : ℚ),
    let r := timeIntegration 10 (1 / 10) false t ⟨s, s, dt⟩
    let direct := timeIntegration 10 (1 / 10) false t ⟨s, s, dt / 2⟩
    r.outcome = .converged ∧ direct.outcome = .converged ∧ r.st.dt = direct.st.dt ∧ t.constraints r.st.dt 0 = none ∧
      direct.st.sol0 0 = 1 ∧ r.st.sol0 0 = 6 ∧ ¬ ∃ new, Direct t s r.st.dt r.st.sol1 new := by
  refine ⟨later, fun _ => 0, 2, by decide +kernel, by decide +kernel, by decide +kernel, by decide +kernel, by decide +kernel, by decide +kernel, ?_⟩
  rintro ⟨new, h, -⟩
  have h1 : later.constraints (timeIntegration 10 (1 / 10) false later ⟨fun _ => 0, fun _ => 0, 2⟩).st.dt 0 = none := by decide +kernel
  have h2 : (timeIntegration 10 (1 / 10) false later ⟨fun _ => 0, fun _ => 0, 2⟩).st.sol1 0 = 5 := by decide +kernel
  have h3 := h 0
  rw [h1, h2] at h3
  norm_num at h3

/-- **C188** If all attempts fail, the solution is not the one of the previous time step either: the degrees of freedom have the values
which were prescribed for the end of an attempt. -/
theorem C188_gave_up_violated : ∃ (t : Task ℚ ℚ) (s : ℕ → ℚ) (dt : ℚ),
    let r := timeIntegration 1 (1 / 10) false t ⟨s, s, dt⟩
    r.outcome = .gaveUp ∧ s 0 = 0 ∧ r.st.sol0 0 = 5 ∧ r.st.sol1 0 = 5 :=
  ⟨later, fun _ => 0, 2, by decide +kernel, rfl, by decide +kernel, by decide +kernel⟩

end Verif.Retry
