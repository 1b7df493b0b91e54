import Verif.ElemCtx.Model
import Mathlib.Tactic.Ring
import Mathlib.Tactic.FieldSimp
import Mathlib.Algebra.Order.Field.Rat
import Mathlib.Tactic.NormNum
import Mathlib.Tactic.Linarith
/-
C44 and C42: numeric differentiation.
-/

set_option autoImplicit false
set_option linter.unusedSimpArgs false
set_option linter.unusedSectionVars false

namespace Verif.ElemCtx

variable {PV IQ : Type}

/-! ### C44 -/

/-- Two contexts look the same from outside. -/
def Same (c c' : Ctx PV IQ) : Prop := (∀ d, primaryVars c' d = primaryVars c d) ∧ ∀ d, c'.iq d = c.iq d

theorem deflects (upd : PV → IQ) (d : ℕ) (vs : List PV) : ∀ c : Ctx PV IQ,
    let c' := vs.foldl (fun c v => deflect upd c d v) c
    c'.globalSol = c.globalSol ∧ c'.priVarsStashed = c.priVarsStashed ∧ c'.iqStashed = c.iqStashed ∧
      (∀ d', d' ≠ d → c'.ptr d' = c.ptr d' ∧ c'.iq d' = c.iq d') := by
  induction vs with
  | nil => intro c; exact ⟨rfl, rfl, rfl, fun _ _ => ⟨rfl, rfl⟩⟩
  | cons v vs ih =>
    intro c
    obtain ⟨h1, h2, h3, h4⟩ := ih (deflect upd c d v)
    refine ⟨h1, h2, h3, fun d' hd => ?_⟩
    obtain ⟨h5, h6⟩ := h4 d' hd
    exact ⟨by rw [List.foldl_cons, h5]; simp [deflect, hd], by rw [List.foldl_cons, h6]; simp [deflect, hd]⟩

/-- What a derivative with respect to `d` leaves behind. -/
theorem partialDerivative_spec (upd : PV → IQ) (c : Ctx PV IQ) (d : ℕ) (f : PV → List PV) :
    let c' := partialDerivative upd c d f
    c'.globalSol = c.globalSol ∧ c'.priVarsStashed = primaryVars c d ∧ (∀ d', c'.iq d' = c.iq d') ∧
      c'.ptr d = .stash ∧ ∀ d', d' ≠ d → c'.ptr d' = c.ptr d' := by
  obtain ⟨h1, h2, h3, h4⟩ := deflects upd d (f (primaryVars c d)) (stash c d)
  refine ⟨h1, h2, fun d' => ?_, by simp [partialDerivative, restore], fun d' hd => ?_⟩
  · simp only [partialDerivative, restore]
    by_cases hd : d' = d
    · subst hd
      simp only [Function.update_self]
      exact h3
    · simp only [Function.update_of_ne hd]
      exact (h4 d' hd).2
  · simp only [partialDerivative, restore, Function.update_of_ne hd]
    exact (h4 d' hd).1

/-- The intensive quantities are always what they were before. -/
theorem linearize_iq (upd : PV → IQ) (derivs : List (ℕ × (PV → List PV))) :
    ∀ c : Ctx PV IQ, ∀ d, (linearize upd c derivs).iq d = c.iq d := by
  induction derivs with
  | nil => intro c d; rfl
  | cons e derivs ih =>
    intro c d
    have := ih (partialDerivative upd c e.1 e.2) d
    simp only [linearize, List.foldl_cons] at this ⊢
    rw [this, (partialDerivative_spec upd c e.1 e.2).2.2.1 d]

/-- **C44** (partial) After any number of numeric derivatives with respect to one and the same degree of freedom of an
element with any number of degrees of freedom, all primary variables and intensive quantities are what they were
before.  Missing: derivatives with respect to several degrees of freedom (`C44_two_dofs_violated`). -/
theorem C44_one_dof_partial (upd : PV → IQ) (c0 : Ctx PV IQ) (d : ℕ) (fs : List (PV → List PV)) :
    Same (updateAll upd c0) (linearize upd (updateAll upd c0) (fs.map fun f => (d, f))) := by
  refine ⟨fun d' => ?_, fun d' => linearize_iq upd _ _ d'⟩
  have key : ∀ (fs : List (PV → List PV)) (c : Ctx PV IQ), c.globalSol = c0.globalSol →
      primaryVars c d = c0.globalSol d → (∀ d', d' ≠ d → c.ptr d' = .global) →
      ∀ d', primaryVars (linearize upd c (fs.map fun f => (d, f))) d' = c0.globalSol d' := by
    intro fs
    induction fs with
    | nil =>
      intro c h1 h2 h3 d'
      by_cases hd : d' = d
      · subst hd; exact h2
      · simp [linearize, primaryVars, h3 d' hd, h1]
    | cons f fs ih =>
      intro c h1 h2 h3 d'
      obtain ⟨g1, g2, g3, g4, g5⟩ := partialDerivative_spec upd c d f
      exact ih (partialDerivative upd c d f) (by rw [g1, h1]) (by simp [primaryVars, g4, g2]; exact h2)
        (fun d' hd => by rw [g5 d' hd]; exact h3 d' hd) d'
  rw [key fs (updateAll upd c0) rfl (by simp [updateAll, primaryVars]) (fun _ _ => rfl) d']
  simp [updateAll, primaryVars]

/-- **C44** (partial) The intensive quantities are what they were before also after derivatives with respect to several
degrees of freedom, in any order, and so are the primary variables of the degree of freedom that was restored last. -/
theorem C44_intensive_quantities_partial (upd : PV → IQ) (c : Ctx PV IQ) (derivs : List (ℕ × (PV → List PV))) :
    (∀ d, (linearize upd c derivs).iq d = c.iq d) ∧
      ∀ d f, primaryVars (partialDerivative upd (linearize upd c derivs) d f) d = primaryVars (linearize upd c derivs) d := by
  refine ⟨linearize_iq upd derivs c, fun d f => ?_⟩
  obtain ⟨_, g2, _, g4, _⟩ := partialDerivative_spec upd (linearize upd c derivs) d f
  simp only [primaryVars, g4, g2]

def twoDofs : Ctx ℚ ℚ :=
  { globalSol := fun d => if d = 0 then 10 else 20, ptr := fun _ => .global, iq := fun _ => 0, priVarsStashed := 0,
    iqStashed := 0, localVar := 0 }

example : primaryVars (linearize (fun x => 2 * x) (updateAll (fun x => 2 * x) twoDofs)
    [(0, fun x => [x + 1, x - 1]), (0, fun x => [x + 2])]) 0 = 10 := by decide +kernel

/-- **C44** is false with two degrees of freedom: restoring leaves a pointer to the only stash, so that after the second
degree of freedom was stashed the primary variables of the first one appear to be those of the second. -/
theorem C44_two_dofs_violated : ∃ derivs : List (ℕ × (ℚ → List ℚ)),
    ¬ Same (updateAll (fun x => 2 * x) twoDofs) (linearize (fun x => 2 * x) (updateAll (fun x => 2 * x) twoDofs) derivs) := by
  refine ⟨[(0, fun x => [x + 1]), (1, fun x => [x + 1])], fun h => ?_⟩
  exact absurd (h.1 0) (by decide +kernel)

/-! ### C42 -/

variable {K : Type} [Field K] [LinearOrder K] [IsStrictOrderedRing K]

/-- **C42** For every residual which is affine in the primary variable, the forward, the backward and the central
difference quotients are its slope, for every deflection other than zero. -/
theorem C42_affine (method : ℤ) (a b x eps : K) (he : eps ≠ 0) :
    differenceQuotient method (fun x => a * x + b) (a * x + b) x eps = a := by
  unfold differenceQuotient
  rcases lt_trichotomy method 0 with h | h | h
  · have h1 : ¬ 0 ≤ method := by omega
    have h2 : method ≤ 0 := by omega
    simp only [h1, h2, if_true, if_false]
    rw [div_eq_iff (by simpa using he)]; ring
  · subst h
    simp only [le_refl, if_true]
    have h2 : (0 : K) + eps + eps ≠ 0 := by
      intro h; apply he; linarith
    rw [div_eq_iff h2]; ring
  · have h1 : 0 ≤ method := by omega
    have h2 : ¬ method ≤ 0 := by omega
    simp only [h1, h2, if_true, if_false]
    rw [div_eq_iff (by simpa using he)]; ring

/-- **C42** For every residual which is quadratic in the primary variable, the central difference quotient is its
derivative. -/
theorem C42_quadratic_central (a b c x eps : K) (he : eps ≠ 0) :
    differenceQuotient 0 (fun x => a * x ^ 2 + b * x + c) (a * x ^ 2 + b * x + c) x eps = 2 * a * x + b := by
  unfold differenceQuotient
  simp only [le_refl, if_true]
  have h2 : (0 : K) + eps + eps ≠ 0 := by
    intro h; apply he; linarith
  rw [div_eq_iff h2]; ring

/-- **C42** The error of the one-sided difference quotients of a quadratic residual is the deflection times the leading
coefficient: forward differences give too much, backward differences too little. -/
theorem C42_quadratic_one_sided (method : ℤ) (hm : method ≠ 0) (a b c x eps : K) (he : eps ≠ 0) :
    differenceQuotient method (fun x => a * x ^ 2 + b * x + c) (a * x ^ 2 + b * x + c) x eps =
      2 * a * x + b + (if 0 < method then a * eps else - (a * eps)) := by
  unfold differenceQuotient
  rcases lt_trichotomy method 0 with h | h | h
  · have h1 : ¬ 0 ≤ method := by omega
    have h2 : method ≤ 0 := by omega
    have h3 : ¬ 0 < method := by omega
    simp only [h1, h2, h3, if_true, if_false]
    rw [div_eq_iff (by simpa using he)]; ring
  · exact absurd h hm
  · have h1 : 0 ≤ method := by omega
    have h2 : ¬ method ≤ 0 := by omega
    simp only [h1, h2, h, if_true, if_false]
    rw [div_eq_iff (by simpa using he)]; ring

/-- a case with all three methods -/
example : differenceQuotient 1 (fun x : ℚ => x ^ 2) 9 3 (1/2) = 13/2 ∧
    differenceQuotient (-1) (fun x : ℚ => x ^ 2) 9 3 (1/2) = 11/2 ∧
    differenceQuotient 0 (fun x : ℚ => x ^ 2) 9 3 (1/2) = 6 := by
  refine ⟨?_, ?_, ?_⟩ <;> norm_num [differenceQuotient]

/-- **C42** The primary variables and intensive quantities of the degree of freedom which was deflected are what they were
before. -/
theorem C42_restored (upd : PV → IQ) (c : Ctx PV IQ) (d : ℕ) (f : PV → List PV) :
    primaryVars (partialDerivative upd c d f) d = primaryVars c d ∧ (partialDerivative upd c d f).iq = c.iq := by
  obtain ⟨_, g2, g3, g4, _⟩ := partialDerivative_spec upd c d f
  exact ⟨by simp only [primaryVars, g4, g2], funext g3⟩

end Verif.ElemCtx
