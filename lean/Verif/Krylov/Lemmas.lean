import Verif.Krylov.Model
import Verif.Krylov.Spec
import Mathlib.Algebra.Module.LinearMap.Defs
import Mathlib.Tactic.Ring
import Mathlib.Tactic.Abel

/-
Lemmas on the BiCGStab solver: the loops, the residual and the published iterates.
-/

set_option autoImplicit false
set_option linter.unusedSectionVars false

namespace Verif.Krylov

open Verif.Criteria

variable {K : Type} [Field K] [LinearOrder K] [IsStrictOrderedRing K]
variable {I S : Type} [DecidableEq I]

theorem foldl_update (g : I → K → K) (l : List I) (hl : l.Nodup) (a : I → K) (i : I) :
    l.foldl (fun a i => Function.update a i (g i (a i))) a i = if i ∈ l then g i (a i) else a i := by
  induction l generalizing a with
  | nil => simp
  | cons j l ih =>
    simp only [List.foldl_cons]
    have hj : j ∉ l := (List.nodup_cons.1 hl).1
    rw [ih (List.nodup_cons.1 hl).2]
    by_cases hij : i = j
    · subst hij; simp [hj]
    · simp [hij]

theorem loopP_eq (l : List I) (hl : l.Nodup) (hc : ∀ i, i ∈ l) (omega beta : K) (r v p : I → K) :
    loopP l omega beta r v p = r + beta • (p - omega • v) := by
  funext i
  unfold loopP
  rw [foldl_update (fun i a => r i + (v i * omega - a) * -beta) l hl p i, if_pos (hc i)]
  simp only [Pi.add_apply, Pi.smul_apply, Pi.sub_apply, smul_eq_mul]
  ring

theorem axpy_eq (l : List I) (hl : l.Nodup) (hc : ∀ i, i ∈ l) (c : K) (b a : I → K) : axpy l c b a = a + c • b := by
  funext i
  unfold axpy
  rw [foldl_update (fun i a => a + c * b i) l hl a i, if_pos (hc i)]
  simp

theorem loopHS_eq (l : List I) (hl : l.Nodup) (hc : ∀ i, i ∈ l) (alpha : K) (y v x r : I → K) :
    loopHS l alpha y v x r = (x + alpha • y, r - alpha • v) := by
  have split : ∀ (l : List I) (x r : I → K), loopHS l alpha y v x r =
      (l.foldl (fun a i => Function.update a i (y i * alpha + a i)) x,
        l.foldl (fun a i => Function.update a i (a i - v i * alpha)) r) := by
    intro l
    induction l with
    | nil => intros; rfl
    | cons j l ih => intro x r; exact ih _ _
  rw [split]
  ext i
  · dsimp only; rw [foldl_update (fun i a => y i * alpha + a) l hl x i, if_pos (hc i)]
    simp [mul_comm, add_comm]
  · dsimp only; rw [foldl_update (fun i a => a - v i * alpha) l hl r i, if_pos (hc i)]
    simp [mul_comm]

/-- What is assumed of the environment of the solver: the loops visit every entry once, the operator is linear, and the
preconditioner's `pre` and `post` leave the vectors alone. -/
structure Sound (sys : System I K S) (A : (I → K) →ₗ[K] (I → K)) : Prop where
  nodup : sys.indices.Nodup
  complete : ∀ i, i ∈ sys.indices
  operator : ∀ x, sys.operator x = A x
  pre : sys.pre (fun _ => 0) sys.rhs = (fun _ => 0, sys.rhs)
  post : ∀ x, sys.post x = x

/-- A criterion whose verdict on an update depends on nothing but the initial and the current residual: it is converged
exactly if `good initial current`. -/
structure DecidesByResidual {V : Type} (c : Criterion V S) (good : V → V → Prop) where
  Inv : V → S → Prop
  initial : ∀ s x r, Inv r (c.setInitial s x r)
  initial_good : ∀ s x r, c.converged (c.setInitial s x r) = true → good r r
  update : ∀ b s x d r, Inv b s → Inv b (c.update s x d r)
  converged : ∀ b s x d r, Inv b s → (c.converged (c.update s x d r) = true ↔ good b r)

/-- The number of iterations of an outcome. -/
def Outcome.iterations : Outcome I K → ℕ
  | .breakdown i => i
  | .returned _ _ i => i

/-! ### Unfolding the body -/

/-- What is in the memory after the first half. -/
def afterFirst (sys : System I K S) (m : Memory I K S) : Memory I K S :=
  let rhoI := sys.dot sys.rhs m.r
  let p := m.r + ((rhoI / m.rho) * (m.alpha / m.omega)) • (m.p - m.omega • m.v)
  let y := sys.precondition (2 * m.iterations) m.y p
  let v := sys.operator y
  let alpha := rhoI / sys.dot sys.rhs v
  { m with rho := rhoI, p := p, y := y, v := v, alpha := alpha, x := m.x + alpha • y, r := m.r - alpha • v
           criterion := sys.criterion.update m.criterion (m.x + alpha • y) y (m.r - alpha • v) }

/-- What is in the memory after the second half. -/
def afterSecond (sys : System I K S) (m : Memory I K S) : Memory I K S :=
  let z := sys.precondition (2 * m.iterations + 1) m.r m.r
  let t := sys.operator z
  let omega := sys.dot t m.r / sys.dot t t
  { m with x := m.x + omega • z, z := z, y := t, omega := omega
           criterion := sys.criterion.update m.criterion (m.x + omega • z) z m.r, r := m.r - omega • t
           iterations := m.iterations + 1 }

/-- The four ways to leave the body and the one to finish it. -/
theorem body_cases (sys : System I K S) {A : (I → K) →ₗ[K] (I → K)} (hs : Sound sys A) (m : Memory I K S) :
    let m1 := afterFirst sys m
    let m2 := afterSecond sys m1
    body sys m = .leave (.breakdown m.iterations) ∨
      (sys.criterion.converged m1.criterion = true ∧ body sys m = .leave (.returned true m1.x m.iterations)) ∨
      (sys.criterion.converged m1.criterion = false ∧ sys.criterion.failed m1.criterion = true ∧
        body sys m = .leave (.returned false m1.x m.iterations)) ∨
      (sys.criterion.converged m1.criterion = false ∧ sys.criterion.converged m2.criterion = true ∧
        body sys m = .leave (.returned true m2.x m.iterations)) ∨
      (sys.criterion.converged m1.criterion = false ∧ sys.criterion.converged m2.criterion = false ∧
        sys.criterion.failed m2.criterion = true ∧ body sys m = .leave (.returned false m2.x m.iterations)) ∨
      (sys.criterion.converged m1.criterion = false ∧ sys.criterion.converged m2.criterion = false ∧
        body sys m = .next m2) := by
  intro m1 m2
  unfold body
  simp only [loopP_eq _ hs.nodup hs.complete, loopHS_eq _ hs.nodup hs.complete]
  split
  · left; rfl
  split
  · left; rfl
  split
  · left; rfl
  change (if sys.criterion.converged m1.criterion = true then _ else _) = _ ∨
    (_ ∧ (if sys.criterion.converged m1.criterion = true then _ else _) = _) ∨
    (_ ∧ _ ∧ (if sys.criterion.converged m1.criterion = true then _ else _) = _) ∨
    (_ ∧ _ ∧ (if sys.criterion.converged m1.criterion = true then _ else _) = _) ∨
    (_ ∧ _ ∧ _ ∧ (if sys.criterion.converged m1.criterion = true then _ else _) = _) ∨
    (_ ∧ _ ∧ (if sys.criterion.converged m1.criterion = true then _ else _) = _)
  by_cases h1 : sys.criterion.converged m1.criterion = true
  · right; left
    rw [if_pos h1, hs.post]
    exact ⟨h1, rfl⟩
  simp only [if_neg h1]
  have h1' : sys.criterion.converged m1.criterion = false := by simpa using h1
  change (if sys.criterion.failed m1.criterion = true then _ else secondHalf sys m1) = _ ∨
    (_ ∧ (if sys.criterion.failed m1.criterion = true then _ else secondHalf sys m1) = _) ∨
    (_ ∧ _ ∧ (if sys.criterion.failed m1.criterion = true then _ else secondHalf sys m1) = _) ∨
    (_ ∧ _ ∧ (if sys.criterion.failed m1.criterion = true then _ else secondHalf sys m1) = _) ∨
    (_ ∧ _ ∧ _ ∧ (if sys.criterion.failed m1.criterion = true then _ else secondHalf sys m1) = _) ∨
    (_ ∧ _ ∧ (if sys.criterion.failed m1.criterion = true then _ else secondHalf sys m1) = _)
  by_cases h2 : sys.criterion.failed m1.criterion = true
  · right; right; left
    rw [if_pos h2]
    exact ⟨h1', h2, rfl⟩
  simp only [if_neg h2]
  have e : ∀ c : K, -c • (sys.operator (sys.precondition (2 * m1.iterations + 1) m1.r m1.r)) =
      -(c • sys.operator (sys.precondition (2 * m1.iterations + 1) m1.r m1.r)) := fun c => neg_smul _ _
  unfold secondHalf
  simp only [axpy_eq _ hs.nodup hs.complete, e, ← sub_eq_add_neg]
  split
  · left; rfl
  split
  · left; rfl
  change (if sys.criterion.converged m2.criterion = true then _ else _) = _ ∨
    (_ ∧ (if sys.criterion.converged m2.criterion = true then _ else _) = _) ∨
    (_ ∧ _ ∧ (if sys.criterion.converged m2.criterion = true then _ else _) = _) ∨
    (_ ∧ _ ∧ (if sys.criterion.converged m2.criterion = true then _ else _) = _) ∨
    (_ ∧ _ ∧ _ ∧ (if sys.criterion.converged m2.criterion = true then _ else _) = _) ∨
    (_ ∧ _ ∧ (if sys.criterion.converged m2.criterion = true then _ else _) = _)
  by_cases h3 : sys.criterion.converged m2.criterion = true
  · right; right; right; left
    rw [if_pos h3, hs.post]
    exact ⟨h1', h3, rfl⟩
  simp only [if_neg h3]
  have h3' : sys.criterion.converged m2.criterion = false := by simpa using h3
  change (if sys.criterion.failed m2.criterion = true then _ else _) = _ ∨
    (_ ∧ (if sys.criterion.failed m2.criterion = true then _ else _) = _) ∨
    (_ ∧ _ ∧ (if sys.criterion.failed m2.criterion = true then _ else _) = _) ∨
    (_ ∧ _ ∧ (if sys.criterion.failed m2.criterion = true then _ else _) = _) ∨
    (_ ∧ _ ∧ _ ∧ (if sys.criterion.failed m2.criterion = true then _ else _) = _) ∨
    (_ ∧ _ ∧ (if sys.criterion.failed m2.criterion = true then _ else _) = _)
  by_cases h4 : sys.criterion.failed m2.criterion = true
  · right; right; right; right; left
    rw [if_pos h4]
    exact ⟨h1', h3', h4, rfl⟩
  · right; right; right; right; right
    rw [if_neg h4]
    exact ⟨h1', h3', rfl⟩

end Verif.Krylov
