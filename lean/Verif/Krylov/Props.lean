import Verif.Krylov.Lemmas
import Verif.Criteria.Props
import Mathlib.Tactic.Linarith
import Mathlib.Tactic.FieldSimp
import Mathlib.Tactic.LinearCombination
import Mathlib.LinearAlgebra.Matrix.Notation
import Mathlib.LinearAlgebra.BilinearMap

/-
C46, C75 and C76: the BiCGStab solver.
-/

set_option autoImplicit false
set_option linter.unusedSectionVars false

namespace Verif.Krylov

open Verif.Criteria

variable {K : Type} [Field K] [LinearOrder K] [IsStrictOrderedRing K]
variable {I S : Type} [DecidableEq I]

/-! ### Success means that the residual criterion holds -/

/-- The invariant of the loop: `r` is the residual of `x` and the criterion remembers the initial residual. -/
def Consistent (sys : System I K S) (A : (I → K) →ₗ[K] (I → K)) {good : (I → K) → (I → K) → Prop}
    (hc : DecidesByResidual sys.criterion good) (m : Memory I K S) : Prop :=
  m.r = sys.rhs - A m.x ∧ hc.Inv sys.rhs m.criterion

theorem afterFirst_consistent (sys : System I K S) {A : (I → K) →ₗ[K] (I → K)} (hs : Sound sys A)
    {good : (I → K) → (I → K) → Prop} (hc : DecidesByResidual sys.criterion good) (m : Memory I K S)
    (h : Consistent sys A hc m) :
    Consistent sys A hc (afterFirst sys m) ∧
      (sys.criterion.converged (afterFirst sys m).criterion = true ↔ good sys.rhs (sys.rhs - A (afterFirst sys m).x)) := by
  have e : (afterFirst sys m).r = sys.rhs - A (afterFirst sys m).x := by
    simp only [afterFirst]
    rw [h.1, hs.operator, map_add, map_smul]; abel
  refine ⟨⟨e, hc.update _ _ _ _ _ h.2⟩, ?_⟩
  rw [← e]
  exact hc.converged _ _ _ _ _ h.2

theorem afterSecond_consistent (sys : System I K S) {A : (I → K) →ₗ[K] (I → K)} (hs : Sound sys A)
    {good : (I → K) → (I → K) → Prop} (hc : DecidesByResidual sys.criterion good) (m : Memory I K S)
    (h : Consistent sys A hc m) :
    Consistent sys A hc (afterSecond sys m) ∧
      (sys.criterion.converged (afterSecond sys m).criterion = true ↔ good sys.rhs m.r) := by
  refine ⟨⟨?_, hc.update _ _ _ _ _ h.2⟩, hc.converged _ _ _ _ _ h.2⟩
  simp only [afterSecond]
  rw [h.1, hs.operator, map_add, map_smul]; abel

/-- What the body does if the criterion decides by the residual: the second check never succeeds. -/
theorem body_residual (sys : System I K S) {A : (I → K) →ₗ[K] (I → K)} (hs : Sound sys A)
    {good : (I → K) → (I → K) → Prop} (hc : DecidesByResidual sys.criterion good) (m : Memory I K S)
    (h : Consistent sys A hc m) :
    (∃ x, body sys m = .leave (.returned true x m.iterations) ∧ x = (afterFirst sys m).x ∧ good sys.rhs (sys.rhs - A x)) ∨
      (∃ o, body sys m = .leave o ∧ (∀ x i, o ≠ .returned true x i) ∧ o.iterations = m.iterations) ∨
      (body sys m = .next (afterSecond sys (afterFirst sys m)) ∧
        Consistent sys A hc (afterSecond sys (afterFirst sys m))) := by
  obtain ⟨f1, f2⟩ := afterFirst_consistent sys hs hc m h
  obtain ⟨g1, g2⟩ := afterSecond_consistent sys hs hc (afterFirst sys m) f1
  rcases body_cases sys hs m with e | ⟨c, e⟩ | ⟨c, d, e⟩ | ⟨c, d, e⟩ | ⟨c, d, f, e⟩ | ⟨c, d, e⟩
  · right; left; exact ⟨_, e, by simp, rfl⟩
  · left; exact ⟨_, e, rfl, f2.1 c⟩
  · right; left; exact ⟨_, e, by simp, rfl⟩
  · exfalso
    have : good sys.rhs (sys.rhs - A (afterFirst sys m).x) := f1.1 ▸ g2.1 d
    rw [f2.2 this] at c
    simp at c
  · right; left; exact ⟨_, e, by simp, rfl⟩
  · right; right; exact ⟨e, g1⟩

theorem loop_residual (sys : System I K S) {A : (I → K) →ₗ[K] (I → K)} (hs : Sound sys A)
    {good : (I → K) → (I → K) → Prop} (hc : DecidesByResidual sys.criterion good) (fuel : ℕ) (m : Memory I K S)
    (h : Consistent sys A hc m) (x : I → K) (i : ℕ) (hr : loop sys fuel m = .returned true x i) :
    good sys.rhs (sys.rhs - A x) := by
  induction fuel generalizing m with
  | zero => simp [loop] at hr
  | succ fuel ih =>
    rw [loop] at hr
    rcases body_residual sys hs hc m h with ⟨y, e, -, hg⟩ | ⟨o, e, ho, -⟩ | ⟨e, hn⟩
    · rw [e] at hr
      simp only [Outcome.returned.injEq, true_and] at hr
      rw [← hr.1]; exact hg
    · rw [e] at hr
      exact absurd hr (ho x i)
    · rw [e] at hr
      exact ih _ hn hr

theorem start_consistent (sys : System I K S) {A : (I → K) →ₗ[K] (I → K)} (hs : Sound sys A)
    {good : (I → K) → (I → K) → Prop} (hc : DecidesByResidual sys.criterion good) (s : S) :
    Consistent sys A hc (start sys s) := by
  have h0 : A (fun _ => 0) = 0 := map_zero A
  unfold start
  rw [hs.pre]
  exact ⟨by simp [h0], hc.initial _ _ _⟩

/-- **C46** For every criterion which decides by the residual, every linear operator, every preconditioner (which may be
non-linear or change from call to call) and every scalar product: if the solver reports success, the true residual of the
vector it returns meets the criterion. -/
theorem C46_success (sys : System I K S) (A : (I → K) →ₗ[K] (I → K)) (hs : Sound sys A)
    (good : (I → K) → (I → K) → Prop) (hc : DecidesByResidual sys.criterion good) (s : S) (x : I → K) (i : ℕ)
    (h : apply sys s = .returned true x i) : good sys.rhs (sys.rhs - A x) := by
  unfold apply at h
  simp only at h
  have h0 : A (fun _ => 0) = 0 := map_zero A
  split at h
  · rename_i hi
    simp only [Outcome.returned.injEq, true_and] at h
    rw [← h.1]
    unfold start at hi ⊢
    rw [hs.pre] at hi ⊢
    simp only [h0, sub_zero]
    exact hc.initial_good _ _ _ hi
  · exact loop_residual sys hs hc _ _ (start_consistent sys hs hc s) x i h

/-- The criterion on the reduction of a norm decides by the residual. -/
def decides_residReduction {V : Type} (norm : V → K) (tiny tol : K) (ht : 0 < tiny) :
    DecidesByResidual (residReduction norm tiny tol) (fun b r => norm r ≤ tol * max (norm b) tiny) where
  Inv b s := s.initialDefect = max (norm b) tiny
  initial _ _ _ := rfl
  initial_good s x r h := by
    have hpos : 0 < max (norm r) tiny := lt_of_lt_of_le ht (le_max_right _ _)
    simp only [residReduction, decide_eq_true_eq] at h
    rwa [div_le_iff₀ hpos] at h
  update _ _ _ _ _ h := h
  converged b s x d r h := by
    have hpos : 0 < max (norm b) tiny := lt_of_lt_of_le ht (le_max_right _ _)
    simp only [residReduction, decide_eq_true_eq] at h ⊢
    rw [h, div_le_iff₀ hpos]

variable {P : ℕ} {n : Fin (P + 1) → ℕ}

/-- The combined criterion decides by the residual. -/
def decides_combined (tiny a b m : K) (ht1 : tiny ≤ 1 / 10 ^ 20) (ha : 0 ≤ a) (hb : 0 ≤ b) :
    DecidesByResidual (combined (P := P) (n := n) tiny a b m) (fun b0 r => (∀ e, IsLargest (fun p j => |b0 ⟨p, j⟩|) e →
      ∀ p j, |r ⟨p, j⟩| ≤ a * max (1 / 10 ^ 20) e) ∨ ∀ p j, |r ⟨p, j⟩| ≤ b) where
  Inv b0 s := s.initialResidualError = max (global fun p j => |b0 ⟨p, j⟩|) tiny
  initial s x r := (combined_initial tiny a b m s x r).1
  initial_good s x r h := by
    obtain ⟨h1, h2⟩ := combined_initial (P := P) (n := n) tiny a b m s x r
    have hconv : combinedConverged a b ((combined (P := P) (n := n) tiny a b m).setInitial s x r) = true := h
    simp only [combinedConverged, Bool.or_eq_true, decide_eq_true_eq] at hconv
    unfold residualReduction at hconv
    rw [h1, h2] at hconv
    have hle : ∀ p j, |r ⟨p, j⟩| ≤ max (global fun p j => |r ⟨p, j⟩|) tiny := fun p j =>
      le_trans ((isLargest_global (fun p j => |r ⟨p, j⟩|)).2.1 p j) (le_max_left _ _)
    rcases hconv with hh | hh
    · left
      intro e he p j
      have hpos : (0 : K) < max (1 / 10 ^ 20) (max (global fun p j => |r ⟨p, j⟩|) tiny) :=
        lt_of_lt_of_le (by positivity) (le_max_left _ _)
      rw [div_le_iff₀ hpos] at hh
      have hmax : max ((1 : K) / 10 ^ 20) (max (global fun p j => |r ⟨p, j⟩|) tiny) = max (1 / 10 ^ 20) e := by
        rw [max_comm _ tiny, ← max_assoc, max_eq_left ht1, (isLargest_global _).unique he]
      rw [hmax] at hh
      exact le_trans (hle p j) hh
    · right; intro p j; exact le_trans (hle p j) hh
  update _ _ _ _ _ h := h
  converged b0 s x d r h := by
    have hr : ((combined (P := P) (n := n) tiny a b m).update s x d r).residualError = global (fun p j => |r ⟨p, j⟩|) :=
      combined_error _ _ _
    have hi : ((combined (P := P) (n := n) tiny a b m).update s x d r).initialResidualError =
        max (global fun p j => |b0 ⟨p, j⟩|) tiny := h
    have hpos : (0 : K) < max (1 / 10 ^ 20) (max (global fun p j => |b0 ⟨p, j⟩|) tiny) :=
      lt_of_lt_of_le (by positivity) (le_max_left _ _)
    have hmax : max ((1 : K) / 10 ^ 20) (max (global fun p j => |b0 ⟨p, j⟩|) tiny) =
        max (1 / 10 ^ 20) (global fun p j => |b0 ⟨p, j⟩|) := by
      rw [max_comm _ tiny, ← max_assoc, max_eq_left ht1]
    change combinedConverged a b ((combined (P := P) (n := n) tiny a b m).update s x d r) = true ↔ _
    simp only [combinedConverged, Bool.or_eq_true, decide_eq_true_eq]
    unfold residualReduction
    rw [hr, hi, div_le_iff₀ hpos, global_le _ _ hb, global_le _ _ (mul_nonneg ha hpos.le), hmax]
    constructor
    · rintro (h | h)
      · left; intro e he p j; rw [he.unique (isLargest_global _)]; exact h p j
      · right; exact h
    · rintro (h | h)
      · left; exact h _ (isLargest_global _)
      · right; exact h

/-- **C46** With the combined criterion, which the parallel BiCGStab backend uses: after a success every entry of the true
residual, on every process, is at most the tolerance times the largest entry of the right-hand side (or 1e-20), or every
entry is at most the absolute tolerance. -/
theorem C46_combined (sys : System (Σ p : Fin (P + 1), Fin (n p)) K (CombinedState K))
    (A : ((Σ p : Fin (P + 1), Fin (n p)) → K) →ₗ[K] ((Σ p : Fin (P + 1), Fin (n p)) → K)) (hs : Sound sys A)
    (tiny a b m : K) (ht1 : tiny ≤ 1 / 10 ^ 20) (ha : 0 ≤ a) (hb : 0 ≤ b)
    (hcrit : sys.criterion = combined tiny a b m) (s : CombinedState K) (x : (Σ p : Fin (P + 1), Fin (n p)) → K) (i : ℕ)
    (h : apply sys s = .returned true x i) (e : K) (he : IsLargest (fun p j => |sys.rhs ⟨p, j⟩|) e) :
    (∀ p j, |(sys.rhs - A x) ⟨p, j⟩| ≤ a * max (1 / 10 ^ 20) e) ∨ ∀ p j, |(sys.rhs - A x) ⟨p, j⟩| ≤ b := by
  have hd : DecidesByResidual sys.criterion _ := hcrit ▸ decides_combined tiny a b m ht1 ha hb
  rcases C46_success sys A hs _ hd s x i h with h | h
  · left; exact h e he
  · right; exact h

/-- **C46** With the criterion on the reduction of a norm. -/
theorem C46_reduction (sys : System I K (ReductionState K)) (A : (I → K) →ₗ[K] (I → K)) (hs : Sound sys A)
    (norm : (I → K) → K) (tiny tol : K) (ht : 0 < tiny)
    (hcrit : sys.criterion = residReduction norm tiny tol) (s : ReductionState K) (x : I → K) (i : ℕ)
    (h : apply sys s = .returned true x i) : norm (sys.rhs - A x) ≤ tol * max (norm sys.rhs) tiny := by
  have hd : DecidesByResidual sys.criterion _ := hcrit ▸ decides_residReduction norm tiny tol ht
  exact C46_success sys A hs _ hd s x i h

/-- The body counts iterations: it leaves with the number `k` it was entered with or ends with the next one. -/
def Progress.Advances : Progress I K S → ℕ → Prop
  | .leave o, k => o.iterations = k
  | .next m, k => m.iterations = k + 1

/-- **C46** The number of iterations never exceeds the maximum. -/
theorem C46_iterations (sys : System I K S) (s : S) : (apply sys s).iterations ≤ sys.maxIterations := by
  have hsecond : ∀ m : Memory I K S, (secondHalf sys m).Advances m.iterations := by
    intro m
    unfold secondHalf
    extract_lets
    split_ifs <;> rfl
  have hok : ∀ m : Memory I K S, (body sys m).Advances m.iterations := by
    intro m
    unfold body
    extract_lets
    split_ifs
    all_goals first
      | rfl
      | exact hsecond _
  have hb : ∀ m : Memory I K S, (∃ o, body sys m = .leave o ∧ o.iterations = m.iterations) ∨
      ∃ m', body sys m = .next m' ∧ m'.iterations = m.iterations + 1 := by
    intro m
    have := hok m
    cases hbm : body sys m with
    | leave o => left; rw [hbm] at this; exact ⟨o, rfl, this⟩
    | next m' => right; rw [hbm] at this; exact ⟨m', rfl, this⟩
  have hl : ∀ fuel (m : Memory I K S), (loop sys fuel m).iterations ≤ m.iterations + fuel := by
    intro fuel
    induction fuel with
    | zero => intro m; simp [loop, Outcome.iterations]
    | succ fuel ih =>
      intro m
      rw [loop]
      rcases hb m with ⟨o, e, ho⟩ | ⟨m', e, hm⟩
      · rw [e]; simp only; omega
      · rw [e]; simp only; have := ih m'; omega
  unfold apply
  simp only
  split
  · simp [Outcome.iterations]
  · have := hl sys.maxIterations (start sys s)
    simpa [start] using this

/-! ### The published algorithm -/

/-- The published algorithm with the data of a solver. -/
def published (sys : System I K S) (Kinv : (I → K) → (I → K)) : Spec.Data K (I → K) :=
  ⟨sys.operator, Kinv, sys.dot, sys.rhs⟩

/-- The memory holds the iterate. -/
structure Holds (it : Spec.Iterate K (I → K)) (m : Memory I K S) : Prop where
  x : m.x = it.x
  r : m.r = it.r
  v : m.v = it.v
  p : m.p = it.p
  rho : m.rho = it.rho
  alpha : m.alpha = it.alpha
  omega : m.omega = it.omega

theorem afterFirst_holds (sys : System I K S) (Kinv : (I → K) → (I → K)) (hK : ∀ k y d, sys.precondition k y d = Kinv d)
    (it : Spec.Iterate K (I → K)) (m : Memory I K S) (h : Holds it m) :
    (afterFirst sys m).x = Spec.h (published sys Kinv) it ∧ (afterFirst sys m).r = Spec.s (published sys Kinv) it ∧
      (afterFirst sys m).v = Spec.vI (published sys Kinv) it ∧ (afterFirst sys m).p = Spec.pI (published sys Kinv) it ∧
      (afterFirst sys m).rho = Spec.rhoI (published sys Kinv) it ∧
      (afterFirst sys m).alpha = Spec.alphaI (published sys Kinv) it := by
  have hp : m.r + ((sys.dot sys.rhs m.r / m.rho) * (m.alpha / m.omega)) • (m.p - m.omega • m.v) =
      Spec.pI (published sys Kinv) it := by
    rw [h.r, h.v, h.p, h.rho, h.alpha, h.omega]; rfl
  simp only [afterFirst, hp, hK]
  simp only [h.r, h.x]
  and_intros <;> first | rfl | trivial

theorem afterSecond_holds (sys : System I K S) (Kinv : (I → K) → (I → K)) (hK : ∀ k y d, sys.precondition k y d = Kinv d)
    (it : Spec.Iterate K (I → K)) (m : Memory I K S) (h : Holds it m) :
    Holds (Spec.step (published sys Kinv) it) (afterSecond sys (afterFirst sys m)) := by
  obtain ⟨hx, hr, hv, hp, hrho, ha⟩ := afterFirst_holds sys Kinv hK it m h
  constructor
  · simp only [afterSecond, hK, hr, hx]; rfl
  · simp only [afterSecond, hK, hr]; rfl
  · exact hv
  · exact hp
  · exact hrho
  · exact ha
  · simp only [afterSecond, hK, hr]; rfl

/-- What a returned vector is, in terms of the published iterates. -/
def IsPublished (sys : System I K S) (Kinv : (I → K) → (I → K)) (o : Outcome I K) : Prop :=
  match o with
  | .breakdown _ => True
  | .returned true x i =>
    x = Spec.h (published sys Kinv) (Spec.iterate (published sys Kinv) i) ∨
      x = (Spec.iterate (published sys Kinv) (i + 1)).x
  | .returned false x i =>
    x = Spec.h (published sys Kinv) (Spec.iterate (published sys Kinv) i) ∨
      x = (Spec.iterate (published sys Kinv) (i + 1)).x ∨
      (i = sys.maxIterations ∧ x = (Spec.iterate (published sys Kinv) i).x)

theorem loop_published (sys : System I K S) {A : (I → K) →ₗ[K] (I → K)} (hs : Sound sys A) (Kinv : (I → K) → (I → K))
    (hK : ∀ k y d, sys.precondition k y d = Kinv d) (fuel : ℕ) (m : Memory I K S)
    (hf : m.iterations + fuel = sys.maxIterations) (h : Holds (Spec.iterate (published sys Kinv) m.iterations) m) :
    IsPublished sys Kinv (loop sys fuel m) := by
  induction fuel generalizing m with
  | zero =>
    rw [loop]
    exact Or.inr (Or.inr ⟨by omega, h.x⟩)
  | succ fuel ih =>
    have h1 := afterFirst_holds sys Kinv hK _ m h
    have h2 := afterSecond_holds sys Kinv hK _ m h
    rw [loop]
    rcases body_cases sys hs m with e | ⟨c, e⟩ | ⟨c, d, e⟩ | ⟨c, d, e⟩ | ⟨c, d, f, e⟩ | ⟨c, d, e⟩ <;> rw [e]
    · trivial
    · exact Or.inl h1.1
    · exact Or.inl h1.1
    · exact Or.inr h2.x
    · exact Or.inr (Or.inl h2.x)
    · exact ih _ (by simp only [afterSecond, afterFirst]; omega) h2

/-- **C75** With a preconditioner that always applies the same function, the vector which the solver returns after `i`
iterations is, except for breakdowns, the half-step iterate or the full iterate of the published algorithm, or the zero
vector it started with. -/
theorem C75_published (sys : System I K S) (A : (I → K) →ₗ[K] (I → K)) (hs : Sound sys A) (Kinv : (I → K) → (I → K))
    (hK : ∀ k y d, sys.precondition k y d = Kinv d) (s : S) :
    apply sys s = .returned true 0 0 ∨ IsPublished sys Kinv (apply sys s) := by
  have hx : (start sys s).x = 0 := by unfold start; rw [hs.pre]; rfl
  have hr : (start sys s).r = sys.rhs := by unfold start; rw [hs.pre]
  unfold apply
  simp only
  split
  · left; rw [hx]
  · right
    refine loop_published sys hs Kinv hK _ _ (by simp [start]) ⟨hx, hr, rfl, rfl, rfl, rfl, rfl⟩

/-- **C75** The first half of an iteration makes the residual orthogonal to the right-hand side: for every bilinear scalar
product and unless there is a breakdown. -/
theorem C75_orthogonal {V : Type} [AddCommGroup V] [Module K V] (d : Spec.Data K V) (B : V →ₗ[K] V →ₗ[K] K)
    (hB : ∀ a b, d.dot a b = B a b) (it : Spec.Iterate K V) (hden : d.dot d.b (Spec.vI d it) ≠ 0) :
    d.dot d.b (Spec.s d it) = 0 := by
  unfold Spec.s Spec.alphaI Spec.rhoI
  rw [hB, map_sub, map_smul, ← hB, ← hB, smul_eq_mul, div_mul_cancel₀ _ hden, sub_self]

/-- **C75** The second half of an iteration minimises the residual along its direction: no other coefficient gives a smaller
one in the norm of a symmetric, positive definite scalar product. -/
theorem C75_minimal {V : Type} [AddCommGroup V] [Module K V] (d : Spec.Data K V) (B : V →ₗ[K] V →ₗ[K] K)
    (hB : ∀ a b, d.dot a b = B a b) (hsymm : ∀ a b, B a b = B b a) (hpos : ∀ a, a ≠ 0 → 0 < B a a)
    (it : Spec.Iterate K V) (c : K) :
    d.dot (Spec.step d it).r (Spec.step d it).r ≤
      d.dot (Spec.s d it - c • Spec.t d it) (Spec.s d it - c • Spec.t d it) := by
  have expand : ∀ k : K, d.dot (Spec.s d it - k • Spec.t d it) (Spec.s d it - k • Spec.t d it) =
      B (Spec.s d it) (Spec.s d it) - 2 * k * B (Spec.t d it) (Spec.s d it) + k * k * B (Spec.t d it) (Spec.t d it) := by
    intro k
    rw [hB]
    simp only [map_sub, map_smul, LinearMap.sub_apply, LinearMap.smul_apply, smul_eq_mul]
    rw [hsymm (Spec.s d it) (Spec.t d it)]; ring
  have e : (Spec.step d it).r = Spec.s d it - Spec.omegaI d it • Spec.t d it := rfl
  rw [e, expand, expand]
  by_cases ht : Spec.t d it = 0
  · simp [ht]
  · have htt := hpos _ ht
    have ho : Spec.omegaI d it * B (Spec.t d it) (Spec.t d it) = B (Spec.t d it) (Spec.s d it) := by
      unfold Spec.omegaI; rw [hB, hB, div_mul_cancel₀ _ htt.ne']
    have := mul_nonneg (mul_self_nonneg (c - Spec.omegaI d it)) htt.le
    have h1 : c * (Spec.omegaI d it * B (Spec.t d it) (Spec.t d it)) = c * B (Spec.t d it) (Spec.s d it) := by rw [ho]
    have h2 : Spec.omegaI d it * (Spec.omegaI d it * B (Spec.t d it) (Spec.t d it)) =
        Spec.omegaI d it * B (Spec.t d it) (Spec.s d it) := by rw [ho]
    nlinarith

/-! ### Recognising a solution -/

/-- **C76** (partial) A half-step iterate which meets the criterion is recognised: the solver does not go beyond it, and if it
returns in that iteration, it returns this iterate and reports success.  Missing: the iterates at the end of an iteration,
which are not recognised (`C76_violated`). -/
theorem C76_half_step_partial (sys : System I K S) (A : (I → K) →ₗ[K] (I → K)) (hs : Sound sys A)
    (Kinv : (I → K) → (I → K)) (hK : ∀ k y d, sys.precondition k y d = Kinv d) (good : (I → K) → (I → K) → Prop)
    (hc : DecidesByResidual sys.criterion good) (s : S) (k : ℕ) (hk : k < sys.maxIterations)
    (hgood : good sys.rhs
      (sys.rhs - A (Spec.h (published sys Kinv) (Spec.iterate (published sys Kinv) k)))) :
    (apply sys s).iterations ≤ k ∧ (0 < k → ∀ c x, apply sys s = .returned c x k →
      c = true ∧ x = Spec.h (published sys Kinv) (Spec.iterate (published sys Kinv) k)) := by
  have key : ∀ fuel (m : Memory I K S), m.iterations + fuel = sys.maxIterations → m.iterations ≤ k →
      Holds (Spec.iterate (published sys Kinv) m.iterations) m → Consistent sys A hc m →
      (loop sys fuel m).iterations ≤ k ∧ ∀ c x, loop sys fuel m = .returned c x k →
        c = true ∧ x = Spec.h (published sys Kinv) (Spec.iterate (published sys Kinv) k) := by
    intro fuel
    induction fuel with
    | zero => intro m hm hle; omega
    | succ fuel ih =>
      intro m hm hle hh hcons
      have h1 := afterFirst_holds sys Kinv hK _ m hh
      have h2 := afterSecond_holds sys Kinv hK _ m hh
      obtain ⟨f1, f2⟩ := afterFirst_consistent sys hs hc m hcons
      obtain ⟨g1, g2⟩ := afterSecond_consistent sys hs hc (afterFirst sys m) f1
      have hconv : m.iterations = k → sys.criterion.converged (afterFirst sys m).criterion = true := by
        intro hmk
        rw [f2, h1.1, hmk]; exact hgood
      rw [loop]
      rcases body_cases sys hs m with e | ⟨c, e⟩ | ⟨c, d, e⟩ | ⟨c, d, e⟩ | ⟨c, d, f, e⟩ | ⟨c, d, e⟩ <;> rw [e]
      · exact ⟨hle, by simp⟩
      · refine ⟨hle, ?_⟩
        intro c' x' hx
        simp only [Outcome.returned.injEq] at hx
        obtain ⟨rfl, rfl, hi⟩ := hx
        refine ⟨rfl, ?_⟩
        rw [h1.1, hi]
      all_goals
        have hlt : m.iterations < k := by
          rcases Nat.lt_or_ge m.iterations k with h | h
          · exact h
          · have := hconv (by omega); rw [this] at c; simp at c
      · refine ⟨hle, ?_⟩
        intro c' x' hx; simp only [Outcome.returned.injEq] at hx; omega
      · refine ⟨hle, ?_⟩
        intro c' x' hx; simp only [Outcome.returned.injEq] at hx; omega
      · refine ⟨hle, ?_⟩
        intro c' x' hx; simp only [Outcome.returned.injEq] at hx; omega
      · exact ih _ (by simp only [afterSecond, afterFirst]; omega) (by simp only [afterSecond, afterFirst]; omega) h2 g1
  have hx : (start sys s).x = 0 := by unfold start; rw [hs.pre]; rfl
  have hr : (start sys s).r = sys.rhs := by unfold start; rw [hs.pre]
  have hst : Holds (Spec.iterate (published sys Kinv) (start sys s).iterations) (start sys s) :=
    ⟨hx, hr, rfl, rfl, rfl, rfl, rfl⟩
  unfold apply
  simp only
  split
  · refine ⟨Nat.zero_le _, ?_⟩
    intro hk0 c x hh
    simp only [Outcome.returned.injEq] at hh
    omega
  · have := key sys.maxIterations (start sys s) (by simp [start]) (Nat.zero_le _) hst (start_consistent sys hs hc s)
    exact ⟨this.1, fun _ => this.2⟩

/-- The 2x2 system with the matrix `[[1, 0], [1, 1]]` and the right-hand side `(1, 0)`, without preconditioner; the residual
is to be reduced by a factor of 100. -/
def exampleSystem : System (Σ _ : Fin 1, Fin 2) ℚ (CombinedState ℚ) where
  indices := [⟨0, 0⟩, ⟨0, 1⟩]
  operator x := fun i => if i.2 = 0 then x ⟨0, 0⟩ else x ⟨0, 0⟩ + x ⟨0, 1⟩
  pre x r := (x, r)
  precondition _ _ d := d
  post x := x
  dot a b := a ⟨0, 0⟩ * b ⟨0, 0⟩ + a ⟨0, 1⟩ * b ⟨0, 1⟩
  criterion := combined (1 / 10 ^ 30) (1 / 100) 0 1000
  rhs i := if i.2 = 0 then 1 else 0
  breakdownEps := 1 / 10 ^ 30
  maxIterations := 100

/-- The linear map of the example. -/
def exampleMap : ((Σ _ : Fin 1, Fin 2) → ℚ) →ₗ[ℚ] ((Σ _ : Fin 1, Fin 2) → ℚ) where
  toFun x := fun i => if i.2 = 0 then x ⟨0, 0⟩ else x ⟨0, 0⟩ + x ⟨0, 1⟩
  map_add' x y := by funext i; by_cases h : i.2 = 0 <;> simp [h]; ring
  map_smul' c x := by funext i; by_cases h : i.2 = 0 <;> simp [h]; ring

theorem exampleSystem_sound : Sound exampleSystem exampleMap where
  nodup := by decide
  complete := by decide
  operator _ := rfl
  pre := rfl
  post _ := rfl

/-- **C76** is false of the iterates at the end of an iteration, which are judged by the residual of the half-step: here the
first iterate solves the system exactly, but the solver goes on and throws. -/
theorem C76_violated (s : CombinedState ℚ) :
    exampleSystem.rhs - exampleMap (Spec.iterate (published exampleSystem id) 1).x = 0 ∧
      apply exampleSystem s = .breakdown 1 := by
  constructor
  · decide +kernel
  · have h : apply exampleSystem s = apply exampleSystem ⟨0, 0, 0, true⟩ := rfl
    rw [h]
    have : (match apply exampleSystem ⟨0, 0, 0, true⟩ with
      | .breakdown i => decide (i = 1)
      | .returned _ _ _ => false) = true := by decide +kernel
    split at this
    · rename_i i he; rw [he]; rw [of_decide_eq_true this]
    · simp at this

/-! ### Examples -/

/-- The same system with the right-hand side `(0, 1)` is solved in the first half-step: the hypotheses of `C46_combined` can be
met by a run that is successful. -/
example : ∃ x i, apply { exampleSystem with rhs := fun i => if i.2 = 0 then 0 else 1 } ⟨0, 0, 0, true⟩ = .returned true x i := by
  have : (match apply { exampleSystem with rhs := fun i => if i.2 = 0 then 0 else 1 } ⟨0, 0, 0, true⟩ with
      | .breakdown _ => false
      | .returned c _ _ => c) = true := by decide +kernel
  split at this
  · simp at this
  · rename_i c x i he; rw [this] at he; exact ⟨x, i, he⟩

end Verif.Krylov
