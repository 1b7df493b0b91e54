import Verif.Krylov.Props

/-
C75 and C76: why the solver throws, and the initial solution.
-/

set_option autoImplicit false
set_option linter.unusedSectionVars false

namespace Verif.Krylov

open Verif.Criteria

variable {K : Type} [Field K] [LinearOrder K] [IsStrictOrderedRing K]
variable {I S : Type} [DecidableEq I]

/-- A number by which the published algorithm divides in the step after `it`, or one of its coefficients, is numerically zero. -/
def BreaksDown {V : Type} [AddCommGroup V] [Module K V] (d : Spec.Data K V) (eps : K) (it : Spec.Iterate K V) : Prop :=
  |it.rho| ≤ eps ∨ |it.omega| ≤ eps ∨ |d.dot d.b (Spec.vI d it)| ≤ eps ∨ |Spec.alphaI d it| ≤ eps ∨
    |d.dot (Spec.t d it) (Spec.t d it)| ≤ eps ∨ |Spec.omegaI d it| ≤ eps

theorem body_breakdown (sys : System I K S) {A : (I → K) →ₗ[K] (I → K)} (hs : Sound sys A) (m : Memory I K S) (i : ℕ)
    (h : body sys m = .leave (.breakdown i)) :
    |m.rho| ≤ sys.breakdownEps ∨ |m.omega| ≤ sys.breakdownEps ∨ |sys.dot sys.rhs (afterFirst sys m).v| ≤ sys.breakdownEps ∨
      |(afterFirst sys m).alpha| ≤ sys.breakdownEps ∨
      |sys.dot (afterSecond sys (afterFirst sys m)).y (afterSecond sys (afterFirst sys m)).y| ≤ sys.breakdownEps ∨
      |(afterSecond sys (afterFirst sys m)).omega| ≤ sys.breakdownEps := by
  unfold body at h
  simp only [loopP_eq _ hs.nodup hs.complete, loopHS_eq _ hs.nodup hs.complete] at h
  split at h
  · rename_i h1
    rcases h1 with h1 | h1
    · exact Or.inl h1
    · exact Or.inr (Or.inl h1)
  split at h
  · rename_i h1
    exact Or.inr (Or.inr (Or.inl h1))
  split at h
  · rename_i h1
    exact Or.inr (Or.inr (Or.inr (Or.inl h1)))
  split at h
  · simp at h
  split at h
  · simp at h
  change secondHalf sys (afterFirst sys m) = _ at h
  unfold secondHalf at h
  simp only at h
  split at h
  · rename_i h1
    exact Or.inr (Or.inr (Or.inr (Or.inr (Or.inl h1))))
  split at h
  · rename_i h1
    exact Or.inr (Or.inr (Or.inr (Or.inr (Or.inr h1))))
  split at h
  · simp at h
  split at h <;> simp at h

/-- **C75** The solver throws only if the published algorithm breaks down: in the iteration where it throws, one of the numbers it
divides by, or one of its two coefficients, is at most the breakdown threshold in magnitude. -/
theorem C75_breakdown (sys : System I K S) (A : (I → K) →ₗ[K] (I → K)) (hs : Sound sys A) (Kinv : (I → K) → (I → K))
    (hK : ∀ k y d, sys.precondition k y d = Kinv d) (s : S) (i : ℕ) (h : apply sys s = .breakdown i) :
    BreaksDown (published sys Kinv) sys.breakdownEps (Spec.iterate (published sys Kinv) i) := by
  have key : ∀ fuel (m : Memory I K S), Holds (Spec.iterate (published sys Kinv) m.iterations) m →
      loop sys fuel m = .breakdown i →
      BreaksDown (published sys Kinv) sys.breakdownEps (Spec.iterate (published sys Kinv) i) := by
    intro fuel
    induction fuel with
    | zero => intro m _ h; simp [loop] at h
    | succ fuel ih =>
      intro m hm h
      have h1 := afterFirst_holds sys Kinv hK _ m hm
      have h2 := afterSecond_holds sys Kinv hK _ m hm
      rw [loop] at h
      rcases body_cases sys hs m with e | ⟨c, e⟩ | ⟨c, d, e⟩ | ⟨c, d, e⟩ | ⟨c, d, f, e⟩ | ⟨c, d, e⟩
      · have hb := body_breakdown sys hs m _ e
        rw [e] at h
        injection h with h
        rw [h] at hm h1 h2
        rw [hm.rho, hm.omega, h1.2.2.1, h1.2.2.2.2.2, h2.omega] at hb
        have ht : (afterSecond sys (afterFirst sys m)).y = Spec.t (published sys Kinv) (Spec.iterate (published sys Kinv) i) := by
          simp only [afterSecond, hK, h1.2.1]; rfl
        rw [ht] at hb
        exact hb
      all_goals rw [e] at h
      · simp at h
      · simp at h
      · simp at h
      · simp at h
      · exact ih (afterSecond sys (afterFirst sys m)) h2 h
  have hx : (start sys s).x = 0 := by unfold start; rw [hs.pre]; rfl
  have hr : (start sys s).r = sys.rhs := by unfold start; rw [hs.pre]
  unfold apply at h
  simp only at h
  split at h
  · simp at h
  · exact key _ _ (⟨hx, hr, rfl, rfl, rfl, rfl, rfl⟩ : Holds (Spec.iterate (published sys Kinv) (start sys s).iterations) (start sys s)) h

variable {P : ℕ} {n : Fin (P + 1) → ℕ}

/-- **C76** With the combined criterion: if the initial solution – zero – is good enough, because no entry of the right-hand side, on
any process, is larger than the absolute tolerance, then it is returned without any iteration. -/
theorem C76_initial (sys : System (Σ p : Fin (P + 1), Fin (n p)) K (CombinedState K))
    (A : ((Σ p : Fin (P + 1), Fin (n p)) → K) →ₗ[K] ((Σ p : Fin (P + 1), Fin (n p)) → K)) (hs : Sound sys A)
    (tiny a b m : K) (ht : 0 ≤ tiny) (htb : tiny ≤ b) (hcrit : sys.criterion = combined tiny a b m) (s : CombinedState K)
    (hb : ∀ p j, |sys.rhs ⟨p, j⟩| ≤ b) : apply sys s = .returned true 0 0 := by
  have hx : (start sys s).x = 0 := by unfold start; rw [hs.pre]; rfl
  have hc : sys.criterion.converged (start sys s).criterion = true := by
    have : (start sys s).criterion = sys.criterion.setInitial s (fun _ => 0) sys.rhs := by unfold start; rw [hs.pre]
    rw [this, hcrit]
    have h2 := (combined_initial (P := P) (n := n) tiny a b m s (fun _ => 0) sys.rhs).2
    change combinedConverged a b ((combined (P := P) (n := n) tiny a b m).setInitial s (fun _ => 0) sys.rhs) = true
    simp only [combinedConverged, Bool.or_eq_true, decide_eq_true_eq]
    right
    rw [h2]
    exact max_le ((global_le _ _ (ht.trans htb)).2 hb) htb
  unfold apply
  simp only [hc, if_true, hx]

/-- **C76** The same for the relative tolerance: a right-hand side which is zero needs no iterations. -/
theorem C76_zero_rhs (sys : System (Σ p : Fin (P + 1), Fin (n p)) K (CombinedState K))
    (A : ((Σ p : Fin (P + 1), Fin (n p)) → K) →ₗ[K] ((Σ p : Fin (P + 1), Fin (n p)) → K)) (hs : Sound sys A)
    (tiny a b m : K) (ht : 0 ≤ tiny) (hta : tiny ≤ a * (1 / 10 ^ 20)) (ht1 : tiny ≤ 1 / 10 ^ 20)
    (hcrit : sys.criterion = combined tiny a b m) (s : CombinedState K)
    (hb : sys.rhs = 0) : apply sys s = .returned true 0 0 := by
  have hx : (start sys s).x = 0 := by unfold start; rw [hs.pre]; rfl
  have hc : sys.criterion.converged (start sys s).criterion = true := by
    have : (start sys s).criterion = sys.criterion.setInitial s (fun _ => 0) sys.rhs := by unfold start; rw [hs.pre]
    rw [this, hcrit]
    obtain ⟨h1, h2⟩ := combined_initial (P := P) (n := n) tiny a b m s (fun _ => 0) sys.rhs
    have hg : global (fun p i => |sys.rhs ⟨p, i⟩|) ≤ (0 : K) := (global_le _ _ le_rfl).2 (fun p j => by rw [hb]; simp)
    rw [max_eq_right (hg.trans ht)] at h1 h2
    change combinedConverged a b ((combined (P := P) (n := n) tiny a b m).setInitial s (fun _ => 0) sys.rhs) = true
    simp only [combinedConverged, Bool.or_eq_true, decide_eq_true_eq]
    left
    unfold residualReduction
    rw [h1, h2, max_eq_left ht1, div_le_iff₀ (by positivity)]
    exact hta
  unfold apply
  simp only [hc, if_true, hx]

/-! ### The hypotheses are met -/

/-- The example of `C76_violated` does throw, so that its algorithm breaks down. -/
example : BreaksDown (published exampleSystem id) exampleSystem.breakdownEps (Spec.iterate (published exampleSystem id) 1) :=
  C75_breakdown exampleSystem exampleMap exampleSystem_sound id (fun _ _ _ => rfl) ⟨0, 0, 0, true⟩ 1 (C76_violated _).2

/-- Without the last iterate's being zero there is no breakdown: at the start the numbers are one. -/
example : ¬BreaksDown (published exampleSystem id) exampleSystem.breakdownEps (Spec.iterate (published exampleSystem id) 0) := by
  unfold BreaksDown
  decide +kernel

example (s : CombinedState ℚ) : apply { exampleSystem with rhs := 0 } s = .returned true 0 0 :=
  C76_zero_rhs _ exampleMap ⟨by decide, by decide, fun _ => rfl, rfl, fun _ => rfl⟩ (1 / 10 ^ 30) (1 / 100) 0 1000 (by norm_num) (by norm_num)
    (by norm_num) rfl s rfl

example (s : CombinedState ℚ) : apply { exampleSystem with criterion := combined (1 / 10 ^ 30) (1 / 100) 2 1000 } s = .returned true 0 0 :=
  C76_initial _ exampleMap ⟨by decide, by decide, fun _ => rfl, rfl, fun _ => rfl⟩ (1 / 10 ^ 30) (1 / 100) 2 1000 (by norm_num) (by norm_num)
    rfl s (by decide +kernel)

end Verif.Krylov
