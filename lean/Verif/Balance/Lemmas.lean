import Verif.Balance.Spec
import Verif.Newton.NanProps
import Verif.TimeInt.Props
import Mathlib.Algebra.BigOperators.Pi
import Mathlib.Algebra.Order.BigOperators.Group.Finset
import Mathlib.Tactic.Abel

set_option autoImplicit false
set_option linter.unusedSectionVars false
set_option linter.unusedSimpArgs false

namespace Verif.Newton

variable {K V W : Type} [Field K] [LinearOrder K]

theorem loop_two (env : Env K V W) (fuel : ℕ) : ∀ st st' : NState K V, 1 ≤ st.iterations → converged env st = false →
    loop env fuel st = some (.success, st') → 2 ≤ st'.iterations := by
  induction fuel with
  | zero => intro st st' _ _ h; cases h
  | succ fuel ih =>
    intro st st' h1 h2 h
    rw [loop] at h
    split at h
    · next hp =>
      split at h
      · next st1 hpass =>
        obtain ⟨r, u, -, -, h3, -, rfl⟩ := pass_again hpass
        refine ih _ st' (by simp) ?_ h
        have hi : ¬ st.iterations < 1 := by omega
        simp only [proceed, hi, if_false] at h3
        split at h3
        · cases h3
        · next hc => simpa [converged] using hc
      · next st1 hpass =>
        obtain ⟨r, -, -, rfl⟩ := pass_leave hpass
        simp only [afterLoop] at h
        split at h
        · simp only [Option.some.injEq, Prod.mk.injEq, true_and] at h
          subst h
          simp only; omega
        · simp at h
      · simp at h
      · simp at h
    · simp only [afterLoop, h2] at h
      simp at h

/-- If the initial solution does not meet the tolerance, success takes at least two iterations. -/
theorem apply_two (env : Env K V W) (s0 : Vec V) (e le : Fl K) (fuel : ℕ) (st : NState K V)
    (h : apply env s0 e le fuel = some (.success, st))
    (hr : ∀ r, env.linearize 0 (applyConstraints env s0) = .residual r →
      (computeError env r).le (.num env.tolerance) = false) : 2 ≤ st.iterations := by
  unfold apply at h
  cases fuel with
  | zero => cases h
  | succ fuel =>
    rw [loop, if_pos (by simp [proceed])] at h
    split at h
    · next st1 hpass =>
      obtain ⟨r, u, h3, -, -, -, rfl⟩ := pass_again hpass
      exact loop_two env fuel _ st (by simp) (by simpa [converged] using hr r h3) h
    · next st1 hpass =>
      obtain ⟨r, -, h3, -⟩ := pass_leave hpass
      simp [proceed] at h3
    · simp at h
    · simp at h

end Verif.Newton

namespace Verif.Balance

open TimeLoop

variable {K PV W M C X : Type} {m : ℕ}
variable [Field K] [LinearOrder K] [AddCommGroup M] [Module K M]

theorem residual_eq (f : Physics K PV M C X m) (s : Tpfa.System (Fin m → K) M) (own : X) (dt : K) (cur old : ℕ → PV) (i : ℕ)
    (hi : i < f.numCells) (k : Fin m) : residual f s own dt cur old i k = imbalance f own dt cur old i k := by
  rw [residual, if_pos hi, Tpfa.linearizeFull_res _ _ i hi]
  simp only [Tpfa.cellRes, Tpfa.boundaryRes, net, imbalance, Pi.add_apply, Pi.sub_apply, Pi.smul_apply, smul_eq_mul]
  congr 1
  · congr 2
    generalize f.nb i = l
    induction l with
    | nil => rfl
    | cons e l ih => simp only [List.map_cons, List.sum_cons, Pi.add_apply, Pi.smul_apply, smul_eq_mul, ih]
  · generalize f.boundary own dt cur = l
    induction l with
    | nil => rfl
    | cons e l ih =>
      simp only [List.map_cons, List.sum_cons, Pi.add_apply, ih, List.filter_cons]
      by_cases h : e.cell = i ∧ e.none = false
      · rw [if_pos ⟨h.1.symm, h.2⟩, if_pos (by simpa using h)]; simp
      · rw [if_neg (by rintro ⟨h1, h2⟩; exact h ⟨h1.symm, h2⟩), if_neg (by simpa using h)]; simp

theorem network_any (f : Physics K PV M C X m) (rev : C → C) (h : Conservative f rev) (own : X) (dt : K) (cur old : ℕ → PV) :
    Tpfa.Network (net f own dt cur old) rev :=
  let H := h own dt cur
  ⟨H.neighbour, H.paired, H.area, H.antisymmetric, H.boundary⟩

variable [IsStrictOrderedRing K]

/-- Balance of one step: the change of the amount is what was supplied up to the sum of the imbalances. -/
theorem step_balance (f : Physics K PV M C X m) (rev : C → C) (h : Conservative f rev) (own : X) (dt : K) (hdt : dt ≠ 0)
    (cur old : ℕ → PV) (k : Fin m) :
    amount f cur k - amount f old k - dt * supply f own dt cur k =
      dt * ∑ i ∈ Finset.range f.numCells, imbalance f own dt cur old i k := by
  have H := Tpfa.C34_tpfa (net f own dt cur old) rev (network_any f rev h own dt cur old) ⟨fun _ => 0, fun _ _ => 0⟩
  have H := congrFun H k
  have hn : (net f own dt cur old).numCells = f.numCells := rfl
  rw [Finset.sum_apply, hn] at H
  have e1 : ∑ i ∈ Finset.range f.numCells,
      (Tpfa.linearizeFull (net f own dt cur old) ⟨fun _ => 0, fun _ _ => 0⟩).res i k =
      ∑ i ∈ Finset.range f.numCells, imbalance f own dt cur old i k :=
    Finset.sum_congr rfl fun i hi => by
      rw [← residual_eq f ⟨fun _ => 0, fun _ _ => 0⟩ own dt cur old i (Finset.mem_range.1 hi) k, residual, if_pos (Finset.mem_range.1 hi)]
  have hb : ∀ l : List (Tpfa.BFace K (Fin m → K) M), ((l.filter fun b => !b.none).map fun b => b.area • b.flux.1).sum k =
      ((l.filter fun b => !b.none).map fun b => b.area * b.flux.1 k).sum := by
    intro l
    generalize l.filter _ = l
    induction l with
    | nil => rfl
    | cons e l ih => simp only [List.map_cons, List.sum_cons, Pi.add_apply, Pi.smul_apply, smul_eq_mul, ih]
  rw [e1, Pi.add_apply, Finset.sum_apply, hb] at H
  rw [H]
  simp only [amount, supply, net, Pi.sub_apply, Pi.smul_apply, smul_eq_mul]
  rw [mul_add, Finset.mul_sum, mul_sub, Finset.mul_sum, ← Finset.sum_sub_distrib]
  have e2 : ∀ i, dt * (f.volume i / dt * ((f.storage i (cur i)).1 k - (f.storage i (old i)).1 k) -
      f.volume i * (f.source own dt cur i).1 k) =
      (f.volume i * (f.storage i (cur i)).1 k - f.volume i * (f.storage i (old i)).1 k) -
        dt * (f.volume i * (f.source own dt cur i).1 k) := by
    intro i; field_simp
  simp only [e2, Finset.sum_sub_distrib]
  ring

/-- What a Newton method which succeeds has found. -/
theorem solver_small (f : Physics K PV M C X m) (q : Numerics K PV W M X m) (own : X) (attempt : ℕ) (dt : K) (s old it : ℕ → PV)
    (hs : s = old) (htol : 0 ≤ q.tolerance) (hvol : ∀ i < f.numCells, 0 < f.volume i)
    (hu : Unsettled f q own dt old) (h : solver f q own attempt dt s old = .returned it true) :
    dt ≠ 0 ∧ ∀ i < f.numCells, ∀ k : Fin m, |imbalance f own dt it old i k * q.weight i k| ≤ q.tolerance := by
  subst hs
  obtain ⟨i0, hi0, k0, hk0⟩ := hu
  unfold solver at h
  split at h
  · cases h
  · next st ha =>
    simp only [TimeInt.SolveResult.returned.injEq, and_true] at h
    subst h
    have hlin : ∀ n x r, (env f q own attempt dt s).linearize n x = .residual r →
        r = fun i => List.ofFn fun k : Fin m =>
          if dt = 0 then Newton.Fl.nan else .num (residual f (q.system own attempt dt s n) own dt x s i k) := by
      intro n x r hr
      simp only [env] at hr
      split at hr <;> simp_all
    have hcounts : ∀ i, Newton.Counts (env f q own attempt dt s) i ↔ i < f.numCells := by
      intro i
      simp only [Newton.Counts, env]
      exact ⟨fun h => h.1, fun h => ⟨h, h, hvol i h, trivial⟩⟩
    have hget : ∀ (g : Fin m → Newton.Fl K) (j : ℕ) (x : Newton.Fl K), (List.ofFn g)[j]? = some x →
        ∃ hj : j < m, x = g ⟨j, hj⟩ := by
      intro g j x hx
      rw [List.getElem?_eq_some_iff] at hx
      obtain ⟨hj, rfl⟩ := hx
      exact ⟨by simpa using hj, by simp⟩
    have hdt : dt ≠ 0 := by
      rintro rfl
      refine Newton.C13_undefined_never_succeeds_partial _ _ _ _ _ st ?_ ha
      intro n x r hr
      rw [hlin n x r hr]
      have hall : ∀ y ∈ Newton.entries (env f q own attempt 0 s)
          (fun i => List.ofFn fun k : Fin m => if (0 : K) = 0 then Newton.Fl.nan else .num (residual f (q.system own attempt 0 s n) own 0 x s i k)),
          y = Newton.Fl.nan := by
        intro y hy
        obtain ⟨d, -, j, z, h1, rfl⟩ := (Newton.mem_entries _ _ _).1 hy
        obtain ⟨hj, rfl⟩ := hget _ j z h1
        simp [Newton.Fl.scale]
      have hne : Newton.entries (env f q own attempt 0 s)
          (fun i => List.ofFn fun k : Fin m => if (0 : K) = 0 then Newton.Fl.nan else .num (residual f (q.system own attempt 0 s n) own 0 x s i k))
            ≠ [] := by
        intro hnil
        have := (Newton.mem_entries (env f q own attempt 0 s)
          (fun i => List.ofFn fun k : Fin m => if (0 : K) = 0 then Newton.Fl.nan else .num (residual f (q.system own attempt 0 s n) own 0 x s i k))
          (Newton.Fl.nan)).2 ⟨i0, (hcounts i0).2 hi0, k0.1, .nan, by simp, by simp [Newton.Fl.scale]⟩
        rw [hnil] at this
        cases this
      rw [List.getLast?_eq_some_getLast hne, hall _ (List.getLast_mem hne)]
    have hdef : ∀ n x r, (env f q own attempt dt s).linearize n x = .residual r → Newton.Defined (env f q own attempt dt s) r := by
      intro n x r hr d _ j y hy
      rw [hlin n x r hr] at hy
      obtain ⟨hj, rfl⟩ := hget _ j y hy
      simp [hdt]
    have hsmall : ∀ n x r, (env f q own attempt dt s).linearize n x = .residual r → Newton.SmallResidual (env f q own attempt dt s) r →
        ∀ i < f.numCells, ∀ k : Fin m, |imbalance f own dt x s i k * q.weight i k| ≤ q.tolerance := by
      intro n x r hr hsm i hi k
      rw [hlin n x r hr] at hsm
      obtain ⟨a, h1, h2⟩ := hsm i ((hcounts i).2 hi) k.1 _ (by
        rw [List.getElem?_eq_some_iff]; exact ⟨by simp, rfl⟩)
      simp only [List.getElem_ofFn, hdt, if_false, Newton.Fl.num.injEq] at h1
      rw [residual_eq f _ own dt x s i hi k] at h1
      rw [h1]
      exact h2
    refine ⟨hdt, ?_⟩
    have h2 := Newton.apply_two _ _ _ _ _ st ha (by
      intro r hr
      rw [Bool.eq_false_iff]
      intro hle
      have hsm := (Newton.C09_error_is_exact _ r htol (hdef _ _ _ hr)).1 hle
      have hac : Newton.applyConstraints (env f q own attempt dt s) s = s := by
        funext i; rfl
      rw [hac] at hr
      exact absurd (hsmall _ _ _ hr hsm i0 hi0 k0) (not_le.2 hk0))
    obtain ⟨r, hr, hsm⟩ := Newton.C09_success_small_residual_partial _ _ _ _ _ st htol ha h2 hdef
    exact hsmall _ _ _ hr hsm
  · cases h
  · cases h

theorem accepted_cont {S : Type} (maxFails : ℕ) (minDt : K) (cont : Bool) (solver : TimeInt.Solver K S) (st : TimeInt.St K S)
    (h : (TimeInt.timeIntegration maxFails minDt cont solver st).outcome = .accepted) : cont = true := by
  unfold TimeInt.timeIntegration at h
  generalize 0 = i at h
  induction maxFails generalizing i st with
  | zero => simp [TimeInt.attempts] at h
  | succ n ih =>
    rw [TimeInt.attempts] at h
    split at h
    · cases h
    · cases h
    · simp only at h
      split at h
      · split at h
        · assumption
        · cases h
      · exact ih _ _ h

/-! ### The time loop -/

theorem step_sol (f : Physics K PV M C X m) (q : Numerics K PV W M X m) (h : Hooks K PV X) (c : Conf K (St PV X))
    (hc : ¬ Integrates (problem f q h) c) : (step (problem f q h) c).prob.sol0 = c.prob.sol0 := by
  unfold Integrates at hc
  cases hpc : c.pc <;> simp only [hpc, true_and, step] at hc ⊢
  case integrate =>
    split at hc
    · next hn => simp [hn]
    · simp at hc
  all_goals first | rfl | skip
  all_goals try (split <;> (try split) <;> rfl)
  all_goals
    simp only [call, problem, lift]
    split
    · rfl
    · next p cmds hp =>
      simp only [Option.map_eq_some_iff, Prod.mk.injEq] at hp
      obtain ⟨r, -, rfl, rfl⟩ := hp
      try split
      all_goals rfl

/-- Between time steps both time levels have the same solution. -/
def Level (c : Conf K (St PV X)) : Prop :=
  c.pc = .endStep ∨ c.pc = .output ∨ c.pc = .advance ∨ c.pc = .aborted ∨ c.pc = .thrown ∨ c.prob.sol0 = c.prob.sol1

theorem step_level (f : Physics K PV M C X m) (q : Numerics K PV W M X m) (h : Hooks K PV X) (c : Conf K (St PV X))
    (hl : Level c) : Level (step (problem f q h) c) := by
  unfold Level at *
  cases hpc : c.pc <;> simp only [hpc, reduceCtorEq, false_or, true_or, or_true, step] at hl ⊢
  case integrate => split <;> simp
  case head => split <;> (try split) <;> simp [hl]
  case select => simp [hl]
  case done => simp [hl]
  all_goals
    simp only [call, problem, lift]
    split
    · simp
    · next p cmds hp =>
      simp only [Option.map_eq_some_iff, Prod.mk.injEq] at hp
      obtain ⟨r, -, rfl, rfl⟩ := hp
      try split
      all_goals simp [hl]

theorem run_succ (P : Problem K (St PV X)) (n : ℕ) (c : Conf K (St PV X)) : run P (n + 1) c = step P (run P n c) := by
  rw [run, Function.iterate_succ_apply']; rfl

theorem run_level (f : Physics K PV M C X m) (q : Numerics K PV W M X m) (h : Hooks K PV X) (sim : Sim K) (own : X) (s0 : ℕ → PV)
    (n : ℕ) : Level (run (problem f q h) n (start sim ⟨own, s0, s0⟩)) := by
  induction n with
  | zero => simp [Level, run, start]
  | succ n ih => rw [run_succ]; exact step_level f q h _ ih

/-- What is known of a step which integrates. -/
theorem integrates_small (f : Physics K PV M C X m) (q : Numerics K PV W M X m) (h : Hooks K PV X) (c : Conf K (St PV X))
    (hl : Level c) (hi : Integrates (problem f q h) c) (hcont : q.continueOnError = false) (htol : 0 ≤ q.tolerance)
    (hvol : ∀ i < f.numCells, 0 < f.volume i)
    (hu : Unsettled f q c.prob.own (step (problem f q h) c).sim.dt c.prob.sol0) :
    (step (problem f q h) c).sim.dt ≠ 0 ∧ ∀ i < f.numCells, ∀ k : Fin m,
      |imbalance f c.prob.own (step (problem f q h) c).sim.dt (step (problem f q h) c).prob.sol0 c.prob.sol0 i k * q.weight i k|
        ≤ q.tolerance := by
  obtain ⟨hpc, he⟩ := hi
  have hs : c.prob.sol0 = c.prob.sol1 := by simpa [Level, hpc] using hl
  have hst : ∀ p d, (problem f q h).timeIntegration c.prob c.sim = some (p, d) →
      (step (problem f q h) c).sim.dt = d ∧ (step (problem f q h) c).prob = p := by
    intro p d hp
    simp [step, hpc, hp]
  cases ht : (problem f q h).timeIntegration c.prob c.sim with
  | none => simp [step, hpc, ht] at he
  | some r =>
    obtain ⟨p, d⟩ := r
    obtain ⟨h1, h2⟩ := hst p d ht
    rw [h1] at hu ⊢
    rw [h2]
    obtain ⟨-, H, -⟩ := TimeInt.C15_result_is_last_attempt q.maxFails q.minDt q.continueOnError (solver f q c.prob.own)
      ⟨c.prob.sol0, c.prob.sol1, c.sim.dt⟩
    have hacc : (TimeInt.timeIntegration q.maxFails q.minDt q.continueOnError (solver f q c.prob.own)
        ⟨c.prob.sol0, c.prob.sol1, c.sim.dt⟩).outcome ≠ .accepted := by
      intro hacc
      have := accepted_cont (K := K) q.maxFails q.minDt q.continueOnError (solver f q c.prob.own) _ hacc
      rw [hcont] at this
      cases this
    simp only [problem] at ht
    split at ht
    · next hconv =>
      obtain ⟨a, s, h3, h4⟩ := H hconv
      simp only [Option.some.injEq, Prod.mk.injEq] at ht
      obtain ⟨hp, hd⟩ := ht
      have hs' : s = c.prob.sol1 := by rcases h4 with h4 | h4 <;> simp_all
      rw [hd] at h3
      have e0 : (TimeInt.timeIntegration q.maxFails q.minDt q.continueOnError (solver f q c.prob.own)
          ⟨c.prob.sol0, c.prob.sol1, c.sim.dt⟩).st.sol0 = p.sol0 := by rw [← hp]
      rw [e0] at h3
      rw [hs] at hu ⊢
      exact solver_small f q c.prob.own a d s c.prob.sol1 _ hs' htol hvol hu h3
    · next hac => exact absurd hac hacc
    · cases ht
    · cases ht

end Verif.Balance
