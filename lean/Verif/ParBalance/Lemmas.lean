import Verif.ParBalance.Spec
import Verif.Balance.Lemmas

set_option autoImplicit false
set_option linter.unusedSectionVars false

namespace Verif.ParBalance

open Verif.TimeLoop Verif.Newton Verif.ParNewton Verif.ParSolve.Block Verif.ParSim Verif.Overlap
open Verif.ParSolve (Enumerates Wide Steps Covered mem_all steps_mem wide_one row_enumerates)

variable {P N E : ℕ} {G K V X : Type} [Field K] [LinearOrder K] [IsStrictOrderedRing K] [Inhabited V]
variable {g : Grid (P + 1) G} {cell : Fin N → G} {task : Task G E K V X} {law : Law G K V X} {e : Fin E}

theorem onCells_cell (hE : Function.Injective cell) (x : Fin N → V) (k : Fin N) : onCells cell x (cell k) = x k :=
  hE.extend_apply _ _ _

/-- What a Newton method which succeeds has found. -/
theorem single_small (own : X) (dt : K) (mem : Memory K) (x : ℕ → V) (fuel : ℕ) (tolerance : K)
    (htol : 0 ≤ tolerance) (hT : (task.settings own dt mem).tolerance = tolerance) (it : ℕ → V) (mem' : Memory K)
    (hvol : ∀ k, 0 < (task.equations own dt (onCells cell fun k => x k)).volume (cell k))
    (hn : (task.equations own dt (onCells cell fun k => x k)).constraint = fun _ => none)
    (hu : Unsettled task cell tolerance own dt (onCells cell fun k => x k))
    (h : oneSolver (fun dt mem old => single (task.equations own dt (onCells cell fun k => old k)) cell (task.settings own dt mem)) fuel
      dt mem x x = (.returned it true, mem')) :
    ∀ k, ∃ r J, (task.equations own dt (onCells cell fun k => x k)).row (cell k) (onCells cell fun k => it k) = some (r, J) ∧
      ∀ l, |r l * (task.equations own dt (onCells cell fun k => x k)).weight (cell k) l| ≤ tolerance := by
  classical
  unfold oneSolver at h
  simp only at h
  set eqs := task.equations own dt (onCells cell fun k => x k) with heqs
  set env := single eqs cell (task.settings own dt mem) with henv
  have etol : env.tolerance = tolerance := hT
  have hcon : ∀ i, env.constraints i = none := fun i => by
    show (if h : i < N then eqs.constraint (cell ⟨i, h⟩) else none) = none
    rw [hn]
    split_ifs <;> rfl
  split at h
  · cases h
  · next st ha =>
    simp only [Prod.mk.injEq, TimeInt.SolveResult.returned.injEq, and_true] at h
    obtain ⟨rfl, -⟩ := h
    have hlin : ∀ n y r, env.linearize n y = .residual r → (∀ k, (rowAt eqs cell y k).isSome = true) ∧
        r = fun i => if h : i < N then List.ofFn fun l => .num ((rowAt eqs cell y ⟨i, h⟩).elim 0 (fun r => r.1) l) else [] := by
      intro n y r hr
      simp only [henv, single] at hr
      split at hr
      · next hall =>
        injection hr with hr
        exact ⟨hall, hr.symm⟩
      · cases hr
    have hcounts : ∀ k : Fin N, Newton.Counts env k := by
      intro k
      refine ⟨k.2, k.2, ?_, hcon k⟩
      show 0 < (if h : (k : ℕ) < N then eqs.volume (cell ⟨k, h⟩) else 0)
      rw [dif_pos k.2]
      exact hvol k
    have hweight : ∀ (k : Fin N) (l : Fin E), env.weight k l = eqs.weight (cell k) l := by
      intro k l
      show (if h : (k : ℕ) < N ∧ (l : ℕ) < E then eqs.weight (cell ⟨k, h.1⟩) ⟨l, h.2⟩ else 0) = _
      rw [dif_pos ⟨k.2, l.2⟩]
    have hdef : ∀ n y r, env.linearize n y = .residual r → Newton.Defined env r := by
      intro n y r hr d _ j z hz
      rw [(hlin n y r hr).2] at hz
      simp only at hz
      split at hz
      · rw [List.getElem?_ofFn] at hz
        split at hz
        · simp only [Option.some.injEq] at hz
          rw [← hz]; simp
        · simp at hz
      · simp at hz
    have hsmall : ∀ n y r, env.linearize n y = .residual r → Newton.SmallResidual env r → ∀ k, ∃ r J,
        eqs.row (cell k) (onCells cell fun k => y k) = some (r, J) ∧ ∀ l, |r l * eqs.weight (cell k) l| ≤ tolerance := by
      intro n y r hr hsm k
      obtain ⟨h1, h2⟩ := hlin n y r hr
      obtain ⟨⟨r', J⟩, hrow⟩ := Option.isSome_iff_exists.1 (h1 k)
      refine ⟨r', J, hrow, fun l => ?_⟩
      obtain ⟨a, e1, e2⟩ := hsm k (hcounts k) l (.num ((rowAt eqs cell y k).elim 0 (fun r => r.1) l)) (by
        rw [h2]
        simp only [dif_pos k.2, Fin.eta, List.getElem?_ofFn, dif_pos l.2])
      injection e1 with e1
      rw [hrow, Option.elim_some] at e1
      rw [hweight, etol] at e2
      have e1' : r' l = a := e1
      rw [e1']
      exact e2
    have h2 := Newton.apply_two env _ _ _ _ st ha (by
      intro r hr
      rw [Bool.eq_false_iff]
      intro hle
      have hsm := (Newton.C09_error_is_exact env r (by rw [etol]; exact htol) (hdef _ _ _ hr)).1 hle
      have hac : Newton.applyConstraints env x = x := applyConstraints_none env hcon x
      rw [hac] at hr
      obtain ⟨k, l, hk⟩ := hu
      obtain ⟨r', J, h3, h4⟩ := hsmall _ _ _ hr hsm k
      exact absurd (h4 l) (not_le.2 (hk r' J h3)))
    obtain ⟨r, hr, hsm⟩ := Newton.C09_success_small_residual_partial env _ _ _ _ st (by rw [etol]; exact htol) ha h2 hdef
    exact hsmall _ _ _ hr hsm
  · cases h
  · cases h

/-- The attempts of a time step which began with the same solution on both time levels. -/
theorem attempts_converged {S : Type} (minDt : K) (cont : Bool) (solver : Solver K S) (n : ℕ) : ∀ (st st' : TimeInt.St K S)
    (mem mem' : Memory K) (hl : st.sol0 = st.sol1), attempts minDt cont solver n st mem = (.converged, st', mem') →
    st'.sol1 = st.sol1 ∧ ∃ m, solver st'.dt m st.sol1 st.sol1 = (.returned st'.sol0 true, mem') := by
  induction n with
  | zero => intro st st' mem mem' _ h; simp [attempts] at h
  | succ n ih =>
    intro st st' mem mem' hl h
    rw [attempts, update] at h
    rcases hs : solver st.dt mem st.sol0 st.sol1 with ⟨r, m'⟩
    rw [hs] at h
    rcases r with ⟨it, b⟩ | it
    swap
    · simp at h
    · cases b
      · simp only at h
        split at h
        · split at h <;> simp at h
        · exact ih { sol0 := st.sol1, sol1 := st.sol1, dt := if st.dt / 2 < minDt then minDt else st.dt / 2 } st' m' mem' rfl h
      · simp only [Prod.mk.injEq, true_and] at h
        obtain ⟨rfl, rfl⟩ := h
        refine ⟨rfl, mem, ?_⟩
        simp only
        rw [← hs, hl]

theorem attempts_accepted {S : Type} (minDt : K) (solver : Solver K S) (n : ℕ) : ∀ (st : TimeInt.St K S) (mem : Memory K),
    (attempts minDt false solver n st mem).1 ≠ .accepted := by
  induction n with
  | zero => intro st mem; simp [attempts]
  | succ n ih =>
    intro st mem
    rw [attempts]
    split
    · simp
    · simp
    · simp only
      split
      · simp
      · exact ih _ _

theorem run_succ {σ : Type} (A : Problem K σ) (n : ℕ) (c : Conf K σ) : run A (n + 1) c = step A (run A n c) := by
  rw [run, Function.iterate_succ_apply']; rfl

section
variable {S : Type} (solver : X → Solver K S) (h : Hooks K S X)

theorem step_sol (c : Conf K (St K S X)) (hc : ¬ Integrates (problem solver h) c) :
    (step (problem solver h) c).prob.sol0 = c.prob.sol0 := by
  unfold Integrates at hc
  cases hpc : c.pc <;> simp only [hpc, true_and, step] at hc ⊢
  case integrate =>
    split at hc
    · next hn => simp [hn]
    · simp at hc
  all_goals first | rfl | skip
  all_goals try (split <;> (try split) <;> rfl)
  all_goals
    simp only [call, problem, lift]
    split
    · rfl
    · next p cmds hp =>
      simp only [Option.map_eq_some_iff, Prod.mk.injEq] at hp
      obtain ⟨r, -, rfl, rfl⟩ := hp
      try split
      all_goals rfl

/-- Between time steps both time levels have the same solution. -/
def Level (c : Conf K (St K S X)) : Prop :=
  c.pc = .endStep ∨ c.pc = .output ∨ c.pc = .advance ∨ c.pc = .aborted ∨ c.pc = .thrown ∨ c.prob.sol0 = c.prob.sol1

theorem step_level (c : Conf K (St K S X)) (hl : Level c) : Level (step (problem solver h) c) := by
  unfold Level at *
  cases hpc : c.pc <;> simp only [hpc, reduceCtorEq, false_or, true_or, or_true, step] at hl ⊢
  case integrate => split <;> simp
  case head => split <;> (try split) <;> simp [hl]
  case select => simp [hl]
  case done => simp [hl]
  all_goals
    simp only [call, problem, lift]
    split
    · simp
    · next p cmds hp =>
      simp only [Option.map_eq_some_iff, Prod.mk.injEq] at hp
      obtain ⟨r, -, rfl, rfl⟩ := hp
      try split
      all_goals simp [hl]

theorem run_level (sim : Sim K) (own : X) (mem : Memory K) (s0 : S) (n : ℕ) :
    Level (run (problem solver h) n (start sim ⟨own, s0, s0, mem⟩)) := by
  induction n with
  | zero => simp [Level, run, start]
  | succ n ih => rw [run_succ]; exact step_level solver h _ ih

/-- A step which integrates ends with a success of the Newton method which began at the previous solution. -/
theorem integrates_solved (hcont : h.continueOnError = false) (c : Conf K (St K S X)) (hl : Level c)
    (hi : Integrates (problem solver h) c) :
    ∃ m m', solver c.prob.own (step (problem solver h) c).sim.dt m c.prob.sol0 c.prob.sol0 =
      (.returned (step (problem solver h) c).prob.sol0 true, m') := by
  obtain ⟨hpc, he⟩ := hi
  have hs : c.prob.sol0 = c.prob.sol1 := by simpa [Level, hpc] using hl
  cases ht : (problem solver h).timeIntegration c.prob c.sim with
  | none => simp [step, hpc, ht] at he
  | some r =>
    obtain ⟨p, d⟩ := r
    have h1 : (step (problem solver h) c).sim.dt = d ∧ (step (problem solver h) c).prob = p := by simp [step, hpc, ht]
    rw [h1.1, h1.2]
    simp only [problem] at ht
    have hacc := attempts_accepted h.minDt (solver c.prob.own) h.maxFails ⟨c.prob.sol0, c.prob.sol1, c.sim.dt⟩ c.prob.memory
    rw [hcont] at ht
    split at ht
    · next st mem hconv =>
      obtain ⟨-, m, hm⟩ := attempts_converged _ _ _ _ _ _ _ _ hs hconv
      simp only [Option.some.injEq, Prod.mk.injEq] at ht
      obtain ⟨rfl, rfl⟩ := ht
      refine ⟨m, mem, ?_⟩
      rw [hs]
      exact hm
    · next st mem ha =>
      rw [ha] at hacc
      exact absurd rfl hacc
    · cases ht
    · cases ht

end

/-- What flows between the cells of the grid adds up to nothing. -/
theorem sum_outflow (hE : Function.Injective cell) (hb : Balances law task e (Set.range cell)) (own : X) (dt : K) (old Y : G → V) :
    ∑ k, (((task.equations own dt old).stencil (cell k)).map (law.outflow own dt Y (cell k))).sum = 0 := by
  classical
  set st := (task.equations own dt old).stencil with hst
  have e1 : ∀ k, ((st (cell k)).map (law.outflow own dt Y (cell k))).sum =
      ∑ j, if cell j ∈ st (cell k) then law.outflow own dt Y (cell k) (cell j) else 0 := by
    intro k
    rw [← List.sum_toFinset _ (hb.nodup own dt old _ ⟨k, rfl⟩), ← Finset.sum_filter]
    symm
    refine Finset.sum_bij (fun j _ => cell j) ?_ ?_ ?_ ?_
    · intro j hj
      simpa using hj
    · intro a _ b _ hab
      exact hE hab
    · intro c hc
      have hc' := List.mem_toFinset.1 hc
      obtain ⟨j, rfl⟩ := hb.inside own dt old _ ⟨k, rfl⟩ c hc'
      exact ⟨j, by simpa using hc', rfl⟩
    · intro j _; rfl
  simp only [e1]
  have hS : (∑ k, ∑ j, if cell j ∈ st (cell k) then law.outflow own dt Y (cell k) (cell j) else 0) =
      -∑ k, ∑ j, if cell j ∈ st (cell k) then law.outflow own dt Y (cell k) (cell j) else 0 := by
    conv_lhs => rw [Finset.sum_comm]
    rw [← Finset.sum_neg_distrib]
    refine Finset.sum_congr rfl fun k _ => ?_
    rw [← Finset.sum_neg_distrib]
    refine Finset.sum_congr rfl fun j _ => ?_
    have hm := hb.symmetric own dt old (cell k) (cell j) ⟨k, rfl⟩ ⟨j, rfl⟩
    by_cases hc : cell j ∈ st (cell k)
    · rw [if_pos hc, if_pos (hm.1 hc), hb.antisymmetric]
    · rw [if_neg hc, if_neg (fun h => hc (hm.2 h)), neg_zero]
  linarith

/-- Balance of one step on one process -/
theorem step_balance (hE : Function.Injective cell) (hb : Balances law task e (Set.range cell)) (own : X) (dt : K)
    (old Y : G → V) (r : Fin N → Blk E K) (J : Fin N → G → Mat E K) (hr : ∀ k, (task.equations own dt old).row (cell k) Y = some (r k, J k)) :
    ∑ k, law.content (cell k) (Y (cell k)) - ∑ k, law.content (cell k) (old (cell k)) - dt * ∑ k, law.supply own dt Y (cell k) =
      dt * ∑ k, r k e := by
  have e1 : ∀ k, dt * r k e = (law.content (cell k) (Y (cell k)) - law.content (cell k) (old (cell k)))
      + dt * (((task.equations own dt old).stencil (cell k)).map (law.outflow own dt Y (cell k))).sum
      - dt * law.supply own dt Y (cell k) := by
    intro k
    obtain ⟨hdt, e2⟩ := hb.residual own dt old (cell k) Y (r k) (J k) ⟨k, rfl⟩ (hr k)
    rw [e2]
    field_simp
  rw [Finset.mul_sum Finset.univ (fun k => r k e) dt, Finset.sum_congr rfl fun k _ => e1 k, Finset.sum_sub_distrib, Finset.sum_add_distrib, Finset.sum_sub_distrib,
    ← Finset.mul_sum, ← Finset.mul_sum, sum_outflow hE hb]
  ring

/-- The sum over own cells of all processes is the sum over all cells. -/
theorem total_eq (hE : Enumerates g cell) (hn : ∀ p, (g.cells p).Nodup) (hO : ∀ p, ∀ c ∈ g.cells p, c ∈ g.all) (f : G → V → K)
    {y : Fin (P + 1) → ℕ → V} {x : ℕ → V} (h : HaveOwn g cell y x) : total g f y = ∑ k, f (cell k) (x k) := by
  classical
  have e : ∀ p, (∑ i ∈ Finset.range (g.cells p).length, ((g.cells p)[i]?).elim 0 fun c => if g.owner c = p then f c (y p i) else 0) =
      ∑ k with g.owner (cell k) = p, f (cell k) (x k) := by
    intro p
    rw [← Finset.sum_filter_ne_zero]
    symm
    rw [← Finset.sum_filter_ne_zero]
    refine Finset.sum_bij (fun k _ => (g.cells p).idxOf (cell k)) ?_ ?_ ?_ ?_
    · intro k hk
      obtain ⟨hk1, hk2⟩ := Finset.mem_filter.1 hk
      have ho := (Finset.mem_filter.1 hk1).2
      have hmem : cell k ∈ g.cells p := by
        have := (hE.2 (cell k)).2 ⟨k, rfl⟩
        rw [← ho]; exact this
      have hi := List.idxOf_lt_length_iff.2 hmem
      have hget : (g.cells p)[(g.cells p).idxOf (cell k)]? = some (cell k) := by
        rw [List.getElem?_eq_getElem hi, List.getElem_idxOf hi]
      refine Finset.mem_filter.2 ⟨Finset.mem_range.2 hi, ?_⟩
      rw [hget, Option.elim_some, if_pos ho, h p _ k hget ho]
      exact hk2
    · intro a ha b hb hab
      have mem : ∀ a, a ∈ Finset.filter (fun a => f (cell a) (x a) ≠ 0) (Finset.filter (fun k => g.owner (cell k) = p) Finset.univ) →
          cell a ∈ g.cells p := by
        intro a ha
        have ho := (Finset.mem_filter.1 (Finset.mem_filter.1 ha).1).2
        have := (hE.2 (cell a)).2 ⟨a, rfl⟩
        rw [← ho]; exact this
      exact hE.1 ((List.idxOf_inj (mem a ha)).1 hab)
    · intro i hi
      obtain ⟨hi1, hi2⟩ := Finset.mem_filter.1 hi
      have hlt := Finset.mem_range.1 hi1
      rw [List.getElem?_eq_getElem hlt, Option.elim_some] at hi2
      have hmem := List.getElem_mem hlt
      obtain ⟨k, hk⟩ := (hE.2 _).1 (hO p _ hmem)
      have hidx : (g.cells p).idxOf (cell k) = i := by rw [hk]; exact (hn p).idxOf_getElem i hlt
      by_cases ho : g.owner ((g.cells p)[i]) = p
      · rw [if_pos ho] at hi2
        rw [← hk] at ho hi2
        have := h p i k (by rw [List.getElem?_eq_getElem hlt, hk]) ho
        rw [this] at hi2
        exact ⟨k, Finset.mem_filter.2 ⟨Finset.mem_filter.2 ⟨Finset.mem_univ _, ho⟩, hi2⟩, hidx⟩
      · rw [if_neg ho] at hi2
        exact absurd rfl hi2
    · intro k hk
      obtain ⟨hk1, hk2⟩ := Finset.mem_filter.1 hk
      have ho := (Finset.mem_filter.1 hk1).2
      have hmem : cell k ∈ g.cells p := by
        have := (hE.2 (cell k)).2 ⟨k, rfl⟩
        rw [← ho]; exact this
      have hi := List.idxOf_lt_length_iff.2 hmem
      have hget : (g.cells p)[(g.cells p).idxOf (cell k)]? = some (cell k) := by
        rw [List.getElem?_eq_getElem hi, List.getElem_idxOf hi]
      rw [hget, Option.elim_some, if_pos ho, h p _ k hget ho]
  unfold total
  rw [Finset.sum_congr rfl fun p _ => e p]
  exact Finset.sum_fiberwise _ _ _

theorem values_eq (hE : Enumerates g cell) {y : Fin (P + 1) → ℕ → V} {x : ℕ → V} (h : HaveOwn g cell y x) :
    values g cell y = onCells cell fun k => x k := by
  classical
  unfold values
  congr 1
  funext k
  have hmem : cell k ∈ g.cells (g.owner (cell k)) := (hE.2 (cell k)).2 ⟨k, rfl⟩
  have hi := List.idxOf_lt_length_iff.2 hmem
  refine h _ _ k ?_ rfl
  rw [List.getElem?_eq_getElem hi, List.getElem_idxOf hi]

end Verif.ParBalance
