import Verif.Solver.Model
import Mathlib.Data.List.Induction
import Mathlib.Tactic.Common

/-
The linear solver always works on matrices which fit to the grid and the auxiliary modules.
-/

set_option autoImplicit false

namespace Verif.Solver

/-- Auxiliary modules are only added if no iteration has been started since the last time they were cleared or the grid was changed. -/
def Orderly (ops : List Op) : Prop :=
  ∀ a c b m d, ops = a ++ Op.iteration c :: b ++ Op.addModule m :: d → Op.clearModules ∈ b ∨ Op.adapt ∈ b

/-- The vectors of the solver do not run out of memory. -/
def Vectors (ops : List Op) : Prop := Op.iteration (.preparing .b) ∉ ops ∧ Op.iteration (.preparing .x) ∉ ops

/-- The number of calls to `solve` which ended because the preconditioner of another process could not be made -/
def otherFailures (ops : List Op) : ℕ :=
  ops.countP fun o => match o with | .iteration (.solve .otherPrecFails) => true | _ => false

structure Inv (ops : List Op) (s : State) : Prop where
  jac : ∀ sh, s.jacobian = some sh → sh = s.shape
  since : s.jacobian.isSome ∨ (∃ sh, s.matrix = some sh ∧ sh.grid = s.grid) →
    ∃ a c b, ops = a ++ Op.iteration c :: b ∧ Op.clearModules ∉ b ∧ Op.adapt ∉ b
  mat : ∀ sh, s.matrix = some sh → s.seq = (sh.grid : ℤ) ∧ sh.grid ≤ s.grid ∧ (sh.grid = s.grid → sh = s.shape)
  vb : s.b = s.matrix
  vx : s.x = s.matrix
  live : s.live.length = otherFailures ops
  ids : ∀ k ∈ s.live, k < s.made

theorem Orderly.prefix {ops : List Op} {o : Op} (h : Orderly (ops ++ [o])) : Orderly ops := fun a c b m d e =>
  h a c b m (d ++ [o]) (by simp [e])

theorem since_snoc {ops : List Op} {o : Op} (h1 : o ≠ .clearModules) (h2 : o ≠ .adapt)
    (h : ∃ a c b, ops = a ++ Op.iteration c :: b ∧ Op.clearModules ∉ b ∧ Op.adapt ∉ b) :
    ∃ a c b, ops ++ [o] = a ++ Op.iteration c :: b ∧ Op.clearModules ∉ b ∧ Op.adapt ∉ b := by
  obtain ⟨a, c, b, e, hc, ha⟩ := h
  refine ⟨a, c, b ++ [o], by simp [e], ?_, ?_⟩ <;> simp_all [eq_comm]

theorem live_snoc {ops : List Op} {o : Op} {n : ℕ} (h : n = otherFailures ops) (ho : otherFailures [o] = 0) :
    n = otherFailures (ops ++ [o]) := by
  unfold otherFailures at *
  rw [List.countP_append, ho]; exact h

/-- After a successful `prepare` everything fits. -/
theorem prepare_spec {s : State} (mat : ∀ sh, s.matrix = some sh → s.seq = (sh.grid : ℤ) ∧ sh.grid ≤ s.grid ∧ (sh.grid = s.grid → sh = s.shape))
    (vb : s.b = s.matrix) (vx : s.x = s.matrix) (hj : s.jacobian = some s.shape) :
    let t := prepare none s
    t.matrix = some s.shape ∧ t.b = t.matrix ∧ t.x = t.matrix ∧ t.seq = (s.grid : ℤ) ∧ t.jacobian = s.jacobian ∧ t.grid = s.grid ∧
      t.modules = s.modules ∧ t.live = s.live ∧ t.made = s.made ∧ t.prec = s.prec := by
  unfold prepare
  split
  · rename_i hp
    obtain ⟨hs, hm⟩ := hp
    obtain ⟨sh, hm⟩ := Option.isSome_iff_exists.mp hm
    obtain ⟨h1, h2, h3⟩ := mat sh hm
    have : sh.grid = s.grid := by have := h1.symm.trans hs; exact_mod_cast this
    simp [hm, h3 this, vb, vx, hs]
  · simp [cleanup, hj]

/-- Every step keeps the invariant. -/
theorem inv_step {ops : List Op} {s : State} {o : Op} (ho : Orderly (ops ++ [o])) (hv : Vectors (ops ++ [o])) (h : Inv ops s) :
    ∃ t, step s o = some t ∧ Inv (ops ++ [o]) t := by
  cases o with
  | adapt =>
    refine ⟨_, rfl, ?_⟩
    refine ⟨by simp [adapt], ?_, ?_, h.vb, h.vx, live_snoc h.live rfl, h.ids⟩
    · rintro (hj | ⟨sh, hm, hg⟩)
      · simp [adapt] at hj
      · have := (h.mat sh hm).2.1
        simp only [adapt] at hg
        omega
    · intro sh hm
      obtain ⟨h1, h2, h3⟩ := h.mat sh hm
      refine ⟨h1, ?_, ?_⟩
      · simp only [adapt]; omega
      · simp only [adapt]; omega
  | addModule m =>
    have none_ : s.jacobian = none ∧ ∀ sh, s.matrix = some sh → sh.grid ≠ s.grid := by
      by_contra hc
      have : s.jacobian.isSome ∨ (∃ sh, s.matrix = some sh ∧ sh.grid = s.grid) := by
        by_cases hj : s.jacobian = none
        · right
          by_contra hn
          exact hc ⟨hj, fun sh hm hg => hn ⟨sh, hm, hg⟩⟩
        · left; exact Option.isSome_iff_ne_none.mpr hj
      obtain ⟨a, c, b, e, h1, h2⟩ := h.since this
      rcases ho a c b m [] (by simp [e]) with h3 | h3
      · exact h1 h3
      · exact h2 h3
    refine ⟨_, rfl, ?_⟩
    refine ⟨by simp [addModule, none_.1], ?_, ?_, h.vb, h.vx, live_snoc h.live rfl, h.ids⟩
    · rintro (hj | ⟨sh, hm, hg⟩)
      · simp [addModule, none_.1] at hj
      · exact absurd hg (none_.2 sh hm)
    · intro sh hm
      obtain ⟨h1, h2, h3⟩ := h.mat sh hm
      exact ⟨h1, h2, fun hg => absurd hg (none_.2 sh hm)⟩
  | clearModules =>
    refine ⟨_, rfl, ?_⟩
    exact ⟨by simp [clearModules, cleanup], by simp [clearModules, cleanup], by simp [clearModules, cleanup], rfl, rfl,
      live_snoc h.live rfl, h.ids⟩
  | erase =>
    refine ⟨_, rfl, ?_⟩
    refine ⟨h.jac, ?_, by simp [cleanup], rfl, rfl, live_snoc h.live rfl, h.ids⟩
    rintro (hj | ⟨sh, hm, hg⟩)
    · exact since_snoc (by simp) (by simp) (h.since (.inl hj))
    · simp [cleanup] at hm
  | iteration c =>
    have since : ∃ a c' b, ops ++ [Op.iteration c] = a ++ Op.iteration c' :: b ∧ Op.clearModules ∉ b ∧ Op.adapt ∉ b :=
      ⟨ops, c, [], by simp⟩
    have ht : linearize s = some { s with jacobian := some s.shape } := by
      unfold linearize
      cases e : s.jacobian with
      | none => rfl
      | some sh =>
        have := h.jac sh e
        subst this
        have hs : s = { s with jacobian := some s.shape } := by rw [← e]
        simp only [if_true]
        exact congrArg some hs
    show ∃ t, (linearize s).bind (afterLinearize c) = some t ∧ _
    rw [ht, Option.bind_some]
    generalize htdef : ({ s with jacobian := some s.shape } : State) = t
    have hsh : t.shape = s.shape := by subst htdef; rfl
    have hj : t.jacobian = some t.shape := by rw [hsh]; subst htdef; rfl
    have mat : ∀ sh, t.matrix = some sh → t.seq = (sh.grid : ℤ) ∧ sh.grid ≤ t.grid ∧ (sh.grid = t.grid → sh = t.shape) := by
      subst htdef; exact h.mat
    have vb : t.b = t.matrix := by subst htdef; exact h.vb
    have vx : t.x = t.matrix := by subst htdef; exact h.vx
    have live : t.live.length = otherFailures ops := by subst htdef; exact h.live
    have ids : ∀ k ∈ t.live, k < t.made := by subst htdef; exact h.ids
    clear htdef h ht
    have hjac : ∀ sh, t.jacobian = some sh → sh = t.shape := fun sh e => by rw [hj] at e; exact (Option.some.inj e).symm
    obtain ⟨p1, p2, p3, p4, p5, p6, p7, p8, p9, p10⟩ := prepare_spec mat vb vx hj
    have hpre : exchangeResidual (prepare none t) = some (prepare none t) := by
      unfold exchangeResidual
      rw [p5, p2, p1, hj]; simp
    have hps : (prepare none t).shape = t.shape := by simp only [State.shape, p6, p7]
    have hmat : ∀ sh, (prepare none t).matrix = some sh →
        (prepare none t).seq = (sh.grid : ℤ) ∧ sh.grid ≤ (prepare none t).grid ∧ (sh.grid = (prepare none t).grid → sh = (prepare none t).shape) := by
      intro sh e
      rw [p1] at e
      cases e
      rw [p4, p6, hps]
      exact ⟨rfl, Nat.le_refl _, fun _ => rfl⟩
    cases c with
    | linearizing => exact ⟨t, rfl, hjac, fun _ => since, mat, vb, vx, live_snoc live rfl, ids⟩
    | preparing p =>
      simp only [afterLinearize]
      split
      · rename_i hc
        have hpt : prepare none t = t := by unfold prepare; rw [if_pos hc]
        rw [hpt] at hpre
        exact ⟨t, hpre, hjac, fun _ => since, mat, vb, vx, live_snoc live rfl, ids⟩
      · rename_i hc
        refine ⟨_, rfl, ?_⟩
        have hb : p ≠ .b := fun e => hv.1 (by simp [e])
        have hx : p ≠ .x := fun e => hv.2 (by simp [e])
        have e : prepare (some p) t = { cleanup t with seq := t.grid } := by
          unfold prepare
          rw [if_neg hc]
          cases p
          · simp
          · simp
          · exact absurd rfl hb
          · exact absurd rfl hx
        rw [e]
        exact ⟨hjac, fun _ => since, by simp [cleanup], rfl, rfl, live_snoc live rfl, ids⟩
    | beforeSolve =>
      refine ⟨_, hpre, ?_, fun _ => since, hmat, p2, p3, ?_, ?_⟩
      · intro sh e; rw [hps]; exact hjac sh (p5 ▸ e)
      · rw [p8]; exact live_snoc live rfl
      · rw [p8, p9]; exact ids
    | solve o =>
      simp only [afterLinearize, hpre, Option.bind_some]
      have hset : setMatrix (prepare none t) = some (prepare none t) := by
        unfold setMatrix
        rw [p5, p1, hj]; simp
      rw [hset, Option.bind_some]
      unfold solve
      rw [if_pos ⟨by rw [p1]; rfl, p2, p3⟩]
      have hjac' : ∀ sh, (prepare none t).jacobian = some sh → sh = (prepare none t).shape := by
        intro sh e; rw [hps]; exact hjac sh (p5 ▸ e)
      have ids' : ∀ k ∈ (prepare none t).live, k < (prepare none t).made := by rw [p8, p9]; exact ids
      rw [← p8] at live
      generalize prepare none t = u at *
      cases o with
      | precFails =>
        rw [if_pos rfl]
        exact ⟨u, rfl, hjac', fun _ => since, hmat, p2, p3, live_snoc live rfl, ids'⟩
      | otherPrecFails =>
        rw [if_neg (by simp)]
        simp only [if_true]
        refine ⟨_, rfl, hjac', fun _ => since, hmat, p2, p3, ?_, ?_⟩
        · simp [live, otherFailures]
        · intro k hk
          rcases List.mem_cons.mp hk with hk | hk
          · simp only [hk]; omega
          · have := ids' k hk; show k < u.made + 1; omega
      | throws =>
        rw [if_neg (by simp)]
        simp only [deletePrec, reduceCtorEq, if_false, List.mem_cons, true_or, if_true]
        refine ⟨_, rfl, hjac', fun _ => since, hmat, p2, p3, ?_, ?_⟩
        · simp only [List.erase_cons_head]; exact live_snoc live rfl
        · simp only [List.erase_cons_head]; intro k hk; have := ids' k hk; omega
      | returns =>
        rw [if_neg (by simp)]
        simp only [deletePrec, reduceCtorEq, if_false, List.mem_cons, true_or, if_true]
        refine ⟨_, rfl, hjac', fun _ => since, hmat, p2, p3, ?_, ?_⟩
        · simp only [List.erase_cons_head]; exact live_snoc live rfl
        · simp only [List.erase_cons_head]; intro k hk; have := ids' k hk; omega

/-- No run does anything undefined, and whenever the linear solver has a matrix for the present grid, the matrix and the vectors fit to the
present modules, too. -/
theorem inv_run (ops : List Op) (ho : Orderly ops) (hv : Vectors ops) : ∃ s, run ops = some s ∧ Inv ops s := by
  induction ops using List.reverseRecOn with
  | nil => exact ⟨init, rfl, by simp [init], by simp [init], by simp [init], rfl, rfl, rfl, by simp [init]⟩
  | append_singleton ops o ih =>
    obtain ⟨s, hs, hi⟩ := ih ho.prefix ⟨fun h => hv.1 (List.mem_append_left _ h), fun h => hv.2 (List.mem_append_left _ h)⟩
    obtain ⟨t, ht, hj⟩ := inv_step ho hv hi
    refine ⟨t, ?_, hj⟩
    unfold run at *
    rw [List.foldlM_append, hs]
    simp [ht]

theorem exchange_some {s t : State} (h : exchangeResidual s = some t) : t = s ∧ s.b.isSome ∧ s.b = s.jacobian := by
  unfold exchangeResidual at h
  split at h
  · rename_i hc; exact ⟨(Option.some.inj h).symm, hc⟩
  · cases h

theorem setMatrix_some {s t : State} (h : setMatrix s = some t) : t = s := by
  unfold setMatrix at h
  split at h
  · exact (Option.some.inj h).symm
  · cases h

theorem solve_some {o : Ending} {s t : State} (h : solve o s = some t) : t.grid = s.grid ∧ t.modules = s.modules ∧
    t.jacobian = s.jacobian ∧ t.seq = s.seq ∧ t.matrix = s.matrix ∧ t.b = s.b ∧ t.x = s.x ∧ t.built = s.built ∧ s.made ≤ t.made ∧
    (∀ k ∈ s.live, k < s.made → k ∈ t.live) := by
  unfold solve at h
  split at h
  · split at h
    · cases h; simp +contextual
    · simp only at h
      split at h
      · cases h; simp +contextual
      · simp only [deletePrec, List.mem_cons, true_or, if_true, List.erase_cons_head] at h
        cases h; simp +contextual
  · cases h

theorem linearize_some {s t : State} (h : linearize s = some t) : t = { s with jacobian := some s.shape } := by
  unfold linearize at h
  split at h
  · exact (Option.some.inj h).symm
  · rename_i sh e
    split at h
    · rename_i hs
      cases h
      rw [← hs, ← e]
    · cases h

/-- An iteration which reaches the solver has vectors of the shape of the linearizer's matrix. -/
theorem reached {s t : State} {c : Cut} (hc : c = .beforeSolve ∨ ∃ o, c = .solve o) (h : step s (.iteration c) = some t) :
    t.b.isSome ∧ t.b = t.jacobian := by
  simp only [step, iteration, Option.bind_eq_some_iff] at h
  obtain ⟨u, _, h⟩ := h
  rcases hc with rfl | ⟨o, rfl⟩
  · simp only [afterLinearize] at h
    obtain ⟨e, h1⟩ := exchange_some h
    rw [e]; exact h1
  · simp only [afterLinearize, Option.bind_eq_some_iff] at h
    obtain ⟨w, ⟨v, hv, hw⟩, h⟩ := h
    obtain ⟨e, h1⟩ := exchange_some hv
    have e2 := setMatrix_some hw
    obtain ⟨_, _, h3, _, _, h6, _⟩ := solve_some h
    rw [h6, h3, e2, e]; exact h1

/-- Everything is prepared for the present grid and modules. -/
structure Ready (s : State) : Prop where
  jac : s.jacobian = some s.shape
  seq : s.seq = (s.grid : ℤ)
  mat : s.matrix = some s.shape

theorem ready_of_inv {ops : List Op} {s : State} (h : Inv ops s) (hr : s.b.isSome ∧ s.b = s.jacobian) : Ready s := by
  obtain ⟨h1, h2⟩ := hr
  obtain ⟨sh, hb⟩ := Option.isSome_iff_exists.mp h1
  have hj := h.jac sh (h2 ▸ hb)
  subst hj
  have hm : s.matrix = some s.shape := h.vb ▸ hb
  exact ⟨h2 ▸ hb, (h.mat _ hm).1, hm⟩

theorem ready_step {s t : State} {c : Cut} (h : Ready s) (hs : step s (.iteration c) = some t) : Ready t ∧ t.built = s.built := by
  simp only [step, iteration, Option.bind_eq_some_iff] at hs
  obtain ⟨u, hu, hs⟩ := hs
  have hu' : u = s := by rw [linearize_some hu, ← h.jac]
  subst hu'
  have hp : ∀ f, prepare f u = u := fun f => by unfold prepare; rw [if_pos ⟨h.seq, by rw [h.mat]; rfl⟩]
  cases c with
  | linearizing => cases hs; exact ⟨h, rfl⟩
  | preparing p =>
    simp only [afterLinearize, hp] at hs
    split at hs
    · rw [(exchange_some hs).1]; exact ⟨h, rfl⟩
    · cases hs; exact ⟨h, rfl⟩
  | beforeSolve =>
    simp only [afterLinearize, hp] at hs
    rw [(exchange_some hs).1]; exact ⟨h, rfl⟩
  | solve o =>
    simp only [afterLinearize, Option.bind_eq_some_iff, hp] at hs
    obtain ⟨w, ⟨v, hv, hw⟩, hs⟩ := hs
    have e : w = u := by rw [setMatrix_some hw, (exchange_some hv).1]
    subst e
    obtain ⟨h1, h2, h3, h4, h5, _, _, h8, _⟩ := solve_some hs
    have hsh : t.shape = w.shape := by simp only [State.shape, h1, h2]
    exact ⟨⟨by rw [h3, hsh, h.jac], by rw [h4, h1, h.seq], by rw [h5, hsh, h.mat]⟩, h8⟩

theorem prepare_live (f : Option Part) (s : State) : (prepare f s).live = s.live ∧ (prepare f s).made = s.made := by
  unfold prepare cleanup
  split
  · simp
  · simp only
    split
    · simp
    · split
      · simp
      · split <;> simp

theorem kept {s t : State} {o : Op} {k : ℕ} (hs : step s o = some t) (hk : k ∈ s.live) (hm : k < s.made) : k ∈ t.live ∧ k < t.made := by
  cases o with
  | adapt => cases hs; exact ⟨hk, hm⟩
  | addModule m => cases hs; exact ⟨hk, hm⟩
  | clearModules => cases hs; exact ⟨hk, hm⟩
  | erase => cases hs; exact ⟨hk, hm⟩
  | iteration c =>
    simp only [step, iteration, Option.bind_eq_some_iff] at hs
    obtain ⟨u, hu, hs⟩ := hs
    have hu' := linearize_some hu
    have hk' : k ∈ u.live := by rw [hu']; exact hk
    have hm' : k < u.made := by rw [hu']; exact hm
    have hp := fun f => prepare_live f u
    cases c with
    | linearizing => cases hs; exact ⟨hk', hm'⟩
    | preparing p =>
      simp only [afterLinearize] at hs
      split at hs
      · rw [(exchange_some hs).1]; exact ⟨hk', hm'⟩
      · cases hs; rw [(hp _).1, (hp _).2]; exact ⟨hk', hm'⟩
    | beforeSolve =>
      simp only [afterLinearize] at hs
      rw [(exchange_some hs).1, (hp _).1, (hp _).2]; exact ⟨hk', hm'⟩
    | solve o =>
      simp only [afterLinearize, Option.bind_eq_some_iff] at hs
      obtain ⟨w, ⟨v, hv, hw⟩, hs⟩ := hs
      have e : w = prepare none u := by rw [setMatrix_some hw, (exchange_some hv).1]
      obtain ⟨_, _, _, _, _, _, _, _, h9, h10⟩ := solve_some hs
      rw [e, (hp _).2] at h9
      rw [e, (hp _).1, (hp _).2] at h10
      exact ⟨h10 k hk' hm', by omega⟩

/-! ### The property -/

/-- **C143.** Whatever happens in a run, iterations of the Newton method which fail at any place, changes of the grid, and auxiliary modules
which are cleared and added anew, the linear solver does not do anything undefined.  After an iteration which has reached the linear solver,
the matrix of the linearizer and the matrix and the vectors of the solver all fit to the present grid and the present auxiliary modules. -/
theorem C143_fits_partial (ops : List Op) (c : Cut) (ho : Orderly (ops ++ [.iteration c])) (hv : Vectors (ops ++ [.iteration c]))
    (hc : c = .beforeSolve ∨ ∃ o, c = .solve o) :
    ∃ s, run (ops ++ [.iteration c]) = some s ∧ s.jacobian = some s.shape ∧ s.matrix = some s.shape ∧ s.b = some s.shape ∧
      s.x = some s.shape := by
  obtain ⟨t, ht, h⟩ := inv_run _ ho hv
  have hr : t.b.isSome ∧ t.b = t.jacobian := by
    unfold run at ht
    rw [List.foldlM_append] at ht
    simp only [Option.bind_eq_bind, Option.bind_eq_some_iff, List.foldlM_cons, List.foldlM_nil] at ht
    obtain ⟨s, _, u, hu, e⟩ := ht
    cases e
    exact reached hc hu
  have r := ready_of_inv h hr
  exact ⟨t, ht, r.jac, r.mat, h.vb ▸ r.mat, h.vx ▸ r.mat⟩

/-- **C143.** No history of calls makes the solver do anything undefined. -/
theorem C143_defined_partial (ops : List Op) (ho : Orderly ops) (hv : Vectors ops) : ∃ s, run ops = some s := by
  obtain ⟨s, hs, _⟩ := inv_run ops ho hv
  exact ⟨s, hs⟩

/-- **C143.** The preconditioners which are left in memory are exactly those of calls which ended because another process could not make its
preconditioner. -/
theorem C143_freed_partial (ops : List Op) (ho : Orderly ops) (hv : Vectors ops) :
    ∃ s, run ops = some s ∧ s.live.length = otherFailures ops := by
  obtain ⟨s, hs, h⟩ := inv_run ops ho hv
  exact ⟨s, hs, h.live⟩

/-- **C143.** The matrix of the solver is not made again as long as the grid and the modules stay. -/
theorem C143_reuse (ops more : List Op) (c : Cut) (ho : Orderly (ops ++ .iteration c :: more)) (hv : Vectors (ops ++ .iteration c :: more))
    (hc : c = .beforeSolve ∨ ∃ o, c = .solve o) (hm : ∀ o ∈ more, ∃ c', o = .iteration c') :
    ∃ s t, run (ops ++ [.iteration c]) = some s ∧ run (ops ++ .iteration c :: more) = some t ∧ t.built = s.built := by
  have main : ∃ s t, run (ops ++ [.iteration c]) = some s ∧ run (ops ++ .iteration c :: more) = some t ∧ Ready t ∧ t.built = s.built := by
    induction more using List.reverseRecOn with
    | nil =>
      obtain ⟨t, ht, h⟩ := inv_run _ ho hv
      have hr : t.b.isSome ∧ t.b = t.jacobian := by
        have ht := ht
        unfold run at ht
        rw [List.foldlM_append] at ht
        simp only [Option.bind_eq_bind, Option.bind_eq_some_iff, List.foldlM_cons, List.foldlM_nil] at ht
        obtain ⟨s, _, u, hu, e⟩ := ht
        cases e
        exact reached hc hu
      exact ⟨t, t, ht, ht, ready_of_inv h hr, rfl⟩
    | append_singleton more o ih =>
      have e : ops ++ Op.iteration c :: (more ++ [o]) = (ops ++ Op.iteration c :: more) ++ [o] := by simp
      rw [e] at ho hv ⊢
      obtain ⟨s, t, hs, ht, hr, hb⟩ := ih ho.prefix
        ⟨fun h => hv.1 (List.mem_append_left _ h), fun h => hv.2 (List.mem_append_left _ h)⟩ (fun o ho => hm o (by simp [ho]))
      obtain ⟨u, hu, _⟩ := inv_run _ ho hv
      obtain ⟨c', rfl⟩ := hm o (by simp)
      have hu' : step t (.iteration c') = some u := by
        unfold run at hu ht
        rw [List.foldlM_append, ht] at hu
        simpa using hu
      obtain ⟨r1, r2⟩ := ready_step hr hu'
      exact ⟨s, u, hs, hu, r1, r2.trans hb⟩
  obtain ⟨s, t, h1, h2, _, h3⟩ := main
  exact ⟨s, t, h1, h2, h3⟩

/-- **C143 is violated** if a module is added after an iteration: the next one writes its equations to entries which the matrix does not
have. -/
theorem C143_module_violated (m : ℕ) : run [.iteration (.solve .returns), .addModule m, .iteration (.solve .returns)] = none := by
  simp [run, step, iteration, linearize, afterLinearize, prepare, cleanup, exchangeResidual, setMatrix, solve, deletePrec, init, addModule,
    State.shape, List.foldlM]

/-- **C143 is violated** if another process cannot make its preconditioner: that of this process stays in memory for ever. -/
theorem C143_leak_violated : ∃ s, run [.iteration (.solve .otherPrecFails)] = some s ∧ s.live = [0] ∧
    ∀ (more : List Op) (t : State), more.foldlM step s = some t → 0 ∈ t.live := by
  have keep : ∀ (more : List Op) (s t : State), 0 ∈ s.live → 0 < s.made → more.foldlM step s = some t → 0 ∈ t.live := by
    intro more
    induction more with
    | nil => intro s t h _ e; cases e; exact h
    | cons o l ih =>
      intro s t h1 h2 e
      simp only [List.foldlM_cons, Option.bind_eq_bind, Option.bind_eq_some_iff] at e
      obtain ⟨u, hu, e⟩ := e
      obtain ⟨h3, h4⟩ := kept hu h1 h2
      exact ih u t h3 h4 e
  refine ⟨{ grid := 0, modules := [], jacobian := some ⟨0, []⟩, seq := 0, matrix := some ⟨0, []⟩, b := some ⟨0, []⟩, x := some ⟨0, []⟩
            prec := some 0, live := [0], made := 1, built := 1 }, rfl, rfl, fun more t e => keep more _ t (by simp) (by simp) e⟩

/-- **C143 is violated** if there is no memory for the vectors and the run goes on: the matrix which was made is taken for a sign that
everything is prepared, and a null pointer is dereferenced. -/
theorem C143_memory_violated : run [.iteration (.preparing .b), .iteration .beforeSolve] = none := by
  simp [run, step, iteration, linearize, afterLinearize, prepare, cleanup, exchangeResidual, init, State.shape, List.foldlM]

/-- A run with a change of the grid, a module, and failures meets the hypotheses. -/
example : Orderly [.addModule 0, .iteration (.preparing .matrix), .iteration (.solve .throws), .adapt, .iteration (.solve .precFails),
    .clearModules, .addModule 1, .iteration (.solve .returns)] ∧
    Vectors [.addModule 0, .iteration (.preparing .matrix), .iteration (.solve .throws), .adapt, .iteration (.solve .precFails),
    .clearModules, .addModule 1, .iteration (.solve .returns)] := by
  refine ⟨?_, by simp [Vectors]⟩
  intro a c b m d e
  rcases a with _ | ⟨_, _ | ⟨_, _ | ⟨_, _ | ⟨_, _ | ⟨_, _ | ⟨_, _ | ⟨_, _ | ⟨_, a⟩⟩⟩⟩⟩⟩⟩⟩ <;> simp at e
  all_goals
    obtain ⟨_, e⟩ := e
    rcases b with _ | ⟨_, _ | ⟨_, _ | ⟨_, _ | ⟨_, _ | ⟨_, _ | ⟨_, b⟩⟩⟩⟩⟩⟩ <;> simp at e <;> simp_all

end Verif.Solver
