import Verif.ThreadSim.Spec
import Verif.Balance.Props

/-
Theorems about whole simulations with threads.
-/

set_option autoImplicit false
set_option linter.unusedSectionVars false

namespace Verif.ThreadSim

open Verif.TimeLoop Verif.Tpfa Verif.FvLin Verif.Balance

section
variable {K V M C : Type} [Field K] [AddCommGroup V] [AddCommGroup M] [Module K V] [Module K M]

theorem threads_eq (n : ℕ) (updates : ℕ → List (Upd V M)) :
    threads n updates = fun k => { todo := if k ∈ List.range n then updates k else [], reg := none } := by
  funext k
  simp [threads]

/-- Whichever linearizer and schedule: the entries are those of one thread. -/
theorem assembled_eq {p : Net K V M C} {a : System V M} (h : Assembled p a) (s : System V M) (i j : ℕ) (hi : i < p.numCells) (hj : j < p.numCells) :
    a.res i = (linearizeFull p s).res i ∧ a.mat i j = (linearizeFull p s).mat i j := by
  cases h with
  | tpfa s0 schedule s' ts' hrun hdone =>
    rw [threads_eq] at hrun
    have := C38_tpfa p (List.range p.numCells) List.nodup_range (resetAll s0) schedule s' ts' hrun hdone
    rw [this, linearizeFull, Tpfa.linearizeDomain, if_pos (by simp)]
    exact ⟨rfl, rfl⟩
  | general s0 schedule s' ts' hrun hdone =>
    rw [threads_eq] at hrun
    have := C73_unlocked p (fun _ => 1) (List.range p.numCells) List.nodup_range (resetAll s0) schedule _ ts' hrun hdone
    obtain ⟨h1, h2⟩ := C72_linearizers_agree p (fun _ => 1) s0 s i j hi hj
    rw [one_smul] at h1 h2
    rw [← h1, ← h2, FvLin.linearizeDomain, if_pos (by simp), this]
    exact ⟨rfl, rfl⟩
  | locked s0 es hperm =>
    obtain ⟨h1, h2⟩ := C72_linearizers_agree p (fun _ => 1) s0 s i j hi hj
    rw [one_smul] at h1 h2
    have := C73_locked (fun _ => 1) p.dt p.numCells es _ hperm s0
    rw [← this, FvLin.linearizeDomain, if_pos (by rw [hperm.length_eq]; simp)] at h1 h2
    exact ⟨h1, h2⟩

/-! ### There are such schedules -/

theorem interleave_append (s : System V M) (ts : ℕ → Thread V M) (a b : List ℕ) :
    interleave s ts (a ++ b) = interleave (interleave s ts a).1 (interleave s ts a).2 b := by
  induction a generalizing s ts with
  | nil => rfl
  | cons k a ih => exact ih _ _

theorem finish_one (k n : ℕ) : ∀ (s : System V M) (ts : ℕ → Thread V M), (ts k).todo.length = n →
    ∃ schedule, ((interleave s ts schedule).2 k).todo = [] ∧ ∀ l ≠ k, (interleave s ts schedule).2 l = ts l := by
  induction n with
  | zero => exact fun s ts h => ⟨[], List.eq_nil_of_length_eq_zero h, fun _ _ => rfl⟩
  | succ n ih =>
    have hstored : ∀ (s : System V M) (ts : ℕ → Thread V M) (r : Reg V M), (ts k).todo.length = n + 1 → (ts k).reg = some r →
        ∃ schedule, ((interleave s ts schedule).2 k).todo = [] ∧ ∀ l ≠ k, (interleave s ts schedule).2 l = ts l := by
      intro s ts r h hr
      obtain ⟨u, us, hu⟩ : ∃ u us, (ts k).todo = u :: us := by
        cases ht : (ts k).todo with
        | nil => rw [ht] at h; exact absurd h (by simp)
        | cons u us => exact ⟨u, us, rfl⟩
      have hst : (ts k).step s = (store s u r, { todo := us, reg := none }) := by simp only [Thread.step, hu, hr]
      obtain ⟨sched, h1, h2⟩ := ih (store s u r) (fun l => if l = k then { todo := us, reg := none } else ts l) (by
        rw [hu] at h; simpa using h)
      refine ⟨k :: sched, ?_, ?_⟩
      · show ((interleave ((ts k).step s).1 (fun l => if l = k then ((ts k).step s).2 else ts l) sched).2 k).todo = []
        rw [hst]; exact h1
      · intro l hl
        show (interleave ((ts k).step s).1 (fun l => if l = k then ((ts k).step s).2 else ts l) sched).2 l = ts l
        rw [hst, h2 l hl, if_neg hl]
    intro s ts h
    cases hr : (ts k).reg with
    | some r => exact hstored s ts r h hr
    | none =>
      obtain ⟨u, us, hu⟩ : ∃ u us, (ts k).todo = u :: us := by
        cases ht : (ts k).todo with
        | nil => rw [ht] at h; exact absurd h (by simp)
        | cons u us => exact ⟨u, us, rfl⟩
      have hst : (ts k).step s = (s, { todo := u :: us, reg := some (load s u) }) := by simp only [Thread.step, hu, hr]
      obtain ⟨sched, h1, h2⟩ := hstored s (fun l => if l = k then { todo := u :: us, reg := some (load s u) } else ts l) (load s u) (by
        rw [hu] at h; simpa using h) (by simp)
      refine ⟨k :: sched, ?_, ?_⟩
      · show ((interleave ((ts k).step s).1 (fun l => if l = k then ((ts k).step s).2 else ts l) sched).2 k).todo = []
        rw [hst]; exact h1
      · intro l hl
        show (interleave ((ts k).step s).1 (fun l => if l = k then ((ts k).step s).2 else ts l) sched).2 l = ts l
        rw [hst, h2 l hl, if_neg hl]

theorem finish_all (n : ℕ) : ∀ (s : System V M) (ts : ℕ → Thread V M), (∀ k, n ≤ k → (ts k).todo = []) →
    ∃ schedule, ∀ k, ((interleave s ts schedule).2 k).todo = [] := by
  induction n with
  | zero => exact fun s ts h => ⟨[], fun k => h k (Nat.zero_le _)⟩
  | succ n ih =>
    intro s ts h
    obtain ⟨a, h1, h2⟩ := finish_one n _ s ts rfl
    obtain ⟨b, h3⟩ := ih (interleave s ts a).1 (interleave s ts a).2 fun k hk => by
      by_cases e : k = n
      · rw [e]; exact h1
      · rw [h2 k e]; exact h k (by omega)
    exact ⟨a ++ b, fun k => by rw [interleave_append]; exact h3 k⟩

theorem threads_finish (n : ℕ) (updates : ℕ → List (Upd V M)) (s : System V M) :
    ∃ schedule, ∀ k, ((interleave s (threads n updates) schedule).2 k).todo = [] :=
  finish_all n s _ fun k hk => by simp [threads, not_lt.2 hk]

end

variable {K PV W M C X : Type} {m : ℕ} [Field K] [LinearOrder K] [AddCommGroup M] [Module K M]

theorem cut_eq {f : Physics K PV M C X m} {lin lin' : Linearized K PV M X m} (h : Runs f lin) (h' : Runs f lin') (own : X) (attempt : ℕ) (dt : K)
    (old : ℕ → PV) (it : ℕ) (s : ℕ → PV) : cut f.numCells (lin own attempt dt old it s) = cut f.numCells (lin' own attempt dt old it s) := by
  have e := fun i j (hi : i < f.numCells) (hj : j < f.numCells) =>
    (assembled_eq (h own attempt dt old it s) ⟨fun _ => 0, fun _ _ => 0⟩ i j hi hj)
  have e' := fun i j (hi : i < f.numCells) (hj : j < f.numCells) =>
    (assembled_eq (h' own attempt dt old it s) ⟨fun _ => 0, fun _ _ => 0⟩ i j hi hj)
  unfold cut
  congr 1
  · funext i
    split_ifs with hi
    · exact (e i i hi hi).1.trans (e' i i hi hi).1.symm
    · rfl
  · funext i j
    split_ifs with hi
    · exact (e i j hi.1 hi.2).2.trans (e' i j hi.1 hi.2).2.symm
    · rfl

/-- **C164** A whole simulation does not depend on threads and on the linearizer: let each linearization of one run be done with any number
of threads, any schedule and either linearizer, and those of the other run with any others.  Then after any number of steps of the time
loop both runs are in the same state, with the same time, step size, history, solutions and state of the problem. -/
theorem C164_threads (f : Physics K PV M C X m) (q : Numerics K PV W M X m) (solve : LinearSolver K PV W M X m) (h : Hooks K PV X)
    {lin lin' : Linearized K PV M X m} (hl : Runs f lin) (hl' : Runs f lin') (sim : Sim K) (p : St PV X) (n : ℕ) :
    run (problem f q lin solve h) n (start sim p) = run (problem f q lin' solve h) n (start sim p) := by
  have : problem f q lin solve h = problem f q lin' solve h := by
    have e : env f q lin solve = env f q lin' solve := by
      funext own attempt dt old
      unfold env
      simp only [cut_eq hl hl']
    unfold problem solver
    rw [e]
  rw [this]

/-- What `Verif.Balance` calls numerics, with a linear solver which gets the system which one thread assembles with the linearizer for
two-point fluxes. -/
def oneThread (f : Physics K PV M C X m) (q : Numerics K PV W M X m) (solve : LinearSolver K PV W M X m) : Numerics K PV W M X m :=
  { q with base := fun own attempt dt old =>
      { q.base own attempt dt old with
        solve := fun it s => solve own attempt dt old it s
          (cut f.numCells (linearizeFull (net f own dt s old) (q.system own attempt dt old it))) } }

theorem problem_oneThread (f : Physics K PV M C X m) (q : Numerics K PV W M X m) (solve : LinearSolver K PV W M X m) (h : Hooks K PV X)
    {lin : Linearized K PV M X m} (hl : Runs f lin) : problem f q lin solve h = Balance.problem f (oneThread f q solve) h := by
  have hc : ∀ own attempt dt old it s, cut f.numCells (lin own attempt dt old it s) =
      cut f.numCells (linearizeFull (net f own dt s old) (q.system own attempt dt old it)) := by
    intro own attempt dt old it s
    have e := fun i j (hi : i < f.numCells) (hj : j < f.numCells) =>
      (assembled_eq (hl own attempt dt old it s) (q.system own attempt dt old it) i j hi hj)
    unfold cut
    congr 1
    · funext i
      split_ifs with hi
      · exact (e i i hi hi).1
      · rfl
    · funext i j
      split_ifs with hi
      · exact (e i j hi.1 hi.2).2
      · rfl
  have hr : ∀ (s : System (Fin m → K) M) (own : X) (dt : K) (cur old : ℕ → PV) (i : ℕ) (k : Fin m),
      (cut f.numCells (linearizeFull (net f own dt cur old) s)).res i k = Balance.residual f s own dt cur old i k := by
    intro s own dt cur old i k
    simp only [cut, Balance.residual]
    split_ifs <;> rfl
  have e : env f q lin solve = Balance.env f (oneThread f q solve) := by
    funext own attempt dt old
    unfold env Balance.env oneThread
    simp only [hc, hr]
    congr 1
  unfold problem solver
  rw [e]
  rfl

/-- **C164** (partial) Hence the balance of mass of `C160_balance_partial` holds for simulations with any number of threads, any schedule
and either linearizer.  What is missing is what is missing there. -/
theorem C164_balance_partial [IsStrictOrderedRing K] (f : Physics K PV M C X m) (q : Numerics K PV W M X m) (solve : LinearSolver K PV W M X m)
    (h : Hooks K PV X) {lin : Linearized K PV M X m} (hl : Runs f lin) (rev : C → C) (sim : Sim K) (own : X) (s0 : ℕ → PV) (n : ℕ) (k : Fin m)
    (hcons : Conservative f rev) (hcont : q.continueOnError = false) (htol : 0 ≤ q.tolerance)
    (hvol : ∀ i < f.numCells, 0 < f.volume i) (hweight : ∀ i < f.numCells, ∀ k : Fin m, 0 < q.weight i k)
    (hunsettled : ∀ j < n, Integrates (problem f q lin solve h) (run (problem f q lin solve h) j (start sim ⟨own, s0, s0⟩)) →
      Unsettled f q (run (problem f q lin solve h) j (start sim ⟨own, s0, s0⟩)).prob.own
        (run (problem f q lin solve h) (j + 1) (start sim ⟨own, s0, s0⟩)).sim.dt
        (run (problem f q lin solve h) j (start sim ⟨own, s0, s0⟩)).prob.sol0) :
    let c : ℕ → Conf K (St PV X) := fun j => run (problem f q lin solve h) j (start sim ⟨own, s0, s0⟩)
    let steps := (Finset.range n).filter fun j => Integrates (problem f q lin solve h) (c j)
    |amount f (c n).prob.sol0 k - amount f s0 k
        - ∑ j ∈ steps, (c (j + 1)).sim.dt * supply f (c j).prob.own (c (j + 1)).sim.dt (c (j + 1)).prob.sol0 k|
      ≤ ∑ j ∈ steps, |(c (j + 1)).sim.dt| * ∑ i ∈ Finset.range f.numCells, q.tolerance / q.weight i k := by
  rw [problem_oneThread f q solve h hl] at hunsettled ⊢
  exact C160_balance_partial f (oneThread f q solve) h rev sim own s0 n k hcons hcont htol hvol hweight hunsettled

/-- **C164** There is something to say: whatever is to be assembled and whatever is in the matrix before, each of the three ways to do it
can be gone to its end. -/
theorem C164_exists (f : Physics K PV M C X m) (way : ℕ → Fin 3) (before : System (Fin m → K) M) :
    ∃ lin : Linearized K PV M X m, Runs f lin ∧ ∀ own attempt dt old it s,
      (way it = 0 → ∃ schedule, lin own attempt dt old it s = applyAll (interleave (resetAll before)
        (threads f.numCells (cellUpdates (net f own dt s old))) schedule).1 (boundaryUpdates (net f own dt s old))) ∧
      (way it = 1 → ∃ schedule, lin own attempt dt old it s = (interleave (resetAll before)
        (threads f.numCells fun k => elementUpdates (fun _ => 1) dt (cellElem (net f own dt s old) k)) schedule).1) ∧
      (way it = 2 → lin own attempt dt old it s = applyAll (resetAll before)
        ((((List.range f.numCells).map (cellElem (net f own dt s old))).reverse).flatMap (elementUpdates (fun _ => 1) dt))) := by
  have key : ∀ own (_ : ℕ) dt old it s, ∃ a, Assembled (net f own dt s old) a ∧
      (way it = 0 → ∃ schedule, a = applyAll (interleave (resetAll before)
        (threads f.numCells (cellUpdates (net f own dt s old))) schedule).1 (boundaryUpdates (net f own dt s old))) ∧
      (way it = 1 → ∃ schedule, a = (interleave (resetAll before)
        (threads f.numCells fun k => elementUpdates (fun _ => 1) dt (cellElem (net f own dt s old) k)) schedule).1) ∧
      (way it = 2 → a = applyAll (resetAll before)
        ((((List.range f.numCells).map (cellElem (net f own dt s old))).reverse).flatMap (elementUpdates (fun _ => 1) dt))) := by
    intro own _ dt old it s
    match hw : way it with
    | 0 =>
      obtain ⟨sch, h⟩ := threads_finish f.numCells (cellUpdates (net f own dt s old)) (resetAll before)
      exact ⟨_, .tpfa before sch _ _ rfl h, fun _ => ⟨sch, rfl⟩, fun e => absurd e (by decide), fun e => absurd e (by decide)⟩
    | 1 =>
      obtain ⟨sch, h⟩ := threads_finish f.numCells (fun k => elementUpdates (fun _ => 1) dt (cellElem (net f own dt s old) k)) (resetAll before)
      exact ⟨_, .general before sch _ _ rfl h, fun e => absurd e (by decide), fun _ => ⟨sch, rfl⟩, fun e => absurd e (by decide)⟩
    | 2 =>
      exact ⟨_, .locked before _ (List.reverse_perm _), fun e => absurd e (by decide), fun e => absurd e (by decide), fun _ => rfl⟩
  choose lin h1 h2 using key
  exact ⟨lin, h1, h2⟩

/-! ### The two cells of `Verif.Balance`, with a linear solver which uses the matrix -/

/-- Two equations, by Cramer's rule; nothing else of the matrix is looked at. -/
def cramer : LinearSolver ℚ ℚ ℚ ℚ Unit 1 := fun _ _ dt _ _ _ a =>
  if dt ≤ 1 / 2 then
    let d := a.mat 0 0 * a.mat 1 1 - a.mat 0 1 * a.mat 1 0
    .update (fun i => if i = 0 then (a.res 0 0 * a.mat 1 1 - a.mat 0 1 * a.res 1 0) / d + 1 / 1000
      else if i = 1 then (a.mat 0 0 * a.res 1 0 - a.mat 1 0 * a.res 0 0) / d else 0) true
  else .notConverged

/-- `FvBaseLinearizer`, with the elements in reversed order -/
def reversed : Linearized ℚ ℚ ℚ Unit 1 := fun own _ dt old _ s =>
  applyAll (resetAll ⟨fun _ _ => 5, fun _ _ => 6⟩)
    ((((List.range Balance.twoCells.numCells).map (cellElem (net Balance.twoCells own dt s old))).reverse).flatMap (elementUpdates (fun _ => 1) dt))

theorem reversed_runs : Runs Balance.twoCells reversed := fun _ _ _ _ _ _ => .locked _ _ (List.reverse_perm _)

/-- Two time steps of this simulation, the first of which fails at first.  With any other linearization the run is the same, and by
`C164_exists` there are others. -/
example : (run (problem Balance.twoCells rough reversed cramer idle) 15 (start (clock 1) ⟨(), fun i => i, fun i => i⟩)).sim.time = 1 ∧
    (run (problem Balance.twoCells rough reversed cramer idle) 4 (start (clock 1) ⟨(), fun i => i, fun i => i⟩)).prob.sol0 0 ≠ 0 ∧
    ∀ lin, Runs Balance.twoCells lin → run (problem Balance.twoCells rough lin cramer idle) 15 (start (clock 1) ⟨(), fun i => i, fun i => i⟩) =
      run (problem Balance.twoCells rough reversed cramer idle) 15 (start (clock 1) ⟨(), fun i => i, fun i => i⟩) :=
  ⟨by decide +kernel, by decide +kernel, fun _ h => C164_threads _ _ _ _ h reversed_runs _ _ _⟩

/-- The hypotheses of the balance are met, too. -/
example : ∀ j < 15, Integrates (problem Balance.twoCells rough reversed cramer idle)
      (run (problem Balance.twoCells rough reversed cramer idle) j (start (clock 1) ⟨(), fun i => i, fun i => i⟩)) →
    Unsettled Balance.twoCells rough (run (problem Balance.twoCells rough reversed cramer idle) j (start (clock 1) ⟨(), fun i => i, fun i => i⟩)).prob.own
      (run (problem Balance.twoCells rough reversed cramer idle) (j + 1) (start (clock 1) ⟨(), fun i => i, fun i => i⟩)).sim.dt
      (run (problem Balance.twoCells rough reversed cramer idle) j (start (clock 1) ⟨(), fun i => i, fun i => i⟩)).prob.sol0 := by
  decide +kernel

end Verif.ThreadSim
