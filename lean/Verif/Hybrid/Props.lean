import Verif.Hybrid.Lemmas
import Verif.ParBalance.Props

/-
Theorems about simulations on several processes, each of which uses several threads.
-/

set_option autoImplicit false
set_option linter.unusedSectionVars false

namespace Verif.Hybrid

open Verif.TimeLoop Verif.Mpi Verif.Sync Verif.Overlap Verif.OverlapMatrix Verif.Criteria Verif.Newton Verif.ParNewton Verif.ParSolve.Block Verif.GridComm
open Verif.ParSim (Task Own Memory LocalTask Hooks SameHooks Same several one St)
open Verif.ParSolve (Enumerates Wide Steps Covered mem_all steps_mem wide_one row_enumerates)

variable {P N E : ℕ} {G C K V X : Type} [DecidableEq G] [Field K] [LinearOrder K] [IsStrictOrderedRing K]
variable {f : Flow G C E K V X} {fp : Fin (P + 1) → Flow G C E K V X} {settings : X → K → Memory K → Settings K} {fuel : ℕ} {g : Grid (P + 1) G} {cell : Fin N → G}
  {machine : X → K → Memory K → (Fin (P + 1) → ℕ → V) → Machine P E K V}

theorem runs_of_threads {set : Settings K} {own : X} {dt : K} {y : Fin (P + 1) → ℕ → V} {d : Fin (P + 1) → Overlap.Native (P + 1)}
    {overlapSize : ℕ} {o : Fin (P + 1) → Sync.Overlap (P + 1)} {black : Fin (P + 1) → ℕ → Option ℕ} {face : Interface (P + 1) G}
    {M : Machine P E K V} {old : G → V} (hfp : ∀ p, SameValues f (fp p)) (h : Runs f fp set own dt y g d overlapSize o black face M) (v : Valid g d)
    (hp : Pattern f g fun p => (d p).cols) (ho : Own g y old) :
    ParNewton.Runs ((rowTask f (fun c => fp (g.owner c)) settings fuel).equations own dt old) set g d overlapSize o black face M where
  numGridDof := h.numGridDof
  numTotalDof := h.numTotalDof
  volume := h.volume
  weight := h.weight
  update := h.update
  constraints := h.constraints
  tolerance := h.tolerance
  maxError := h.maxError
  maxIterations := h.maxIterations
  targetIterations := h.targetIterations
  beginOk := h.beginOk
  endOk := h.endOk
  syncOverlap := h.syncOverlap
  linearized n p x a b e := by
    obtain ⟨hw, h1, h2, s, hs, rfl, hv⟩ := h.linearized n p x a b e
    refine ⟨h1, h2, fun i c hc hown => ?_⟩
    have hmem : ∀ c' ∈ stencil f c, ∃ m ∈ (d p).cols i, (g.cells p)[m]? = some c' := fun c' hc' =>
      (hp.own p i c hc hown c').1 (mem_stencil.1 hc')
    have hall : ∀ e ∈ f.neighbours c, e.1 ∈ g.cells p := fun e he => by
      obtain ⟨m, -, hm⟩ := hmem e.1 (mem_stencil_of he)
      exact List.mem_of_getElem? hm
    have hlt : i < (g.cells p).length := (List.getElem?_eq_some_iff.1 hc).1
    let Z : G → V := fun c' => x ((g.cells p).idxOf c')
    have hZ : Sees (g.cells p) x Z := fun j c' hj => by
      show x _ = x j
      rw [idxOf_of_getElem? (v.nodup p) hj]
    refine ⟨fun c' => if c' ∈ stencil f c then derivative (fp (g.owner c)) own dt Z c c' else 0, fun Y hY => ?_, fun m hm c' hc' => ?_⟩
    · have hloc := ((task_local f (fun c => hfp (g.owner c)) settings fuel).loc own dt old).row c Y Z fun c' hc' => by
        obtain ⟨m, -, hm⟩ := hmem c' hc'
        rw [hY m c' hm, hZ m c' hm]
      rw [hloc]
      simp only [rowTask]
      rw [if_pos fun c' hc' => ?_, (ThreadSim.assembled_eq hs s i i hlt hlt).1, local_res (fp p) own dt hc (by rw [(hfp p).neighbours]; exact hall) hZ (ho p i c hc hown), (hfp p).residual_eq]
      obtain ⟨m, -, hm⟩ := hmem c' hc'
      rw [hZ m c' hm]
      exact hw m c' hm
    · have hst : c' ∈ stencil f c := mem_stencil.2 ((hp.own p i c hc hown c').2 ⟨m, by rw [← h2]; exact hm, hc'⟩)
      beta_reduce
      rw [if_pos hst, hv i m hm, (ThreadSim.assembled_eq hs s i m hlt (List.getElem?_eq_some_iff.1 hc').1).2,
        local_mat (fp p) own dt (v.nodup p) hc hc' (by rw [(hfp p).neighbours]; exact hall) hZ, hown]
  failed n p x e := by
    obtain ⟨i, c, hc, hw⟩ := h.failed n p x e
    refine ⟨c, List.mem_of_getElem? hc, fun Y hY => ?_⟩
    simp only [rowTask]
    rw [if_neg fun hall => ?_]
    have := hall c (mem_stencil.2 (.inl rfl))
    rw [hY i c hc, hw] at this
    exact absurd this (by simp)
  residual := h.residual
  solve := h.solve

theorem performs_with (hfp : ∀ p, SameValues f (fp p)) (h : PerformsWith f fp settings g cell machine) :
    ParSim.Performs (rowTask f (fun c => fp (g.owner c)) settings fuel) g cell machine := by
  intro own dt mem y old ho
  obtain ⟨⟨d, overlapSize, face, anyIdx, s, v, hs, hw, hp, hg, hr, hf, hR⟩, hc⟩ := h.2 own dt mem y
  refine ⟨⟨(task_local f (fun c => hfp (g.owner c)) settings fuel).loc own dt old, h.1, d, overlapSize, face, anyIdx, s, v, hs, hw,
    ⟨hp.nodup, hp.range, ?_⟩, hg, hr, hf, runs_of_threads hfp hR v hp ho⟩, hc, rfl⟩
  intro p n c hc ho' c'
  exact (mem_stencil).trans (hp.own p n c hc ho' c')

/-- **C184** Whatever linearizer the processes use and however their threads are scheduled: they solve the equations of the whole grid. -/
theorem C184_performs (h : Performs f settings g cell machine) : ParSim.Performs (task f settings fuel) g cell machine :=
  performs_with (fp := fun _ => f) (fun _ => .refl f) h

/-- **C184** On a process which has the whole grid, whatever linearizer it uses and however its threads are scheduled: the residuals and
derivatives are those of the equations. -/
theorem C184_one (hinj : Function.Injective cell) (hall : ∀ k, ∀ e ∈ f.neighbours (cell k), e.1 ∈ Set.range cell) (own : X) (dt : K)
    (old Y : G → V) {a : Tpfa.System (Blk E K) (Mat E K)} {x y : ℕ → V} (hx : ∀ k : Fin N, Y (cell k) = x k) (hy : ∀ k : Fin N, old (cell k) = y k)
    (ha : ThreadSim.Assembled (localNet f (List.ofFn cell) own dt x y) a) (hw : ∀ k, f.works own dt (cell k) (Y (cell k)) = true) (k : Fin N) :
    ∃ J, ((task f settings fuel).equations own dt old).row (cell k) Y = some (a.res k, J) ∧
      ∀ l : Fin N, cell l ∈ stencil f (cell k) → a.mat k l = J (cell l) := by
  have hi : ∀ l : Fin N, (List.ofFn cell)[(l : ℕ)]? = some (cell l) := fun l => by simp
  have hn : (List.ofFn cell).Nodup := List.nodup_ofFn.2 hinj
  have hY : Sees (List.ofFn cell) x Y := by
    intro i c hc
    obtain ⟨h, rfl⟩ := List.getElem?_eq_some_iff.1 hc
    rw [List.length_ofFn] at h
    simp only [List.getElem_ofFn]
    exact hx ⟨i, h⟩
  have hall' : ∀ e ∈ f.neighbours (cell k), e.1 ∈ List.ofFn cell := fun e he => by
    rw [List.mem_ofFn]
    exact hall k e he
  have hlt : ∀ l : Fin N, (l : ℕ) < (localNet f (List.ofFn cell) own dt x y).numCells := fun l => by simp [localNet]
  refine ⟨fun c' => if c' ∈ stencil f (cell k) then derivative f own dt Y (cell k) c' else 0, ?_, fun l hl => ?_⟩
  · simp only [rowTask]
    rw [if_pos, (ThreadSim.assembled_eq ha a k k (hlt k) (hlt k)).1, local_res f own dt (hi k) hall' hY (hy k)]
    intro c' hc'
    have : c' ∈ Set.range cell := by
      rcases mem_stencil.1 hc' with rfl | ⟨e, he⟩
      · exact ⟨k, rfl⟩
      · exact hall k _ he
    obtain ⟨l, rfl⟩ := this
    exact hw l
  · beta_reduce
    rw [if_pos hl, (ThreadSim.assembled_eq ha a k l (hlt k) (hlt l)).2, local_mat f own dt hn (hi k) (hi l) hall' hY]

variable [Inhabited V]

/-- **C184** (partial) A whole simulation on several processes, each of which uses any number of threads, is the one on a single process
which has the whole grid.  However the cells are distributed, whatever the schedules of messages and of threads are, and whichever linearizer
each process uses: after any number of steps of the time loop the processes are at the same point as the single process, with the same
time, time step size and episode, after the same history of time steps, with the same state of the problem and of the Newton method,
and they have the same values of their own cells on both time levels.  Missing for the full property: constraints, auxiliary equations,
rounding errors (cached intensive quantities: `C184_cached_partial`). -/
theorem C184_simulation_partial (hM : Performs f settings g cell machine) {h : Hooks K (Fin (P + 1) → ℕ → V) X} {h1 : Hooks K (ℕ → V) X}
    (hh : SameHooks g cell h h1) (sim : Sim K) (own : X) (mem : Memory K) {y0 y1 : Fin (P + 1) → ℕ → V} {x0 x1 : ℕ → V}
    (e0 : HaveOwn g cell y0 x0) (e1 : HaveOwn g cell y1 x1) (n : ℕ) :
    Same g cell (run (several (task f settings fuel) machine h) n (start sim ⟨own, y0, y1, mem⟩))
      (run (one (task f settings fuel) cell h1) n (start sim ⟨own, x0, x1, mem⟩)) := by
  obtain ⟨⟨d, overlapSize, face, anyIdx, s, v, -⟩, -⟩ := hM.2 own 0 mem y0
  exact ParSim.C162_simulation_partial hM.1 v.owned (C184_performs hM) hh sim own mem e0 e1 n

/-- **C184** Two ways to run the same simulation, with different numbers of processes and threads, schedules and linearizers: they take the
same time steps, call the same callbacks, and have the same values of all cells after any number of steps. -/
theorem C184_any_two {P' : ℕ} {g' : Grid (P' + 1) G} {machine' : X → K → Memory K → (Fin (P' + 1) → ℕ → V) → Machine P' E K V}
    (hM : Performs f settings g cell machine) (hM' : Performs f settings g' cell machine')
    {h : Hooks K (Fin (P + 1) → ℕ → V) X} {h' : Hooks K (Fin (P' + 1) → ℕ → V) X} {h1 : Hooks K (ℕ → V) X} (hh : SameHooks g cell h h1)
    (hh' : SameHooks g' cell h' h1) (sim : Sim K) (own : X) (mem : Memory K) {y0 y1 : Fin (P + 1) → ℕ → V} {y0' y1' : Fin (P' + 1) → ℕ → V}
    {x0 x1 : ℕ → V} (e0 : HaveOwn g cell y0 x0) (e1 : HaveOwn g cell y1 x1) (e0' : HaveOwn g' cell y0' x0) (e1' : HaveOwn g' cell y1' x1)
    (n : ℕ) :
    let c := run (several (task f settings fuel) machine h) n (start sim ⟨own, y0, y1, mem⟩)
    let c' := run (several (task f settings fuel) machine' h') n (start sim ⟨own, y0', y1', mem⟩)
    c.pc = c'.pc ∧ c.sim = c'.sim ∧ c.trace = c'.trace ∧ c.prob.own = c'.prob.own ∧ c.prob.memory = c'.prob.memory ∧
      ∀ p p' (i i' : ℕ) (k : Fin N), (g.cells p)[i]? = some (cell k) → g.owner (cell k) = p → (g'.cells p')[i']? = some (cell k) →
        g'.owner (cell k) = p' → c.prob.sol0 p i = c'.prob.sol0 p' i' := by
  obtain ⟨⟨d, _, _, _, _, v, -⟩, -⟩ := hM.2 own 0 mem y0
  obtain ⟨⟨d', _, _, _, _, v', -⟩, -⟩ := hM'.2 own 0 mem y0'
  exact ParSim.C162_distributions hM.1 v.owned (C184_performs hM) hM'.1 v'.owned (C184_performs hM') hh hh' sim own mem e0 e1 e0' e1' n

/-! ### The balance of mass -/

/-- The sum over the connections of a cell to another one -/
def outflow (f : Flow G C E K V X) (e : Fin E) (own : X) (dt : K) (Y : G → V) (c c' : G) : K :=
  ((f.neighbours c).map fun n => if n.1 = c' then f.area n.2 * (f.flux own dt c n.1 n.2 (Y c) (Y n.1)).1 e else 0).sum

theorem outflow_anti {e : Fin E} {rev : C → C} {cells : Set G} (hf : Conserves f e rev cells) (own : X) (dt : K) (Y : G → V) (c c' : G) :
    outflow f e own dt Y c' c = -outflow f e own dt Y c c' := by
  have key : ∀ (l : List (G × C)) (a b : G), (l.map fun n => if n.1 = b then f.area n.2 * (f.flux own dt a n.1 n.2 (Y a) (Y n.1)).1 e else 0).sum =
      (((l.filter fun n => n.1 = b).map Prod.snd).map fun k => f.area k * (f.flux own dt a b k (Y a) (Y b)).1 e).sum := by
    intro l a b
    induction l with
    | nil => rfl
    | cons n l ih =>
      rw [List.map_cons, List.sum_cons, ih]
      by_cases h : n.1 = b
      · rw [if_pos h, List.filter_cons_of_pos (by simpa using h), List.map_cons, List.map_cons, List.sum_cons, h]
      · rw [if_neg h, List.filter_cons_of_neg (by simpa using h), zero_add]
  unfold outflow
  rw [key, key, ← ((hf.paired c c').map _).sum_eq]
  have hsub : ∀ l : List (G × C), (∀ n ∈ l, n ∈ f.neighbours c ∧ n.1 = c') →
      ((l.map fun n => rev n.2).map fun k => f.area k * (f.flux own dt c' c k (Y c') (Y c)).1 e).sum =
        -((l.map Prod.snd).map fun k => f.area k * (f.flux own dt c c' k (Y c) (Y c')).1 e).sum := by
    intro l
    induction l with
    | nil => simp
    | cons n l ih =>
      intro hl
      obtain ⟨h1, h2⟩ := hl n (by simp)
      simp only [List.map_cons, List.sum_cons]
      rw [ih fun m hm => hl m (by simp [hm]), hf.area]
      have := hf.antisymmetric own dt c n h1 (Y c) (Y c')
      rw [h2] at this
      rw [this]
      ring
  exact hsub _ fun n hn => by simpa using hn

theorem sum_outflow (e : Fin E) (own : X) (dt : K) (Y : G → V) (c : G) :
    ((stencil f c).map (outflow f e own dt Y c)).sum =
      ((f.neighbours c).map fun n => f.area n.2 * (f.flux own dt c n.1 n.2 (Y c) (Y n.1)).1 e).sum := by
  have key : ∀ l : List (G × C), (∀ n ∈ l, n.1 ∈ stencil f c) →
      ((stencil f c).map fun c' => (l.map fun n => if n.1 = c' then f.area n.2 * (f.flux own dt c n.1 n.2 (Y c) (Y n.1)).1 e else 0).sum).sum =
        (l.map fun n => f.area n.2 * (f.flux own dt c n.1 n.2 (Y c) (Y n.1)).1 e).sum := by
    intro l
    induction l with
    | nil => simp
    | cons n l ih =>
      intro hl
      simp only [List.map_cons, List.sum_cons, List.sum_map_add]
      rw [ih fun m hm => hl m (by simp [hm])]
      congr 1
      have hn : (stencil f c).Nodup := List.nodup_dedup _
      have hm := hl n (by simp)
      generalize stencil f c = st at hn hm
      induction st with
      | nil => simp at hm
      | cons a st ih' =>
        rw [List.nodup_cons] at hn
        rw [List.map_cons, List.sum_cons]
        by_cases ha : n.1 = a
        · rw [if_pos ha]
          have : (st.map fun c' => if n.1 = c' then f.area n.2 * (f.flux own dt c n.1 n.2 (Y c) (Y n.1)).1 e else 0).sum = 0 := by
            apply List.sum_eq_zero
            intro z hz
            simp only [List.mem_map] at hz
            obtain ⟨b, hb, rfl⟩ := hz
            rw [if_neg]
            rintro h
            exact hn.1 (by rw [← ha, h]; exact hb)
          rw [this, add_zero]
        · rw [if_neg ha, zero_add]
          exact ih' hn.2 (by simpa [ha] using hm)
  exact key _ fun n hn => mem_stencil_of hn

theorem sum_apply (l : List (Blk E K)) (e : Fin E) : l.sum e = (l.map fun b => b e).sum := by
  induction l with
  | nil => rfl
  | cons a l ih => rw [List.sum_cons, List.map_cons, List.sum_cons, ← ih]; rfl

theorem balances {e : Fin E} {rev : C → C} (hf : Conserves f e rev (Set.range cell)) (row : G → Flow G C E K V X) {content : G → V → K}
    (hcontent : ∀ own c v, f.volume c * (f.storage own c v).1 e = content c v) :
    ParBalance.Balances { content := content, outflow := outflow f e, supply := supply f e } (rowTask f row settings fuel) e (Set.range cell) where
  antisymmetric own dt Y c c' := outflow_anti hf own dt Y c c'
  nodup _ _ _ c _ := List.nodup_dedup _
  inside own dt old c hc c' h := by
    rcases mem_stencil.1 h with rfl | ⟨k, hk⟩
    · exact hc
    · exact hf.inside c hc _ hk
  symmetric own dt old c c' _ _ := by
    have key : ∀ a b, (∃ k, (b, k) ∈ f.neighbours a) → ∃ k, (a, k) ∈ f.neighbours b := by
      rintro a b ⟨k, hk⟩
      have hm : rev k ∈ ((f.neighbours a).filter fun n => n.1 = b).map fun n => rev n.2 :=
        List.mem_map.2 ⟨(b, k), List.mem_filter.2 ⟨hk, by simp⟩, rfl⟩
      rw [(hf.paired a b).mem_iff] at hm
      obtain ⟨n, hn, -⟩ := List.mem_map.1 hm
      obtain ⟨h1, h2⟩ := List.mem_filter.1 hn
      simp only [decide_eq_true_eq] at h2
      exact ⟨n.2, by rw [← h2]; exact h1⟩
    show c' ∈ stencil f c ↔ c ∈ stencil f c'
    rw [mem_stencil, mem_stencil]
    exact ⟨fun h => h.imp Eq.symm (key c c'), fun h => h.imp Eq.symm (key c' c)⟩
  residual own dt old c Y r J _ h := by
    simp only [rowTask] at h
    split_ifs at h with hw
    simp only [Option.some.injEq, Prod.mk.injEq] at h
    have hdt : dt ≠ 0 := by
      rintro rfl
      have := hw c (mem_stencil.2 (.inl rfl))
      rw [hf.step] at this
      exact absurd this (by simp)
    refine ⟨hdt, ?_⟩
    rw [← h.1]
    have hs : ((rowTask f row settings fuel).equations own dt old).stencil = stencil f := rfl
    simp only [hs, sum_outflow, residual, supply, Pi.add_apply, Pi.sub_apply, Pi.smul_apply, smul_eq_mul, sum_apply, List.map_map,
      Function.comp_def, ← hcontent own]
    have hb : ∀ b : Bool × K × (Blk E K × Mat E K), (if b.1 = true then (0 : Blk E K) else b.2.1 • b.2.2.1) e =
        if b.1 = true then 0 else b.2.1 * b.2.2.1 e := fun b => by
      split_ifs <;> rfl
    simp only [hb]
    ring

open Classical in
/-- **C184** (partial) The balance of mass of simulations on several processes with threads.  However the cells are distributed, whatever
the schedules of messages and of threads are, and whichever linearizer the processes use: at any point of any run, what there is in the
own cells of all processes is what it was at the beginning plus what sources and the boundary supplied during the time steps which have been
integrated, up to the tolerance of the Newton method.  Missing for the full property: as in `C169_balance_partial`, steps which begin at a
solution which meets the tolerance already and simulations which go on after failures. -/
theorem C184_balance_partial (hM : Performs f settings g cell machine) {e : Fin E} {rev : C → C} (hf : Conserves f e rev (Set.range cell))
    {content : G → V → K} (hcontent : ∀ own c v, f.volume c * (f.storage own c v).1 e = content c v)
    {h : Hooks K (Fin (P + 1) → ℕ → V) X} (hh : ParBalance.OwnHooks g h) (hcont : h.continueOnError = false)
    (tolerance : K) (htol : 0 ≤ tolerance) (hset : ∀ own dt mem, (settings own dt mem).tolerance = tolerance) (weight : G → K)
    (hweight : ∀ own dt k, f.weight own dt (cell k) e = weight (cell k)) (hpos : ∀ k, 0 < weight (cell k)) (hvol : ∀ k, 0 < f.volume (cell k))
    (sim : Sim K) (own : X) (mem : Memory K) (y0 : Fin (P + 1) → ℕ → V) (n : ℕ) :
    let c : ℕ → Conf K (St K (Fin (P + 1) → ℕ → V) X) := fun j =>
      run (several (task f settings fuel) machine h) j (start sim ⟨own, y0, y0, mem⟩)
    let steps := (Finset.range n).filter fun j => ParBalance.Integrates (several (task f settings fuel) machine h) (c j)
    (∀ j ∈ steps, ParBalance.Unsettled (task f settings fuel) cell tolerance (c j).prob.own (c (j + 1)).sim.dt
      (ParBalance.values g cell (c j).prob.sol0)) →
    |ParBalance.total g content (c n).prob.sol0 - ParBalance.total g content y0
        - ∑ j ∈ steps, (c (j + 1)).sim.dt * ParBalance.total g (fun x _ =>
            supply f e (c j).prob.own (c (j + 1)).sim.dt (ParBalance.values g cell (c (j + 1)).prob.sol0) x) (c (j + 1)).prob.sol0|
      ≤ ∑ j ∈ steps, |(c (j + 1)).sim.dt| * ∑ k, tolerance / weight (cell k) := by
  obtain ⟨⟨d, _, _, _, _, v, -⟩, -⟩ := hM.2 own 0 mem y0
  exact ParBalance.C169_balance_partial v hM.1 (C184_performs hM) hh hcont (balances hf (fun _ => f) hcontent) tolerance htol hset weight
    (fun own dt _ k => hweight own dt k) hpos (fun _ _ _ k => hvol k) sim own mem y0 n

/-! ### The hypotheses are met -/

theorem exists_with {d : Fin (P + 1) → Overlap.Native (P + 1)} {overlapSize : ℕ} (hE : Enumerates g cell) (v : Valid g d)
    (hs : 0 < overlapSize) (hwide : ∀ own dt mem, Wide g d overlapSize (fun p => (d p).cols) (settings own dt mem).solver.order)
    (hp : Pattern f g fun p => (d p).cols)
    (lin : X → K → (Fin (P + 1) → ℕ → V) → ℕ → Fin (P + 1) → (ℕ → V) → Tpfa.System (Blk E K) (Mat E K))
    (hlin : ∀ own dt y n p x, ThreadSim.Assembled (localNet (fp p) (g.cells p) own dt x (y p)) (lin own dt y n p x)) :
    ∃ machine, PerformsWith f fp settings g cell machine ∧ ∀ own dt mem y n p x,
      (∀ (i : ℕ) c, (g.cells p)[i]? = some c → f.works own dt c (x i) = true) →
      ∃ a, (machine own dt mem y).linearize n p x = some (a, (lin own dt y n p x).res) := by
  classical
  have key : ∀ (own : X) (dt : K) (mem : Memory K) (y : Fin (P + 1) → ℕ → V), ∃ M : Machine P E K V,
      ((∃ (d : Fin (P + 1) → Overlap.Native (P + 1)) (overlapSize : ℕ) (face : Interface (P + 1) G) (anyIdx : Fin (P + 1) → Domestic (P + 1))
        (s : System (Fin (P + 1)) (Process (P + 1)) (AnyMsg (P + 1))),
        Valid g d ∧ 0 < overlapSize ∧ Wide g d overlapSize (fun p => (d p).cols) (settings own dt mem).solver.order ∧
        Pattern f g (fun p => (d p).cols) ∧ Ghosts g face ∧
        Reach (Mpi.start (construct d overlapSize) fun p => Process.start (d p) (anyIdx p)) s ∧ Finished s ∧
        Runs f fp (settings own dt mem) own dt y g d overlapSize (answers d s.state) (blackMaps s.state) face M) ∧
      M.cache = fun _ _ => none) ∧ ∀ n p x,
        (∀ (i : ℕ) c, (g.cells p)[i]? = some c → f.works own dt c (x i) = true) →
        ∃ a, M.linearize n p x = some (a, (lin own dt y n p x).res) := by
    intro own dt mem y
    obtain ⟨M, hM, hc⟩ := C161_exists (set := settings own dt mem)
      ((task_local f (fun _ => .refl f) settings 0).loc own dt fun _ => default) hE v hs (hwide own dt mem)
      ⟨hp.nodup, hp.range, fun p n c hc ho c' => mem_stencil.trans (hp.own p n c hc ho c')⟩
    obtain ⟨-, -, d', overlapSize', face, anyIdx, s, v', hs', hw', hp', hg, hr, hf, hR⟩ := hM
    refine ⟨{ M with
      linearize := fun n p x =>
        if ∀ (i : ℕ) c, (g.cells p)[i]? = some c → f.works own dt c (x i) = true then
          some ({ numRows := (g.cells p).length, cols := (d' p).cols, value := (lin own dt y n p x).mat }, (lin own dt y n p x).res)
        else none },
      ⟨⟨d', overlapSize', face, anyIdx, s, v', hs', hw', ⟨hp'.nodup, hp'.range, fun p n c hc ho c' =>
        mem_stencil.symm.trans (hp'.own p n c hc ho c')⟩, hg, hr, hf, ?_⟩, hc⟩, fun n p x h => ⟨_, if_pos h⟩⟩
    exact
      { numGridDof := hR.numGridDof, numTotalDof := hR.numTotalDof, volume := hR.volume, weight := hR.weight, update := hR.update
        constraints := hR.constraints, tolerance := hR.tolerance, maxError := hR.maxError, maxIterations := hR.maxIterations
        targetIterations := hR.targetIterations, beginOk := hR.beginOk, endOk := hR.endOk, syncOverlap := hR.syncOverlap
        linearized := fun n p x a b h => by
          simp only at h
          split_ifs at h with hw
          simp only [Option.some.injEq, Prod.mk.injEq] at h
          obtain ⟨rfl, rfl⟩ := h
          exact ⟨hw, rfl, rfl, _, hlin own dt y n p x, rfl, fun _ _ _ => rfl⟩
        failed := fun n p x h => by
          simp only at h
          split_ifs at h with hw
          push Not at hw
          obtain ⟨i, c, hc, hn⟩ := hw
          exact ⟨i, c, hc, by simpa using hn⟩
        residual := hR.residual, solve := hR.solve }
  choose machine hm using key
  exact ⟨machine, ⟨hE, fun own dt mem y => (hm own dt mem y).1⟩, fun own dt mem y => (hm own dt mem y).2⟩

/-- **C184** There is something to say: for any flow, any distribution of the grid for which the columns of the matrices are the
neighbours, and whatever linear systems the threads assemble, the processes can perform the task with these linear systems. -/
theorem C184_exists {d : Fin (P + 1) → Overlap.Native (P + 1)} {overlapSize : ℕ} (hE : Enumerates g cell) (v : Valid g d)
    (hs : 0 < overlapSize) (hwide : ∀ own dt mem, Wide g d overlapSize (fun p => (d p).cols) (settings own dt mem).solver.order)
    (hp : Pattern f g fun p => (d p).cols)
    (lin : X → K → (Fin (P + 1) → ℕ → V) → ℕ → Fin (P + 1) → (ℕ → V) → Tpfa.System (Blk E K) (Mat E K))
    (hlin : ∀ own dt y n p x, ThreadSim.Assembled (localNet f (g.cells p) own dt x (y p)) (lin own dt y n p x)) :
    ∃ machine, Performs f settings g cell machine ∧ ∀ own dt mem y n p x,
      (∀ (i : ℕ) c, (g.cells p)[i]? = some c → f.works own dt c (x i) = true) →
      ∃ a, (machine own dt mem y).linearize n p x = some (a, (lin own dt y n p x).res) :=
  exists_with (fp := fun _ => f) hE v hs hwide hp lin hlin

/-- Diffusion in the row of cells of `rowMesh`, with a source in each cell and inflow through one boundary face.  The second unknown of a
cell is the square of the first one. -/
def diffusion : Flow ℕ Unit 2 ℚ (Blk 2 ℚ) ℚ where
  neighbours c := if c < 6 then ((rowEquations.stencil c).filter fun c' => c' ≠ c).map fun c' => (c', ()) else []
  area _ := 1
  volume _ := 1
  storage _ _ v := (![v 0, 0], !![1, 0; 0, 0])
  flux _ _ _ _ _ v v' := (![v 0 - v' 0, 0], !![1, 0; 0, 0])
  source _ _ _ v := (![2, v 0 ^ 2 - v 1], !![0, 0; 2 * v 0, -1])
  boundary _ _ c _ := if c = 0 then [(false, 1, (![-1, 0], 0)), (true, 1, (![7, 7], 1))] else []
  cutFace _ _ _ _ v := (false, 1, (v, 1))
  works _ dt _ _ := dt ≠ 0
  weight _ _ _ _ := 1
  update _ _ _ v w := v - w

theorem diffusion_pattern : Pattern (P := 2) diffusion rowMesh.toGrid fun p => (rowMesh.native p).cols where
  nodup := rowEquations_pattern.nodup
  range := rowEquations_pattern.range
  own p n c hc ho c' := by
    rw [← rowEquations_pattern.own p n c hc ho c']
    have hlt : c < 6 := by
      have : ∀ p : Fin 3, ∀ c ∈ rowMesh.cells p, c < 6 := by decide
      exact this p c (List.mem_of_getElem? hc)
    have hself := rowEquations_local.self c
    simp only [diffusion, if_pos hlt, List.mem_map, List.mem_filter, Prod.mk.injEq, decide_eq_true_eq]
    constructor
    · rintro (rfl | ⟨_, a, ⟨h1, -⟩, rfl, -⟩)
      · exact hself
      · exact h1
    · intro h
      by_cases e : c' = c
      · exact .inl e
      · exact .inr ⟨(), c', ⟨h, e⟩, rfl, trivial⟩

theorem diffusion_conserves : Conserves diffusion 0 id (Set.range fun k : Fin 6 => (k : ℕ)) where
  inside c hc n hn := by
    obtain ⟨k, rfl⟩ := hc
    have : ∀ k : Fin 6, ∀ n ∈ diffusion.neighbours k, n.1 < 6 := by decide
    exact ⟨⟨n.1, this k n hn⟩, rfl⟩
  paired c c' := by
    have hlt : ∀ k : Fin 6, ∀ n ∈ diffusion.neighbours k, n.1 < 6 := by decide
    have hge : ∀ a, ¬ a < 6 → diffusion.neighbours a = [] := fun a h => if_neg h
    have hout : ∀ a b, ¬ b < 6 → (diffusion.neighbours a).filter (fun n => n.1 = b) = [] := by
      intro a b hb
      by_cases ha : a < 6
      · rw [List.filter_eq_nil_iff]
        intro n hn e
        have := hlt ⟨a, ha⟩ n hn
        simp only [decide_eq_true_eq] at e
        omega
      · rw [hge a ha]; rfl
    by_cases h : c < 6
    · by_cases h' : c' < 6
      · have : ∀ a b : Fin 6, (((diffusion.neighbours a).filter fun n => n.1 = (b : ℕ)).map fun n => id n.2).Perm
            (((diffusion.neighbours b).filter fun n => n.1 = (a : ℕ)).map Prod.snd) := by decide
        exact this ⟨c, h⟩ ⟨c', h'⟩
      · rw [hout c c' h', hge c' h']; rfl
    · rw [hout c' c h, hge c h]; rfl
  area _ := rfl
  antisymmetric _ _ _ _ _ v v' := by simp [diffusion]
  step _ _ _ := by simp [diffusion]

theorem diffusion_unsettled (own dt : ℚ) (Y : ℕ → Blk 2 ℚ) :
    ParBalance.Unsettled (task diffusion (fun _ _ _ => rowSettings) 20) (fun k : Fin 6 => (k : ℕ)) 1 own dt Y := by
  by_contra hn
  simp only [ParBalance.Unsettled, not_exists, not_forall, not_lt] at hn
  have key : ∀ k : Fin 6, residual diffusion own dt Y Y k 0 ≥ -1 := by
    intro k
    obtain ⟨r, J, h, hle⟩ := hn k 0
    simp only [rowTask] at h hle
    split_ifs at h
    simp only [Option.some.injEq, Prod.mk.injEq] at h
    rw [← h.1, show diffusion.weight own dt (k : ℕ) 0 = 1 from rfl, mul_one] at hle
    exact (abs_le.1 hle).1
  have k0 := key 0
  have k1 := key 1
  have k2 := key 2
  have k3 := key 3
  have k4 := key 4
  have k5 := key 5
  simp [residual, diffusion, rowEquations] at k0 k1 k2 k3 k4 k5
  linarith

open Classical in
/-- Three processes with two cells each, in a row.  The first process uses threads which do one cell after the other, the others use
`FvBaseLinearizer`, the threads of which take the cells in reversed order.  The simulation is the one on a single process, and at any time
there is as much in the cells as has been supplied. -/
example (sim : Sim ℚ) (mem : Memory ℚ) (y0 : Fin 3 → ℕ → Blk 2 ℚ) (x0 : ℕ → Blk 2 ℚ)
    (e0 : HaveOwn (P := 2) rowMesh.toGrid (fun k : Fin 6 => (k : ℕ)) y0 x0) (n : ℕ) :
    ∃ machine, Performs (P := 2) diffusion (fun _ _ _ => rowSettings) rowMesh.toGrid (fun k : Fin 6 => (k : ℕ)) machine ∧
      let t := task diffusion (fun _ _ _ => rowSettings) 20
      let h : Hooks ℚ (Fin 3 → ℕ → Blk 2 ℚ) ℚ := ParSim.decayHooks fun y => y 0 0 0
      let c := fun j => run (several t machine h) j (start sim ⟨1, y0, y0, mem⟩)
      let steps := (Finset.range n).filter fun j => ParBalance.Integrates (several t machine h) (c j)
      Same rowMesh.toGrid (fun k : Fin 6 => (k : ℕ)) (c n)
        (run (one t (fun k : Fin 6 => (k : ℕ)) (ParSim.decayHooks fun x => x 0 0)) n (start sim ⟨1, x0, x0, mem⟩)) ∧
      |ParBalance.total rowMesh.toGrid (fun _ v => v 0) (c n).prob.sol0 - ParBalance.total rowMesh.toGrid (fun _ v => v 0) y0
          - ∑ j ∈ steps, (c (j + 1)).sim.dt * 13| ≤ ∑ j ∈ steps, |(c (j + 1)).sim.dt| * 6 := by
  have hexists : ∀ (own dt : ℚ) (y : Fin 3 → ℕ → Blk 2 ℚ) (m : ℕ) (p : Fin 3) (x : ℕ → Blk 2 ℚ), ∃ a,
      ThreadSim.Assembled (localNet diffusion (rowMesh.cells p) own dt x (y p)) a := by
    intro own dt y m p x
    by_cases hp : p = 0
    · obtain ⟨schedule, h⟩ := ThreadSim.threads_finish (localNet diffusion (rowMesh.cells p) own dt x (y p)).numCells
        (Tpfa.cellUpdates (localNet diffusion (rowMesh.cells p) own dt x (y p))) (Tpfa.resetAll ⟨fun _ => 0, fun _ _ => 0⟩)
      exact ⟨_, .tpfa ⟨fun _ => 0, fun _ _ => 0⟩ schedule _ _ rfl h⟩
    · exact ⟨_, .locked ⟨fun _ => 0, fun _ _ => 0⟩ _ (List.reverse_perm _)⟩
  choose lin hlin using hexists
  obtain ⟨machine, hM, -⟩ := C184_exists (P := 2) (overlapSize := 1) (settings := fun _ _ _ => rowSettings) row_enumerates
    rowMesh_correct (by omega) (fun _ _ _ => wide_one rowMesh_correct (by decide) _) diffusion_pattern lin hlin
  have hfirst : ∀ (y : Fin 3 → ℕ → Blk 2 ℚ) (x : ℕ → Blk 2 ℚ), HaveOwn (P := 2) rowMesh.toGrid (fun k : Fin 6 => (k : ℕ)) y x → y 0 0 = x 0 :=
    fun y x h => h 0 0 0 (by decide) (by decide)
  have hfirst' : ∀ y y' : Fin 3 → ℕ → Blk 2 ℚ, ParBalance.SameOwn (P := 2) rowMesh.toGrid y y' → y 0 0 = y' 0 0 :=
    fun y y' h => h 0 0 0 (by decide) (by decide)
  have hh : ParBalance.OwnHooks (P := 2) rowMesh.toGrid (ParSim.decayHooks fun y : Fin 3 → ℕ → Blk 2 ℚ => y 0 0 0) := by
    refine ⟨?_, fun own y y' mem sim h => rfl⟩
    intro f hf own y y' mem sim h
    simp only [List.mem_cons, List.not_mem_nil, or_false, ParSim.decayHooks] at hf
    rcases hf with rfl | rfl | rfl | rfl | rfl | rfl | rfl | rfl <;> simp only [hfirst' y y' h]
  refine ⟨machine, hM, ?_, ?_⟩
  · refine C184_simulation_partial hM ?_ sim 1 mem e0 e0 n
    refine ⟨?_, ?_, ?_, ?_, ?_, ?_, ?_, ?_, ?_, rfl, rfl, rfl, rfl⟩ <;> intro own y x mem sim h <;>
      simp only [ParSim.decayHooks, hfirst y x h]
  · have := C184_balance_partial (fuel := 20) (content := fun _ v => v 0) hM diffusion_conserves
      (fun _ _ v => by simp [diffusion]) hh rfl 1 zero_le_one (fun _ _ _ => rfl) (fun _ => 1) (fun _ _ _ => rfl) (fun _ => zero_lt_one)
      (fun _ => zero_lt_one) sim 1 mem y0 n fun j _ => diffusion_unsettled _ _ _
    have e2 : ∀ (own dt : ℚ) (Y : ℕ → Blk 2 ℚ) (y : Fin 3 → ℕ → Blk 2 ℚ),
        ParBalance.total (P := 2) rowMesh.toGrid (fun x _ => supply diffusion 0 own dt Y x) y = 13 := by
      intro own dt Y y
      obtain ⟨x, hx⟩ := ParBalance.exists_one (cell := fun k : Fin 6 => (k : ℕ)) rowMesh_correct.nodup y
      rw [ParBalance.total_eq row_enumerates rowMesh_correct.nodup rowMesh_correct.owned _ hx]
      simp [supply, diffusion, Fin.sum_univ_succ]
      norm_num
    have e6 : ∑ k : Fin 6, (1 : ℚ) / 1 = 6 := by norm_num
    simp only [e2, e6] at this
    exact this

end Verif.Hybrid
