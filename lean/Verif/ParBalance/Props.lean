import Verif.ParBalance.Lemmas

/-
C169: the balance of a conserved quantity in simulations on several processes.
-/

set_option autoImplicit false
set_option linter.unusedSectionVars false

namespace Verif.ParBalance

open Verif.TimeLoop Verif.Newton Verif.ParNewton Verif.ParSolve.Block Verif.ParSim Verif.Overlap
open Verif.ParSolve (Enumerates Wide Steps Covered mem_all steps_mem wide_one row_enumerates)

variable {P N E : ℕ} {G K V X : Type} [Field K] [LinearOrder K] [IsStrictOrderedRing K] [Inhabited V]
variable {g : Grid (P + 1) G} {cell : Fin N → G} {task : Task G E K V X} {law : Law G K V X} {e : Fin E}
  {machine : X → K → Memory K → (Fin (P + 1) → ℕ → V) → ParNewton.Machine P E K V}

/-- The solutions of all processes have the same values for own cells. -/
def SameOwn (g : Grid (P + 1) G) (y y' : Fin (P + 1) → ℕ → V) : Prop :=
  ∀ p (i : ℕ) c, (g.cells p)[i]? = some c → g.owner c = p → y p i = y' p i

/-- Callbacks use the values of own cells only. -/
structure OwnHooks (g : Grid (P + 1) G) (h : Hooks K (Fin (P + 1) → ℕ → V) X) : Prop where
  hook : ∀ f ∈ [h.beginEpisode, h.endEpisode, h.beginTimeStep, h.endTimeStep, h.writeOutput, h.advanceTimeLevel, h.writeRestart,
    h.finalize], ∀ own y y' mem sim, SameOwn g y y' → f own y mem sim = f own y' mem sim
  nextTimeStepSize : ∀ own y y' mem sim, SameOwn g y y' → h.nextTimeStepSize own y mem sim = h.nextTimeStepSize own y' mem sim

open Classical in
/-- A solution of the whole grid on all processes -/
noncomputable def spread (g : Grid (P + 1) G) (cell : Fin N → G) (x : ℕ → V) (p : Fin (P + 1)) (i : ℕ) : V :=
  ((g.cells p)[i]?).elim default fun c => if h : ∃ k, cell k = c then x h.choose else default

theorem spread_own (hE : Function.Injective cell) (x : ℕ → V) : HaveOwn g cell (spread g cell x) x := by
  intro p i k hk _
  unfold spread
  rw [hk, Option.elim_some, dif_pos ⟨k, rfl⟩]
  have h : ∃ k', cell k' = cell k := ⟨k, rfl⟩
  have := hE h.choose_spec
  rw [this]

/-- The callbacks on one process -/
noncomputable def oneHooks (g : Grid (P + 1) G) (cell : Fin N → G) (h : Hooks K (Fin (P + 1) → ℕ → V) X) : Hooks K (ℕ → V) X where
  beginEpisode own x := h.beginEpisode own (spread g cell x)
  endEpisode own x := h.endEpisode own (spread g cell x)
  beginTimeStep own x := h.beginTimeStep own (spread g cell x)
  endTimeStep own x := h.endTimeStep own (spread g cell x)
  writeOutput own x := h.writeOutput own (spread g cell x)
  advanceTimeLevel own x := h.advanceTimeLevel own (spread g cell x)
  writeRestart own x := h.writeRestart own (spread g cell x)
  finalize own x := h.finalize own (spread g cell x)
  nextTimeStepSize own x := h.nextTimeStepSize own (spread g cell x)
  forcedTimeSteps := h.forcedTimeSteps
  maxFails := h.maxFails
  minDt := h.minDt
  continueOnError := h.continueOnError

theorem oneHooks_same (hE : Enumerates g cell) (hO : ∀ p, ∀ c ∈ g.cells p, c ∈ g.all) {h : Hooks K (Fin (P + 1) → ℕ → V) X}
    (hh : OwnHooks g h) : SameHooks g cell h (oneHooks g cell h) := by
  have key : ∀ (y : Fin (P + 1) → ℕ → V) (x : ℕ → V), HaveOwn g cell y x → SameOwn g y (spread g cell x) := by
    intro y x hx p i c hc ho
    obtain ⟨k, rfl⟩ := (hE.2 c).1 (hO p c (List.mem_of_getElem? hc))
    exact (hx p i k hc ho).trans (spread_own hE.1 x p i k hc ho).symm
  refine ⟨?_, ?_, ?_, ?_, ?_, ?_, ?_, ?_, ?_, rfl, rfl, rfl, rfl⟩
  all_goals intro own y x mem sim hx
  case refine_9 => exact hh.nextTimeStepSize own y _ mem sim (key y x hx)
  all_goals exact hh.hook _ (by simp) own y _ mem sim (key y x hx)

/-- The values of a solution of all processes as a vector with one entry for each cell -/
theorem exists_one (hn : ∀ p, (g.cells p).Nodup) (y : Fin (P + 1) → ℕ → V) : ∃ x, HaveOwn g cell y x := by
  classical
  refine ⟨fun k => if hk : k < N then
    y (g.owner (cell ⟨k, hk⟩)) ((g.cells (g.owner (cell ⟨k, hk⟩))).idxOf (cell ⟨k, hk⟩)) else default, ?_⟩
  intro p i k hk ho
  simp only [dif_pos k.2, Fin.eta]
  rw [ho]
  obtain ⟨hi, he⟩ := List.getElem?_eq_some_iff.1 hk
  have e := (hn p).idxOf_getElem i hi
  rw [he] at e
  rw [e]

open Classical in
/-- **C169** (partial) The balance of mass of simulations on several processes.  However the cells are distributed and whatever the
schedules of messages are: at any point of any run, the amount of any quantity for which
one of the equations of cells is the balance, added up over the own cells of all processes, is
what it was at the beginning plus what sources and the boundary supplied to own cells during the time steps which have been integrated, up
to the sum over these steps of the step size times the tolerance of the Newton method, divided by the weights of the equations and summed
over the cells: nothing gets lost or is counted twice where the parts of the processes meet.  Missing for the full property: steps
which begin at a solution which meets the tolerance already and simulations which go on after failures, as on one process
(`C160_balance_violated`, `C160_continue_violated`). -/
theorem C169_balance_partial {d : Fin (P + 1) → Overlap.Native (P + 1)} (v : Valid g d) (hE : Enumerates g cell)
    (hM : Performs task g cell machine) {h : Hooks K (Fin (P + 1) → ℕ → V) X} (hh : OwnHooks g h) (hcont : h.continueOnError = false)
    (hb : Balances law task e (Set.range cell)) (tolerance : K) (htol : 0 ≤ tolerance)
    (hset : ∀ own dt mem, (task.settings own dt mem).tolerance = tolerance) (weight : G → K)
    (hweight : ∀ own dt old k, (task.equations own dt old).weight (cell k) e = weight (cell k)) (hpos : ∀ k, 0 < weight (cell k))
    (hvol : ∀ own dt old k, 0 < (task.equations own dt old).volume (cell k)) (sim : Sim K) (own : X) (mem : Memory K)
    (y0 : Fin (P + 1) → ℕ → V) (n : ℕ) :
    let c : ℕ → Conf K (St K (Fin (P + 1) → ℕ → V) X) := fun j => run (several task machine h) j (start sim ⟨own, y0, y0, mem⟩)
    let steps := (Finset.range n).filter fun j => Integrates (several task machine h) (c j)
    (∀ j ∈ steps, Unsettled task cell tolerance (c j).prob.own (c (j + 1)).sim.dt (values g cell (c j).prob.sol0)) →
    |total g law.content (c n).prob.sol0 - total g law.content y0
        - ∑ j ∈ steps, (c (j + 1)).sim.dt * total g (fun x _ =>
            law.supply (c j).prob.own (c (j + 1)).sim.dt (values g cell (c (j + 1)).prob.sol0) x) (c (j + 1)).prob.sol0|
      ≤ ∑ j ∈ steps, |(c (j + 1)).sim.dt| * ∑ k, tolerance / weight (cell k) := by
  intro c steps hsteps
  have hO : ∀ p, ∀ c ∈ g.cells p, c ∈ g.all := v.owned
  obtain ⟨x0, e0⟩ := exists_one (cell := cell) v.nodup y0
  -- the run on one process
  set A := one task cell (oneHooks g cell h) with hA
  set b : ℕ → Conf K (St K (ℕ → V) X) := fun j => run A j (start sim ⟨own, x0, x0, mem⟩) with hbdef
  have hsame : ∀ j, Same g cell (c j) (b j) := fun j => C162_simulation_partial hE hO hM (oneHooks_same hE hO hh) sim own mem e0 e0 j
  have hb1 : ∀ j, b (j + 1) = step A (b j) := fun j => run_succ _ _ _
  have hc1 : ∀ j, c (j + 1) = step (several task machine h) (c j) := fun j => run_succ _ _ _
  have hint : ∀ j, Integrates (several task machine h) (c j) ↔ Integrates A (b j) := by
    intro j
    unfold Integrates
    rw [← hb1, ← hc1, (hsame j).pc, (hsame (j + 1)).pc]
  have hval : ∀ j, values g cell (c j).prob.sol0 = onCells cell fun k => (b j).prob.sol0 k := fun j => values_eq hE (hsame j).sol0
  have htot : ∀ j (f : G → V → K), total g f (c j).prob.sol0 = ∑ k, f (cell k) ((b j).prob.sol0 k) :=
    fun j f => total_eq hE v.nodup hO f (hsame j).sol0
  have hsolved : ∀ j ∈ steps, ∃ (r : Fin N → Blk E K) (J : Fin N → G → Mat E K), ∀ k,
      (task.equations (b j).prob.own (b (j + 1)).sim.dt (onCells cell fun k => (b j).prob.sol0 k)).row (cell k)
        (onCells cell fun k => (b (j + 1)).prob.sol0 k) = some (r k, J k) ∧ |r k e| ≤ tolerance / weight (cell k) := by
    intro j hj
    have hI := (hint j).1 (Finset.mem_filter.1 hj).2
    obtain ⟨m, m', hm⟩ := integrates_solved _ (oneHooks g cell h) hcont (b j) (run_level _ _ sim own mem x0 j) hI
    have hu := hsteps j hj
    rw [hval, (hsame j).own, (hsame (j + 1)).sim] at hu
    have hm' : oneSolver (fun dt mem old => single (task.equations (b j).prob.own dt (onCells cell fun k => old k)) cell
        (task.settings (b j).prob.own dt mem)) task.fuel (b (j + 1)).sim.dt m (b j).prob.sol0 (b j).prob.sol0 =
        (.returned (b (j + 1)).prob.sol0 true, m') := by
      rw [hb1]; exact hm
    have := single_small (b j).prob.own (b (j + 1)).sim.dt m (b j).prob.sol0 task.fuel tolerance htol (hset _ _ _)
      (b (j + 1)).prob.sol0 m' (hvol _ _ _) (hM _ _ m _ _ (own_of_haveOwn hE hO (hsame j).sol0)).2.2 hu hm'
    choose r J hr using this
    refine ⟨r, J, fun k => ⟨(hr k).1, ?_⟩⟩
    have := (hr k).2 e
    rw [hweight, abs_mul, abs_of_pos (hpos k)] at this
    rwa [le_div_iff₀ (hpos k)]
  choose! r J hr using hsolved
  have key : ∀ n', n' ≤ n →
      ∑ k, law.content (cell k) ((b n').prob.sol0 k) - ∑ k, law.content (cell k) (x0 k)
        - ∑ j ∈ (Finset.range n').filter fun j => Integrates (several task machine h) (c j), (b (j + 1)).sim.dt *
            ∑ k, law.supply (b j).prob.own (b (j + 1)).sim.dt (onCells cell fun k => (b (j + 1)).prob.sol0 k) (cell k) =
      ∑ j ∈ (Finset.range n').filter fun j => Integrates (several task machine h) (c j), (b (j + 1)).sim.dt * ∑ k, r j k e := by
    intro n'
    induction n' with
    | zero =>
      intro _
      have h0 : (b 0).prob.sol0 = x0 := rfl
      simp [h0]
    | succ n' ih =>
      intro hn
      rw [Finset.range_add_one, Finset.filter_insert]
      by_cases hI : Integrates (several task machine h) (c n')
      · have hmem : n' ∈ steps := Finset.mem_filter.2 ⟨Finset.mem_range.2 (by omega), hI⟩
        rw [if_pos hI, Finset.sum_insert (by simp), Finset.sum_insert (by simp), ← ih (by omega)]
        have := step_balance hE.1 hb (b n').prob.own (b (n' + 1)).sim.dt (onCells cell fun k => (b n').prob.sol0 k)
          (onCells cell fun k => (b (n' + 1)).prob.sol0 k) (r n') (J n') (fun k => (hr n' hmem k).1)
        simp only [onCells_cell hE.1] at this
        rw [← this]
        ring
      · have hI' : ¬ Integrates A (b n') := fun hi => hI ((hint n').2 hi)
        rw [if_neg hI, ← ih (by omega), hb1]
        have : (step A (b n')).prob.sol0 = (b n').prob.sol0 := step_sol _ _ _ hI'
        rw [this]
  have e1 : ∀ j, (c (j + 1)).sim.dt * total g (fun x _ =>
            law.supply (c j).prob.own (c (j + 1)).sim.dt (values g cell (c (j + 1)).prob.sol0) x) (c (j + 1)).prob.sol0 =
      (b (j + 1)).sim.dt *
            ∑ k, law.supply (b j).prob.own (b (j + 1)).sim.dt (onCells cell fun k => (b (j + 1)).prob.sol0 k) (cell k) := by
    intro j
    rw [htot, hval, (hsame j).own, (hsame (j + 1)).sim]
  simp only [e1]
  rw [htot, total_eq hE v.nodup hO law.content e0, key n le_rfl]
  refine (Finset.abs_sum_le_sum_abs _ _).trans (Finset.sum_le_sum fun j hj => ?_)
  rw [abs_mul, (hsame (j + 1)).sim]
  refine mul_le_mul_of_nonneg_left ?_ (abs_nonneg _)
  exact (Finset.abs_sum_le_sum_abs _ _).trans (Finset.sum_le_sum fun k _ => (hr j hj k).2)

/-- **C169** Whatever the simulation does, how much of something there is in the domain does not depend on the distribution: the sum
over the own cells of all processes is the one of the simulation on one process, after any number of steps of the time loop. -/
theorem C169_amount {d : Fin (P + 1) → Overlap.Native (P + 1)} (v : Valid g d) (hE : Enumerates g cell)
    (hM : Performs task g cell machine) {h : Hooks K (Fin (P + 1) → ℕ → V) X} {h1 : Hooks K (ℕ → V) X} (hh : SameHooks g cell h h1)
    (sim : Sim K) (own : X) (mem : Memory K) {y0 y1 : Fin (P + 1) → ℕ → V} {x0 x1 : ℕ → V} (e0 : HaveOwn g cell y0 x0)
    (e1 : HaveOwn g cell y1 x1) (f : G → V → K) (n : ℕ) :
    total g f (run (several task machine h) n (start sim ⟨own, y0, y1, mem⟩)).prob.sol0 =
      ∑ k, f (cell k) ((run (one task cell h1) n (start sim ⟨own, x0, x1, mem⟩)).prob.sol0 k) :=
  total_eq hE v.nodup v.owned f (C162_simulation_partial hE v.owned hM hh sim own mem e0 e1 n).sol0

/-! ### An example -/

/-- Diffusion in the row of cells of `rowMesh`, with a source in each cell: the implicit Euler method.  The second unknown of a cell is the
square of the first one. -/
def diffusion : Task ℕ 2 ℚ (Blk 2 ℚ) ℚ where
  equations _ dt old :=
    { rowEquations with
      row := fun c Y => if dt = 0 then none else
        some (![(Y c 0 - old c 0) / dt + ((rowEquations.stencil c).map fun c' => Y c 0 - Y c' 0).sum - 2, Y c 1 - Y c 0 ^ 2],
          fun c' => if c' = c then !![1 / dt + ((rowEquations.stencil c).map fun c' => if c' = c then 0 else 1).sum, 0; -2 * Y c 0, 1]
            else !![-1, 0; 0, 0]) }
  settings _ _ _ := rowSettings
  fuel := 20

/-- The content of cells is the first unknown, what flows are differences, and each cell gets two per unit of time. -/
def diffusionLaw : Law ℕ ℚ (Blk 2 ℚ) ℚ where
  content _ v := v 0
  outflow _ _ Y c c' := Y c 0 - Y c' 0
  supply _ _ _ _ := 2

theorem diffusion_local : LocalTask diffusion where
  loc own dt old :=
    { nodup := rowEquations_local.nodup
      self := rowEquations_local.self
      row := fun c Y Z h => by
        have h0 := h c (rowEquations_local.self c)
        have h1 : ((rowEquations.stencil c).map fun c' => Y c 0 - Y c' 0) = (rowEquations.stencil c).map fun c' => Z c 0 - Z c' 0 :=
          List.map_congr_left fun c' hc' => by rw [h0, h c' hc']
        simp only [diffusion]
        rw [h1, h0] }
  stencil _ _ _ _ _ _ := rfl
  row _ _ _ _ _ h := by simp only [diffusion, h]
  volume _ _ _ _ _ _ := rfl
  weight _ _ _ _ _ _ := rfl
  update _ _ _ _ _ _ := rfl

theorem diffusion_balances : Balances diffusionLaw diffusion 0 (Set.range fun k : Fin 6 => (k : ℕ)) where
  antisymmetric _ _ Y c c' := by simp only [diffusionLaw]; ring
  nodup _ _ _ c _ := rowEquations_local.nodup c
  inside own dt old c hc c' h := by
    obtain ⟨k, rfl⟩ := hc
    have : ∀ k : Fin 6, ∀ c' ∈ rowEquations.stencil k, c' < 6 := by decide
    exact ⟨⟨c', this k c' h⟩, rfl⟩
  symmetric own dt old c c' hc hc' := by
    obtain ⟨k, rfl⟩ := hc
    obtain ⟨k', rfl⟩ := hc'
    have : ∀ k k' : Fin 6, ((k' : ℕ) ∈ rowEquations.stencil k ↔ (k : ℕ) ∈ rowEquations.stencil k') := by decide
    exact this k k'
  residual own dt old c Y r J _ h := by
    simp only [diffusion] at h
    split_ifs at h with hdt
    simp only [Option.some.injEq, Prod.mk.injEq] at h
    exact ⟨hdt, by rw [← h.1]; rfl⟩

/-- The sources keep the equations from being solved at the beginning of a step. -/
theorem diffusion_unsettled (own dt : ℚ) (Y : ℕ → Blk 2 ℚ) : Unsettled diffusion (fun k : Fin 6 => (k : ℕ)) 1 own dt Y := by
  by_contra hn
  simp only [Unsettled, not_exists, not_forall, not_lt] at hn
  have key : ∀ k : Fin 6, ((rowEquations.stencil k).map fun c' => Y k 0 - Y c' 0).sum - 2 ≥ -1 := by
    intro k
    obtain ⟨r, J, h, hle⟩ := hn k 0
    simp only [diffusion] at h hle
    split_ifs at h
    simp only [Option.some.injEq, Prod.mk.injEq, sub_self, zero_div, zero_add] at h
    rw [← h.1, show rowEquations.weight (k : ℕ) 0 = 1 from rfl, mul_one] at hle
    exact (abs_le.1 hle).1
  have k0 := key 0
  have k1 := key 1
  have k2 := key 2
  have k3 := key 3
  have k4 := key 4
  have k5 := key 5
  simp [rowEquations] at k0 k1 k2 k3 k4 k5
  linarith

open Classical in
/-- Three processes with two cells each, in a row: at any time there is as much in the cells as the sources have supplied. -/
example (sim : Sim ℚ) (mem : Memory ℚ) (y0 : Fin 3 → ℕ → Blk 2 ℚ) (n : ℕ) :
    ∃ machine : ℚ → ℚ → Memory ℚ → (Fin 3 → ℕ → Blk 2 ℚ) → ParNewton.Machine 2 2 ℚ (Blk 2 ℚ),
      let c := fun j => run (several diffusion machine (decayHooks fun y => y 0 0 0)) j (start sim ⟨1, y0, y0, mem⟩)
      let steps := (Finset.range n).filter fun j => Integrates (several diffusion machine (decayHooks fun y => y 0 0 0)) (c j)
      |total rowMesh.toGrid (fun _ v => v 0) (c n).prob.sol0 - total rowMesh.toGrid (fun _ v => v 0) y0 - ∑ j ∈ steps, (c (j + 1)).sim.dt * 12|
        ≤ ∑ j ∈ steps, |(c (j + 1)).sim.dt| * 6 := by
  obtain ⟨machine, hM⟩ := C162_exists (task := diffusion) (overlapSize := 1) diffusion_local row_enumerates rowMesh_correct
    (by omega) (fun _ _ _ => wide_one rowMesh_correct (by decide) _) fun _ _ _ => ⟨rowEquations_pattern.nodup, rowEquations_pattern.range, rowEquations_pattern.own⟩
  have hfirst : ∀ y y' : Fin 3 → ℕ → Blk 2 ℚ, SameOwn (P := 2) rowMesh.toGrid y y' → y 0 0 = y' 0 0 :=
    fun y y' h => h 0 0 0 (by decide) (by decide)
  have hh : OwnHooks (P := 2) rowMesh.toGrid (decayHooks fun y : Fin 3 → ℕ → Blk 2 ℚ => y 0 0 0) := by
    refine ⟨?_, fun own y y' mem sim h => rfl⟩
    intro f hf own y y' mem sim h
    simp only [List.mem_cons, List.not_mem_nil, or_false, decayHooks] at hf
    rcases hf with rfl | rfl | rfl | rfl | rfl | rfl | rfl | rfl <;> simp only [hfirst y y' h]
  have := C169_balance_partial (law := diffusionLaw) (P := 2) rowMesh_correct row_enumerates hM hh rfl diffusion_balances 1 zero_le_one
    (fun _ _ _ => rfl) (fun _ => 1) (fun _ _ _ _ => rfl) (fun _ => zero_lt_one) (fun _ _ _ _ => zero_lt_one) sim 1 mem y0 n
    fun j _ => diffusion_unsettled _ _ _
  refine ⟨machine, ?_⟩
  have e2 : ∀ y : Fin 3 → ℕ → Blk 2 ℚ, total (P := 2) rowMesh.toGrid (fun _ _ => (2 : ℚ)) y = 12 := by
    intro y
    obtain ⟨x, hx⟩ := exists_one (cell := fun k : Fin 6 => (k : ℕ)) rowMesh_correct.nodup y
    rw [total_eq row_enumerates rowMesh_correct.nodup rowMesh_correct.owned _ hx]
    norm_num
  have e6 : ∑ k : Fin 6, (1 : ℚ) / 1 = 6 := by norm_num
  simp only [diffusionLaw] at this
  simp only [e2, e6] at this
  exact this

end Verif.ParBalance
