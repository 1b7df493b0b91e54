import Verif.Bounds.Spec
import Verif.Bounds.Lemmas
import Verif.Bounds.ChopLemmas
import Mathlib.Tactic.Linarith

/-
C165: unknowns stay within their bounds during whole simulations.
-/

set_option autoImplicit false
set_option linter.unusedSectionVars false

namespace Verif.Bounds

open Verif.TimeLoop Verif.Balance

section
variable {K PV W M C X : Type} {m : ℕ} [Field K] [LinearOrder K] [IsStrictOrderedRing K] [AddCommGroup M] [Module K M]

/-! ### Black oil -/

theorem fits_phases {L : BlackOil.Layout} {f g : BlackOil.Fluid K} {v : BlackOil.PriVars K} (ho : f.oilActive = g.oilActive)
    (hg : f.gasActive = g.gasActive) (hw : f.waterActive = g.waterActive) (hd : f.dissolvedGasInWater = g.dissolvedGasInWater)
    (h : BlackOil.Fits L f v) : BlackOil.Fits L g v :=
  ⟨h.nodup, by rw [← hw, ← ho, ← hg]; exact h.water, by rw [← hw, ← ho, ← hg]; exact h.noWater, by rw [← ho, ← hg]; exact h.gas,
    by rw [← ho, ← hg]; exact h.noGas, by rw [← hd, ← ho, ← hg]; exact h.gasInWater, by rw [← hd]; exact h.rsw,
    by rw [← hw, ← ho, ← hg]; exact h.some, h.pressure, h.solvent⟩

theorem saturations_phases {L : BlackOil.Layout} {f g : BlackOil.Fluid K} (v : BlackOil.PriVars K) (ho : f.oilActive = g.oilActive)
    (hg : f.gasActive = g.gasActive) (hw : f.waterActive = g.waterActive) : BlackOil.saturations L f v = BlackOil.saturations L g v := by
  unfold BlackOil.saturations
  rw [ho, hg, hw]

/-- One update of variables which mean something is defined, and the new variables mean something. -/
theorem oil_update {o : Oil K X} (ho : o.Proper) (own : X) (i : ℕ) (x : BlackOil.PriVars K) (hx : o.Legal x) (u : ℤ → K) (was : Bool) :
    ∃ v b, BlackOil.updatePrimaryVariables o.layout (o.fluid own i) o.limits o.switch was x u = some (v, b) ∧ o.Legal v := by
  obtain ⟨p1, p2, p3, p4⟩ := ho.same own i
  have hf := fits_phases p1.symm p2.symm p3.symm p4.symm hx.fits
  have hs : BlackOil.SatNonneg (BlackOil.saturations o.layout (o.fluid own i) x) := by
    rw [saturations_phases x p1 p2 p3]; exact hx.saturations
  obtain ⟨v, b, e, hf', -⟩ := BlackOil.C52_saturations_partial (l := o.limits) (s := o.switch) (was := was) (update := u) hf hs ho.sensible ho.dsMax
  refine ⟨v, b, e, fits_phases p1 p2 p3 p4 hf', ?_, fun hv => ?_, fun hv => ?_, BlackOil.C52_bounds hf.nodup ho.all ho.apart ho.micp ho.bounds e⟩
  · rw [← saturations_phases v p1 p2 p3]
    have e' := e
    unfold BlackOil.updatePrimaryVariables at e'
    simp only [ho.project, if_true, Option.map_eq_some_iff, Prod.mk.injEq] at e'
    obtain ⟨r, hr, rfl, -⟩ := e'
    have sum := BlackOil.saturations_sum hf
    have c1 := BlackOil.limited_close (l := o.limits) (update := u) hf ho.dsMax
    have he : 0 ≤ if was then o.switch.oscillationThreshold else 0 := by split_ifs; exacts [ho.sensible.oscillation, le_rfl]
    obtain ⟨f2, -⟩ := BlackOil.adapt_close (hf.limited (l := o.limits) (update := u)) hs sum.1 sum.2 he ho.sensible.threshold ho.sensible.max c1
    exact BlackOil.chop_nonneg f2 hr
  · have hne : v.water ≠ .Disabled := by rcases hv with h | h <;> rw [h] <;> decide
    obtain ⟨h0, hn, -⟩ := hf'.water hne
    exact BlackOil.C52_water_factor hf.nodup h0 hn ho.sensible (ho.factors own i) e hv
  · have hne : v.gas ≠ .Disabled := by rcases hv with h | h <;> rw [h] <;> decide
    obtain ⟨h0, hn, -⟩ := hf'.gas hne
    exact BlackOil.C52_gas_factor hf.nodup h0 hn ho.apart (ho.factors own i) e hv

theorem oil_kept {o : Oil K X} {f : Physics K (BlackOil.PriVars K) M C X m} {q : Numerics K (BlackOil.PriVars K) ((ℤ → K) × Bool) M X m}
    (ho : o.Proper) (hq : o.Used f q) : Kept f q fun i v => i < f.numCells → o.Legal v := by
  intro own attempt dt old i hi x w hx _
  obtain ⟨v, b, e, hv⟩ := oil_update ho own i x (hx hi) w.1 w.2
  rw [hq own attempt dt old i hi x w v b e]
  exact hv

/-- **C165** If the variables of all cells mean something at the beginning of a black-oil simulation which projects saturations, then they do so
in both time levels at every point of every simulation, whatever the fluxes, sources, wells, hooks of the problem and linear solvers do, and
however often time steps are repeated; saturations sum up to one. -/
theorem C165_blackoil_partial {o : Oil K X} {f : Physics K (BlackOil.PriVars K) M C X m}
    {q : Numerics K (BlackOil.PriVars K) ((ℤ → K) × Bool) M X m} (ho : o.Proper) (hq : o.Used f q) (hooks : Hooks K (BlackOil.PriVars K) X)
    (sim : Sim K) (own : X) (s0 : ℕ → BlackOil.PriVars K) (h0 : ∀ i < f.numCells, o.Legal (s0 i)) (n : ℕ) :
    let c := run (problem f q hooks) n (start sim ⟨own, s0, s0⟩)
    ∀ i < f.numCells, ∀ v, v = c.prob.sol0 i ∨ v = c.prob.sol1 i → o.Legal v ∧
      (BlackOil.saturations o.layout o.phases v).water + (BlackOil.saturations o.layout o.phases v).oil
        + (BlackOil.saturations o.layout o.phases v).gas = 1 := by
  intro c i hi v hv
  have hg := run_good (oil_kept ho hq) hooks sim ⟨own, s0, s0⟩ ⟨h0, h0⟩ n
  have : o.Legal v := by
    rcases hv with rfl | rfl
    exacts [hg.1 i hi, hg.2 i hi]
  exact ⟨this, (BlackOil.saturations_sum this.fits).1⟩

/-- **C165** … and no update is ever undefined: what the simulation would do with undefined updates does not matter. -/
theorem C165_blackoil_defined {o : Oil K X} {f : Physics K (BlackOil.PriVars K) M C X m}
    {q q' : Numerics K (BlackOil.PriVars K) ((ℤ → K) × Bool) M X m} (ho : o.Proper) (hq : o.Used f q) (hq' : o.Used f q')
    (hs : SameButUpdates q q') (hooks : Hooks K (BlackOil.PriVars K) X) (sim : Sim K) (own : X) (s0 : ℕ → BlackOil.PriVars K)
    (h0 : ∀ i < f.numCells, o.Legal (s0 i)) (n : ℕ) :
    run (problem f q hooks) n (start sim ⟨own, s0, s0⟩) = run (problem f q' hooks) n (start sim ⟨own, s0, s0⟩) := by
  refine run_alike (oil_kept ho hq) ⟨hs.rest, hs.base, ?_⟩ hooks sim ⟨own, s0, s0⟩ ⟨h0, h0⟩ n
  intro own attempt dt old i hi x w hx
  obtain ⟨v, b, e, -⟩ := oil_update ho own i x (hx hi) w.1 w.2
  rw [hq own attempt dt old i hi x w v b e, hq' own attempt dt old i hi x w v b e]

/-! ### Flash -/

theorem flash_kept {s : PtFlash.Sizes} {f : Physics K (ℕ → K) M C X m} {q : Numerics K (ℕ → K) (ℕ → K) M X m} (hq : FlashUsed s f q) :
    Kept f q fun i v => i < f.numCells → FlashLegal s v := by
  intro own attempt dt old i hi x u hx _
  obtain ⟨v, e, h1, -, h2⟩ := PtFlash.C96_pressure_and_range s x u (hx hi).1
  rw [hq own attempt dt old i hi x u v e]
  exact ⟨h1, h2⟩

/-- **C165** In simulations with the flash model pressures stay positive and stored mole fractions between 1e-8 and one minus 1e-8. -/
theorem C165_flash {s : PtFlash.Sizes} {f : Physics K (ℕ → K) M C X m} {q : Numerics K (ℕ → K) (ℕ → K) M X m} (hq : FlashUsed s f q)
    (hooks : Hooks K (ℕ → K) X) (sim : Sim K) (own : X) (s0 : ℕ → ℕ → K) (h0 : ∀ i < f.numCells, FlashLegal s (s0 i)) (n : ℕ) :
    let c := run (problem f q hooks) n (start sim ⟨own, s0, s0⟩)
    ∀ i < f.numCells, FlashLegal s (c.prob.sol0 i) ∧ FlashLegal s (c.prob.sol1 i) := by
  intro c i hi
  have hg := run_good (flash_kept hq) hooks sim ⟨own, s0, s0⟩ ⟨h0, h0⟩ n
  exact ⟨hg.1 i hi, hg.2 i hi⟩

/-- **C165** … and no update is undefined, which it would be if a pressure were negative. -/
theorem C165_flash_defined {s : PtFlash.Sizes} {f : Physics K (ℕ → K) M C X m} {q q' : Numerics K (ℕ → K) (ℕ → K) M X m}
    (hq : FlashUsed s f q) (hq' : FlashUsed s f q') (hs : SameButUpdates q q') (hooks : Hooks K (ℕ → K) X) (sim : Sim K) (own : X)
    (s0 : ℕ → ℕ → K) (h0 : ∀ i < f.numCells, FlashLegal s (s0 i)) (n : ℕ) :
    run (problem f q hooks) n (start sim ⟨own, s0, s0⟩) = run (problem f q' hooks) n (start sim ⟨own, s0, s0⟩) := by
  refine run_alike (flash_kept hq) ⟨hs.rest, hs.base, ?_⟩ hooks sim ⟨own, s0, s0⟩ ⟨h0, h0⟩ n
  intro own attempt dt old i hi x u hx
  obtain ⟨v, e, -⟩ := PtFlash.C96_pressure_and_range s x u (hx hi).1
  rw [hq own attempt dt old i hi x u v e, hq' own attempt dt old i hi x u v e]

/-! ### NCP -/

/-- **C165** In simulations with the NCP model pressures stay positive and fugacities do not become negative. -/
theorem C165_ncp {z : Ncp.Sizes} (hz : 0 < z.phases) {f : Physics K (ℕ → K) M C X m} {q : Numerics K (ℕ → K) ((ℕ → K) × ℕ) M X m}
    (hq : NcpUsed z f q) (hooks : Hooks K (ℕ → K) X) (sim : Sim K) (own : X) (s0 : ℕ → ℕ → K) (h0 : ∀ i < f.numCells, NcpLegal z (s0 i))
    (n : ℕ) :
    let c := run (problem f q hooks) n (start sim ⟨own, s0, s0⟩)
    ∀ i < f.numCells, NcpLegal z (c.prob.sol0 i) ∧ NcpLegal z (c.prob.sol1 i) := by
  intro c i hi
  have hk : Kept f q fun i v => i < f.numCells → NcpLegal z v := by
    intro own attempt dt old i hi x u hx _
    obtain ⟨minPhi, h1, h2⟩ := hq own attempt dt old i hi x u
    rw [h2]
    exact ⟨(Ncp.C91_pressure z hz u.2 minPhi x u.1 (hx hi).1).1, fun k hk => (Ncp.C91_fugacities z hz u.2 minPhi x u.1 k hk (h1 k)).1⟩
  have hg := run_good hk hooks sim ⟨own, s0, s0⟩ ⟨h0, h0⟩ n
  exact ⟨hg.1 i hi, hg.2 i hi⟩

end

/-! ### Examples -/

/-- One cell from which `rate` flows out per unit of time; the only equation is that of water. -/
def cell (rate : ℚ) : Physics ℚ (BlackOil.PriVars ℚ) ℚ Unit Unit 1 where
  numCells := 1
  nb := fun _ => []
  area := fun _ => 1
  volume := fun _ => 1
  storage := fun _ x => (fun _ => x.val 0, 1)
  flux := fun _ _ _ _ _ _ => (fun _ => 0, 0)
  source := fun _ _ _ _ => (fun _ => -rate, 0)
  boundary := fun _ _ _ => []

/-- Water, oil and gas which dissolves, without extensions -/
def oil (project : Bool) : Oil ℚ Unit where
  layout := BlackOil.threePhase ⟨0, 0, 0, 0, false, false, 0, 0⟩
  limits := BlackOil.demoLimits
  switch := ⟨1, 1, 1 / 100000, project⟩
  fluid := fun _ _ => BlackOil.gasFluid
  phases := BlackOil.gasFluid

/-- The exact Newton method for the cell, and something else if an update is undefined -/
def exactly (project : Bool) (rate : ℚ) (otherwise : BlackOil.PriVars ℚ) : Numerics ℚ (BlackOil.PriVars ℚ) ((ℤ → ℚ) × Bool) ℚ Unit 1 where
  weight := fun _ _ => 1
  tolerance := 1 / 1000
  base := fun _ _ dt old =>
    { numGridDof := 0, numTotalDof := 0, volume := fun _ => 0, weight := fun _ _ => 0, constraints := fun _ => none,
      beginIterationOk := fun _ => true, endIterationOk := fun _ => true, linearize := fun _ _ => .caught,
      solve := fun _ s => .update (fun i => (fun k => if k = 0 then (s i).val 0 - ((old i).val 0 - dt * rate) else 0, false)) true,
      updatePrimaryVariables := fun i x w =>
        match BlackOil.updatePrimaryVariables (oil project).layout ((oil project).fluid () i) (oil project).limits (oil project).switch w.2 x w.1 with
        | some (v, _) => v
        | none => otherwise
      subtract := fun x _ => x, tolerance := 0, maxError := 1000, maxIterations := 10, targetIterations := 5 }
  leftError := fun _ _ _ _ => .nan
  leftLastError := fun _ _ _ _ => .num 3
  failure := fun _ _ _ _ _ _ => none
  system := fun _ _ _ _ _ => ⟨fun _ _ => 77, fun _ _ => 88⟩
  fuel := 20
  maxFails := 10
  minDt := 1 / 1000
  continueOnError := false

def quiet : Hooks ℚ (BlackOil.PriVars ℚ) Unit where
  beginEpisode := fun x _ _ => some (x, [])
  endEpisode := fun x _ _ => some (x, [])
  beginTimeStep := fun x _ _ => some (x, [])
  endTimeStep := fun x _ _ => some (x, [])
  writeOutput := fun x _ _ => some (x, [])
  advanceTimeLevel := fun x _ _ => some (x, [])
  writeRestart := fun x _ _ => some (x, [])
  finalize := fun x _ _ => some (x, [])
  nextTimeStepSize := fun _ _ s => s.dt
  forcedTimeSteps := []

/-- A simulation from time 0 to 100 whose first step has size one -/
def watch : Sim ℚ := ⟨0, 0, 100, 1, 0, 0, 0, 100, false⟩

/-- Water saturation 1/5, pressure 100, gas saturation 1/10 -/
def wet : BlackOil.PriVars ℚ := BlackOil.plainCell

theorem oil_used (project : Bool) (rate : ℚ) (other : BlackOil.PriVars ℚ) : (oil project).Used (cell rate) (exactly project rate other) := by
  intro own attempt dt old i _ x w v b h
  simp only [exactly]
  rw [h]

theorem oil_proper : (oil true).Proper := by
  refine ⟨fun _ _ => ⟨rfl, rfl, rfl, rfl⟩, fun _ _ => ?_, ⟨by decide +kernel, by decide +kernel, by decide +kernel⟩, rfl, by decide +kernel, by decide,
    by decide, by decide, by decide +kernel⟩
  constructor <;> simp [oil, BlackOil.gasFluid, BlackOil.demoFluid]

theorem wet_legal (project : Bool) : (oil project).Legal wet := by
  refine ⟨⟨by cases project <;> decide, by cases project <;> decide, by cases project <;> decide, by cases project <;> decide,
    by cases project <;> decide, by cases project <;> decide, by cases project <;> decide, by cases project <;> decide,
    by cases project <;> decide, by cases project <;> decide⟩, ?_, ?_, ?_, ?_⟩
  · unfold BlackOil.SatNonneg; cases project <;> decide +kernel
  · intro h; exact absurd h (by decide)
  · intro h; exact absurd h (by decide)
  · constructor <;> cases project <;> decide

/-- With projection: half of the water is gone after a step of size one. -/
example : (oil true).Proper ∧ (oil true).Used (cell (1 / 10)) (exactly true (1 / 10) wet) ∧ (oil true).Legal wet ∧
    ((run (problem (cell (1 / 10)) (exactly true (1 / 10) wet) quiet) 6 (start (watch) ⟨(), fun _ => wet, fun _ => wet⟩)).prob.sol0 0).val 0 = 1 / 10 :=
  ⟨oil_proper, oil_used _ _ _, wet_legal _, by decide +kernel⟩

/-- **C165** By default saturations are not projected, and then the claim is FALSE: if more water flows out of a cell than there is, the Newton
method finds a negative saturation of water, and the simulation goes on with it. -/
theorem C165_projection_violated :
    ∃ (rate : ℚ) (other : BlackOil.PriVars ℚ) (n : ℕ),
      let c := run (problem (cell rate) (exactly false rate other) quiet) n (start (watch) ⟨(), fun _ => wet, fun _ => wet⟩)
      (oil false).Legal wet ∧ (oil false).Used (cell rate) (exactly false rate other) ∧ c.sim.time = 1 ∧
      (BlackOil.saturations (oil false).layout (oil false).phases (c.prob.sol0 0)).water = -1 / 10 := by
  refine ⟨3 / 10, wet, 7, wet_legal _, oil_used _ _ _, ?_⟩
  decide +kernel

/-- Flash: one component, the linear solver asks for ever lower pressures, and they stay positive. -/
example : ∃ (f : Physics ℚ (ℕ → ℚ) ℚ Unit Unit 1) (q : Numerics ℚ (ℕ → ℚ) (ℕ → ℚ) ℚ Unit 1), FlashUsed ⟨0, 2⟩ f q ∧
    FlashLegal ⟨0, 2⟩ (fun i => if i = 0 then (100 : ℚ) else 1 / 2) ∧
    ((q.base () 0 1 fun _ _ => 0).updatePrimaryVariables 0 (fun i => if i = 0 then 100 else 1 / 2) fun _ => 1000) 0 = 80 := by
  refine ⟨⟨1, fun _ => [], fun _ => 1, fun _ => 1, fun _ _ => 0, fun _ _ _ _ _ _ => 0, fun _ _ _ _ => 0, fun _ _ _ => []⟩,
    ⟨fun _ _ => 1, 1, fun _ _ _ _ =>
      { numGridDof := 0, numTotalDof := 0, volume := fun _ => 0, weight := fun _ _ => 0, constraints := fun _ => none,
        beginIterationOk := fun _ => true, endIterationOk := fun _ => true, linearize := fun _ _ => .caught,
        solve := fun _ _ => .update (fun _ _ => 1000) true,
        updatePrimaryVariables := fun _ x w => (PtFlash.updatePrimaryVariables ⟨0, 2⟩ x w).getD fun _ => 0
        subtract := fun x _ => x, tolerance := 0, maxError := 1000, maxIterations := 10, targetIterations := 5 },
      fun _ _ _ _ => .nan, fun _ _ _ _ => .nan, fun _ _ _ _ _ _ => none, fun _ _ _ _ _ => ⟨fun _ _ => 0, fun _ _ => 0⟩, 20, 10, 1, false⟩,
    ?_, ?_, ?_⟩
  · intro own attempt dt old i _ x u v h
    simp only [h, Option.getD_some]
  · refine ⟨by decide +kernel, fun i hi => ?_⟩
    have : i = 0 := by simp only at hi; omega
    subst this
    decide +kernel
  · decide +kernel

/-- NCP: one phase and one component. -/
example : ∃ (f : Physics ℚ (ℕ → ℚ) ℚ Unit Unit 1) (q : Numerics ℚ (ℕ → ℚ) ((ℕ → ℚ) × ℕ) ℚ Unit 1), NcpUsed ⟨0, 1, 1⟩ f q ∧
    NcpLegal ⟨0, 1, 1⟩ (fun _ => (100 : ℚ)) ∧
    ((q.base () 0 1 fun _ _ => 0).updatePrimaryVariables 0 (fun _ => 100) ((fun _ => 1000), 7)) (Ncp.Sizes.pres0 ⟨0, 1, 1⟩) = 80 := by
  refine ⟨⟨1, fun _ => [], fun _ => 1, fun _ => 1, fun _ _ => 0, fun _ _ _ _ _ _ => 0, fun _ _ _ _ => 0, fun _ _ _ => []⟩,
    ⟨fun _ _ => 1, 1, fun _ _ _ _ =>
      { numGridDof := 0, numTotalDof := 0, volume := fun _ => 0, weight := fun _ _ => 0, constraints := fun _ => none,
        beginIterationOk := fun _ => true, endIterationOk := fun _ => true, linearize := fun _ _ => .caught,
        solve := fun _ _ => .update (fun _ => (fun _ => 1000, 0)) true,
        updatePrimaryVariables := fun _ x w => Ncp.updatePrimaryVariables ⟨0, 1, 1⟩ w.2 (fun _ => 1000) x w.1
        subtract := fun x _ => x, tolerance := 0, maxError := 1000, maxIterations := 10, targetIterations := 5 },
      fun _ _ _ _ => .nan, fun _ _ _ _ => .nan, fun _ _ _ _ _ _ => none, fun _ _ _ _ _ => ⟨fun _ _ => 0, fun _ _ => 0⟩, 20, 10, 1, false⟩,
    ?_, ?_, ?_⟩
  · exact fun own attempt dt old i _ x u => ⟨fun _ => 1000, fun _ => by norm_num, rfl⟩
  · exact ⟨by decide +kernel, fun i _ => by norm_num⟩
  · decide +kernel

end Verif.Bounds
