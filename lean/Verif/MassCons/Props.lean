import Verif.MassCons.Model
import Verif.Ncp.Props
import Verif.PtFlash.Model
import Mathlib.Algebra.BigOperators.Fin
import Mathlib.Tactic.Linarith
import Mathlib.Tactic.NormNum

/-
C187: `assignMassConservative` stores fluid states such that the cell contains what the state contains.
-/

set_option autoImplicit false
set_option linter.unusedSectionVars false

namespace Verif.MassCons

variable {K : Type} [Field K] [LinearOrder K] [IsStrictOrderedRing K]

/-! ### Specification -/

/-- The moles of a component per volume of pores -/
def content (y : System K) (fs : State K) (c : ℕ) : K := ∑ i ∈ Finset.range y.phases, fs.sat i * (fs.frac i c * fs.molarDensity i)

/-- Two fluid states contain the same amounts of all components. -/
def SameContent (y : System K) (a b : State K) : Prop := ∀ c < y.comps, content y a c = content y b c

/-- Material law and fluid system look at the phases and components which exist. -/
structure System.Local (y : System K) : Prop where
  some : 0 < y.phases
  pc : ∀ s s' : ℕ → K, (∀ i < y.phases, s i = s' i) → ∀ i < y.phases, y.pc s i = y.pc s' i
  density : ∀ i < y.phases, ∀ (T p : K) (x x' : ℕ → K), (∀ c < y.comps, x c = x' c) → y.density i T p x = y.density i T p x'

/-- The densities are those of the fluid system. -/
def Dense (y : System K) (fs : State K) : Prop := ∀ i < y.phases, fs.molarDensity i = y.density i fs.temperature (fs.pres i) (fs.frac i)

/-- The phases fill the pores, their pressures differ by capillary pressures, the densities are those of the fluid system. -/
structure Mechanical (y : System K) (fs : State K) : Prop where
  full : ∑ i ∈ Finset.range y.phases, fs.sat i = 1
  pressure : ∀ i < y.phases, fs.pres i = fs.pres 0 + (y.pc fs.sat i - y.pc fs.sat 0)
  dense : Dense y fs

/-- Every phase consists of the component with its number. -/
def Pure (y : System K) (fs : State K) : Prop := ∀ i < y.phases, ∀ c < y.comps, fs.frac i c = if c = i then 1 else 0

/-- The fugacity of a component in a phase of a fluid state -/
def fugacity (y : System K) (fs : State K) (i c : ℕ) : K :=
  y.fugacityCoefficient i fs.temperature (fs.pres i) (fs.frac i) c * fs.frac i c * fs.pres i

/-- All components have the same fugacity in all phases. -/
def Chemical (y : System K) (fs : State K) : Prop := ∀ i < y.phases, ∀ c < y.comps, fugacity y fs i c = fugacity y fs 0 c

/-- What a flash solver promises if it does not fail: a state with the given temperature and amounts which is `good`. -/
def Flash (y : System K) (good : State K → Prop) (flash : State K → (ℕ → K) → Option (State K)) : Prop :=
  ∀ fs g fs', flash fs g = some fs' → good fs' ∧ fs'.temperature = fs.temperature ∧ ∀ c < y.comps, content y fs' c = g c

/-! ### Lemmas -/

theorem foldl_add_sum (f : ℕ → K) (n : ℕ) (a : K) : (List.range n).foldl (fun g i => g + f i) a = a + ∑ i ∈ Finset.range n, f i := by
  induction n with
  | zero => simp
  | succ n ih => rw [List.range_succ, List.foldl_append, ih, Finset.sum_range_succ]; simp [add_assoc]

theorem globalMolarities_eq (y : System K) (fs : State K) (c : ℕ) : globalMolarities y fs c = content y fs c := by
  unfold globalMolarities content State.molarity
  rw [foldl_add_sum, zero_add]

theorem content_congr (y : System K) {a b : State K} (c : ℕ)
    (h : ∀ i < y.phases, a.sat i = b.sat i ∧ a.frac i c = b.frac i c ∧ a.molarDensity i = b.molarDensity i) :
    content y a c = content y b c := by
  refine Finset.sum_congr rfl fun i hi => ?_
  obtain ⟨h1, h2, h3⟩ := h i (Finset.mem_range.1 hi)
  rw [h1, h2, h3]

theorem refresh_content (y : System K) {fs : State K} (h : Dense y fs) : SameContent y (refresh y fs) fs :=
  fun c _ => content_congr y c fun i hi => ⟨rfl, rfl, (h i hi).symm⟩

/-- Whatever the model: if storing and reading back a state as the flash makes them keeps its contents, everything is kept. -/
theorem assign_spec {V : Type} (y : System K) {good : State K → Prop} {flash : State K → (ℕ → K) → Option (State K)}
    (hf : Flash y good flash) {naive : State K → Option V} {fs : State K} {v : V}
    (hv : assignMassConservative y flash naive false fs = some v) :
    ∃ fs', good fs' ∧ fs'.temperature = fs.temperature ∧ SameContent y fs' (refresh y fs) ∧ naive fs' = some v := by
  have hv' : (flash (refresh y fs) (globalMolarities y (refresh y fs))).bind naive = some v := hv
  obtain ⟨fs', h1, h2⟩ := Option.bind_eq_some_iff.1 hv'
  obtain ⟨h3, h4, h5⟩ := hf _ _ _ h1
  exact ⟨fs', h3, h4, fun c hc => (h5 c hc).trans (globalMolarities_eq y _ c), h2⟩

theorem imm_sat (y : System K) (energy : Bool) {fs : State K} (old : ℕ → K) (h0 : 0 < y.phases)
    (hs : ∑ i ∈ Finset.range y.phases, fs.sat i = 1) {i : ℕ} (hi : i < y.phases) : immSat y (immAssign y energy fs old) i = fs.sat i := by
  have hk : ∀ j, j < y.phases - 1 → immAssign y energy fs old (1 + j) = fs.sat j := by
    intro j hj
    unfold immAssign
    rw [if_neg (by omega), if_pos (by omega)]
    congr 1; omega
  unfold immSat
  split
  · next h => exact hk i h
  · next h =>
    rw [foldl_add_sum, zero_add, Finset.sum_congr rfl fun j hj => hk j (Finset.mem_range.1 hj)]
    have e : y.phases = (y.phases - 1) + 1 := by omega
    rw [e, Finset.sum_range_succ] at hs
    have : i = y.phases - 1 := by omega
    rw [this]; linarith

/-- Reading back a state of pure phases -/
theorem imm_read (y : System K) (hy : y.Local) (energy : Bool) (problem : K) {fs : State K} (old : ℕ → K) (hm : Mechanical y fs)
    (hp : Pure y fs) (hT : energy = false → fs.temperature = problem) :
    SameContent y (immRead y energy problem (immAssign y energy fs old)) fs := by
  have hsat : ∀ i < y.phases, immSat y (immAssign y energy fs old) i = fs.sat i := fun i hi => imm_sat y energy old hy.some hm.full hi
  have hT' : (if energy then immAssign y energy fs old y.phases else problem) = fs.temperature := by
    cases energy
    · exact (hT rfl).symm
    · simp only [if_true]
      unfold immAssign
      rw [if_neg (by have := hy.some; omega), if_neg (lt_irrefl _), if_pos ⟨rfl, rfl⟩]
  have h0 : immAssign y energy fs old 0 = fs.pres 0 := by simp [immAssign]
  intro c hc
  refine content_congr y c fun i hi => ⟨hsat i hi, (hp i hi c hc).symm, ?_⟩
  have hpr : immAssign y energy fs old 0 + (y.pc (immSat y (immAssign y energy fs old)) i - y.pc (immSat y (immAssign y energy fs old)) 0)
      = fs.pres i := by
    rw [h0, hy.pc _ _ hsat i hi, hy.pc _ _ hsat 0 hy.some, ← hm.pressure i hi]
  show y.density i _ _ _ = _
  beta_reduce
  rw [hT', hpr, hm.dense i hi]
  exact hy.density i hi _ _ _ _ fun c hc => (hp i hi c hc).symm

/-! ### The immiscible model -/

/-- **C187** The immiscible model: if the flash calculation does not fail, the cell contains the amounts of all components of the given
fluid state, whose densities are those of the fluid system.  Missing: other densities, and other temperatures than that of the problem
if there is no energy equation, see below. -/
theorem C187_immiscible_partial (y : System K) (hy : y.Local) (flash : State K → (ℕ → K) → Option (State K))
    (hf : Flash y (fun fs => Mechanical y fs ∧ Pure y fs) flash) (energy : Bool) (problem : K) (old : ℕ → K) (fs : State K)
    (hd : Dense y fs) (hT : energy = false → fs.temperature = problem) (pv : ℕ → K)
    (hv : assignMassConservative y flash (fun s => some (immAssign y energy s old)) false fs = some pv) :
    SameContent y (immRead y energy problem pv) fs ∧ (immRead y energy problem pv).temperature = fs.temperature := by
  obtain ⟨fs', ⟨hm, hp⟩, ht, hc, hn⟩ := assign_spec y hf hv
  obtain rfl : immAssign y energy fs' old = pv := by simpa using hn
  refine ⟨fun c h => ?_, ?_⟩
  · rw [imm_read y hy energy problem old hm hp (fun h => ht.trans (hT h)) c h, hc c h, refresh_content y hd c h]
  · show (if energy then immAssign y energy fs' old y.phases else problem) = fs.temperature
    cases energy
    · exact (hT rfl).symm
    · simp only [if_true]
      unfold immAssign
      rw [if_neg (by have := hy.some; omega), if_neg (lt_irrefl _), if_pos ⟨rfl, rfl⟩, ht]

/-- **C187** The immiscible model, for states which are said to be in equilibrium: those which are in equilibrium keep their contents. -/
theorem C187_immiscible_equilibrium (y : System K) (hy : y.Local) (flash : State K → (ℕ → K) → Option (State K)) (energy : Bool)
    (problem : K) (old : ℕ → K) (fs : State K) (hm : Mechanical y fs) (hp : Pure y fs) (hT : energy = false → fs.temperature = problem) :
    ∃ pv, assignMassConservative y flash (fun s => some (immAssign y energy s old)) true fs = some pv ∧
      SameContent y (immRead y energy problem pv) fs :=
  ⟨_, rfl, imm_read y hy energy problem old hm hp hT⟩

/-! ### The NCP model -/

/-- The composition of a phase is determined by the fugacities, and the solver finds it. -/
structure Composes (y : System K) (compose : ℕ → K → K → (ℕ → K) → ℕ → K) : Prop where
  fugacities : ∀ i < y.phases, ∀ (T p : K) (x : ℕ → K), 0 < p → ∀ c < y.comps,
    compose i T p (fun c => y.fugacityCoefficient i T p x c * x c * p) c = x c
  ext : ∀ i < y.phases, ∀ (T p : K) (f g : ℕ → K), (∀ c < y.comps, f c = g c) → compose i T p f = compose i T p g

theorem ncp_read (y : System K) (hy : y.Local) {compose : ℕ → K → K → (ℕ → K) → ℕ → K} (hc : Composes y compose) {fs : State K}
    (old : ℕ → K) (hm : Mechanical y fs) (hx : Chemical y fs) (hpos : ∀ i < y.phases, 0 < fs.pres i) :
    SameContent y (ncpRead y compose fs.temperature (ncpAssign y fs old)) fs := by
  obtain ⟨h1, h2, h3, -⟩ := Ncp.C95_round_trip (ncpSizes y) hy.some (y.fugacityCoefficient 0 fs.temperature (fs.pres 0) (fs.frac 0))
    ⟨fs.sat, fs.pres, fs.frac⟩ 0 old (y.pc (Ncp.saturation (ncpSizes y) (ncpAssign y fs old))) hm.full (by
      have hsat := (Ncp.C95_round_trip (ncpSizes y) hy.some (y.fugacityCoefficient 0 fs.temperature (fs.pres 0) (fs.frac 0))
        ⟨fs.sat, fs.pres, fs.frac⟩ 0 old (y.pc fs.sat) hm.full hm.pressure).1
      intro i hi
      have e1 := hy.pc _ _ hsat i hi
      have e2 := hy.pc _ _ hsat 0 hy.some
      show fs.pres i = fs.pres 0 + (y.pc (Ncp.saturation (ncpSizes y) (ncpAssign y fs old)) i - y.pc (Ncp.saturation (ncpSizes y) (ncpAssign y fs old)) 0)
      rw [show y.pc (Ncp.saturation (ncpSizes y) (ncpAssign y fs old)) i = _ from e1,
        show y.pc (Ncp.saturation (ncpSizes y) (ncpAssign y fs old)) 0 = _ from e2]
      exact hm.pressure i hi)
  have hfrac : ∀ i < y.phases, ∀ c < y.comps, (ncpRead y compose fs.temperature (ncpAssign y fs old)).frac i c = fs.frac i c := by
    intro i hi c hcc
    show compose i fs.temperature (Ncp.pressure (ncpSizes y) _ (ncpAssign y fs old) i) _ c = _
    rw [show Ncp.pressure (ncpSizes y) (y.pc (Ncp.saturation (ncpSizes y) (ncpAssign y fs old))) (ncpAssign y fs old) i = fs.pres i from h2 i hi]
    have e : compose i fs.temperature (fs.pres i) (fun c => ncpAssign y fs old ((ncpSizes y).fug0 + c))
        = compose i fs.temperature (fs.pres i)
          (fun c => y.fugacityCoefficient i fs.temperature (fs.pres i) (fs.frac i) c * fs.frac i c * fs.pres i) :=
      hc.ext i hi _ _ _ _ fun d hd => (h3 d hd).trans (hx i hi d hd).symm
    rw [e]
    exact hc.fugacities i hi _ _ _ (hpos i hi) c hcc
  intro c hcc
  refine content_congr y c fun i hi => ⟨h1 i hi, hfrac i hi c hcc, ?_⟩
  show y.density i fs.temperature (Ncp.pressure (ncpSizes y) _ (ncpAssign y fs old) i) ((ncpRead y compose fs.temperature (ncpAssign y fs old)).frac i) = _
  rw [show Ncp.pressure (ncpSizes y) (y.pc (Ncp.saturation (ncpSizes y) (ncpAssign y fs old))) (ncpAssign y fs old) i = fs.pres i from h2 i hi,
    hm.dense i hi]
  exact hy.density i hi _ _ _ _ (hfrac i hi)

/-- **C187** The NCP model without energy equation: if the flash calculation does not fail, the cell contains the amounts of all
components of the given fluid state, whose densities are those of the fluid system.  Missing: as above. -/
theorem C187_ncp_partial (y : System K) (hy : y.Local) (compose : ℕ → K → K → (ℕ → K) → ℕ → K) (hc : Composes y compose)
    (flash : State K → (ℕ → K) → Option (State K)) (hf : Flash y (fun fs => Mechanical y fs ∧ Chemical y fs ∧ ∀ i < y.phases, 0 < fs.pres i) flash)
    (old : ℕ → K)
    (fs : State K) (hd : Dense y fs) (pv : ℕ → K)
    (hv : assignMassConservative y flash (fun s => some (ncpAssign y s old)) false fs = some pv) :
    SameContent y (ncpRead y compose fs.temperature pv) fs := by
  obtain ⟨fs', ⟨hm, hx, hpos⟩, ht, hcc, hn⟩ := assign_spec y hf hv
  obtain rfl : ncpAssign y fs' old = pv := by simpa using hn
  intro c h
  rw [← ht, ncp_read y hy hc old hm hx hpos c h, hcc c h, refresh_content y hd c h]

/-- **C187** The NCP model, for states which are said to be in equilibrium. -/
theorem C187_ncp_equilibrium (y : System K) (hy : y.Local) (compose : ℕ → K → K → (ℕ → K) → ℕ → K) (hc : Composes y compose)
    (flash : State K → (ℕ → K) → Option (State K)) (old : ℕ → K) (fs : State K) (hm : Mechanical y fs) (hx : Chemical y fs)
    (hpos : ∀ i < y.phases, 0 < fs.pres i) :
    ∃ pv, assignMassConservative y flash (fun s => some (ncpAssign y s old)) true fs = some pv ∧
      SameContent y (ncpRead y compose fs.temperature pv) fs :=
  ⟨_, rfl, ncp_read y hy hc old hm hx hpos⟩

/-! ### The flash model -/

/-- **C187** The flash model: the cell contains what the given state contains, whatever its densities, if the flash calculation does not
fail. -/
theorem C187_flash (y : System K) (good : State K → Prop) (flash : State K → (ℕ → K) → Option (State K)) (hf : Flash y good flash)
    (fs guess s : State K) (hr : flashRead flash guess (flashAssign y fs) = some s) : SameContent y s fs := by
  intro c hc
  rw [(hf _ _ _ hr).2.2 c hc]
  unfold flashAssign content State.molarity
  rw [foldl_add_sum, zero_add]
  exact Finset.sum_congr rfl fun i _ => mul_comm _ _

/-! ### Examples and limits -/

/-- Water, with ten moles per volume, and an ideal gas; the capillary pressure depends on the saturation of water; water evaporates and
gas dissolves. -/
def pair : System ℚ where
  phases := 2
  comps := 2
  density := fun i T p _ => if i = 0 then 10 else p / T
  pc := fun s i => if i = 0 then 0 else 2 * (1 - s 0)
  fugacityCoefficient := fun i _ _ _ c => if i = 0 then (if c = 0 then 1 / 4 else 4) else 1

instance (y : System ℚ) (fs : State ℚ) : Decidable (Dense y fs) := inferInstanceAs (Decidable (∀ i < y.phases, _))

instance (y : System ℚ) (fs : State ℚ) : Decidable (Pure y fs) := by unfold Pure; infer_instance

theorem pair_local : pair.Local where
  some := by decide
  pc := by
    intro s s' h i _
    simp only [pair]
    rw [h 0 (by decide)]
  density := fun _ _ _ _ _ _ _ => rfl

/-- Half of the pores is filled with water. -/
def calm : State ℚ where
  sat := fun _ => 1 / 2
  pres := fun i => if i = 0 then 100 else 101
  frac := fun i c => if c = i then 1 else 0
  molarDensity := fun i => if i = 0 then 10 else 101
  temperature := 1

/-- The same, but the pressures do not differ by the capillary pressure. -/
def odd : State ℚ := { calm with pres := fun i => if i = 0 then 200 else 101 }

theorem calm_mechanical : Mechanical pair calm where
  full := by decide +kernel
  pressure := by decide +kernel
  dense := by decide +kernel

theorem calm_pure : Pure pair calm := by decide +kernel

/-- A flash solver which knows one state -/
def knows (y : System ℚ) (s : State ℚ) (fs : State ℚ) (g : ℕ → ℚ) : Option (State ℚ) :=
  if fs.temperature = s.temperature ∧ ∀ c < y.comps, content y s c = g c then some s else none

theorem knows_flash (y : System ℚ) (s : State ℚ) (good : State ℚ → Prop) (h : good s) : Flash y good (knows y s) := by
  intro fs g fs' hf
  unfold knows at hf
  split at hf
  · next hc =>
    obtain rfl : s = fs' := by simpa using hf
    exact ⟨h, hc.1.symm, hc.2⟩
  · cases hf

example : Dense pair odd ∧ ¬ Mechanical pair odd ∧
    ∃ pv, assignMassConservative pair (knows pair calm) (fun s => some (immAssign pair false s fun _ => 0)) false odd = some pv ∧
      content pair (immRead pair false 1 pv) 0 = 5 ∧ content pair (immRead pair false 1 pv) 1 = 101 / 2 := by
  refine ⟨by decide +kernel, fun h => ?_, immAssign pair false calm fun _ => 0, ?_, by decide +kernel, by decide +kernel⟩
  · exact absurd (h.pressure 1 (by decide)) (by decide +kernel)
  · unfold assignMassConservative knows
    rw [if_neg (by decide)]
    dsimp only
    rw [if_pos ⟨rfl, by decide +kernel⟩]
    rfl

/-- "The cell contains what the state contains" is FALSE without energy equation for states with another temperature than that of
the problem, even in equilibrium. -/
theorem C187_temperature_violated : ∃ (y : System ℚ) (fs : State ℚ) (problem : ℚ), y.Local ∧ Mechanical y fs ∧ Pure y fs ∧
    ∀ flash, ∃ pv, assignMassConservative y flash (fun s => some (immAssign y false s fun _ => 0)) true fs = some pv ∧
      ¬ SameContent y (immRead y false problem pv) fs := by
  refine ⟨pair, calm, 2, pair_local, calm_mechanical, calm_pure, fun flash => ⟨_, rfl, fun h => ?_⟩⟩
  exact absurd (h 1 (by decide)) (by decide +kernel)

/-- "The cell contains what the state contains" is FALSE for states whose densities are not those of the fluid system, unlike in the
flash model: their densities are replaced. -/
theorem C187_density_violated : ∃ (y : System ℚ) (fs : State ℚ) (flash : State ℚ → (ℕ → ℚ) → Option (State ℚ)) (pv : ℕ → ℚ), y.Local ∧
    Flash y (fun fs => Mechanical y fs ∧ Pure y fs) flash ∧ Pure y fs ∧
    assignMassConservative y flash (fun s => some (immAssign y false s fun _ => 0)) false fs = some pv ∧
    content y (immRead y false fs.temperature pv) 0 = 5 ∧ content y fs 0 = 6 := by
  refine ⟨pair, { calm with molarDensity := fun i => if i = 0 then 12 else 101 }, knows pair calm, immAssign pair false calm fun _ => 0, pair_local,
    knows_flash _ _ _ ⟨calm_mechanical, calm_pure⟩, by decide +kernel, ?_, by decide +kernel, by decide +kernel⟩
  unfold assignMassConservative knows
  rw [if_neg (by decide)]
  dsimp only
  rw [if_pos ⟨rfl, by decide +kernel⟩]
  rfl

/-- "The cell contains what the state contains" is FALSE for states which are wrongly said to be in equilibrium. -/
theorem C187_equilibrium_violated : ∃ (y : System ℚ) (fs : State ℚ), y.Local ∧ Dense y fs ∧ Pure y fs ∧
    ∀ flash, ∃ pv, assignMassConservative y flash (fun s => some (immAssign y false s fun _ => 0)) true fs = some pv ∧
      ¬ SameContent y (immRead y false fs.temperature pv) fs := by
  refine ⟨pair, odd, pair_local, by decide +kernel, by decide +kernel, fun flash => ⟨_, rfl, fun h => ?_⟩⟩
  exact absurd (h 1 (by decide)) (by decide +kernel)

/-- "The cell contains what the state contains" is FALSE for the flash model with pressure and temperature, where
`assignMassConservative` is `assignNaive` (opm/models/ptflash/flashprimaryvariables.hh lines 99-108): whatever one makes of the variables,
there are states which contain something else. -/
theorem C187_ptflash_violated (read : (ℕ → ℚ) → ℕ → ℚ) : ∃ fs : PtFlash.FluidState ℚ,
    (∑ i ∈ Finset.range 2, fs.sat i = 1) ∧
      read (PtFlash.assignNaive ⟨0, 2⟩ 2 fs) 0 ≠ ∑ i ∈ Finset.range 2, fs.sat i * fs.molarity i 0 := by
  by_contra hc
  have h : ∀ fs : PtFlash.FluidState ℚ, (∑ i ∈ Finset.range 2, fs.sat i = 1) →
      read (PtFlash.assignNaive ⟨0, 2⟩ 2 fs) 0 = ∑ i ∈ Finset.range 2, fs.sat i * fs.molarity i 0 := by
    intro fs hs
    by_contra h
    exact hc ⟨fs, hs, h⟩
  have h1 := h ⟨fun _ _ => 1, fun _ => 1 / 2, fun _ => 1⟩ (by decide +kernel)
  have h2 := h ⟨fun _ _ => 2, fun _ => 1 / 2, fun _ => 1⟩ (by decide +kernel)
  have e : PtFlash.assignNaive (K := ℚ) ⟨0, 2⟩ 2 ⟨fun _ _ => 1, fun _ => 1 / 2, fun _ => 1⟩
      = PtFlash.assignNaive ⟨0, 2⟩ 2 ⟨fun _ _ => 2, fun _ => 1 / 2, fun _ => 1⟩ := by
    have hv : ∀ m : ℚ, m = 1 ∨ m = 2 → PtFlash.assignNaive (K := ℚ) ⟨0, 2⟩ 2 ⟨fun _ _ => m, fun _ => 1 / 2, fun _ => 1⟩
        = Function.update (Function.update (fun _ => 0) (PtFlash.Sizes.z0 ⟨0, 2⟩) (1 / 2)) (PtFlash.Sizes.pres0 ⟨0, 2⟩) 1 := by
      intro m hm
      have ha : (PtFlash.amounts 2 2 (⟨fun _ _ => m, fun _ => 1 / 2, fun _ => 1⟩ : PtFlash.FluidState ℚ)).1 0 /
          (PtFlash.amounts 2 2 (⟨fun _ _ => m, fun _ => 1 / 2, fun _ => 1⟩ : PtFlash.FluidState ℚ)).2 = 1 / 2 := by
        rcases hm with rfl | rfl <;> decide +kernel
      show Function.update (Function.update (fun _ => (0 : ℚ)) (PtFlash.Sizes.z0 ⟨0, 2⟩ + 0)
        ((PtFlash.amounts 2 2 (⟨fun _ _ => m, fun _ => 1 / 2, fun _ => 1⟩ : PtFlash.FluidState ℚ)).1 0 /
          (PtFlash.amounts 2 2 (⟨fun _ _ => m, fun _ => 1 / 2, fun _ => 1⟩ : PtFlash.FluidState ℚ)).2)) (PtFlash.Sizes.pres0 ⟨0, 2⟩) 1 = _
      rw [ha]
      rfl
    rw [hv 1 (.inl rfl), hv 2 (.inr rfl)]
  rw [e, h2] at h1
  exact absurd h1 (by decide +kernel)

end Verif.MassCons
