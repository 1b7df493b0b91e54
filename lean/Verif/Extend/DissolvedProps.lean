import Verif.Extend.Dissolved
import Verif.Extend.QuantitiesProps

set_option autoImplicit false
set_option linter.unusedSectionVars false
set_option linter.unusedSimpArgs false
/-
C174: density and mobility of water with dissolved solvent.
-/
namespace Verif.Extend.IQ

open Verif.Flux (Phase Options Fluid sumActive computeStorage)

variable {K : Type} [Field K] [LinearOrder K] [IsStrictOrderedRing K]

/-! ### Specification -/

/-- The solvent of the deck dissolves in water: CO2 or H2. -/
def SolventPvt.dissolves (s : SolventPvt K) : Bool := s.co2Sol || s.h2Sol

/-- The PVT relations of brine with the solvent of the deck. -/
def SolventPvt.brine (s : SolventPvt K) : BrinePvt K := if s.co2Sol then s.brineCo2 else s.brineH2

/-- The PVT relations of the solvent of the deck. -/
def SolventPvt.gas (s : SolventPvt K) : GasPvt K := if s.co2Sol then s.co2Gas else if s.h2Sol then s.h2Gas else s.solvent

/-- All relations agree on what the mass of a volume at surface conditions is. -/
structure SameReference (s : SolventPvt K) (ref : Phase → K) : Prop where
  water : s.dissolves → s.brine.waterRefDensity = ref .water
  gas : s.dissolves → s.brine.gasRefDensity = s.gas.refDensity

/-! ### What the update does -/

theorem pvtUpdate_solvent (s : SolventPvt K) (visc : Fluid K → K) (T p : K) (c : Cell K) :
    (pvtUpdate s visc T p c).solventInvB = s.gas.invB T p 0 0 ∧ (pvtUpdate s visc T p c).solventRefDensity = s.gas.refDensity ∧
    (pvtUpdate s visc T p c).solventViscosity = s.gas.viscosity T p 0 0 ∧
    (pvtUpdate s visc T p c).solventDensity = s.gas.invB T p 0 0 * s.gas.refDensity ∧
    (pvtUpdate s visc T p c).solventMobility = c.solventMobility / s.gas.viscosity T p 0 0 ∧
    (pvtUpdate s visc T p c).solventSaturation = c.solventSaturation ∧ (pvtUpdate s visc T p c).rsSolw = c.rsSolw := by
  unfold pvtUpdate SolventPvt.gas
  cases s.co2Sol <;> cases s.h2Sol <;> simp [waterUpdate, gasUpdate]

theorem pvtUpdate_water (s : SolventPvt K) (h : s.dissolves) (visc : Fluid K → K) (T p : K) (c : Cell K) :
    let c' := pvtUpdate s visc T p c
    let bw := s.brine.invB T p c.rsSolw
    c'.fs = { c.fs with invB := fun q => if q = .water then bw else c.fs.invB q } ∧
    c'.density = (fun q => if q = .water then bw * s.brine.waterRefDensity + c.rsSolw * bw * s.brine.gasRefDensity else c.density q) ∧
    c'.mobilities.directional = c.mobilities.directional ∧
    c'.mobilities.plain = fun q => if q = .water then c.mobilities.plain q * (visc c'.fs / s.brine.viscosity T p c.rsSolw)
      else c.mobilities.plain q := by
  unfold SolventPvt.dissolves at h
  unfold pvtUpdate SolventPvt.brine
  cases h1 : s.co2Sol <;> cases h2 : s.h2Sol <;> simp [h1, h2, waterUpdate, gasUpdate] at h ⊢

theorem storage_mass (o : Options) (ref : Phase → K) (phi : K) (fs : Fluid K) (h : o.conserveSurfaceVolume = true) :
    sumActive o (fun c => ref c * computeStorage o ref phi fs c)
      = sumActive o (computeStorage { o with conserveSurfaceVolume := false } ref phi fs) := by
  obtain ⟨act, dg, dgw, vo, vw, sv, tp⟩ := o
  simp only at h
  subst h
  have e : ∀ (l : List Phase) (st : Flux.Amounts K), l.foldl (Flux.storagePhase ⟨act, dg, dgw, vo, vw, false, tp⟩ phi fs) st
      = l.foldl (Flux.storagePhase ⟨act, dg, dgw, vo, vw, true, tp⟩ phi fs) st := fun l st => rfl
  simp only [sumActive, computeStorage, e]
  generalize List.foldl _ _ _ = v
  simp only [Phase.all, List.map_cons, List.map_nil, List.sum_cons, List.sum_nil, Flux.adapt]
  by_cases hw : act .water = true <;> by_cases ho : act .oil = true <;> by_cases hg : act .gas = true <;>
    simp [hw, ho, hg, Flux.Amounts.set, mul_comm]

/-! ### Mass -/

/-- **C174** The densities are the ones which the equations know, with solvent in its own "phase" and dissolved in water: the volumes at
surface conditions which are stored in a cell, times the masses of these volumes, are the volumes in the pores times the densities.  The
gas does not dissolve in water (it is not allowed together with the solvent), and if the solvent does not, then there is none in the
water. -/
theorem C174_density_partial (o : Options) (ho : o.conserveSurfaceVolume = true) (hc : Coherent o) (hg : o.dissolvedGasInWater = false)
    (hw : o.active .water = true) (s : SolventPvt K) (soluble : Bool) (ref : Phase → K) (hr : SameReference s ref)
    (visc : Fluid K → Phase → K) (kr : Mobilities K) (krs ss rsSolw T p phi : K) (fs : Fluid K) (q0 : Iq K)
    (hsol : soluble = true → s.dissolves) (hrs : soluble = false → rsSolw = 0) :
    let c := pvtUpdate s (fun fs => visc fs .water) T p (cellBefore o ref visc kr krs ss rsSolw fs)
    sumActive o (fun k => ref k * computeStorage o ref phi c.fs k) + c.solventRefDensity * solventStorage true soluble (c.iq q0 phi)
      = sumActive o (fun k => phi * c.fs.saturation k * c.density k) + phi * c.solventSaturation * c.solventDensity := by
  intro c
  have hcoh : Coherent { o with conserveSurfaceVolume := false } := ⟨hc.1, hc.2, hc.3, hc.4⟩
  have key : sumActive o (computeStorage { o with conserveSurfaceVolume := false } ref phi c.fs)
      = sumActive o fun k => phi * c.fs.saturation k * density o ref c.fs k :=
    C130_density { o with conserveSurfaceVolume := false } rfl hcoh ref phi c.fs
  rw [storage_mass o ref phi _ ho, key]
  obtain ⟨e1, e2, -, e4, -, e5, e6⟩ := pvtUpdate_solvent s (fun fs => visc fs .water) T p (cellBefore o ref visc kr krs ss rsSolw fs)
  change c.solventInvB = _ at e1
  change c.solventRefDensity = _ at e2
  change c.solventDensity = _ at e4
  change c.solventSaturation = _ at e5
  change c.rsSolw = _ at e6
  simp only [solventStorage, Cell.iq, if_true, e1, e2, e4, e5, e6]
  simp only [cellBefore]
  by_cases hd : s.dissolves
  · obtain ⟨w1, w2, -, -⟩ := pvtUpdate_water s hd (fun fs => visc fs .water) T p (cellBefore o ref visc kr krs ss rsSolw fs)
    change c.fs = _ at w1
    change c.density = _ at w2
    rw [w1, w2, hr.water hd, hr.gas hd]
    obtain ⟨act, dg, dgw, vo, vw, sv, tp⟩ := o
    simp only at ho hg hw
    subst hg
    simp only [sumActive, Phase.all, List.map_cons, List.map_nil, List.sum_cons, List.sum_nil, hw, if_true, cellBefore, density]
    cases soluble
    · rw [hrs rfl]; simp; ring
    · simp; cases act .oil <;> cases act .gas <;> simp <;> ring
  · have hs : soluble = false := by
      cases h : soluble with
      | false => rfl
      | true => exact absurd (hsol h) hd
    have hfs : c.fs = fs ∧ c.density = density o ref fs := by
      have hd' : s.co2Sol = false ∧ s.h2Sol = false := by simpa [SolventPvt.dissolves] using hd
      change (pvtUpdate s _ T p _).fs = fs ∧ (pvtUpdate s _ T p _).density = _
      unfold pvtUpdate
      simp [hd'.1, hd'.2, gasUpdate, cellBefore]
    rw [hfs.1, hfs.2, hs]
    simp only [Bool.false_eq_true, if_false, add_zero]
    ring

/-- A deck with CO2: a litre of water at surface conditions is one kilogram and shrinks to half of its volume in the reservoir, however much CO2 it
holds; CO2 is ten times as dense in the reservoir as at the surface, and doubles the viscosity of the water. -/
def co2Deck : SolventPvt ℚ where
  co2Sol := true
  h2Sol := false
  solvent := ⟨fun _ _ _ _ => 1, 1, fun _ _ _ _ => 1⟩
  co2Gas := ⟨fun _ _ _ _ => 10, 2, fun _ _ _ _ => 1 / 2⟩
  brineCo2 := ⟨fun _ _ _ => 2, 1000, 2, fun _ _ _ => 2⟩
  h2Gas := ⟨fun _ _ _ _ => 1, 1, fun _ _ _ _ => 1⟩
  brineH2 := ⟨fun _ _ _ => 1, 1, 1, fun _ _ _ => 1⟩

/-- Three phases, gas dissolves in oil only. -/
def co2Options (surface : Bool) : Options := ⟨fun _ => true, true, false, false, false, surface, true⟩

/-- A cell of that deck, with a fifth of the pores filled by free CO2 and three litres of CO2 dissolved in each litre of water. -/
def co2Cell : Cell ℚ :=
  pvtUpdate co2Deck (fun _ => 1) 300 100
    (cellBefore (co2Options true) (fun q => if q = .water then 1000 else 800) (fun _ _ => 1) ⟨fun _ => 1, none⟩ (1 / 2) (1 / 5) 3
      ⟨fun q => if q = .water then 2 / 5 else 1 / 5, fun _ => 1, 1, 0, 0, 0⟩)

/-- The hypotheses can be met. -/
example : Coherent (co2Options true) ∧ SameReference co2Deck (fun q => if q = .water then 1000 else 800) ∧ co2Deck.dissolves = true ∧
    co2Cell.density .water = 2012 ∧ co2Cell.solventDensity = 20 :=
  ⟨⟨fun _ _ => rfl, fun _ _ => rfl, fun _ _ => rfl, fun _ _ => rfl⟩, ⟨fun _ => rfl, fun _ => rfl⟩, rfl, by decide +kernel, by decide +kernel⟩

/-- **C174** (violated) If the equations are for masses, dissolved solvent counts with the density of the water: the masses which are stored are not the
volumes times the densities.  A litre of pores, full of water which holds three litres of CO2 at surface conditions, each of two grams … -/
theorem C174_mass_violated : ∃ (c : Cell ℚ) (fs : Fluid ℚ) (ref : Phase → ℚ),
    c = pvtUpdate co2Deck (fun _ => 1) 300 100 (cellBefore (co2Options false) ref (fun _ _ => 1) ⟨fun _ => 1, none⟩ 0 0 3 fs) ∧
    SameReference co2Deck ref ∧ c.solventSaturation = 0 ∧ c.density .water = 2012 ∧ fs.saturation .water = 1 ∧
    sumActive (co2Options false) (fun k => 1 * c.fs.saturation k * c.density k) + 1 * c.solventSaturation * c.solventDensity = 2012 ∧
    ∀ q0 : Iq ℚ, sumActive (co2Options false) (computeStorage (co2Options false) ref 1 c.fs) + solventStorage false true (c.iq q0 1) = 2000 + 3 * 2012 := by
  refine ⟨_, ⟨fun q => if q = .water then 1 else 0, fun _ => 1, 1, 0, 0, 0⟩, fun q => if q = .water then 1000 else 800, rfl,
    ⟨fun _ => rfl, fun _ => rfl⟩, rfl, by decide +kernel, rfl, by decide +kernel, fun q0 => ?_⟩
  simp only [solventStorage, Cell.iq]
  decide +kernel

/-! ### Flow -/

/-- **C174** The mobility of water with dissolved solvent is its relative permeability divided by the viscosity of that water, at every face, if
permeabilities are not directional and the viscosity of the fluid system (without solvent) does not depend on the formation volume factor; that of
the solvent is its relative permeability divided by its viscosity; oil and gas are not affected. -/
theorem C174_mobility_partial (o : Options) (hw : o.active .water = true) (s : SolventPvt K) (hd : s.dissolves) (ref : Phase → K)
    (visc : Fluid K → Phase → K) (hv : ∀ fs (b : Phase → K), visc { fs with invB := b } .water = visc fs .water)
    (kr : Mobilities K) (hkr : kr.directional = none) (krs ss rsSolw T p : K) (fs : Fluid K) (hpos : visc fs .water ≠ 0) (dir : FaceDir) :
    let c := pvtUpdate s (fun fs => visc fs .water) T p (cellBefore o ref visc kr krs ss rsSolw fs)
    mobility c.mobilities .water dir = some (kr.plain .water / s.brine.viscosity T p rsSolw) ∧
    (∀ q, q ≠ .water → mobility c.mobilities q dir = mobility (divide (visc fs) o.active kr) q dir) ∧
    c.solventMobility = krs / s.gas.viscosity T p 0 0 := by
  intro c
  obtain ⟨-, -, -, -, e5, -⟩ := pvtUpdate_solvent s (fun fs => visc fs .water) T p (cellBefore o ref visc kr krs ss rsSolw fs)
  obtain ⟨w1, -, w3, w4⟩ := pvtUpdate_water s hd (fun fs => visc fs .water) T p (cellBefore o ref visc kr krs ss rsSolw fs)
  change c.solventMobility = _ at e5
  change c.fs = _ at w1
  change c.mobilities.directional = _ at w3
  change c.mobilities.plain = fun q => if q = .water then _ * (visc c.fs .water / _) else _ at w4
  have hn : c.mobilities.directional = none := by rw [w3]; simp [cellBefore, divide, hkr]
  have hvis : visc c.fs .water = visc fs .water := by rw [w1]; exact hv _ _
  refine ⟨?_, fun q hq => ?_, e5⟩
  · simp only [mobility, hn, w4, if_true, hvis, cellBefore, divide, hw]
    congr 1
    field_simp
  · simp only [mobility, hn, w4, if_neg hq, cellBefore, divide, hkr, Option.map_none]

/-- In the cell above the water is half as mobile as without the CO2, and the CO2 flows. -/
example : mobility co2Cell.mobilities .water .xPlus = some (1 / 2) ∧ co2Cell.solventMobility = 1 := by decide +kernel

/-- **C174** (violated) With directional permeabilities the dissolved solvent does not change the flow of the water at any face. -/
theorem C174_directional_violated (o : Options) (s : SolventPvt K) (hd : s.dissolves) (ref : Phase → K)
    (visc : Fluid K → Phase → K) (kr : Mobilities K) (hkr : kr.directional ≠ none) (krs ss rsSolw T p : K) (fs : Fluid K) (dir : FaceDir) :
    let c := pvtUpdate s (fun fs => visc fs .water) T p (cellBefore o ref visc kr krs ss rsSolw fs)
    mobility c.mobilities .water dir = mobility (divide (visc fs) o.active kr) .water dir := by
  intro c
  obtain ⟨-, -, w3, -⟩ := pvtUpdate_water s hd (fun fs => visc fs .water) T p (cellBefore o ref visc kr krs ss rsSolw fs)
  change c.mobilities.directional = (divide (visc fs) o.active kr).directional at w3
  cases h : (divide (visc fs) o.active kr).directional with
  | none => simp [divide] at h; exact absurd h hkr
  | some d => simp only [mobility, w3, h]

/-- Water in which CO2 is dissolved flows as pure water does, which has half of its viscosity. -/
example : mobility (pvtUpdate co2Deck (fun _ => 1) 300 100
    (cellBefore (co2Options true) (fun _ => 1000) (fun _ _ => 1) ⟨fun _ => 1, some fun _ _ => 1⟩ 0 0 3
      ⟨fun _ => 1, fun _ => 1, 1, 0, 0, 0⟩)).mobilities .water .xPlus = some 1 := by decide +kernel

/-- **C174** A solvent which is neither CO2 nor H2 does not change the water: neither density nor flow. -/
theorem C174_inert (s : SolventPvt K) (h : s.dissolves = false) (visc : Fluid K → K) (T p : K) (c : Cell K) :
    (pvtUpdate s visc T p c).fs = c.fs ∧ (pvtUpdate s visc T p c).density = c.density ∧
    (pvtUpdate s visc T p c).mobilities = c.mobilities ∧
    (pvtUpdate s visc T p c).solventDensity = s.solvent.invB T p 0 0 * s.solvent.refDensity ∧
    (pvtUpdate s visc T p c).solventMobility = c.solventMobility / s.solvent.viscosity T p 0 0 := by
  have h' : s.co2Sol = false ∧ s.h2Sol = false := by simpa [SolventPvt.dissolves] using h
  unfold pvtUpdate
  simp [h'.1, h'.2, gasUpdate]

example : SolventPvt.dissolves { co2Deck with co2Sol := false } = false := rfl

end Verif.Extend.IQ
