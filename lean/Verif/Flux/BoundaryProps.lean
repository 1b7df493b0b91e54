import Verif.Flux.Boundary
import Verif.Flux.TransProps
import Verif.Flux.ContentProps

set_option autoImplicit false
set_option linter.unusedSectionVars false
/-
C167: at free-flow boundaries fluids move and carry their contents as over faces between cells.
-/
namespace Verif.Flux

variable {K : Type} [Field K] [LinearOrder K] [IsStrictOrderedRing K]

/-! ### Specification -/

/-- The cell which the boundary condition describes: the prescribed fluid, with its centre on the boundary face. -/
def ghostCell (zFace : K) (o : Prescribed K) (volume : K) (index : ℕ) : Cell K :=
  ⟨volume, index, zFace, o.pressure, o.density, o.relPerm / o.viscosity⟩

/-- The extensive quantities of a face over which water and solvent leave the cell. -/
def leaving (waterFlux solventFlux : K) : Extend.Ext K :=
  ⟨⟨waterFlux, false⟩, ⟨0, false⟩, ⟨0, false⟩, ⟨solventFlux, false⟩, 1, 1⟩

/-- The extensive quantities of a face over which water and solvent enter the cell. -/
def entering (waterFlux solventFlux : K) : Extend.Ext K :=
  ⟨⟨waterFlux, true⟩, ⟨0, true⟩, ⟨0, true⟩, ⟨solventFlux, true⟩, 1, 1⟩

/-! ### The fluxes of the phases -/

/-- **C167** The flux over a boundary face is the one to a cell which contains the prescribed fluid and has its centre on the
face, whatever volume and index that cell has. -/
theorem C167_flux (g trans zFace volume : K) (index : ℕ) (a : Cell K) (o : Prescribed K) (ha : 0 ≤ a.mobility)
    (ho : 0 ≤ o.relPerm / o.viscosity) :
    transBoundaryFlux g trans zFace a o = (transFlux g trans a (ghostCell zFace o volume index)).2 := by
  have hd : boundaryDifference g zFace a o = pressureDifference g a (ghostCell zFace o volume index) := rfl
  unfold transBoundaryFlux outsideUpstream transFlux
  rw [hd]
  by_cases hm : a.mobility ≤ 0 ∧ (ghostCell zFace o volume index).mobility ≤ 0
  · rw [if_pos hm]
    have e1 : a.mobility = 0 := le_antisymm hm.1 ha
    have e2 : o.relPerm / o.viscosity = 0 := le_antisymm hm.2 ho
    simp [e1, e2]
  · rw [if_neg hm]
    rcases lt_trichotomy (pressureDifference g a (ghostCell zFace o volume index)) 0 with h | h | h
    · rw [exteriorUpstream_neg h]; simp [not_lt.2 h.le]
    · simp [h]
    · rw [exteriorUpstream_pos h, decide_eq_true h]; rfl

/-- **C167** Nothing flows if cell and boundary differ by the weight of the fluid between them. -/
theorem C167_hydrostatic (g trans zFace : K) (a : Cell K) (o : Prescribed K)
    (h : o.pressure - a.pressure = (a.density + o.density) / 2 * (g * (zFace - a.z))) : transBoundaryFlux g trans zFace a o = 0 := by
  have hz : boundaryDifference g zFace a o = 0 := by
    have : o.pressure = a.pressure + (a.density + o.density) / 2 * (g * (zFace - a.z)) := by linarith
    unfold boundaryDifference; rw [this]; ring
  unfold transBoundaryFlux; simp [hz]

/-- **C167** Otherwise the fluid flows down the potential, with the mobility of the side it comes from. -/
theorem C167_direction (g trans zFace : K) (a : Cell K) (o : Prescribed K) :
    (o.pressure - a.pressure < (a.density + o.density) / 2 * (g * (zFace - a.z)) →
      transBoundaryFlux g trans zFace a o =
        trans * a.mobility * ((a.density + o.density) / 2 * (g * (zFace - a.z)) - (o.pressure - a.pressure))) ∧
    ((a.density + o.density) / 2 * (g * (zFace - a.z)) < o.pressure - a.pressure →
      transBoundaryFlux g trans zFace a o =
        - (trans * (o.relPerm / o.viscosity) * ((o.pressure - a.pressure) - (a.density + o.density) / 2 * (g * (zFace - a.z))))) := by
  have e : boundaryDifference g zFace a o = (o.pressure - a.pressure) - (a.density + o.density) / 2 * (g * (zFace - a.z)) := by
    unfold boundaryDifference; ring
  unfold transBoundaryFlux outsideUpstream
  rw [e]
  constructor <;> intro h
  · rw [if_neg (by simp; linarith)]; ring
  · rw [if_pos (by simp; linarith)]; ring

-- water enters at the top of a column although its pressure is lower there
example : transBoundaryFlux (-10) 2 1 (⟨1, 0, 0, 100, 1, 3⟩ : Cell ℚ) ⟨95, 1, 1, 2⟩ = -5 := by decide +kernel
example : transBoundaryFlux (-10) 2 1 (⟨1, 0, 0, 110, 1, 3⟩ : Cell ℚ) ⟨95, 1, 1, 2⟩ = 30 := by decide +kernel
example : transBoundaryFlux (-10) 2 1 (⟨1, 0, 0, 105, 1, 3⟩ : Cell ℚ) ⟨95, 1, 1, 2⟩ = 0 := by decide +kernel

/-! ### The components -/

/-- **C167** Without gravity, or if the boundary face is at the height of the centre of the cell, the rates of the components
are the fluxes of the phases times the contents of the side they come from, if surface volumes are conserved.  Missing for the
full property: gravity, see `C167_gravity_violated`, and conservation of mass, see `C86_mass_violated`. -/
theorem C167_components_partial (o : Options) (hsv : o.conserveSurfaceVolume = true) (ref : Phase → K) (g trans zFace : K)
    (cell : Phase → Cell K) (out : Phase → Prescribed K) (inside outside : Fluid K) (c : Phase) (hc : o.active c = true)
    (hg : ∀ p, g * (zFace - (cell p).z) = 0) (ht : 0 ≤ trans) (hi : ∀ p, 0 ≤ (cell p).mobility)
    (ho : ∀ p, 0 ≤ (out p).relPerm / (out p).viscosity) :
    transFreeFlowRates o ref g trans zFace cell out inside outside c =
      expectedRate o ref (fun p => transBoundaryFlux g trans zFace (cell p) (out p)) inside outside c := by
  have key : ∀ p, (0 < transBoundaryFlux g trans zFace (cell p) (out p) → (out p).pressure < (cell p).pressure) ∧
      (transBoundaryFlux g trans zFace (cell p) (out p) < 0 → (cell p).pressure < (out p).pressure) := by
    intro p
    obtain ⟨h1, h2⟩ := C167_direction g trans zFace (cell p) (out p)
    rw [hg p] at h1 h2
    simp only [mul_zero, sub_zero, zero_sub, neg_sub] at h1 h2
    rcases lt_trichotomy ((out p).pressure) ((cell p).pressure) with h | h | h
    · refine ⟨fun _ => h, fun hf => absurd hf (not_lt.2 ?_)⟩
      rw [h1 (by linarith)]
      exact mul_nonneg (mul_nonneg ht (hi p)) (by linarith)
    · have := C167_hydrostatic g trans zFace (cell p) (out p) (by rw [hg p]; simp [h])
      rw [this]; simp
    · refine ⟨fun hf => absurd hf (not_lt.2 ?_), fun _ => h⟩
      rw [h2 (by linarith)]
      exact neg_nonpos.2 (mul_nonneg (mul_nonneg ht (ho p)) (by linarith))
  exact C86_boundary_partial o hsv ref _ _ _ inside outside c hc (fun p => (key p).1) (fun p => (key p).2)

example : transFreeFlowRates (threePhase true) someDensities (-10) 2 0 (fun _ => (⟨1, 0, 0, 100, 1, 3⟩ : Cell ℚ)) (fun _ => ⟨95, 1, 1, 2⟩)
    someFluid someFluid .gas = 30 * (100 + 4/5 * 50) := by decide +kernel

/-- "What enters over a free-flow boundary is the prescribed fluid" is FALSE with gravity: water flows in through the top of the
domain, its pressure is lower there, and the content is taken from the cell. -/
theorem C167_gravity_violated :
    ∃ (cell : Cell ℚ) (out : Prescribed ℚ) (outside : Fluid ℚ),
      transBoundaryFlux (-10) 2 1 cell out < 0 ∧
      transFreeFlowRates (threePhase true) someDensities (-10) 2 1 (fun _ => cell) (fun _ => out) someFluid outside .gas ≠
        expectedRate (threePhase true) someDensities (fun _ => transBoundaryFlux (-10) 2 1 cell out) someFluid outside .gas :=
  ⟨⟨1, 0, 0, 100, 1, 3⟩, ⟨95, 1, 1, 2⟩, { someFluid with rs := 0 }, by decide +kernel, by decide +kernel⟩

/-! ### The substances of the additional modules -/

/-- **C167** What leaves the domain with the water and the solvent is what leaves the cell over a face to another cell: microbes,
oxygen, urea and solvent, if the latter is not soluble in water.  Missing for the full property: polymer, salt, foam and z
fraction, dissolved solvent, and water which enters, see the theorems below. -/
theorem C167_leaving_partial (sv : Bool) (solventFlux waterFlux : K) (inside outside : Extend.Iq K) :
    let r := freeFlowModules sv solventFlux waterFlux inside
    let e := leaving waterFlux solventFlux
    r.solvent = Extend.solventFlux sv false e inside outside ∧
    r.microbes = Extend.micpFlux e inside outside .microbes ∧ r.oxygen = Extend.micpFlux e inside outside .oxygen ∧
    r.urea = Extend.micpFlux e inside outside .urea := by
  refine ⟨?_, rfl, rfl, rfl⟩
  cases sv <;> simp [freeFlowModules, Extend.solventFlux, leaving, Extend.PhaseFlux.up]

/-- "Water which enters the domain brings what is dissolved in it outside" is FALSE: what enters is what the cell contains,
whatever is outside of the domain; clean water brings microbes, oxygen, urea and polymer into every cell which contains them
already, although nothing would come with it from a cell without them. -/
theorem C167_entering_violated (sv : Bool) (waterFlux : K) (hw : waterFlux < 0) (inside outside : Extend.Iq K)
    (hin : 0 < inside.polymerConcentration ∧ 0 < inside.microbes ∧ 0 < inside.oxygen ∧ 0 < inside.urea)
    (hout : outside.polymerConcentration = 0 ∧ outside.microbes = 0 ∧ outside.oxygen = 0 ∧ outside.urea = 0) :
    let r := freeFlowModules sv 0 waterFlux inside
    let e := entering waterFlux 0
    (r.polymer < 0 ∧ (Extend.polymerFlux 0 e inside outside).2.1 = 0) ∧
    (r.microbes < 0 ∧ Extend.micpFlux e inside outside .microbes = 0) ∧
    (r.oxygen < 0 ∧ Extend.micpFlux e inside outside .oxygen = 0) ∧
    (r.urea < 0 ∧ Extend.micpFlux e inside outside .urea = 0) := by
  obtain ⟨h1, h2, h3, h4⟩ := hin
  obtain ⟨k1, k2, k3, k4⟩ := hout
  refine ⟨⟨mul_neg_of_neg_of_pos hw h1, ?_⟩, ⟨mul_neg_of_neg_of_pos hw h2, ?_⟩, ⟨mul_neg_of_neg_of_pos hw h3, ?_⟩,
    ⟨mul_neg_of_neg_of_pos hw h4, ?_⟩⟩ <;>
  simp [Extend.polymerFlux, Extend.micpFlux, Extend.Micp.mobile, Extend.Iq.micp, entering, Extend.PhaseFlux.up, *]

/-- A cell with polymer, microbes, salt, foam and dissolved solvent. -/
def richCell : Extend.Iq ℚ :=
  ⟨1/4, 1/2, 1/4, 1/4, 9/10, 4/5, 100, 50, 1000, 1/10, 90, 2, 3, 1/2, 1/3, 1/5, 2, 1/10, 2000, 1/100, 7/10, 3, 5, 2000, 1/10, 35, 0, 2000,
    1, 2, 3, 1/100, 1/100⟩

/-- The same cell with clean water. -/
def cleanCell : Extend.Iq ℚ := { richCell with polymerConcentration := 0, microbes := 0, oxygen := 0, urea := 0 }

example := C167_entering_violated true (-2) (by norm_num) richCell cleanCell (by decide +kernel) (by decide +kernel)

/-- "Water which leaves the domain takes its salt with it" is FALSE: the rates of salt, foam and z fraction are zero whatever
flows and whatever the cell contains, so that the salt stays behind. -/
theorem C167_salt_violated (sv : Bool) (solventFlux waterFlux : K) (inside outside : Extend.Iq K) :
    let r := freeFlowModules sv solventFlux waterFlux inside
    r.salt = 0 ∧ r.foam = 0 ∧ r.zFraction = 0 ∧
    (0 < waterFlux → 0 < inside.invBWater → 0 < inside.saltConcentration →
      0 < Extend.brineFlux (leaving waterFlux solventFlux) inside outside) ∧
    (0 < waterFlux → 0 < inside.invBWater → 0 < inside.foamConcentration →
      0 < Extend.foamFlux .water (leaving waterFlux solventFlux) inside outside) := by
  refine ⟨rfl, rfl, rfl, fun h1 h2 h3 => ?_, fun h1 h2 h3 => ?_⟩
  · exact mul_pos (mul_pos h1 h2) h3
  · exact mul_pos (mul_pos h1 h2) h3

example : 0 < Extend.brineFlux (leaving 2 0) richCell cleanCell := by decide +kernel

/-- "Water which leaves the domain takes as much polymer as it would take over a face to another cell" is FALSE: the formation
volume factor and the mixing of water and polymer are ignored; and the solvent which is dissolved in the water stays behind. -/
theorem C167_polymer_violated :
    ∃ inside : Extend.Iq ℚ,
      (freeFlowModules true 0 2 inside).polymer ≠ (Extend.polymerFlux 0 (leaving 2 0) inside inside).2.1 ∧
      (freeFlowModules true 0 2 inside).solvent ≠ Extend.solventFlux true true (leaving 2 0) inside inside :=
  ⟨richCell, by decide +kernel, by decide +kernel⟩

end Verif.Flux
