import Verif.Extend.Quantities
import Verif.Flux.ContentProps
import Mathlib.Tactic.Ring
import Mathlib.Tactic.Linarith
import Mathlib.Tactic.NormNum
import Mathlib.Tactic.FieldSimp
import Mathlib.Tactic.Positivity
import Mathlib.Tactic.FinCases
import Mathlib.Algebra.Order.Ring.Rat

set_option autoImplicit false
set_option linter.unusedSectionVars false
set_option linter.unusedSimpArgs false
/-
C130: mobilities, densities and porosity of the black-oil model.
-/
namespace Verif.Extend.IQ

open Verif.Flux (Phase Options Fluid sumActive computeStorage C88_storage perVolume ratio)

variable {K : Type} [Field K] [LinearOrder K] [IsStrictOrderedRing K]

/-! ### Specification -/

/-- The axis of a face. -/
def axis : FaceDir → Option (Fin 3)
  | .xMinus | .xPlus => some 0
  | .yMinus | .yPlus => some 1
  | .zMinus | .zPlus => some 2
  | .unknown => none

/-- Relative permeability for flow in the direction of a face: the directional one if there are such, else the common one. -/
def krOf (kr : Mobilities K) (p : Phase) (dir : FaceDir) : Option K :=
  match kr.directional, axis dir with
  | none, _ => some (kr.plain p)
  | some d, some a => some (d a p)
  | some _, none => none

/-- Components which dissolve or evaporate belong to active phases. -/
structure Coherent (o : Options) : Prop where
  dissolvedGas : o.dissolvedGas = true → o.active .oil = true → o.active .gas = true
  dissolvedGasInWater : o.dissolvedGasInWater = true → o.active .water = true → o.active .gas = true
  vaporizedOil : o.vaporizedOil = true → o.active .gas = true → o.active .oil = true
  vaporizedWater : o.vaporizedWater = true → o.active .gas = true → o.active .water = true

/-! ### Mobilities -/

/-- **C130** Without additional modules, the mobility of an active phase at any face is the relative permeability of its direction
divided by the viscosity, and an unknown direction is only an error if there are directional permeabilities. -/
theorem C130_mobility (visc : Phase → K) (active : Phase → Bool) (kr : Mobilities K) (p : Phase) (hp : active p = true) (dir : FaceDir) :
    mobility (divide visc active kr) p dir = (krOf kr p dir).map (· / visc p) := by
  obtain ⟨plain, d⟩ := kr
  cases d with
  | none => simp [mobility, divide, krOf, hp]
  | some d => cases dir <;> simp [mobility, divide, krOf, axis, hp]

example : mobility (divide (fun _ => (2 : ℚ)) (fun _ => true) ⟨fun _ => 1, some fun i _ => i.val⟩) .oil .zPlus = some 1 := by
  simp [mobility, divide]

/-- **C130** Modules which change the flow of a phase change it at every face, if permeabilities are not directional, … -/
theorem C130_correction_partial (factor : Phase → K) (m : Mobilities K) (h : m.directional = none) (p : Phase) (dir : FaceDir) :
    mobility (correct factor m) p dir = (mobility m p dir).map (· * factor p) := by
  simp [mobility, correct, h]

/-- **C130** (violated) … but have no effect at any face if they are. -/
theorem C130_directional_violated (factor : Phase → K) (m : Mobilities K) (h : m.directional ≠ none) (p : Phase) (dir : FaceDir) :
    mobility (correct factor m) p dir = mobility m p dir := by
  cases hd : m.directional with
  | none => exact absurd hd h
  | some d => simp [mobility, correct, hd]

/-- A polymer solution which blocks water entirely: the water still flows. -/
example : mobility (correct (fun _ => 0) ⟨fun _ => (1 : ℚ), some fun _ _ => 1⟩) .water .xPlus = some 1 := rfl

/-- **C130** The relative permeability which a cell reports is the one of the material law, without additional modules; … -/
theorem C130_relperm_partial (visc : Phase → K) (active : Phase → Bool) (kr : Mobilities K) (p : Phase) (hp : active p = true)
    (hv : visc p ≠ 0) : relativePermeability visc (divide visc active kr) p = kr.plain p := by
  simp only [relativePermeability, divide, hp, if_true]
  field_simp

/-- **C130** (violated) … with them it is wrong by their factor. -/
theorem C130_relperm_violated (visc : Phase → K) (active : Phase → Bool) (kr : Mobilities K) (factor : Phase → K) (p : Phase)
    (hp : active p = true) (hv : visc p ≠ 0) (hk : kr.plain p ≠ 0) (hf : factor p ≠ 1) :
    relativePermeability visc (correct factor (divide visc active kr)) p = kr.plain p * factor p ∧
    relativePermeability visc (correct factor (divide visc active kr)) p ≠ kr.plain p := by
  have e : relativePermeability visc (correct factor (divide visc active kr)) p = kr.plain p * factor p := by
    simp only [relativePermeability, divide, correct, hp, if_true]
    field_simp
  refine ⟨e, fun h => hf ?_⟩
  rw [e] at h
  have : kr.plain p * (factor p - 1) = 0 := by rw [mul_sub, h]; ring
  rcases mul_eq_zero.1 this with h | h
  · exact absurd h hk
  · linarith

example : relativePermeability (fun _ => (2 : ℚ)) (correct (fun _ => 1/4) (divide (fun _ => 2) (fun _ => true) ⟨fun _ => 1, none⟩)) .water = 1/4 := by
  norm_num [relativePermeability, correct, divide]

/-! ### Densities -/

/-- **C130** The densities are the ones which the conservation of mass knows: the masses of all components stored in a cell are the
pore volumes of the phases times their densities. -/
theorem C130_density (o : Options) (hm : o.conserveSurfaceVolume = false) (hc : Coherent o) (ref : Phase → K) (phi : K) (fs : Fluid K) :
    sumActive o (computeStorage o ref phi fs) = sumActive o fun p => phi * fs.saturation p * density o ref fs p := by
  have key : ∀ c, (if o.active c = true then computeStorage o ref phi fs c else 0)
      = if o.active c = true then sumActive o fun p => phi * fs.saturation p * perVolume o ref fs p c else 0 := by
    intro c
    by_cases h : o.active c = true
    · rw [if_pos h, if_pos h, C88_storage o ref phi fs c h]
    · rw [if_neg h, if_neg h]
  unfold sumActive
  rw [List.map_congr_left (fun c _ => key c)]
  obtain ⟨act, dg, dgw, vo, vw, sv, tp⟩ := o
  obtain ⟨h1, h2, h3, h4⟩ := hc
  simp only [] at hm h1 h2 h3 h4
  subst hm
  simp only [sumActive, Phase.all, List.map_cons, List.map_nil, List.sum_cons, List.sum_nil, perVolume, density, ratio]
  cases hw : act .water <;> cases ho : act .oil <;> cases hg : act .gas <;> cases dg <;> cases dgw <;> cases vo <;> cases vw <;>
    simp [hw, ho, hg] at h1 h2 h3 h4 ⊢ <;> ring

example : Coherent (Flux.threePhase false) := ⟨fun _ _ => rfl, fun _ _ => rfl, fun _ _ => rfl, fun _ _ => rfl⟩
example : density (Flux.threePhase false) Flux.someDensities Flux.someFluid .oil = 680 := by decide +kernel

/-! ### Porosity -/

/-- **C130** Pressure alone never closes the pores: whatever the pressure, at least half of the porosity at reference conditions is
left; it does not fall when the pressure rises above one compressibility's worth below the reference pressure, and at the reference
pressure it is the one given. -/
theorem C130_porosity_partial (r : Rock K) (h0 : r.biofilm = 0 ∧ r.calcite = 0 ∧ r.salt = 0 ∧ r.multiplier = 1) (phi : K) (hphi : 0 < phi) :
    (∀ p, phi / 2 ≤ porosity r phi p) ∧ porosity r phi r.refPressure = phi ∧
    (∀ p q, - 1 ≤ r.compressibility * (p - r.refPressure) → p ≤ q → porosity r phi p ≤ porosity r phi q) ∧
    (∀ p q, r.compressibility ≤ 0 → porosity r phi p = porosity r phi q) := by
  obtain ⟨cr, pr, m, bf, ca, s⟩ := r
  obtain ⟨rfl, rfl, rfl, rfl⟩ := h0
  simp only [porosity]
  refine ⟨fun p => ?_, ?_, fun p q hp hpq => ?_, fun p q hc => ?_⟩
  · split_ifs with hc
    · have h2 := mul_nonneg hphi.le (mul_self_nonneg (1 + cr * (p - pr)))
      nlinarith
    · linarith
  · split_ifs <;> simp
  · split_ifs with hc
    · have hq : cr * (p - pr) ≤ cr * (q - pr) := mul_le_mul_of_nonneg_left (by linarith) hc.le
      generalize cr * (p - pr) = x at *
      generalize cr * (q - pr) = y at *
      have h2 : x + 1 / 2 * x * x ≤ y + 1 / 2 * y * y := by nlinarith [mul_nonneg (sub_nonneg.2 hq) (by linarith : (0:K) ≤ x + y + 2)]
      have := mul_le_mul_of_nonneg_left h2 hphi.le
      nlinarith
    · exact le_refl _
  · simp only [if_neg (not_lt.2 hc)]

/-- **C130** Rock compaction scales the porosity, and solid salt takes its share of what is left. -/
theorem C130_solids (r : Rock K) (phi p : K) :
    porosity r phi p = (porosity { r with biofilm := 0, calcite := 0, salt := 0, multiplier := 1 } phi p * r.multiplier - r.biofilm - r.calcite)
      * (1 - r.salt) := by
  unfold porosity; simp only []; ring

/-- **C130** (violated) Further below the reference pressure, pores open again when pressure falls. -/
theorem C130_porosity_violated : ∃ (r : Rock ℚ) (p q : ℚ), 0 < p ∧ p < q ∧ 0 < r.compressibility ∧ r.biofilm = 0 ∧ r.calcite = 0 ∧ r.salt = 0 ∧
    r.multiplier = 1 ∧ porosity r (1/4) q < porosity r (1/4) p :=
  ⟨⟨1/100, 300, 1, 0, 0, 0⟩, 100, 200, by norm_num, by norm_num, by norm_num, rfl, rfl, rfl, rfl, by decide +kernel⟩

example : porosity (⟨1/100, 300, 1, 1/50, 1/50, 1/2⟩ : Rock ℚ) (1/4) 400 = 117/400 := by decide +kernel

/-- **C130** The porosity is that at the pressure of oil if there is oil, else at that of water if there is water, else at that of
gas: the pressure of an active phase if there is one. -/
theorem C130_rock_pressure (active : Phase → Bool) (pressure : Phase → K) (r : Rock K) (phi : K) :
    (active .oil = true → porosity r phi (pressureForRock active pressure) = porosity r phi (pressure .oil)) ∧
    (active .oil = false → active .water = true → porosity r phi (pressureForRock active pressure) = porosity r phi (pressure .water)) ∧
    (active .oil = false → active .water = false → porosity r phi (pressureForRock active pressure) = porosity r phi (pressure .gas)) ∧
    ((∃ p, active p = true) → ∃ p, active p = true ∧ pressureForRock active pressure = pressure p) := by
  refine ⟨fun h => by simp [pressureForRock, h], fun h h' => by simp [pressureForRock, h, h'],
    fun h h' => by simp [pressureForRock, h, h'], fun ⟨p, hp⟩ => ?_⟩
  cases ho : active .oil
  · cases hw : active .water
    · refine ⟨.gas, ?_, by simp [pressureForRock, ho, hw]⟩
      cases p
      · first | exact hp | (rw [hw] at hp; exact absurd hp (by simp)) | (rw [ho] at hp; exact absurd hp (by simp))
      · first | exact hp | (rw [hw] at hp; exact absurd hp (by simp)) | (rw [ho] at hp; exact absurd hp (by simp))
      · first | exact hp | (rw [hw] at hp; exact absurd hp (by simp)) | (rw [ho] at hp; exact absurd hp (by simp))
    · exact ⟨.water, hw, by simp [pressureForRock, ho, hw]⟩
  · exact ⟨.oil, ho, by simp [pressureForRock, ho]⟩

example : porosity (⟨1/100, 300, 1, 0, 0, 0⟩ : Rock ℚ) (1/4) (pressureForRock (fun p => p == .gas) fun | .gas => 400 | _ => 300) = 5/8 := by
  decide +kernel

end Verif.Extend.IQ
