import Verif.Extend.Energy
import Mathlib.Tactic.Ring
import Mathlib.Tactic.Linarith
import Mathlib.Tactic.NormNum
import Mathlib.Tactic.FieldSimp
import Mathlib.Tactic.Positivity
import Mathlib.Algebra.BigOperators.Ring.List
import Mathlib.Algebra.Order.Ring.Rat

set_option autoImplicit false
set_option linter.unusedSectionVars false
/-
C127: heat flows down the temperature, and the energy equation does not depend on the factor by which it is scaled.
-/
namespace Verif.Extend.Energy

variable {K : Type} [Field K] [LinearOrder K] [IsStrictOrderedRing K]

/-! ### Specification -/

/-- The energy of a cell per volume: fluids and rock. -/
def energyInPlace (c : Cell K) : K :=
  c.porosity * (c.phases.map fun p => p.sat * p.rho * p.internal).sum + c.rockFraction * c.rockEnergy

/-- Mass times enthalpy of everything which flows. -/
def enthalpyCarried (flows : List (K × Phase K)) : K := (flows.map fun f => f.1 * f.2.rho * f.2.enthalpy).sum

/-- The same face, seen from the other cell. -/
def reverse (flows : List (K × Phase K)) : List (K × Phase K) := flows.map fun f => (- f.1, f.2)

theorem foldl_sum {A : Type} (f g : A → K) (h : ∀ a, f a = g a) (l : List A) : ∀ s : K,
    l.foldl (fun s a => s + f a) s = s + (l.map g).sum := by
  induction l with
  | nil => intro s; simp
  | cons a l ih => intro s; rw [List.foldl_cons, ih, h, List.map_cons, List.sum_cons]; ring

/-! ### Storage and advection -/

/-- **C127** The storage term is the energy of fluids and rock, in the unit of the equation. -/
theorem C127_storage (scale : K) (c : Cell K) : storage scale c = scale * energyInPlace c := by
  unfold storage energyInPlace
  rw [foldl_sum _ (fun p => c.porosity * (p.sat * p.rho * p.internal)) (fun p => by ring), zero_add, List.sum_map_mul_left]
  ring

theorem enthalpyFlux_eq (flows : List (K × Phase K)) : enthalpyFlux flows = enthalpyCarried flows := by
  unfold enthalpyFlux enthalpyCarried
  rw [foldl_sum _ (fun f => f.1 * f.2.rho * f.2.enthalpy) (fun f => by ring), zero_add]

theorem enthalpyCarried_reverse (flows : List (K × Phase K)) : enthalpyCarried (reverse flows) = - enthalpyCarried flows := by
  unfold enthalpyCarried reverse
  induction flows with
  | nil => simp
  | cons f l ih => simp only [List.map_cons, List.sum_cons] at ih ⊢; rw [ih]; ring

/-! ### Conduction -/

theorem thermalTrans_comm (a b : K) : thermalTrans a b = thermalTrans b a := by
  unfold thermalTrans
  by_cases h : 0 < a ∧ 0 < b
  · rw [if_pos h, if_pos h.symm, add_comm]
  · rw [if_neg h, if_neg (fun g => h g.symm)]

/-- **C127** The heat one cell loses is the heat the other gains. -/
theorem C127_conduction_opposite (a b : Cell K) (x y area : K) : conduction b a y x area = - conduction a b x y area := by
  unfold conduction; rw [thermalTrans_comm (b.conductivity * y)]; ring

/-- **C127** What is carried and conducted is opposite, too, in both local residuals. -/
theorem C127_flux_opposite (scale mixing : K) (flows : List (K × Phase K)) (a b : Cell K) (x y area : K) :
    flux scale (-mixing) (reverse flows) (conduction b a y x area) = - flux scale mixing flows (conduction a b x y area) ∧
    fluxTpfa scale (-mixing) (reverse flows) (conduction b a y x area) = - fluxTpfa scale mixing flows (conduction a b x y area) := by
  unfold flux fluxTpfa
  rw [enthalpyFlux_eq, enthalpyFlux_eq, enthalpyCarried_reverse, C127_conduction_opposite a b]
  constructor <;> ring

/-- **C127** The resistances of the two half-cells are in series: the temperature drops by the heat times their sum. -/
theorem C127_series (a b : Cell K) (x y area : K) (hx : 0 < a.conductivity * x) (hy : 0 < b.conductivity * y) (ha : area ≠ 0) :
    a.temperature - b.temperature
      = area * conduction a b x y area * (1 / (a.conductivity * x)) + area * conduction a b x y area * (1 / (b.conductivity * y)) := by
  unfold conduction thermalTrans
  rw [if_pos ⟨hx, hy⟩]
  have h1 := hx.ne'
  have h2 := hy.ne'
  generalize a.conductivity * x = p at h1 h2 hx hy ⊢
  generalize b.conductivity * y = q at h1 h2 hx hy ⊢
  have h3 : q + p ≠ 0 := by positivity
  field_simp
  ring

theorem thermalTrans_bounds (p q : K) : 0 ≤ thermalTrans p q ∧ (0 ≤ p → thermalTrans p q ≤ p) := by
  unfold thermalTrans
  split
  · rename_i h
    obtain ⟨h1, h2⟩ := h
    refine ⟨by positivity, fun _ => ?_⟩
    rw [div_le_iff₀ (by positivity)]
    have : p * (1 / p + 1 / q) = 1 + p / q := by field_simp
    rw [this]
    have : 0 ≤ p / q := by positivity
    linarith
  · exact ⟨le_rfl, id⟩

/-- **C127** Heat flows from warm to cold, and never more than through the inner half alone. -/
theorem C127_down (a b : Cell K) (x y area : K) (ha : 0 < area) :
    0 ≤ (a.temperature - b.temperature) * conduction a b x y area ∧
    (0 ≤ a.conductivity * x →
      area * |conduction a b x y area| ≤ a.conductivity * x * |a.temperature - b.temperature|) := by
  obtain ⟨h1, h2⟩ := thermalTrans_bounds (a.conductivity * x) (b.conductivity * y)
  have e : conduction a b x y area
      = (a.temperature - b.temperature) * (thermalTrans (a.conductivity * x) (b.conductivity * y) / area) := by
    unfold conduction; ring
  have h3 : 0 ≤ thermalTrans (a.conductivity * x) (b.conductivity * y) / area := div_nonneg h1 ha.le
  rw [e]
  refine ⟨?_, fun h => ?_⟩
  · rw [← mul_assoc]; exact mul_nonneg (mul_self_nonneg _) h3
  · rw [abs_mul, abs_of_nonneg h3]
    have : area * (|a.temperature - b.temperature| * (thermalTrans (a.conductivity * x) (b.conductivity * y) / area))
        = thermalTrans (a.conductivity * x) (b.conductivity * y) * |a.temperature - b.temperature| := by
      field_simp
    rw [this]
    exact mul_le_mul_of_nonneg_right (h2 h) (abs_nonneg _)

/-- **C127** No heat passes an insulator, and none without a difference of temperatures. -/
theorem C127_insulated (a b : Cell K) (x y area : K)
    (h : a.conductivity * x ≤ 0 ∨ b.conductivity * y ≤ 0 ∨ a.temperature = b.temperature) : conduction a b x y area = 0 := by
  unfold conduction
  rcases h with h | h | h
  · unfold thermalTrans; rw [if_neg (fun g => absurd g.1 (not_lt.2 h))]; simp
  · unfold thermalTrans; rw [if_neg (fun g => absurd g.2 (not_lt.2 h))]; simp
  · rw [h]; simp

/-- **C127** Heat enters through a boundary which is warmer than the cell, and leaves through a colder one. -/
theorem C127_boundary (a : Cell K) (alpha temperature : K) (h : 0 ≤ alpha) :
    0 ≤ (a.temperature - temperature) * conductionBoundary a alpha temperature := by
  unfold conductionBoundary
  split
  · rename_i hl
    have : (a.temperature - temperature) * ((temperature - a.temperature) * a.conductivity * -alpha)
        = (a.temperature - temperature) * (a.temperature - temperature) * (a.conductivity * alpha) := by ring
    rw [this]
    exact mul_nonneg (mul_self_nonneg _) (mul_nonneg hl.le h)
  · rw [mul_zero]

/-! ### Scaling -/

/-- **C127** Storage, fluxes, free-flow boundaries and sources are multiplied by the factor of the energy equation, so that it does
not change the solution; `_partial`: without convective mixing, and not for thermal boundaries of the general residual. -/
theorem C127_scaling_partial (scale mixing heat rate : K) (c : Cell K) (flows : List (K × Phase K)) :
    storage scale c = scale * storage 1 c ∧ flux scale 0 flows heat = scale * flux 1 0 flows heat ∧
    fluxTpfa scale mixing flows heat = scale * fluxTpfa 1 mixing flows heat ∧
    freeFlow scale flows heat = scale * freeFlow 1 flows heat ∧ freeFlow scale flows heat = freeFlowTpfa scale flows heat ∧
    freeFlowTpfa scale flows heat = scale * freeFlowTpfa 1 flows heat ∧
    thermalFlowTpfa scale heat = scale * thermalFlowTpfa 1 heat ∧ source scale rate = scale * source 1 rate := by
  have hf : ∀ s : K, freeFlow s flows heat = s * (enthalpyCarried flows + heat) := fun s => by
    unfold freeFlow enthalpyCarried
    rw [foldl_sum _ (fun f => s * (f.1 * f.2.rho * f.2.enthalpy)) (fun f => by ring), zero_add, List.sum_map_mul_left]
    ring
  refine ⟨?_, ?_, ?_, ?_, ?_, ?_, ?_, ?_⟩
  · rw [C127_storage, C127_storage]; ring
  · unfold flux; ring
  · unfold fluxTpfa; ring
  · rw [hf, hf]; ring
  · rw [hf]; unfold freeFlowTpfa; rw [enthalpyFlux_eq]; ring
  · unfold freeFlowTpfa; ring
  · unfold thermalFlowTpfa; ring
  · unfold source; ring

/-- A warm and a cold cell. -/
def warm : Cell ℚ := ⟨[⟨1, 1000, 4, 5⟩], 1/5, 4/5, 100, 400, 2⟩
@[inherit_doc warm]
def cold : Cell ℚ := ⟨[⟨1, 1000, 3, 4⟩], 1/5, 4/5, 50, 300, 2⟩

example : conduction warm cold 1 1 4 = 25 ∧ conductionBoundary warm 1 300 = 200 ∧ storage 2 warm = 1760 ∧
    flux 2 0 [(3, ⟨1, 1000, 4, 5⟩)] (conduction warm cold 1 1 4) = 30050 := by decide +kernel

/-- **C127** (violated) The thermal boundary condition of the general residual is not scaled: with the usual factor, a cell between
an insulated and a thermal boundary does not come to rest where heat sources and losses balance. -/
theorem C127_thermal_flow_violated : ∃ scale heat rate : ℚ, 0 < scale ∧ thermalFlow 1 heat = source 1 rate ∧
    freeFlow scale [] heat = source scale rate ∧ thermalFlow scale heat ≠ source scale rate :=
  ⟨1 / 10000, 5, 5, by decide +kernel, by decide +kernel, by decide +kernel, by decide +kernel⟩

/-- **C127** (violated) The energy which convective mixing moves is scaled in the one local residual, not in the other. -/
theorem C127_mixing_violated : ∃ (scale mixing : ℚ) (flows : List (ℚ × Phase ℚ)) (heat : ℚ), 0 < scale ∧
    flux 1 mixing flows heat = fluxTpfa 1 mixing flows heat ∧ flux scale mixing flows heat ≠ fluxTpfa scale mixing flows heat ∧
    flux scale mixing flows heat ≠ scale * flux 1 mixing flows heat :=
  ⟨1 / 10000, 5, [], 1, by decide +kernel, by decide +kernel, by decide +kernel, by decide +kernel⟩

/-- **C127** (violated) Conduction through boundaries is not divided by the area, although the residual multiplies all rates by it:
with the same half-transmissibility, more heat leaves through the boundary than could leave through a face to a neighbour of the same
temperature, however well it conducts. -/
theorem C127_boundary_area_violated : ∃ (a : Cell ℚ) (alpha temperature area : ℚ), 0 < a.conductivity * alpha ∧ 0 < area ∧
    ∀ (b : Cell ℚ) (y : ℚ), b.temperature = temperature →
      area * |conduction a b alpha y area| < area * |conductionBoundary a alpha temperature| := by
  refine ⟨warm, 1, 300, 4, by decide +kernel, by decide +kernel, fun b y hb => ?_⟩
  have h := (C127_down warm b 1 y 4 (by norm_num)).2 (by norm_num [warm])
  rw [hb] at h
  refine lt_of_le_of_lt h ?_
  decide +kernel

/-! ### Primary variables -/

/-- **C127** A fluid state sets the temperature and nothing else. -/
theorem C127_assign (l : Layout) (pv : Fin l.n → K) (t : K) :
    assignFluidState l pv t l.temperatureIdx = t ∧ ∀ i, i ≠ l.temperatureIdx → assignFluidState l pv t i = pv i := by
  unfold assignFluidState
  exact ⟨Function.update_self .., fun i hi => Function.update_of_ne hi ..⟩

/-- **C127** (violated) Setting the temperature itself stores the index of the temperature. -/
theorem C127_assign_violated (l : Layout) (pv : Fin l.n → K) (t : K) (h : t ≠ ((l.temperatureIdx : ℕ) : K)) :
    assignTemperature l pv t l.temperatureIdx ≠ t := by
  unfold assignTemperature
  rw [Function.update_self]
  exact fun e => h e.symm

/-- **C127** Reading a restart file restores the temperature of the current solution; … -/
theorem C127_restart_partial (l : Layout) (t : K) (pv0 pv1 : Fin l.n → K) :
    (deserialize l t pv0 pv1).1 l.temperatureIdx = t ∧ (∀ i, i ≠ l.temperatureIdx → (deserialize l t pv0 pv1).1 i = pv0 i) ∧
    (deserialize l t pv0 pv1).2 l.temperatureIdx = t := by
  simp only [deserialize]
  refine ⟨Function.update_self .., fun i hi => Function.update_of_ne hi .., Function.update_self ..⟩

/-- **C127** (violated) … but every entry of the previous one becomes the temperature. -/
theorem C127_restart_violated (l : Layout) (t : K) (pv0 pv1 : Fin l.n → K) (i : Fin l.n) (_hi : i ≠ l.temperatureIdx)
    (h : pv1 i ≠ t) : (deserialize l t pv0 pv1).2 i ≠ pv1 i := by
  simp only [deserialize, Function.update_self]
  exact fun e => h e.symm

example : ∃ (l : Layout) (i : Fin l.n) (pv : Fin l.n → ℚ), i ≠ l.temperatureIdx ∧ pv i ≠ 300 ∧
    (300 : ℚ) ≠ ((l.temperatureIdx : ℕ) : ℚ) := ⟨⟨2, 1⟩, 0, fun _ => 1, by decide, by decide +kernel, by decide +kernel⟩

end Verif.Extend.Energy
