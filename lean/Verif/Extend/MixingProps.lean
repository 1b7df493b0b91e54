import Verif.Extend.Mixing
import Verif.Extend.Diffusion
import Mathlib.Tactic.Ring
import Mathlib.Tactic.Linarith
import Mathlib.Tactic.NormNum
import Mathlib.Tactic.FieldSimp
import Mathlib.Tactic.Positivity
import Mathlib.Algebra.Order.Ring.Rat

set_option autoImplicit false
set_option linter.unusedSectionVars false
/-
C129: convective mixing lets dissolved gas sink.
-/
namespace Verif.Extend.Mix

variable {K : Type} [Field K] [LinearOrder K] [IsStrictOrderedRing K]

/-! ### Specification -/

/-- Nothing is negative, and liquids have a viscosity. -/
structure Cell.Sound (c : Cell K) : Prop where
  xhi : 0 ≤ c.info.xhi
  psi : 0 ≤ c.info.psi
  b : 0 ≤ c.b
  visc : 0 < c.visc
  rs : 0 ≤ c.rs
  rsSat : 0 ≤ c.rsSat
  transMult : 0 ≤ c.transMult

/-- The density of saturated liquid of a cell minus that of its liquid without the gas which is dissolved in it: masses of surface
volumes of liquid and gas per volume in the reservoir.  The salt is what the code takes for it, see `C129_salt_violated`. -/
def gain (c : Cell K) : K := c.bSat c.saltSaturation * (c.refLiquid + c.rsSat * c.refGas) - c.b * c.refLiquid

/-- By how much liquid gets heavier when it is saturated, averaged over two cells. -/
def heavier (i j : Cell K) : K := (gain i + gain j) / 2

variable {i j : Cell K} {z trans area : K}

theorem pressureDifference_eq : pressureDifference i j z = heavier i j * z := by
  unfold pressureDifference heavier gain rhoSat rho; ring

theorem pressureDifference_swap : pressureDifference j i (-z) = - pressureDifference i j z := by
  unfold pressureDifference; ring

/-- **C129** Nothing mixes where the keyword is not active on both sides, … -/
theorem C129_inactive (h : i.info.active = false ∨ j.info.active = false) : mixingFlux i j z trans area = (0, 0) := by
  unfold mixingFlux
  rcases h with h | h <;> simp [h]

/-- **C129** … nor between cells of the same depth. -/
theorem C129_level : mixingFlux i j 0 trans area = (0, 0) := by
  unfold mixingFlux
  simp only [pressureDifference, mul_zero, abs_zero]
  rw [if_neg (by norm_num : ¬ (1 / 1000000000000 : K) < 0)]
  simp

/-- **C129** What leaves one cell enters the other: gas and energy. -/
theorem C129_opposite : mixingFlux j i (-z) trans area = (- (mixingFlux i j z trans area).1, - (mixingFlux i j z trans area).2) := by
  unfold mixingFlux
  rw [pressureDifference_swap, Bool.and_comm]
  generalize hd : pressureDifference i j z = dp
  simp only [abs_neg]
  split_ifs with h1 h2 h3 h4 h4
  · linarith
  · simp only [convectiveFlux, Prod.mk.injEq]; constructor <;> ring
  · simp only [convectiveFlux, Prod.mk.injEq]; constructor <;> ring
  · exfalso
    have : dp = 0 := le_antisymm (not_lt.1 h4) (by linarith [not_lt.1 h3])
    rw [this, abs_zero] at h2
    have : (0 : K) < 1 / 1000000000000 := by norm_num
    linarith
  · simp
  · simp

/-- What one can say of the flux: the gas moves with the sign of the driving pressure, out of the upstream cell. -/
theorem flux_form : mixingFlux i j z trans area = (0, 0) ∨
    ∃ up, (up = i ∨ up = j) ∧ (0 < heavier i j * z → up = j) ∧ (heavier i j * z < 0 → up = i) ∧
      mixingFlux i j z trans area
        = (convectiveFlux up (heavier i j * z) trans area, convectiveFlux up (heavier i j * z) trans area * (up.enthalpy * up.refGas)) := by
  unfold mixingFlux
  rw [pressureDifference_eq]
  by_cases h : (i.info.active && j.info.active) = true
  · rw [if_pos h]
    simp only []
    by_cases h2 : 1 / 1000000000000 < |heavier i j * z|
    · right
      rw [if_pos h2]
      by_cases h3 : 0 < heavier i j * z
      · exact ⟨j, Or.inr rfl, fun _ => rfl, fun h => absurd h (not_lt.2 h3.le), by rw [if_pos h3]⟩
      · exact ⟨i, Or.inl rfl, fun h => absurd h h3, fun _ => rfl, by rw [if_neg h3]⟩
    · left; rw [if_neg h2]
  · left; rw [if_neg h]

theorem restricted_nonneg {c : Cell K} (h : c.Sound) : 0 ≤ min c.rs (c.rsSat * c.info.psi) :=
  le_min h.rs (mul_nonneg h.rsSat h.psi)

/-- **C129** If saturated liquid is heavier, gas goes down: into the interior cell if it is the lower one, and out of it otherwise. -/
theorem C129_sinks (hi : i.Sound) (hj : j.Sound) (ht : 0 ≤ trans) (ha : 0 < area) (hh : 0 ≤ heavier i j) :
    z * (mixingFlux i j z trans area).1 ≤ 0 := by
  rcases flux_form (i := i) (j := j) (z := z) (trans := trans) (area := area) with h | ⟨up, hup, -, -, h⟩
  · rw [h]; simp
  · rw [h]
    have hs : up.Sound := by rcases hup with rfl | rfl <;> assumption
    have e : z * convectiveFlux up (heavier i j * z) trans area
        = - (trans * up.transMult * up.info.xhi * up.b * (heavier i j * (z * z)) * min up.rs (up.rsSat * up.info.psi) / (up.visc * area)) := by
      unfold convectiveFlux; ring
    have h1 := hs.transMult
    have h2 := hs.xhi
    have h3 := hs.b
    have h4 := hs.visc
    have h5 := restricted_nonneg hs
    have h6 := mul_self_nonneg z
    show z * convectiveFlux up (heavier i j * z) trans area ≤ 0
    rw [e, neg_nonpos]
    positivity

/-- **C129** A cell loses gas only if it contains dissolved gas, at a rate limited by the fraction ψ of the saturated content. -/
theorem C129_limited (hi : i.Sound) (hj : j.Sound) (ht : 0 ≤ trans) (ha : 0 < area) :
    ∃ up, (up = i ∨ up = j) ∧ (0 < heavier i j * z → up = j) ∧ (heavier i j * z < 0 → up = i) ∧
      |(mixingFlux i j z trans area).1|
        ≤ trans * up.transMult * up.info.xhi * up.b * |heavier i j * z| * (up.info.psi * up.rsSat) / (up.visc * area) ∧
      (up.rs = 0 → mixingFlux i j z trans area = (0, 0)) ∧
      (mixingFlux i j z trans area).2 = (mixingFlux i j z trans area).1 * up.refGas * up.enthalpy := by
  rcases flux_form (i := i) (j := j) (z := z) (trans := trans) (area := area) with h | ⟨up, hup, hp, hn, h⟩
  · refine ⟨if 0 < heavier i j * z then j else i, ?_, fun h => if_pos h, fun h => if_neg (not_lt.2 h.le), ?_, fun _ => h, ?_⟩
    · split <;> simp
    · rw [h]
      have hs : (if 0 < heavier i j * z then j else i).Sound := by split <;> assumption
      have h1 := hs.transMult
      have h2 := hs.xhi
      have h3 := hs.b
      have h4 := hs.visc
      have h5 := hs.psi
      have h6 := hs.rsSat
      simp only [abs_zero]
      positivity
    · rw [h]; simp
  · refine ⟨up, hup, hp, hn, ?_, fun h0 => ?_, ?_⟩
    · rw [h]
      have hs : up.Sound := by rcases hup with rfl | rfl <;> assumption
      have h1 := hs.transMult
      have h2 := hs.xhi
      have h3 := hs.b
      have h4 := hs.visc
      have h5 := restricted_nonneg hs
      have e : convectiveFlux up (heavier i j * z) trans area
          = - (trans * up.transMult * up.info.xhi * up.b * min up.rs (up.rsSat * up.info.psi) / (up.visc * area) * (heavier i j * z)) := by
        unfold convectiveFlux; ring
      show |convectiveFlux up (heavier i j * z) trans area| ≤ _
      rw [e, abs_neg, abs_mul, abs_of_nonneg (by positivity)]
      calc trans * up.transMult * up.info.xhi * up.b * min up.rs (up.rsSat * up.info.psi) / (up.visc * area) * |heavier i j * z|
          ≤ trans * up.transMult * up.info.xhi * up.b * (up.rsSat * up.info.psi) / (up.visc * area) * |heavier i j * z| := by
            gcongr
            exact min_le_right _ _
        _ = _ := by ring
    · have hs : up.Sound := by rcases hup with rfl | rfl <;> assumption
      have : min up.rs (up.rsSat * up.info.psi) = 0 := by
        rw [h0]; exact min_eq_left (mul_nonneg hs.rsSat hs.psi)
      have e : convectiveFlux up (heavier i j * z) trans area = 0 := by unfold convectiveFlux; rw [this]; simp
      rw [h, e]; simp
    · rw [h]; simp only []; ring

/-- A cell in which carbon dioxide dissolves. -/
def cell1 : Cell ℚ := ⟨⟨true, 2, 1/2⟩, 1, fun s => 1 + s, fun s => 1 + s, 1, 10, 1000, 2, 5, 20, 0, 0, 1⟩

example : cell1.Sound ∧ heavier cell1 cell1 = 40 ∧ mixingFlux cell1 cell1 10 1 4 = (-1000, -20000) ∧
    mixingFlux cell1 cell1 (-10) 1 4 = (1000, 20000) := by
  refine ⟨?_, by decide +kernel, by decide +kernel, by decide +kernel⟩
  constructor <;> norm_num [cell1]

/-! ### Episodes -/

/-- **C129** Whatever was active before, a new episode mixes where its keyword says so, with its parameters. -/
theorem C129_episode (control : List (Option (K × K))) (info : List (Info K)) (h : info = [] ∨ info.length = control.length) :
    (beginEpisode control info).length = control.length ∧
    ∀ n (hn : n < control.length) (hn' : n < (beginEpisode control info).length),
      (beginEpisode control info)[n].active = control[n].isSome ∧
      ∀ x y, control[n] = some (x, y) → (beginEpisode control info)[n] = ⟨true, x, y⟩ := by
  have hl : (if info.isEmpty then control.map (fun _ => (⟨false, 0, 0⟩ : Info K)) else info).length = control.length := by
    rcases h with h | h
    · rw [h]; simp
    · split
      · simp
      · exact h
  refine ⟨by simp only [beginEpisode, List.length_zipWith, hl, min_self], fun n hn hn' => ?_⟩
  simp only [beginEpisode, List.getElem_zipWith]
  cases hc : control[n] with
  | none => simp
  | some xy => obtain ⟨x, y⟩ := xy; simp

example : beginEpisode [some ((1 : ℚ), 2), none] (beginEpisode [none, some (3, 4)] []) = [⟨true, 1, 2⟩, ⟨false, 3, 4⟩] := rfl

/-! ### Densities -/

/-- **C129** The density which is used instead is the mean one of pure liquid and does not depend on the side; gas keeps its own. -/
theorem C129_density_partial (r : K) (p : Phase) :
    modifyAvgDensity r i j p = modifyAvgDensity r j i p ∧ modifyAvgDensity r i j .gas = r ∧
    (i.info.active = true → j.info.active = true → modifyAvgDensity r i j .water = (rhoPure i + rhoPure j) / 2) := by
  unfold modifyAvgDensity
  refine ⟨?_, by simp, fun h1 h2 => by simp [h1, h2]⟩
  rw [Bool.and_comm, add_comm]

/-- **C129** (violated) If there are oil and water, oil gets the density of water, … -/
theorem C129_oil_violated : ∃ (i j : Cell ℚ) (rhoOil : ℚ), rhoOil < rhoPure i ∧ rhoOil < rhoPure j ∧
    modifyAvgDensity rhoOil i j .oil = modifyAvgDensity 0 i j .water ∧ rhoOil < modifyAvgDensity rhoOil i j .oil :=
  ⟨cell1, cell1, 800, by decide +kernel, by decide +kernel, by decide +kernel, by decide +kernel⟩

/-- **C129** Where the volume of the brine does not depend on the salt, the driving density is the one of the brine saturated with gas; … -/
theorem C129_salt_partial (c : Cell K) (h : c.bSat c.saltSaturation = c.bSat c.saltConcentration) :
    rhoSat c = c.bSat c.saltConcentration * (c.refLiquid + c.rsSat * c.refGas) := by
  unfold rhoSat; rw [h]

/-- **C129** (violated) … but dissolved salt is ignored, and solid salt is taken for dissolved salt. -/
theorem C129_salt_violated : ∃ c : Cell ℚ, c.Sound ∧ c.saltSaturation = 0 ∧ 0 < c.saltConcentration ∧
    rhoSat c ≠ c.bSat c.saltConcentration * (c.refLiquid + c.rsSat * c.refGas) := by
  refine ⟨{ cell1 with saltConcentration := 1/10 }, ?_, rfl, by decide +kernel, by decide +kernel⟩
  constructor <;> norm_num [cell1]

/-- **C129** (violated) If masses are conserved, which is the default, the volume of gas which mixes is added to masses. -/
theorem C129_units_violated : ∃ (i j : Cell ℚ) (z : ℚ), i.Sound ∧ j.Sound ∧
    Diff.totalFlux false i.refGas 0 (mixingFlux i j z 1 1).1 ≠ i.refGas * Diff.totalFlux true i.refGas 0 (mixingFlux i j z 1 1).1 := by
  refine ⟨cell1, cell1, 1, ?_, ?_, by decide +kernel⟩ <;> constructor <;> norm_num [cell1]

end Verif.Extend.Mix
