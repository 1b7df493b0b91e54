import Verif.Extend.Diffusion
import Mathlib.Tactic.Ring
import Mathlib.Tactic.Linarith
import Mathlib.Tactic.NormNum
import Mathlib.Tactic.FieldSimp
import Mathlib.Tactic.Positivity
import Mathlib.Algebra.Order.Ring.Rat

set_option autoImplicit false
set_option linter.unusedSectionVars false
set_option linter.unusedSimpArgs false
/-
C128: diffusion and dispersion exchange components between cells, from high to low content.
-/
namespace Verif.Extend.Diff

variable {K : Type} [Field K] [LinearOrder K] [IsStrictOrderedRing K]

/-! ### Specification -/

/-- How much of the other component a phase of a cell contains. -/
def content (o : Options) (c : Cell K) : Phase → K
  | .water => c.rsw
  | .oil => c.rs
  | .gas => if o.vaporizedWater then c.rvw else c.rv

/-- Nothing is negative, and there are conversion factors. -/
structure Cell.Sound (c : Cell K) : Prop where
  b : ∀ p, 0 ≤ c.b p
  sat : ∀ p, 0 ≤ c.sat p
  rs : 0 ≤ c.rs
  rv : 0 ≤ c.rv
  rsw : 0 ≤ c.rsw
  rvw : 0 ≤ c.rvw
  coefficient : ∀ p q, 0 ≤ c.coefficient p q
  velocity : ∀ p, 0 ≤ c.velocity p
  gasOil : 0 < c.region.gasOil
  gasWater : 0 < c.region.gasWater

variable {o : Options} {i j : Cell K} {d area : K}

theorem convDiff_swap (r : Region K) (p : Phase) :
    convDiff o r j i p = ((convDiff o r i j p).1, - (convDiff o r i j p).2) := by
  unfold convDiff
  cases p <;> simp only [beq_self_eq_true, Bool.and_true, Bool.and_false, reduceCtorEq, beq_iff_eq,
    (by decide : (Phase.water == Phase.oil) = false), (by decide : (Phase.water == Phase.gas) = false),
    (by decide : (Phase.oil == Phase.gas) = false), (by decide : (Phase.oil == Phase.water) = false),
    (by decide : (Phase.gas == Phase.oil) = false), (by decide : (Phase.gas == Phase.water) = false), Bool.false_eq_true, if_false] <;>
    split_ifs <;> simp [add_comm]

theorem bSAvg_swap (p : Phase) : bSAvg j i p = bSAvg i j p := by unfold bSAvg; rw [add_comm]

theorem meanCoefficient_swap (p c : Phase) : meanCoefficient j i p c = meanCoefficient i j p c := by
  unfold meanCoefficient; rw [add_comm]

theorem skipped_swap (p : Phase) : skipped o j i p = skipped o i j p := by unfold skipped; rw [bSAvg_swap]

theorem phaseFlux_swap (hr : i.region = j.region) (p c : Phase) : phaseFlux o d area j i p c = - phaseFlux o d area i j p c := by
  unfold phaseFlux
  rw [skipped_swap, bSAvg_swap, convDiff_swap, meanCoefficient_swap p p, meanCoefficient_swap p (solute o p), hr]
  split_ifs <;> ring

theorem phaseDispersion_swap (hr : i.region = j.region) (p c : Phase) :
    phaseDispersion o d area j i p c = - phaseDispersion o d area i j p c := by
  unfold phaseDispersion
  rw [convDiff_swap, hr, add_comm (j.b p), add_comm (j.velocity p)]
  split_ifs <;> ring

/-- **C128** What leaves one cell enters the other; `_partial`: if both belong to the same region (see `C128_region_violated`). -/
theorem C128_opposite_partial (hr : i.region = j.region) (c : Phase) :
    diffusiveFlux o d area j i c = - diffusiveFlux o d area i j c ∧
    dispersiveFlux o d area j i c = - dispersiveFlux o d area i j c := by
  unfold diffusiveFlux dispersiveFlux
  rw [phaseFlux_swap hr, phaseFlux_swap hr, phaseFlux_swap hr, phaseDispersion_swap hr, phaseDispersion_swap hr,
    phaseDispersion_swap hr]
  constructor <;> ring

theorem solute_ne (p : Phase) : solute o p ≠ p := by
  cases p <;> simp [solute]
  split <;> simp

/-- **C128** A phase exchanges its components: what it moves of the one, it moves back of the other, if they diffuse alike. -/
theorem C128_exchange (p : Phase) (hc : ∀ c : Cell K, c = i ∨ c = j → c.coefficient p p = c.coefficient p (solute o p)) :
    phaseFlux o d area i j p p = - phaseFlux o d area i j p (solute o p) ∧
    phaseDispersion o d area i j p p = - phaseDispersion o d area i j p (solute o p) ∧
    ∀ c, c ≠ p → c ≠ solute o p → phaseFlux o d area i j p c = 0 ∧ phaseDispersion o d area i j p c = 0 := by
  have hs := solute_ne (o := o) p
  have hm : meanCoefficient i j p p = meanCoefficient i j p (solute o p) := by
    unfold meanCoefficient; rw [hc i (Or.inl rfl), hc j (Or.inr rfl)]
  refine ⟨?_, ?_, fun c h1 h2 => ?_⟩
  · unfold phaseFlux
    simp only [if_pos rfl, if_neg hs, if_neg hs.symm, hm, if_true]
    split_ifs <;> ring
  · unfold phaseDispersion
    simp only [if_neg hs, if_neg hs.symm, if_true]
    split_ifs <;> ring
  · unfold phaseFlux phaseDispersion
    simp only [if_neg h1, if_neg h2]
    constructor <;> split_ifs <;> simp

theorem convDiff_sign (hi : i.Sound) (hj : j.Sound) (p : Phase) :
    0 ≤ (convDiff o i.region i j p).1 ∧
    ((convDiff o i.region i j p).2 = 0 ∨ (convDiff o i.region i j p).2 = content o i p - content o j p) := by
  have h1 := hi.gasOil
  have h2 := hi.gasWater
  have h3 := hi.rs
  have h4 := hj.rs
  have h5 := hi.rv
  have h6 := hj.rv
  have h7 := hi.rsw
  have h8 := hj.rsw
  have h9 := hi.rvw
  have h10 := hj.rvw
  unfold convDiff
  cases p <;> simp only [beq_self_eq_true, Bool.and_true, Bool.and_false, reduceCtorEq, beq_iff_eq,
    (by decide : (Phase.water == Phase.oil) = false), (by decide : (Phase.water == Phase.gas) = false),
    (by decide : (Phase.oil == Phase.gas) = false), (by decide : (Phase.oil == Phase.water) = false),
    (by decide : (Phase.gas == Phase.oil) = false), (by decide : (Phase.gas == Phase.water) = false), Bool.false_eq_true, if_false] <;>
    split_ifs <;> first | (refine ⟨by positivity, ?_⟩; simp_all [content]) | (refine ⟨zero_le_one, ?_⟩; simp_all [content])

/-- **C128** The other component moves from the cell whose phase contains more of it to the one with less. -/
theorem C128_down (hi : i.Sound) (hj : j.Sound) (hd : 0 ≤ d) (ha : 0 < area) (p : Phase) :
    0 ≤ (content o i p - content o j p) * phaseFlux o d area i j p (solute o p) ∧
    0 ≤ (content o i p - content o j p) * phaseDispersion o d area i j p (solute o p) := by
  obtain ⟨h1, h2⟩ := convDiff_sign (o := o) hi hj p
  have hb : 0 ≤ bSAvg i j p := by
    have := hi.b p; have := hj.b p; have := hi.sat p; have := hj.sat p; unfold bSAvg; positivity
  have hm : 0 ≤ meanCoefficient i j p (solute o p) := by
    have := hi.coefficient p (solute o p); have := hj.coefficient p (solute o p); unfold meanCoefficient; positivity
  have hbb : 0 ≤ (i.b p + j.b p) / 2 := by have := hi.b p; have := hj.b p; positivity
  have hv : 0 ≤ 1 / 2 * (i.velocity p + j.velocity p) := by have := hi.velocity p; have := hj.velocity p; positivity
  have hda : 0 ≤ d / area := div_nonneg hd ha.le
  have hsq : 0 ≤ (content o i p - content o j p) * (convDiff o i.region i j p).2 := by
    rcases h2 with h | h
    · rw [h, mul_zero]
    · rw [h]; exact mul_self_nonneg _
  constructor
  · unfold phaseFlux
    simp only [if_neg (solute_ne (o := o) p), if_true, zero_add]
    split
    · rw [mul_zero]
    · have : (content o i p - content o j p) * (bSAvg i j p * (convDiff o i.region i j p).2 * (convDiff o i.region i j p).1
          * (d / area) * meanCoefficient i j p (solute o p))
          = bSAvg i j p * (convDiff o i.region i j p).1 * (d / area) * meanCoefficient i j p (solute o p)
            * ((content o i p - content o j p) * (convDiff o i.region i j p).2) := by ring
      rw [this]
      positivity
  · unfold phaseDispersion
    simp only [if_neg (solute_ne (o := o) p), if_true, zero_add]
    split
    · rw [mul_zero]
    · have : (content o i p - content o j p) * ((i.b p + j.b p) / 2 * (1 / 2 * (i.velocity p + j.velocity p))
          * (convDiff o i.region i j p).1 * (d / area) * (convDiff o i.region i j p).2)
          = (i.b p + j.b p) / 2 * (1 / 2 * (i.velocity p + j.velocity p)) * (convDiff o i.region i j p).1 * (d / area)
            * ((content o i p - content o j p) * (convDiff o i.region i j p).2) := by ring
      rw [this]
      positivity

/-- **C128** The documented formula for gas in water. -/
theorem C128_formula (h1 : o.active .water = true) (h2 : o.dissolvedGasInWater = true)
    (h3 : 1 / 1000000 ≤ bSAvg i j .water) :
    phaseFlux o d area i j .water .gas
      = (i.b .water * i.sat .water + j.b .water * j.sat .water) / 2 * ((i.coefficient .water .gas + j.coefficient .water .gas) / 2)
        * (1 / ((i.rsw + j.rsw) / 2 + i.region.gasWater)) * (d / area) * (i.rsw - j.rsw) := by
  have hs : skipped o i j .water = false := by
    unfold skipped
    rw [decide_eq_false (not_lt.2 h3)]
    simp [h1, h2]
  have hc : convDiff o i.region i j .water = (1 / (i.region.gasWater + (i.rsw + j.rsw) / 2), i.rsw - j.rsw) := by
    unfold convDiff
    simp [h2]
  unfold phaseFlux
  rw [hs, hc]
  simp only [Bool.false_eq_true, if_false, reduceCtorEq, solute, if_true, zero_add]
  unfold bSAvg meanCoefficient
  rw [add_comm i.region.gasWater]
  ring

/-- Two cells with different contents, one region. -/
def options1 : Options := ⟨fun _ => true, true, true, false, false⟩
@[inherit_doc options1]
def cell1 : Cell ℚ := ⟨fun _ => 1, fun _ => 1/3, 3, 1/10, 0, 0, fun _ _ => 1, fun _ => 2, ⟨1, 1⟩⟩
@[inherit_doc options1]
def cell2 : Cell ℚ := { cell1 with rs := 1, rv := 3/10 }

example : cell1.Sound ∧ cell2.Sound := by
  constructor <;> constructor <;> intros <;> norm_num [cell1, cell2]

example : diffusiveFlux options1 9 1 cell1 cell2 .gas = 5/2 ∧ diffusiveFlux options1 9 1 cell1 cell2 .oil = -5/2 ∧
    dispersiveFlux options1 9 1 cell1 cell2 .gas = 12 ∧ diffusiveFlux options1 9 1 cell2 cell1 .gas = -5/2 := by
  decide +kernel

/-- **C128** (violated) The conversion factor is the one of the interior cell: across the border of two regions the cells do not agree
about the flux, and gas is created or lost. -/
theorem C128_region_violated : ∃ (o : Options) (i j : Cell ℚ), i.Sound ∧ j.Sound ∧
    diffusiveFlux o 1 1 j i .gas ≠ - diffusiveFlux o 1 1 i j .gas ∧ dispersiveFlux o 1 1 j i .gas ≠ - dispersiveFlux o 1 1 i j .gas := by
  refine ⟨options1, cell1, { cell2 with region := ⟨2, 1⟩ }, ?_, ?_, ?_, ?_⟩
  · constructor <;> intros <;> norm_num [cell1, cell2]
  · constructor <;> intros <;> norm_num [cell1, cell2]
  · decide +kernel
  · decide +kernel

/-- **C128** (violated) If oil and water can vaporise, vaporised oil does not diffuse. -/
theorem C128_two_vapours_violated (h1 : o.vaporizedOil = true) (h2 : o.vaporizedWater = true) (h : i.rvw = j.rvw) (c : Phase) :
    phaseFlux o d area i j .gas c = 0 := by
  have hc : (convDiff o i.region i j .gas).2 = 0 := by
    unfold convDiff
    simp [h2, h]
  unfold phaseFlux
  rw [hc]
  split_ifs <;> simp

example : ∃ (o : Options) (i j : Cell ℚ), o.vaporizedOil = true ∧ o.vaporizedWater = true ∧ i.rvw = j.rvw ∧ i.rv ≠ j.rv ∧
    skipped o i j .gas = false :=
  ⟨{ options1 with vaporizedWater := true }, cell1, cell2, rfl, rfl, rfl, by decide +kernel, by decide +kernel⟩

/-- **C128** Rates of components do not depend on whether volumes or masses are conserved, if nothing diffuses; … -/
theorem C128_units_partial (ref carried : K) : totalFlux false ref carried 0 = ref * totalFlux true ref carried 0 := by
  unfold totalFlux; simp [mul_comm]

/-- **C128** What diffuses is added to what the phases carry, whatever is conserved. -/
theorem C128_added (surfaceVolume : Bool) (ref carried diffusion : K) :
    totalFlux surfaceVolume ref carried diffusion = totalFlux surfaceVolume ref carried 0 + diffusion := by
  unfold totalFlux; simp

/-- **C128** (violated) … but if masses are conserved, which is the default, volumes which diffuse are added to masses. -/
theorem C128_units_violated : ∃ (o : Options) (i j : Cell ℚ) (ref : ℚ), 0 < ref ∧
    totalFlux false ref 0 (diffusiveFlux o 1 1 i j .gas) ≠ ref * totalFlux true ref 0 (diffusiveFlux o 1 1 i j .gas) := by
  refine ⟨options1, cell1, cell2, 2, by norm_num, ?_⟩
  decide +kernel

end Verif.Extend.Diff
