import Verif.Extend.SolventFlux
import Verif.Extend.CarryProps
import Mathlib.Tactic.Ring
import Mathlib.Tactic.Linarith
import Mathlib.Tactic.NormNum
import Mathlib.Algebra.Order.Ring.Rat

set_option autoImplicit false
set_option linter.unusedSectionVars false
set_option linter.unusedSimpArgs false
/-
C121: the solvent flows down its potential.
-/
namespace Verif.Extend

variable {K : Type} [Field K] [LinearOrder K] [IsStrictOrderedRing K]

/-- The drop of the potential from `a` to `b`: the pressure and the weight of the solvent between the cells (`g` is the
acceleration in the direction of increasing depth). -/
def potentialDrop (g : K) (a b : SCell K) : K :=
  a.pressure - b.pressure + g * (b.z - a.z) * ((a.density + b.density) / 2)

theorem solventPressureDiff_eq (g : K) (a b : SCell K) : solventPressureDiff g a b = - potentialDrop g a b := by
  unfold solventPressureDiff potentialDrop; ring

theorem potentialDrop_swap (g : K) (a b : SCell K) : potentialDrop g b a = - potentialDrop g a b := by
  unfold potentialDrop; ring

theorem applyThreshold_neg (t d : K) (ht : 0 ≤ t) : applyThreshold t (-d) = - applyThreshold t d := by
  unfold applyThreshold
  rw [abs_neg]
  by_cases h : t < |d|
  · rw [if_pos h, if_pos h]
    rcases lt_trichotomy d 0 with h1 | h1 | h1
    · rw [if_neg (by linarith), if_pos h1]; ring
    · subst h1; simp at h; exact absurd h (not_lt.2 ht)
    · rw [if_pos (by linarith), if_neg (by linarith)]; ring
  · rw [if_neg h, if_neg h]; simp

/-- **C121** From a cell at higher potential, solvent flows to one at lower potential, proportionally to the mobility where it
comes from, the transmissibility and the drop in excess of the threshold; the upstream cell is the one at higher potential. -/
theorem C121_outflow (t trans area g : K) (a b : SCell K) (ht : 0 ≤ t) (h : t < potentialDrop g a b) :
    solventVolumeFluxTrans t trans area g a b = ⟨a.mobility * (trans / area) * (potentialDrop g a b - t), false⟩ := by
  have hd : applyThreshold t (solventPressureDiff g a b) = - (potentialDrop g a b - t) := by
    rw [solventPressureDiff_eq, applyThreshold_neg _ _ ht]
    unfold applyThreshold
    rw [if_pos (lt_of_lt_of_le h (le_abs_self _)), if_neg (by linarith)]
  unfold solventVolumeFluxTrans
  simp only [hd]
  rw [if_neg (by linarith), if_pos (by linarith)]
  congr 1; ring

/-- **C121** … and the other way round. -/
theorem C121_inflow (t trans area g : K) (a b : SCell K) (ht : 0 ≤ t) (h : t < - potentialDrop g a b) :
    solventVolumeFluxTrans t trans area g a b = ⟨- (b.mobility * (trans / area) * (- potentialDrop g a b - t)), true⟩ := by
  have hd : applyThreshold t (solventPressureDiff g a b) = - potentialDrop g a b - t := by
    rw [solventPressureDiff_eq]
    unfold applyThreshold
    rw [if_pos (lt_of_lt_of_le h (le_abs_self _)), if_neg (by linarith)]
  unfold solventVolumeFluxTrans
  simp only [hd]
  rw [if_pos (by linarith)]
  congr 1; ring

/-- **C121** Nothing flows if the potentials differ by less than the threshold. -/
theorem C121_at_rest (t trans area g : K) (a b : SCell K) (h : |potentialDrop g a b| ≤ t) :
    (solventVolumeFluxTrans t trans area g a b).volume = 0 := by
  have hd : applyThreshold t (solventPressureDiff g a b) = 0 := by
    rw [solventPressureDiff_eq]
    unfold applyThreshold
    rw [abs_neg, if_neg (not_lt.2 h)]
  unfold solventVolumeFluxTrans
  simp only [hd]
  rw [if_neg (lt_irrefl _), if_neg (lt_irrefl _)]

/-- **C121** What leaves one cell enters the other, whatever the local indices. -/
theorem C121_opposite (t trans area g : K) (a b a' b' : SCell K) (ht : 0 ≤ t) (ha : a' = { a with dofIdx := a'.dofIdx })
    (hb : b' = { b with dofIdx := b'.dofIdx }) :
    (solventVolumeFluxTrans t trans area g b' a').volume = - (solventVolumeFluxTrans t trans area g a b).volume := by
  have hm : a'.mobility = a.mobility := by rw [ha]
  have hm' : b'.mobility = b.mobility := by rw [hb]
  have hp : potentialDrop g b' a' = - potentialDrop g a b := by rw [ha, hb]; unfold potentialDrop; ring
  by_cases h1 : t < potentialDrop g a b
  · rw [C121_outflow t trans area g a b ht h1, C121_inflow t trans area g b' a' ht (by rw [hp]; linarith), hp, hm]
    ring
  · by_cases h2 : t < - potentialDrop g a b
    · rw [C121_inflow t trans area g a b ht h2, C121_outflow t trans area g b' a' ht (by rw [hp]; linarith), hp, hm']
      ring
    · have h3 : |potentialDrop g a b| ≤ t := abs_le.2 ⟨by linarith, by linarith⟩
      rw [C121_at_rest _ _ _ _ _ _ h3, C121_at_rest _ _ _ _ _ _ (by rw [hp, abs_neg]; exact h3), neg_zero]

example : (solventVolumeFluxTrans 1 2 1 10 (⟨0, 0, 100, 1, 3⟩ : SCell ℚ) ⟨1, 1, 95, 1, 7⟩).volume = 84 := by decide +kernel

/-- **C121** If solvent flows, both cells agree which of them is upstream. -/
theorem C121_upstream_agreed_partial (t trans area g : K) (a b a' b' : SCell K) (ht : 0 ≤ t) (ha : a' = { a with dofIdx := a'.dofIdx })
    (hb : b' = { b with dofIdx := b'.dofIdx }) (h : t < |potentialDrop g a b|) :
    (solventVolumeFluxTrans t trans area g b' a').exteriorUp = !(solventVolumeFluxTrans t trans area g a b).exteriorUp := by
  have hp : potentialDrop g b' a' = - potentialDrop g a b := by rw [ha, hb]; unfold potentialDrop; ring
  rcases lt_abs.1 h with h1 | h2
  · rw [C121_outflow t trans area g a b ht h1, C121_inflow t trans area g b' a' ht (by rw [hp]; linarith)]; rfl
  · rw [C121_inflow t trans area g a b ht h2, C121_outflow t trans area g b' a' ht (by rw [hp]; linarith)]; rfl

/-- **C121, negation** At equal potentials each cell takes itself for the upstream one, because it has the lowest local index
in its own stencil.  This matters for solvent which is dissolved in flowing water: both cells compute the flux with their own
content, so that solvent vanishes or appears. -/
theorem C121_dissolved_violated : ∃ (a b : SCell ℚ) (w : PhaseFlux ℚ) (qa qb : Iq ℚ), a.dofIdx = 0 ∧ b.dofIdx = 1 ∧
    (let own (x y : SCell ℚ) : PhaseFlux ℚ := solventVolumeFluxTrans 0 1 1 10 { x with dofIdx := 0 } { y with dofIdx := 1 }
     let ext (f : PhaseFlux ℚ) (s : PhaseFlux ℚ) : Ext ℚ := ⟨f, f, f, s, 1, 1⟩
     solventFlux true true (ext w.flip (own b a)) qb qa ≠ - solventFlux true true (ext w (own a b)) qa qb) :=
  ⟨⟨0, 0, 100, 1, 1⟩, ⟨1, 0, 100, 1, 1⟩, ⟨1, false⟩, cell1, { cell1 with rsSolw := 0 }, rfl, rfl, by decide +kernel⟩

/-- **C121, negation** With the flux module for permeabilities, solvent flows towards higher potential, whatever the
mobilities. -/
theorem C121_permeability_violated (gradNormal : K) (a b : SCell K) (ha : 0 < a.mobility) (hb : 0 < b.mobility)
    (h : gradNormal ≠ 0) : 0 < gradNormal * (solventVolumeFluxPerm gradNormal a b).volume := by
  unfold solventVolumeFluxPerm
  rcases lt_or_gt_of_ne h with h1 | h1
  · rw [if_neg (by linarith)]
    have := mul_pos (mul_pos_of_neg_of_neg h1 h1) ha
    simpa [mul_assoc] using this
  · rw [if_pos h1]
    have := mul_pos (mul_pos h1 h1) hb
    simpa [mul_assoc] using this

example : (solventVolumeFluxPerm 2 (⟨0, 0, 100, 1, 3⟩ : SCell ℚ) ⟨1, 1, 95, 1, 7⟩).volume = 14 := by decide +kernel

end Verif.Extend
