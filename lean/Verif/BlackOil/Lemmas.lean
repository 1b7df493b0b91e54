import Verif.BlackOil.PrimaryVars
import Verif.BlackOil.IndicesProps
import Mathlib.Algebra.Order.AbsoluteValue.Basic
import Mathlib.Algebra.Order.Field.Basic
import Mathlib.Tactic.Linarith
import Mathlib.Tactic.FieldSimp
import Mathlib.Tactic.Positivity

set_option autoImplicit false
set_option linter.unusedSectionVars false

namespace Verif.BlackOil

theorem nodup_filter_ne {α : Type} {p : α → Bool} {l : List α} (h : (l.filter p).Nodup) (i j : ℕ) (hij : i < j) (hj : j < l.length)
    (hp : p (l[i]'(by omega)) = true) : l[i]'(by omega) ≠ l[j] := by
  intro he
  have hs : List.Sublist [l[i]'(by omega), l[j]] l := by
    have h1 : List.Sublist [l[j]] (l.drop (i + 1)) := by
      rw [List.singleton_sublist]
      rw [List.mem_iff_getElem]
      exact ⟨j - (i + 1), by rw [List.length_drop]; omega, by rw [List.getElem_drop]; congr 1; omega⟩
    have h2 : l.drop i = l[i]'(by omega) :: l.drop (i + 1) := List.drop_eq_getElem_cons (by omega)
    exact ((h1.cons_cons _).trans (by rw [← h2])).trans (List.drop_sublist i l)
  have hf := hs.filter p
  have : ([l[i]'(by omega), l[j]].filter p) = [l[i]'(by omega), l[j]] := by simp [← he, hp]
  rw [this] at hf
  have := h.sublist hf
  simp [he] at this

/-- The indices which matter for switching are different. -/
structure Layout.Sep (L : Layout) : Prop where
  wp : 0 ≤ L.waterSwitchIdx → L.waterSwitchIdx ≠ L.pressureSwitchIdx
  wc : 0 ≤ L.waterSwitchIdx → L.waterSwitchIdx ≠ L.compositionSwitchIdx
  cw : 0 ≤ L.compositionSwitchIdx → L.compositionSwitchIdx ≠ L.waterSwitchIdx
  cp : 0 ≤ L.compositionSwitchIdx → L.compositionSwitchIdx ≠ L.pressureSwitchIdx
  ps : 0 ≤ L.pressureSwitchIdx → L.pressureSwitchIdx ≠ L.solventSaturationIdx
  sw : 0 ≤ L.solventSaturationIdx → L.solventSaturationIdx ≠ L.waterSwitchIdx
  sp : 0 ≤ L.solventSaturationIdx → L.solventSaturationIdx ≠ L.pressureSwitchIdx
  sc : 0 ≤ L.solventSaturationIdx → L.solventSaturationIdx ≠ L.compositionSwitchIdx
  bw : 0 ≤ L.saltConcentrationIdx → L.saltConcentrationIdx ≠ L.waterSwitchIdx
  bp : 0 ≤ L.saltConcentrationIdx → L.saltConcentrationIdx ≠ L.pressureSwitchIdx
  bc : 0 ≤ L.saltConcentrationIdx → L.saltConcentrationIdx ≠ L.compositionSwitchIdx
  bs : 0 ≤ L.saltConcentrationIdx → L.saltConcentrationIdx ≠ L.solventSaturationIdx
  zw : 0 ≤ L.zFractionIdx → L.zFractionIdx ≠ L.waterSwitchIdx
  zp : 0 ≤ L.zFractionIdx → L.zFractionIdx ≠ L.pressureSwitchIdx
  zc : 0 ≤ L.zFractionIdx → L.zFractionIdx ≠ L.compositionSwitchIdx
  zs : 0 ≤ L.zFractionIdx → L.zFractionIdx ≠ L.solventSaturationIdx
  zb : 0 ≤ L.zFractionIdx → L.zFractionIdx ≠ L.saltConcentrationIdx
  tw : 0 ≤ L.temperatureIdx → L.temperatureIdx ≠ L.waterSwitchIdx
  tp : 0 ≤ L.temperatureIdx → L.temperatureIdx ≠ L.pressureSwitchIdx
  tc : 0 ≤ L.temperatureIdx → L.temperatureIdx ≠ L.compositionSwitchIdx
  ts : 0 ≤ L.temperatureIdx → L.temperatureIdx ≠ L.solventSaturationIdx
  tb : 0 ≤ L.temperatureIdx → L.temperatureIdx ≠ L.saltConcentrationIdx

theorem Layout.sep {L : Layout} (h : L.primaryVars.Nodup) : L.Sep := by
  have ne (i j : ℕ) (hij : i < j) (hj : j < 15) := nodup_filter_ne h i j hij hj
  have ne' : ∀ (i j : ℕ) (hij : i ≠ j) (hi : i < 15) (hj : j < 15), 0 ≤ [L.waterSwitchIdx, L.pressureSwitchIdx,
      L.compositionSwitchIdx, L.solventSaturationIdx, L.zFractionIdx,
      L.polymerConcentrationIdx, L.polymerMoleWeightIdx, L.microbialConcentrationIdx, L.oxygenConcentrationIdx,
      L.ureaConcentrationIdx, L.biofilmConcentrationIdx, L.calciteConcentrationIdx, L.foamConcentrationIdx,
      L.saltConcentrationIdx, L.temperatureIdx][i] → [L.waterSwitchIdx, L.pressureSwitchIdx,
      L.compositionSwitchIdx, L.solventSaturationIdx, L.zFractionIdx,
      L.polymerConcentrationIdx, L.polymerMoleWeightIdx, L.microbialConcentrationIdx, L.oxygenConcentrationIdx,
      L.ureaConcentrationIdx, L.biofilmConcentrationIdx, L.calciteConcentrationIdx, L.foamConcentrationIdx,
      L.saltConcentrationIdx, L.temperatureIdx][i] ≠ [L.waterSwitchIdx, L.pressureSwitchIdx,
      L.compositionSwitchIdx, L.solventSaturationIdx, L.zFractionIdx,
      L.polymerConcentrationIdx, L.polymerMoleWeightIdx, L.microbialConcentrationIdx, L.oxygenConcentrationIdx,
      L.ureaConcentrationIdx, L.biofilmConcentrationIdx, L.calciteConcentrationIdx, L.foamConcentrationIdx,
      L.saltConcentrationIdx, L.temperatureIdx][j] := by
    intro i j hij hi hj h0
    rcases Nat.lt_or_gt_of_ne hij with h1 | h1
    · exact ne i j h1 hj (decide_eq_true h0)
    · intro he
      exact ne j i h1 hi (decide_eq_true (by rw [← he]; exact h0)) he.symm
  exact
    { wp := ne' 0 1 (by decide) (by decide) (by decide)
      wc := ne' 0 2 (by decide) (by decide) (by decide)
      cw := ne' 2 0 (by decide) (by decide) (by decide)
      cp := ne' 2 1 (by decide) (by decide) (by decide)
      ps := ne' 1 3 (by decide) (by decide) (by decide)
      sw := ne' 3 0 (by decide) (by decide) (by decide)
      sp := ne' 3 1 (by decide) (by decide) (by decide)
      sc := ne' 3 2 (by decide) (by decide) (by decide)
      bw := ne' 13 0 (by decide) (by decide) (by decide)
      bp := ne' 13 1 (by decide) (by decide) (by decide)
      bc := ne' 13 2 (by decide) (by decide) (by decide)
      bs := ne' 13 3 (by decide) (by decide) (by decide)
      zw := ne' 4 0 (by decide) (by decide) (by decide)
      zp := ne' 4 1 (by decide) (by decide) (by decide)
      zc := ne' 4 2 (by decide) (by decide) (by decide)
      zs := ne' 4 3 (by decide) (by decide) (by decide)
      zb := ne' 4 13 (by decide) (by decide) (by decide)
      tw := ne' 14 0 (by decide) (by decide) (by decide)
      tp := ne' 14 1 (by decide) (by decide) (by decide)
      tc := ne' 14 2 (by decide) (by decide) (by decide)
      ts := ne' 14 3 (by decide) (by decide) (by decide)
      tb := ne' 14 13 (by decide) (by decide) (by decide) }

end Verif.BlackOil
