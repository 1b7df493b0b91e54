import Verif.BlackOil.AppearProps

/-!
# C79: solid and dissolved salt when the meaning of the salt variable changes
-/

set_option autoImplicit false
set_option linter.unusedSectionVars false

namespace Verif.BlackOil

variable {K : Type} [Field K] [LinearOrder K] [IsStrictOrderedRing K]
variable {L : Layout} {f : Fluid K} {v : PriVars K} {swMax threshold eps : K}

/-- **C79** When solid salt vanishes, the concentration of dissolved salt is the solubility before and after, and there is no solid salt
afterwards (its saturation was less than `-eps`).  When solid salt appears, its saturation starts with zero and the concentration of
dissolved salt is lowered from more than the solubility plus `eps` to the solubility.  If the meaning of the salt variable does not change,
neither does any of the two. -/
theorem C79_salt (hU : Usual L f) (hp : f.saltPrecipitation) :
    let a := (adapt L f swMax threshold eps v).1
    (a.brine = v.brine → readSalt L f a = readSalt L f v ∧ (read L f a).saltSaturation = (read L f v).saltSaturation) ∧
    (v.brine = .Sp → a.brine ≠ v.brine → a.brine = .Cs ∧ readSalt L f v = f.saltSol ∧ readSalt L f a = f.saltSol ∧
      (read L f v).saltSaturation < -eps ∧ (read L f a).saltSaturation = 0) ∧
    (v.brine = .Cs → a.brine ≠ v.brine → a.brine = .Sp ∧ f.saltSol + eps < readSalt L f v ∧ readSalt L f a = f.saltSol ∧
      (read L f v).saltSaturation = 0 ∧ (read L f a).saltSaturation = 0) ∧
    (v.brine = .Disabled → a.brine = .Disabled) := by
  intro a
  have h0 := hU.salt hp
  by_cases hd : v.water = .Disabled ∧ v.gas = .Disabled
  · have ha : a = v := by
      change (adapt L f swMax threshold eps v).1 = v
      unfold adapt
      rw [if_pos hd]
    rw [ha]
    exact ⟨fun _ => ⟨rfl, rfl⟩, fun _ h => absurd rfl h, fun _ h => absurd rfl h, fun h => h⟩
  obtain ⟨h1, h2⟩ := adapt_brine (swMax := swMax) (threshold := threshold) (eps := eps) hU hd
  replace h2 := h2 h0
  change a.brine = _ at h1
  change a.val _ = _ at h2
  generalize a = a at *
  unfold adaptBrine at h1 h2
  rw [if_pos hp] at h1 h2
  simp only [readSalt, read, if_pos h0, hp, true_and]
  cases hb : v.brine <;> rw [hb] at h1 h2 <;> dsimp only at h1 h2
  · by_cases hx : f.saltSol + eps < v.val L.saltConcentrationIdx
    · rw [if_pos hx] at h1 h2
      simp only [PriVars.set, Function.update_self] at h1 h2
      simp [h1, h2, hx]
    · rw [if_neg hx] at h1 h2
      rw [hb] at h1
      simp [h1, h2]
  · by_cases hx : v.val L.saltConcentrationIdx < -eps
    · rw [if_pos hx] at h1 h2
      simp only [PriVars.set, Function.update_self] at h1 h2
      simp [h1, h2, hx]
    · rw [if_neg hx] at h1 h2
      rw [hb] at h1
      simp [h1, h2]
  · rw [hb] at h1
    simp [h1, h2]

/-- **C79** After the meanings have been adapted, water never has more dissolved salt than the solubility plus `eps`, and the saturation of
solid salt is never less than `-eps`. -/
theorem C79_salt_bounds (hU : Usual L f) (hp : f.saltPrecipitation) (he : 0 ≤ eps) (hb : v.brine ≠ .Disabled)
    (hd : ¬(v.water = .Disabled ∧ v.gas = .Disabled)) :
    let a := (adapt L f swMax threshold eps v).1
    readSalt L f a ≤ f.saltSol + eps ∧ -eps ≤ (read L f a).saltSaturation := by
  intro a
  have h0 := hU.salt hp
  obtain ⟨h1, h2⟩ := adapt_brine (swMax := swMax) (threshold := threshold) (eps := eps) hU hd
  replace h2 := h2 h0
  change a.brine = _ at h1
  change a.val _ = _ at h2
  generalize a = a at *
  unfold adaptBrine at h1 h2
  rw [if_pos hp] at h1 h2
  simp only [readSalt, read, if_pos h0, hp, true_and]
  cases hv : v.brine <;> rw [hv] at h1 h2 <;> dsimp only at h1 h2
  · by_cases hx : f.saltSol + eps < v.val L.saltConcentrationIdx
    · rw [if_pos hx] at h1 h2
      simp only [PriVars.set, Function.update_self] at h1 h2
      simp [h1, h2, he]
    · rw [if_neg hx] at h1 h2
      rw [hv] at h1
      simp [h1, h2, he, not_lt.1 hx]
  · by_cases hx : v.val L.saltConcentrationIdx < -eps
    · rw [if_pos hx] at h1 h2
      simp only [PriVars.set, Function.update_self] at h1 h2
      simp [h1, h2, he]
    · rw [if_neg hx] at h1 h2
      rw [hv] at h1
      simp [h1, h2, he, not_lt.1 hx]
  · exact absurd hv hb

/-- **C79** … is violated if salt precipitates, in every model with solid salt: however much dissolved salt is above the solubility, the
excess is gone afterwards: it is neither dissolved nor solid. -/
theorem C79_salt_violated (hU : Usual L f) (hp : f.saltPrecipitation) (hb : v.brine = .Cs)
    (hd : ¬(v.water = .Disabled ∧ v.gas = .Disabled)) (hx : f.saltSol + eps < readSalt L f v) :
    let a := (adapt L f swMax threshold eps v).1
    (read L f v).saltSaturation = 0 ∧ (read L f a).saltSaturation = 0 ∧ readSalt L f a = f.saltSol := by
  intro a
  have h0 := hU.salt hp
  have h1 := (adapt_brine (swMax := swMax) (threshold := threshold) (eps := eps) hU hd).1
  change a.brine = _ at h1
  have hx' : f.saltSol + eps < v.val L.saltConcentrationIdx := by
    unfold readSalt at hx
    rw [if_pos h0, hb] at hx
    simpa using hx
  have hne : a.brine ≠ v.brine := by
    rw [h1, hb]
    unfold adaptBrine
    rw [if_pos hp, hb]
    simp [hx']
  obtain ⟨-, q1, q2, q3, q4⟩ := (C79_salt (v := v) (swMax := swMax) (threshold := threshold) (eps := eps) hU hp).2.2.1 hb hne
  exact ⟨q3, q4, q2⟩

/-- The layout of a model with three phases and salt -/
def saltLayout : Layout := threePhase ⟨0, 0, 0, 0, false, true, 0, 0⟩

/-- A cell with twice as much dissolved salt as possible, and one in which more solid salt was dissolved than there was -/
example : Usual saltLayout saltFluid ∧ saltFluid.saltPrecipitation ∧ saltCell.brine = .Cs ∧
    ¬(saltCell.water = .Disabled ∧ saltCell.gas = .Disabled) ∧ saltFluid.saltSol + 0 < readSalt saltLayout saltFluid saltCell ∧
    readSalt saltLayout saltFluid saltCell = 2 ∧
    readSalt saltLayout saltFluid (adapt saltLayout saltFluid 1 1 0 saltCell).1 = 1 ∧
    (let w : PriVars ℚ := { saltCell.set saltLayout.saltConcentrationIdx (-1 / 10) with brine := .Sp }
     (read saltLayout saltFluid w).saltSaturation = -1 / 10 ∧ (adapt saltLayout saltFluid 1 1 0 w).1.brine = .Cs) := by
  refine ⟨⟨by decide, by decide, ?_, by decide, by decide⟩, rfl, rfl, by decide, by decide +kernel, by decide +kernel,
    by decide +kernel, by decide +kernel⟩
  constructor <;> intros <;> simp [saltFluid, demoFluid]

end Verif.BlackOil
