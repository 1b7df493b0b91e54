import Verif.BlackOil.SolventIQ
import Verif.BlackOil.AppearProps

/-!
# C174: free and dissolved solvent when the meaning of the solvent variable changes
-/

set_option autoImplicit false
set_option linter.unusedSectionVars false
set_option linter.unusedSimpArgs false

namespace Verif.BlackOil

variable {K : Type} [Field K] [LinearOrder K] [IsStrictOrderedRing K]
variable {L : Layout} {f : Fluid K} {v : PriVars K} {swMax threshold eps : K}

/-- The part of the solvent is not changed by the rest of `adapt`. -/
theorem adapt_solvent (hU : Usual L f) (hd : ¬(v.water = .Disabled ∧ v.gas = .Disabled)) (h : 0 ≤ L.solventSaturationIdx) :
    (adapt L f swMax threshold eps v).1.solvent = (stage L f eps v).solvent ∧
    (adapt L f swMax threshold eps v).1.val L.solventSaturationIdx = (stage L f eps v).val L.solventSaturationIdx := by
  have ne (j : ℕ) (hj : j < 15) (h' : 3 ≠ j) : L.solventSaturationIdx ≠ L.all[j]'hj :=
    Layout.ne hU.nodup 3 j h' (by decide) hj h
  by_cases hf : WaterFilled L f threshold v
  · rw [adapt_eq hd, if_pos (show _ ∧ _ from hf)]
    obtain ⟨-, -, c3, -, -, c5, -⟩ := adaptWaterFilled_frame (L := L) (f := f) (swMax := swMax) (sw := readSw L v) (v := stage L f eps v)
    exact ⟨c3, c5 _ (ne 0 (by decide) (by decide)) (ne 2 (by decide) (by decide))⟩
  · obtain ⟨-, c2, -, -, -, -, -, c4, c5, -⟩ := adapt_parts (swMax := swMax) (eps := eps) hU hd hf
    exact ⟨c2, (c4 _ (ne 2 (by decide) (by decide)) (ne 1 (by decide) (by decide))).trans
      (c5 _ (ne 0 (by decide) (by decide)) (ne 1 (by decide) (by decide)))⟩

/-- When meanings are adapted, the limit of solubility is that of the intensive quantities: pressures are not scaled, the pressure
variable is the pressure of the water, and the salt is either absent or can precipitate. -/
structure SeesLimit (L : Layout) (f : Fluid K) (v : PriVars K) : Prop where
  scale : f.scale = 1
  pressure : (read L f v).pw = pressure L f v
  salt : L.saltConcentrationIdx < 0 ∨ (f.saltPrecipitation ∧ v.brine ≠ .Disabled)

/-- The limit which `adaptSolvent` uses. -/
theorem seesLimit (hU : Usual L f) (h : SeesLimit L f v) :
    f.solubilityLimit (temperature L f v) ((adaptBrine L f eps v).1.val L.pressureSwitchIdx) (adaptBrine L f eps v).2 =
    f.solubilityLimit (read L f v).temperature (read L f v).pw (readSalt L f v) := by
  have e1 : (adaptBrine L f eps v).1.val L.pressureSwitchIdx = (read L f v).pw := by
    have ne : L.pressureSwitchIdx ≠ L.saltConcentrationIdx :=
      Layout.ne hU.nodup 1 13 (by decide) (by decide) (by decide) hU.pressure
    rw [(adaptBrine_frame (L := L) (f := f) (eps := eps) (v := v)).2.2.2.2 _ ne, h.pressure]
    simp [pressure, h.scale]
  have e2 : (adaptBrine L f eps v).2 = readSalt L f v := by
    unfold adaptBrine readSalt
    rcases h.salt with hs | ⟨hs, hb⟩
    · have hp : ¬ (f.saltPrecipitation = true) := fun hp => absurd (hU.salt hp) (not_le.2 hs)
      rw [if_neg hp, if_neg (not_le.2 hs)]
    · rw [if_pos hs, if_pos (hU.salt hs)]
      cases hv : v.brine <;> simp [hs]
      exact absurd hv hb
  rw [e1, e2]
  rfl

/-- **C174** When free solvent vanishes, the water holds as much solvent as it can before and after, and there is no free solvent
afterwards (its saturation was less than `-eps`).  When free solvent appears, its saturation starts with zero; the water held more than it
can, by more than `eps`, and holds as much as it can afterwards.  If the meaning of the solvent variable does not change, neither does
the saturation of the free solvent.  This needs that the limit of solubility is the same for both, see `SeesLimit`. -/
theorem C174_switch_partial (hU : Usual L f) (hs : 0 ≤ L.solventSaturationIdx) (hw : f.solventInWater) (hl : SeesLimit L f v) :
    let a := (adapt L f swMax threshold eps v).1
    let limit := fun x : PriVars K => f.solubilityLimit (read L f x).temperature (read L f x).pw (readSalt L f x)
    (a.solvent = v.solvent → (saturations L f a).solvent = (saturations L f v).solvent ∧
      (v.solvent ≠ .Ss → readRsSolw L f a = readRsSolw L f v)) ∧
    (v.solvent = .Ss → a.solvent ≠ v.solvent → a.solvent = .Rsolw ∧ readRsSolw L f v = limit v ∧ readRsSolw L f a = limit v ∧
      (saturations L f v).solvent < -eps ∧ (saturations L f a).solvent = 0) ∧
    (v.solvent = .Rsolw → a.solvent ≠ v.solvent → a.solvent = .Ss ∧ limit v + eps < readRsSolw L f v ∧ readRsSolw L f a = limit a ∧
      (saturations L f v).solvent = 0 ∧ (saturations L f a).solvent = 0) ∧
    (v.solvent = .Disabled → a.solvent = .Disabled) := by
  intro a limit
  by_cases hd : v.water = .Disabled ∧ v.gas = .Disabled
  · have ha : a = v := by
      change (adapt L f swMax threshold eps v).1 = v
      unfold adapt
      rw [if_pos hd]
    rw [ha]
    exact ⟨fun _ => ⟨rfl, fun _ => rfl⟩, fun _ h => absurd rfl h, fun _ h => absurd rfl h, fun h => h⟩
  obtain ⟨h1, h2⟩ := adapt_solvent (swMax := swMax) (threshold := threshold) (eps := eps) hU hd hs
  change a.solvent = _ at h1
  change a.val _ = _ at h2
  have ne : L.solventSaturationIdx ≠ L.saltConcentrationIdx := Layout.ne hU.nodup 3 13 (by decide) (by decide) (by decide) hs
  obtain ⟨-, -, -, b4, b5⟩ := adaptBrine_frame (L := L) (f := f) (eps := eps) (v := v)
  replace b5 := b5 _ ne
  have hlim := seesLimit (eps := eps) hU hl
  have la : readRsSolw L f a = match a.solvent with
      | .Ss => limit a | .Rsolw => a.val L.solventSaturationIdx | .Disabled => 0 := by
    unfold readRsSolw solventLimit; rw [if_pos hs, if_pos hw]; cases a.solvent <;> rfl
  have lv : readRsSolw L f v = match v.solvent with
      | .Ss => limit v | .Rsolw => v.val L.solventSaturationIdx | .Disabled => 0 := by
    unfold readRsSolw solventLimit; rw [if_pos hs, if_pos hw]; cases v.solvent <;> rfl
  have sa : (saturations L f a).solvent = if a.solvent = .Ss then a.val L.solventSaturationIdx else 0 := by simp [saturations, hs]
  have sv : (saturations L f v).solvent = if v.solvent = .Ss then v.val L.solventSaturationIdx else 0 := by simp [saturations, hs]
  have hlim' : f.solubilityLimit (temperature L f v) ((adaptBrine L f eps v).1.val L.pressureSwitchIdx) (adaptBrine L f eps v).2 = limit v :=
    hlim
  rw [la, lv, sa, sv]
  generalize limit a = la' at *
  generalize limit v = lv' at *
  generalize a = a at *
  unfold stage adaptSolvent at h1 h2
  rw [if_pos ⟨hs, hw⟩] at h1 h2
  simp only [hlim', b4, b5] at h1 h2
  cases hv : v.solvent <;> simp only [hv] at h1 h2 b4
  · by_cases hx : v.val L.solventSaturationIdx < -eps
    · rw [if_pos hx] at h1 h2
      simp only [PriVars.set, Function.update_self] at h1 h2
      simp [h1, h2, hx]
    · rw [if_neg hx] at h1 h2
      rw [b4] at h1
      rw [b5] at h2
      simp [h1, h2]
  · by_cases hx : lv' + eps < v.val L.solventSaturationIdx
    · rw [if_pos hx] at h1 h2
      simp only [PriVars.set, Function.update_self] at h1 h2
      simp [h1, h2, hx]
    · rw [if_neg hx] at h1 h2
      rw [b4] at h1
      rw [b5] at h2
      simp [h1, h2]
  · rw [b4] at h1
    rw [b5] at h2
    simp [h1, h2]

/-- **C174** After the meanings have been adapted, the saturation of free solvent is not less than `-eps`, and dissolved solvent is not more
than what the water could hold before, plus `eps`, if it is a variable (otherwise it is what the water holds). -/
theorem C174_bounds_partial (hU : Usual L f) (hs : 0 ≤ L.solventSaturationIdx) (hw : f.solventInWater) (hl : SeesLimit L f v)
    (he : 0 ≤ eps) (hd : ¬(v.water = .Disabled ∧ v.gas = .Disabled)) :
    let a := (adapt L f swMax threshold eps v).1
    (-eps ≤ (saturations L f a).solvent) ∧
    (a.solvent = .Rsolw → readRsSolw L f a ≤ f.solubilityLimit (read L f v).temperature (read L f v).pw (readSalt L f v) + eps) := by
  intro a
  obtain ⟨h1, h2⟩ := adapt_solvent (swMax := swMax) (threshold := threshold) (eps := eps) hU hd hs
  change a.solvent = _ at h1
  change a.val _ = _ at h2
  have ne : L.solventSaturationIdx ≠ L.saltConcentrationIdx := Layout.ne hU.nodup 3 13 (by decide) (by decide) (by decide) hs
  obtain ⟨-, -, -, b4, b5⟩ := adaptBrine_frame (L := L) (f := f) (eps := eps) (v := v)
  replace b5 := b5 _ ne
  have hlim := seesLimit (eps := eps) hU hl
  have la (h : a.solvent = .Rsolw) : readRsSolw L f a = a.val L.solventSaturationIdx := by
    unfold readRsSolw; rw [if_pos hs, h]
  have sa : (saturations L f a).solvent = if a.solvent = .Ss then a.val L.solventSaturationIdx else 0 := by simp [saturations, hs]
  rw [sa]
  generalize f.solubilityLimit (read L f v).temperature (read L f v).pw (readSalt L f v) = lv' at *
  generalize a = a at *
  unfold stage adaptSolvent at h1 h2
  rw [if_pos ⟨hs, hw⟩] at h1 h2
  simp only [hlim, b4, b5] at h1 h2
  cases hv : v.solvent <;> simp only [hv] at h1 h2 b4
  · by_cases hx : v.val L.solventSaturationIdx < -eps
    · rw [if_pos hx] at h1 h2
      simp only [PriVars.set, Function.update_self] at h1 h2
      simp [h1, h2, he, la h1]
    · rw [if_neg hx] at h1 h2
      rw [b4] at h1
      rw [b5] at h2
      simpa [h1, h2] using hx
  · by_cases hx : lv' + eps < v.val L.solventSaturationIdx
    · rw [if_pos hx] at h1 h2
      simp only [PriVars.set, Function.update_self] at h1 h2
      simp [h1, h2, he]
    · rw [if_neg hx] at h1 h2
      rw [b4] at h1
      rw [b5] at h2
      rw [la h1]
      simpa [h1, h2, he] using hx
  · rw [b4] at h1
    simp [h1, he]

/-- The layout of a model with three phases, solvent and salt. -/
def solventSaltLayout : Layout := threePhase ⟨1, 0, 0, 0, false, true, 0, 0⟩

/-- The layout of a model with three phases and solvent. -/
def solventLayout : Layout := threePhase ⟨1, 0, 0, 0, false, false, 0, 0⟩

/-- A fluid whose solubility is the pressure divided by 100, less the concentration of salt, but
not negative. -/
def carbonated : Fluid ℚ := { demoFluid with solventInWater := true, solubilityLimit := fun _ p s => max 0 (p / 100 - s) }

/-- A cell from which more free solvent was taken than there was. -/
def vanished : PriVars ℚ :=
  ⟨fun i => if i = 0 then 1 / 5 else if i = 1 then 100 else if i = 2 then 1 / 10 else if i = 3 then -1 / 10 else 1 / 4,
    .Sw, .Po, .Sg, .Disabled, .Ss⟩

/-- The hypotheses can be met: the free solvent vanishes, and the water keeps what it holds. -/
example : Usual solventLayout carbonated ∧ SeesLimit solventLayout carbonated vanished ∧ 0 ≤ solventLayout.solventSaturationIdx ∧
    carbonated.solventInWater ∧ readRsSolw solventLayout carbonated vanished = 1 ∧
    (adapt solventLayout carbonated 1 1 0 vanished).1.solvent = .Rsolw ∧
    readRsSolw solventLayout carbonated (adapt solventLayout carbonated 1 1 0 vanished).1 = 1 := by
  refine ⟨⟨by decide, by decide, ?_, by decide, by decide⟩, ⟨rfl, by decide +kernel, .inl (by decide)⟩, by decide, rfl,
    by decide +kernel, by decide +kernel, by decide +kernel⟩
  constructor <;> intros <;> simp [carbonated, demoFluid]

/-- **C174** … is violated if pressures are scaled: the pressure variable is used as if it was the pressure.  When free solvent vanishes, the
water holds a hundredth of the solvent it held before. -/
theorem C174_scale_violated : ∃ (f : Fluid ℚ) (v : PriVars ℚ), Usual solventLayout f ∧ f.solventInWater ∧ f.scale = 100 ∧
    (read solventLayout f v).pw = pressure solventLayout f v ∧
    readRsSolw solventLayout f v = 1 ∧ (adapt solventLayout f 1 1 0 v).1.solvent = .Rsolw ∧
    readRsSolw solventLayout f (adapt solventLayout f 1 1 0 v).1 = 1 / 100 := by
  refine ⟨{ carbonated with scale := 100 }, { vanished with val := fun i => if i = 1 then 1 else vanished.val i },
    ⟨by decide, by decide, ?_, by decide, by decide⟩, rfl, rfl, by decide +kernel, by decide +kernel, by decide +kernel, by decide +kernel⟩
  constructor <;> intros <;> simp [carbonated, demoFluid]

/-- **C174** … is violated if there is salt which does not precipitate: when free solvent vanishes, the water holds as much solvent as if
there was no salt. -/
theorem C174_salt_violated : ∃ (f : Fluid ℚ) (v : PriVars ℚ), Usual solventSaltLayout f ∧ f.solventInWater ∧ f.scale = 1 ∧
    f.saltPrecipitation = false ∧ (read solventSaltLayout f v).pw = pressure solventSaltLayout f v ∧ readSalt solventSaltLayout f v = 1 / 4 ∧
    readRsSolw solventSaltLayout f v = 3 / 4 ∧ (adapt solventSaltLayout f 1 1 0 v).1.solvent = .Rsolw ∧
    readRsSolw solventSaltLayout f (adapt solventSaltLayout f 1 1 0 v).1 = 1 := by
  refine ⟨carbonated, { vanished with brine := .Cs }, ⟨by decide, by decide, ?_, by decide, by decide⟩, rfl, rfl, rfl, by decide +kernel,
    by decide +kernel, by decide +kernel, by decide +kernel, by decide +kernel⟩
  constructor <;> intros <;> simp [carbonated, demoFluid]

/-- **C174** … is violated if there are capillary pressures: the pressure of the oil is used in place of that of the water.  When free solvent
vanishes, the water holds twice as much solvent as it can. -/
theorem C174_capillary_violated : ∃ (f : Fluid ℚ) (v : PriVars ℚ), Usual solventLayout f ∧ f.solventInWater ∧ f.scale = 1 ∧
    (read solventLayout f v).pw = 50 ∧ (read solventLayout f v).po = 100 ∧
    readRsSolw solventLayout f v = 1 / 2 ∧ (adapt solventLayout f 1 1 0 v).1.solvent = .Rsolw ∧
    readRsSolw solventLayout f (adapt solventLayout f 1 1 0 v).1 = 1 := by
  refine ⟨{ carbonated with pcWater := fun _ _ _ => -50 }, vanished, ⟨by decide, by decide, ?_, by decide, by decide⟩, rfl, rfl,
    by decide +kernel, by decide +kernel, by decide +kernel, by decide +kernel, by decide +kernel⟩
  constructor <;> intros <;> simp [carbonated, demoFluid]

end Verif.BlackOil
