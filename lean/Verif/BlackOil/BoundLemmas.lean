import Verif.BlackOil.SatLemmas

/-
The bounds of variables which are neither pressures nor saturations after a limited update.
-/

set_option autoImplicit false
set_option linter.unusedSectionVars false

namespace Verif.BlackOil

variable {K : Type} [Field K] [LinearOrder K] [IsStrictOrderedRing K]
variable {L : Layout} {f : Fluid K} {l : Limits K} {cur v : PriVars K} {update : ℤ → K}

theorem clamp_mem (x : K) {lo hi : K} (h : lo ≤ hi) : lo ≤ clamp x lo hi ∧ clamp x lo hi ≤ hi := by
  unfold clamp
  split_ifs with h1 h2
  · exact ⟨le_rfl, h⟩
  · exact ⟨h, le_rfl⟩
  · exact ⟨not_lt.1 h1, not_lt.1 h2⟩

/-- The z fraction -/
theorem updated_zFraction (hL : L.primaryVars.Nodup) (h0 : 0 ≤ L.zFractionIdx) (hn : L.zFractionIdx < L.numEq) :
    0 ≤ (limitedUpdate L f l cur update cur).val L.zFractionIdx ∧ (limitedUpdate L f l cur update cur).val L.zFractionIdx ≤ 1 := by
  obtain ⟨w, h, -⟩ := limitedUpdate_val L f l cur update cur _ h0 hn
  have ne (j : ℕ) (hj : j < 15) (h : 4 ≠ j) : L.zFractionIdx ≠ L.all[j]'hj := Layout.ne hL 4 j h (by decide) hj h0
  rw [h]
  unfold updateVar
  dsimp only
  rw [if_neg (fun h => ne 11 (by decide) (by decide) h.2), if_neg (fun h => ne 10 (by decide) (by decide) h.2), if_neg (fun h => ne 9 (by decide) (by decide) h.2), if_neg (fun h => ne 8 (by decide) (by decide) h.2), if_neg (fun h => ne 7 (by decide) (by decide) h.2), if_neg (fun h => ne 1 (by decide) (by decide) h), if_neg (fun h => ne 14 (by decide) (by decide) h.2), if_neg (fun h => ne 13 (by decide) (by decide) h.2), if_neg (fun h => ne 12 (by decide) (by decide) h.2), if_neg (fun h => ne 6 (by decide) (by decide) h.2), if_neg (fun h => ne 5 (by decide) (by decide) h.2), if_pos ⟨h0, rfl⟩]
  exact ⟨clamp01_nonneg _, clamp01_le _⟩

/-- The polymer concentration -/
theorem updated_polymer (hL : L.primaryVars.Nodup) (h0 : 0 ≤ L.polymerConcentrationIdx) (hn : L.polymerConcentrationIdx < L.numEq) :
    0 ≤ (limitedUpdate L f l cur update cur).val L.polymerConcentrationIdx := by
  obtain ⟨w, h, -⟩ := limitedUpdate_val L f l cur update cur _ h0 hn
  have ne (j : ℕ) (hj : j < 15) (h : 5 ≠ j) : L.polymerConcentrationIdx ≠ L.all[j]'hj := Layout.ne hL 5 j h (by decide) hj h0
  rw [h]
  unfold updateVar
  dsimp only
  rw [if_neg (fun h => ne 11 (by decide) (by decide) h.2), if_neg (fun h => ne 10 (by decide) (by decide) h.2), if_neg (fun h => ne 9 (by decide) (by decide) h.2), if_neg (fun h => ne 8 (by decide) (by decide) h.2), if_neg (fun h => ne 7 (by decide) (by decide) h.2), if_neg (fun h => ne 1 (by decide) (by decide) h), if_neg (fun h => ne 14 (by decide) (by decide) h.2), if_neg (fun h => ne 13 (by decide) (by decide) h.2), if_neg (fun h => ne 12 (by decide) (by decide) h.2), if_neg (fun h => ne 6 (by decide) (by decide) h.2), if_pos ⟨h0, rfl⟩]
  exact le_max_right _ _

/-- The molecular weight of the polymer -/
theorem updated_polymerMW (hL : L.primaryVars.Nodup) (h0 : 0 ≤ L.polymerMoleWeightIdx) (hn : L.polymerMoleWeightIdx < L.numEq) :
    0 ≤ (limitedUpdate L f l cur update cur).val L.polymerMoleWeightIdx := by
  obtain ⟨w, h, -⟩ := limitedUpdate_val L f l cur update cur _ h0 hn
  have ne (j : ℕ) (hj : j < 15) (h : 6 ≠ j) : L.polymerMoleWeightIdx ≠ L.all[j]'hj := Layout.ne hL 6 j h (by decide) hj h0
  rw [h]
  unfold updateVar
  dsimp only
  rw [if_neg (fun h => ne 11 (by decide) (by decide) h.2), if_neg (fun h => ne 10 (by decide) (by decide) h.2), if_neg (fun h => ne 9 (by decide) (by decide) h.2), if_neg (fun h => ne 8 (by decide) (by decide) h.2), if_neg (fun h => ne 7 (by decide) (by decide) h.2), if_neg (fun h => ne 1 (by decide) (by decide) h), if_neg (fun h => ne 14 (by decide) (by decide) h.2), if_neg (fun h => ne 13 (by decide) (by decide) h.2), if_neg (fun h => ne 12 (by decide) (by decide) h.2), if_pos ⟨h0, rfl⟩]
  split_ifs <;> first | exact le_rfl | exact le_max_right _ _

/-- The foam concentration -/
theorem updated_foam (hL : L.primaryVars.Nodup) (h0 : 0 ≤ L.foamConcentrationIdx) (hn : L.foamConcentrationIdx < L.numEq) :
    0 ≤ (limitedUpdate L f l cur update cur).val L.foamConcentrationIdx := by
  obtain ⟨w, h, -⟩ := limitedUpdate_val L f l cur update cur _ h0 hn
  have ne (j : ℕ) (hj : j < 15) (h : 12 ≠ j) : L.foamConcentrationIdx ≠ L.all[j]'hj := Layout.ne hL 12 j h (by decide) hj h0
  rw [h]
  unfold updateVar
  dsimp only
  rw [if_neg (fun h => ne 11 (by decide) (by decide) h.2), if_neg (fun h => ne 10 (by decide) (by decide) h.2), if_neg (fun h => ne 9 (by decide) (by decide) h.2), if_neg (fun h => ne 8 (by decide) (by decide) h.2), if_neg (fun h => ne 7 (by decide) (by decide) h.2), if_neg (fun h => ne 1 (by decide) (by decide) h), if_neg (fun h => ne 14 (by decide) (by decide) h.2), if_neg (fun h => ne 13 (by decide) (by decide) h.2), if_pos ⟨h0, rfl⟩]
  exact le_max_right _ _

/-- The temperature -/
theorem updated_temperature (hL : L.primaryVars.Nodup) (h0 : 0 ≤ L.temperatureIdx) (hn : L.temperatureIdx < L.numEq) (hb : l.tempMin ≤ l.tempMax) :
    l.tempMin ≤ (limitedUpdate L f l cur update cur).val L.temperatureIdx ∧ (limitedUpdate L f l cur update cur).val L.temperatureIdx ≤ l.tempMax := by
  obtain ⟨w, h, -⟩ := limitedUpdate_val L f l cur update cur _ h0 hn
  have ne (j : ℕ) (hj : j < 15) (h : 14 ≠ j) : L.temperatureIdx ≠ L.all[j]'hj := Layout.ne hL 14 j h (by decide) hj h0
  rw [h]
  unfold updateVar
  dsimp only
  rw [if_neg (fun h => ne 11 (by decide) (by decide) h.2), if_neg (fun h => ne 10 (by decide) (by decide) h.2), if_neg (fun h => ne 9 (by decide) (by decide) h.2), if_neg (fun h => ne 8 (by decide) (by decide) h.2), if_neg (fun h => ne 7 (by decide) (by decide) h.2), if_neg (fun h => ne 1 (by decide) (by decide) h), if_pos ⟨h0, rfl⟩]
  exact clamp_mem _ hb

/-- A variable of the MICP module -/
theorem updated_microbialConcentration (hL : L.primaryVars.Nodup) (h0 : 0 ≤ L.microbialConcentrationIdx) (hn : L.microbialConcentrationIdx < L.numEq) (hb : 0 ≤ l.densityBiofilm) :
    0 ≤ (limitedUpdate L f l cur update cur).val L.microbialConcentrationIdx ∧ (limitedUpdate L f l cur update cur).val L.microbialConcentrationIdx ≤ l.densityBiofilm := by
  obtain ⟨w, h, -⟩ := limitedUpdate_val L f l cur update cur _ h0 hn
  have ne (j : ℕ) (hj : j < 15) (h : 7 ≠ j) : L.microbialConcentrationIdx ≠ L.all[j]'hj := Layout.ne hL 7 j h (by decide) hj h0
  rw [h]
  unfold updateVar
  dsimp only
  rw [if_neg (fun h => ne 11 (by decide) (by decide) h.2), if_neg (fun h => ne 10 (by decide) (by decide) h.2), if_neg (fun h => ne 9 (by decide) (by decide) h.2), if_neg (fun h => ne 8 (by decide) (by decide) h.2), if_pos ⟨h0, rfl⟩]
  exact clamp_mem _ hb

/-- A variable of the MICP module -/
theorem updated_oxygenConcentration (hL : L.primaryVars.Nodup) (h0 : 0 ≤ L.oxygenConcentrationIdx) (hn : L.oxygenConcentrationIdx < L.numEq) (hm : 0 ≤ L.microbialConcentrationIdx) (hb : 0 ≤ l.maxOxygen) :
    0 ≤ (limitedUpdate L f l cur update cur).val L.oxygenConcentrationIdx ∧ (limitedUpdate L f l cur update cur).val L.oxygenConcentrationIdx ≤ l.maxOxygen := by
  obtain ⟨w, h, -⟩ := limitedUpdate_val L f l cur update cur _ h0 hn
  have ne (j : ℕ) (hj : j < 15) (h : 8 ≠ j) : L.oxygenConcentrationIdx ≠ L.all[j]'hj := Layout.ne hL 8 j h (by decide) hj h0
  rw [h]
  unfold updateVar
  dsimp only
  rw [if_neg (fun h => ne 11 (by decide) (by decide) h.2), if_neg (fun h => ne 10 (by decide) (by decide) h.2), if_neg (fun h => ne 9 (by decide) (by decide) h.2), if_pos ⟨hm, rfl⟩]
  exact clamp_mem _ hb

/-- A variable of the MICP module -/
theorem updated_ureaConcentration (hL : L.primaryVars.Nodup) (h0 : 0 ≤ L.ureaConcentrationIdx) (hn : L.ureaConcentrationIdx < L.numEq) (hm : 0 ≤ L.microbialConcentrationIdx) (hb : 0 ≤ l.maxUrea) :
    0 ≤ (limitedUpdate L f l cur update cur).val L.ureaConcentrationIdx ∧ (limitedUpdate L f l cur update cur).val L.ureaConcentrationIdx ≤ l.maxUrea := by
  obtain ⟨w, h, -⟩ := limitedUpdate_val L f l cur update cur _ h0 hn
  have ne (j : ℕ) (hj : j < 15) (h : 9 ≠ j) : L.ureaConcentrationIdx ≠ L.all[j]'hj := Layout.ne hL 9 j h (by decide) hj h0
  rw [h]
  unfold updateVar
  dsimp only
  rw [if_neg (fun h => ne 11 (by decide) (by decide) h.2), if_neg (fun h => ne 10 (by decide) (by decide) h.2), if_pos ⟨hm, rfl⟩]
  exact clamp_mem _ hb

/-- A variable of the MICP module -/
theorem updated_biofilmConcentration (hL : L.primaryVars.Nodup) (h0 : 0 ≤ L.biofilmConcentrationIdx) (hn : L.biofilmConcentrationIdx < L.numEq) (hm : 0 ≤ L.microbialConcentrationIdx) (hb : 0 ≤ l.maxSolid) :
    0 ≤ (limitedUpdate L f l cur update cur).val L.biofilmConcentrationIdx ∧ (limitedUpdate L f l cur update cur).val L.biofilmConcentrationIdx ≤ l.maxSolid := by
  obtain ⟨w, h, -⟩ := limitedUpdate_val L f l cur update cur _ h0 hn
  have ne (j : ℕ) (hj : j < 15) (h : 10 ≠ j) : L.biofilmConcentrationIdx ≠ L.all[j]'hj := Layout.ne hL 10 j h (by decide) hj h0
  rw [h]
  unfold updateVar
  dsimp only
  rw [if_neg (fun h => ne 11 (by decide) (by decide) h.2), if_pos ⟨hm, rfl⟩]
  exact clamp_mem _ hb

/-- A variable of the MICP module -/
theorem updated_calciteConcentration (hL : L.primaryVars.Nodup) (h0 : 0 ≤ L.calciteConcentrationIdx) (hn : L.calciteConcentrationIdx < L.numEq) (hm : 0 ≤ L.microbialConcentrationIdx) (hb : 0 ≤ l.maxSolid) :
    0 ≤ (limitedUpdate L f l cur update cur).val L.calciteConcentrationIdx ∧ (limitedUpdate L f l cur update cur).val L.calciteConcentrationIdx ≤ l.maxSolid := by
  obtain ⟨w, h, -⟩ := limitedUpdate_val L f l cur update cur _ h0 hn
  have ne (j : ℕ) (hj : j < 15) (h : 11 ≠ j) : L.calciteConcentrationIdx ≠ L.all[j]'hj := Layout.ne hL 11 j h (by decide) hj h0
  rw [h]
  unfold updateVar
  dsimp only
  rw [if_pos ⟨hm, rfl⟩]
  exact clamp_mem _ hb

/-- Switching only touches the variables of water, pressure, gas, solvent and salt. -/
theorem adapt_frame {swMax threshold eps : K} (i : ℤ) (h1 : i ≠ L.waterSwitchIdx) (h2 : i ≠ L.pressureSwitchIdx)
    (h3 : i ≠ L.compositionSwitchIdx) (h4 : i ≠ L.solventSaturationIdx) (h5 : i ≠ L.saltConcentrationIdx)
    (h6 : L.waterSwitchIdx ≠ L.pressureSwitchIdx) : (adapt L f swMax threshold eps v).1.val i = v.val i := by
  unfold adapt
  by_cases hd : v.water = .Disabled ∧ v.gas = .Disabled
  · rw [if_pos hd]
  rw [if_neg hd]
  dsimp only
  have hb := (adaptBrine_frame (L := L) (f := f) (eps := eps) (v := v)).2.2.2.2 i h5
  have hs := (adaptSolvent_frame (L := L) (f := f) (eps := eps) (T := temperature L f v) (salt := (adaptBrine L f eps v).2)
    (v := (adaptBrine L f eps v).1)).2.2.2.2 i h4
  rw [hb] at hs
  rw [← hs]
  generalize adaptSolvent L f eps (temperature L f v) (adaptBrine L f eps v).2 (adaptBrine L f eps v).1 = u
  by_cases hw : threshold ≤ readSw L v ∧ ¬f.dissolvedGasInWater
  · rw [if_pos hw]
    unfold adaptWaterFilled
    dsimp only
    have e : ∀ b : Prop, ∀ _ : Decidable b, ∀ x : PriVars K, (if b then { x with gas := .Sg } else x).val = x.val := by
      intro b _ x
      split_ifs <;> rfl
    rw [e]
    have e2 (b : Prop) [Decidable b] (x : PriVars K) (j : ℤ) (y : K) (hj : i ≠ j) : (if b then x.set j y else x).val i = x.val i := by
      split_ifs
      · simp [PriVars.set, Function.update_of_ne hj]
      · rfl
    rw [e2 _ _ _ _ h3, e2 _ _ _ _ h1]
  · rw [if_neg hw]
    rw [(adaptGas_step (L := L) (f := f) (eps := eps)).2.2.2.2 i h3 h2, (adaptWater_step h6).2.2.2.2 i h1 h2]

/-- The projection only touches saturations. -/
theorem chop_frame (i : ℤ) (h1 : v.water = .Sw → i ≠ L.waterSwitchIdx) (h2 : v.gas = .Sg → i ≠ L.compositionSwitchIdx)
    (h3 : v.solvent = .Ss → i ≠ L.solventSaturationIdx) {v' : PriVars K} {b : Bool} (h : chopAndNormalize L v = some (v', b)) :
    v'.val i = v.val i ∧ v'.water = v.water ∧ v'.gas = v.gas ∧ v'.solvent = v.solvent ∧ v'.pressure = v.pressure ∧
      v'.brine = v.brine := by
  unfold chopAndNormalize at h
  by_cases hd : v.water = .Disabled ∧ v.gas = .Disabled
  · rw [if_pos hd] at h
    obtain ⟨rfl, -⟩ := Prod.mk.inj (Option.some.inj h)
    exact ⟨rfl, rfl, rfl, rfl, rfl, rfl⟩
  rw [if_neg hd] at h
  dsimp only at h
  by_cases hst : (clamp01 (if v.water = .Sw then v.val L.waterSwitchIdx else 0) +
      clamp01 (1 - (if v.water = .Sw then v.val L.waterSwitchIdx else 0) - (if v.gas = .Sg then v.val L.compositionSwitchIdx else 0)
        - (if v.solvent = .Ss then v.val L.solventSaturationIdx else 0)) +
      clamp01 (if v.gas = .Sg then v.val L.compositionSwitchIdx else 0) +
      clamp01 (if v.solvent = .Ss then v.val L.solventSaturationIdx else 0)) = 0
  · rw [if_pos hst] at h
    exact absurd h (by simp)
  rw [if_neg hst] at h
  have := (Prod.mk.inj (Option.some.inj h)).1
  rw [← this]
  clear h this hst
  by_cases hw : v.water = .Sw <;> by_cases hg : v.gas = .Sg <;> by_cases hso : v.solvent = .Ss <;>
    simp_all [PriVars.set, Function.update_apply]

/-- The salt concentration or saturation -/
theorem updated_salt (hL : L.primaryVars.Nodup) (h0 : 0 ≤ L.saltConcentrationIdx) (hn : L.saltConcentrationIdx < L.numEq) :
    (¬f.saltPrecipitation ∨ cur.brine = .Cs → 0 ≤ (limitedUpdate L f l cur update cur).val L.saltConcentrationIdx) ∧
    (f.saltPrecipitation ∧ cur.brine = .Sp →
      (limitedUpdate L f l cur update cur).val L.saltConcentrationIdx ≤ 1 - 1 / 100000000) := by
  obtain ⟨w, h, -⟩ := limitedUpdate_val L f l cur update cur _ h0 hn
  have ne (j : ℕ) (hj : j < 15) (h : 13 ≠ j) : L.saltConcentrationIdx ≠ L.all[j]'hj := Layout.ne hL 13 j h (by decide) hj h0
  rw [h]
  unfold updateVar
  dsimp only
  rw [if_neg (fun h => ne 11 (by decide) (by decide) h.2), if_neg (fun h => ne 10 (by decide) (by decide) h.2),
    if_neg (fun h => ne 9 (by decide) (by decide) h.2), if_neg (fun h => ne 8 (by decide) (by decide) h.2),
    if_neg (fun h => ne 7 (by decide) (by decide) h.2), if_neg (fun h => ne 1 (by decide) (by decide) h),
    if_neg (fun h => ne 14 (by decide) (by decide) h.2), if_pos ⟨h0, rfl⟩]
  constructor
  · intro hc
    rw [if_neg, if_pos hc]
    · exact le_max_right _ _
    · rintro ⟨h1, h2⟩
      rcases hc with hc | hc
      · exact hc h1
      · exact absurd (hc.symm.trans h2) (by decide)
  · intro hc
    rw [if_pos hc]
    exact min_le_right _ _

theorem adaptWater_factor {eps T salt pcF sw sg : K} (hf : FactorsNonneg f) (hp : L.waterSwitchIdx ≠ L.pressureSwitchIdx)
    (h : v.water = .Rvw ∨ v.water = .Rsw → 0 ≤ v.val L.waterSwitchIdx) :
    (adaptWater L f eps T salt pcF sw sg v).1.water = .Rvw ∨ (adaptWater L f eps T salt pcF sw sg v).1.water = .Rsw →
      0 ≤ (adaptWater L f eps T salt pcF sw sg v).1.val L.waterSwitchIdx := by
  unfold adaptWater
  cases hw : v.water <;> dsimp only
  · split_ifs
    · intro _
      simp only [PriVars.set, Function.update_self]
      exact hf.rvwSat _ _ _
    · intro _
      simp only [PriVars.set, setScaledPressure, Function.update_of_ne hp, Function.update_self]
      exact le_min (hf.rswSat _ _ _) hf.maxRs
    · rw [hw]; simp
  · split_ifs
    · simp [PriVars.set]
    · exact h
  · split_ifs
    · simp [PriVars.set, setScaledPressure]
    · exact h
  · exact h

theorem adaptGas_factor {eps T pcF sw sg : K} (hf : FactorsNonneg f)
    (h : v.gas = .Rs ∨ v.gas = .Rv → 0 ≤ v.val L.compositionSwitchIdx) :
    (adaptGas L f eps T pcF sw sg v).1.gas = .Rs ∨ (adaptGas L f eps T pcF sw sg v).1.gas = .Rv →
      0 ≤ (adaptGas L f eps T pcF sw sg v).1.val L.compositionSwitchIdx := by
  unfold adaptGas
  cases hw : v.gas <;> dsimp only
  · split_ifs
    · intro _
      simp only [PriVars.set, Function.update_self]
      refine le_min hf.maxRs ?_
      unfold rsLimit
      split_ifs
      · exact hf.extboRs _ _
      · exact hf.rsSat _ _ _ _
    · intro _
      simp only [PriVars.set, Function.update_self]
      refine le_min hf.maxRv ?_
      unfold rvLimit
      split_ifs
      · exact hf.extboRv _ _
      · exact hf.rvSat _ _ _ _
    · rw [hw]; simp
  · split_ifs
    · simp [PriVars.set]
    · exact h
  · split_ifs
    · simp [PriVars.set, setScaledPressure]
    · exact h
  · exact h

theorem adaptSolvent_factor {eps T salt : K} (hf : FactorsNonneg f) (h : v.solvent = .Rsolw → 0 ≤ v.val L.solventSaturationIdx) :
    (adaptSolvent L f eps T salt v).solvent = .Rsolw → 0 ≤ (adaptSolvent L f eps T salt v).val L.solventSaturationIdx := by
  unfold adaptSolvent
  by_cases hc : 0 ≤ L.solventSaturationIdx ∧ f.solventInWater
  · rw [if_pos hc]
    cases hb : v.solvent <;> dsimp only
    · split_ifs
      · intro _
        simp only [PriVars.set, Function.update_self]
        exact hf.solubility _ _ _
      · rw [hb]; simp
    · split_ifs
      · simp [PriVars.set]
      · intro _; exact h hb
    · exact h
  · rw [if_neg hc]
    exact h

theorem adaptWaterFilled_frame {swMax sw : K} :
    (adaptWaterFilled L f swMax sw v).1.water = v.water ∧ (adaptWaterFilled L f swMax sw v).1.pressure = v.pressure ∧
    (adaptWaterFilled L f swMax sw v).1.solvent = v.solvent ∧ (adaptWaterFilled L f swMax sw v).1.brine = v.brine ∧
    ((adaptWaterFilled L f swMax sw v).1.gas = v.gas ∨ (adaptWaterFilled L f swMax sw v).1.gas = .Sg) ∧
    (∀ i, i ≠ L.waterSwitchIdx → i ≠ L.compositionSwitchIdx → (adaptWaterFilled L f swMax sw v).1.val i = v.val i) ∧
    ((adaptWaterFilled L f swMax sw v).1.val L.waterSwitchIdx = min swMax sw ∨
     (adaptWaterFilled L f swMax sw v).1.val L.waterSwitchIdx = v.val L.waterSwitchIdx ∨
     (adaptWaterFilled L f swMax sw v).1.val L.waterSwitchIdx = 0) ∧
    (0 ≤ L.compositionSwitchIdx → (adaptWaterFilled L f swMax sw v).1.val L.compositionSwitchIdx = 0) := by
  unfold adaptWaterFilled
  dsimp only
  by_cases hw : f.waterActive <;> by_cases hc : 0 ≤ L.compositionSwitchIdx <;> by_cases hg : v.gas = .Sg <;>
    by_cases hwc : L.waterSwitchIdx = L.compositionSwitchIdx <;>
    simp only [hw, hc, if_true, if_false, and_true, and_false, Bool.false_eq_true] <;> simp_all [PriVars.set, Function.update_apply]

/-- The projection changes no meaning. -/
theorem chop_meanings {v' : PriVars K} {b : Bool} (h : chopAndNormalize L v = some (v', b)) :
    v'.water = v.water ∧ v'.gas = v.gas ∧ v'.solvent = v.solvent ∧ v'.pressure = v.pressure ∧ v'.brine = v.brine :=
  (chop_frame (-1 - |L.waterSwitchIdx| - |L.compositionSwitchIdx| - |L.solventSaturationIdx|)
    (fun _ => by have := abs_nonneg L.compositionSwitchIdx; have := abs_nonneg L.solventSaturationIdx
                 have := neg_abs_le L.waterSwitchIdx; omega)
    (fun _ => by have := abs_nonneg L.waterSwitchIdx; have := abs_nonneg L.solventSaturationIdx
                 have := neg_abs_le L.compositionSwitchIdx; omega)
    (fun _ => by have := abs_nonneg L.waterSwitchIdx; have := abs_nonneg L.compositionSwitchIdx
                 have := neg_abs_le L.solventSaturationIdx; omega) h).2

end Verif.BlackOil
