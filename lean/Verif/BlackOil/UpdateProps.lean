import Verif.BlackOil.BoundLemmas

/-
C52: the limits of an update of the black-oil Newton method.

The phase saturations are those which the fluid state gets from the primary variables (`saturations`).
-/

set_option autoImplicit false
set_option linter.unusedSectionVars false
set_option linter.unusedSimpArgs false

namespace Verif.BlackOil

variable {K : Type} [Field K] [LinearOrder K] [IsStrictOrderedRing K]
variable {L : Layout} {f : Fluid K} {l : Limits K} {s : SwitchParams K} {was : Bool} {cur : PriVars K} {update : ℤ → K}

/-- **C52** One update – limiting, switching and, if it is enabled, projecting – changes no saturation by more than the maximum,
whatever the update vector is and whatever the fluid and the capillary pressure law are.  Missing: models with the solvent module,
see `C52_solvent_violated`. -/
theorem C52_saturations_partial (h : Fits L f cur) (hs : SatNonneg (saturations L f cur)) (hp : Sensible s) (hd : 0 ≤ l.dsMax) :
    ∃ v b, updatePrimaryVariables L f l s was cur update = some (v, b) ∧ Fits L f v ∧
      SatClose l.dsMax (saturations L f cur) (saturations L f v) := by
  have sum := saturations_sum h
  have c1 := limited_close (update := update) h hd
  have he : 0 ≤ if was then s.oscillationThreshold else 0 := by split_ifs; exacts [hp.oscillation, le_rfl]
  obtain ⟨f2, c2⟩ := adapt_close (h.limited (l := l) (update := update)) hs sum.1 sum.2 he hp.threshold hp.max c1
  unfold updatePrimaryVariables
  dsimp only
  generalize adapt L f s.waterSaturationMax s.waterOnlyThreshold _ _ = a at f2 c2
  split_ifs
  · obtain ⟨v, b, e, f3, c3⟩ := chop_close f2 hs sum.1 c2
    exact ⟨v, a.2, by rw [e]; rfl, f3, c3⟩
  · exact ⟨a.1, a.2, rfl, f2, c2⟩

/-- **C52** The pressure is changed by at most the configured fraction, and by what the update says if that is within it, and then put
into its interval. -/
theorem C52_pressure (hL : L.primaryVars.Nodup) (h0 : 0 ≤ L.pressureSwitchIdx) (hn : L.pressureSwitchIdx < L.numEq)
    (hr : 0 ≤ l.dpMaxRel) (hp : 0 ≤ cur.val L.pressureSwitchIdx) :
    ∃ x : K, |x - cur.val L.pressureSwitchIdx| ≤ l.dpMaxRel * cur.val L.pressureSwitchIdx ∧
      (|update L.pressureSwitchIdx| ≤ l.dpMaxRel * cur.val L.pressureSwitchIdx →
        x = cur.val L.pressureSwitchIdx - update L.pressureSwitchIdx) ∧
      (limitedUpdate L f l cur update cur).val L.pressureSwitchIdx = clamp x l.pressMin l.pressMax := by
  refine ⟨_, ?_, ?_, updated_pressure hL h0 hn⟩
  · rw [sub_sub_cancel_left, abs_neg]
    split_ifs with h
    · rw [mul_assoc, abs_mul, abs_of_nonneg (mul_nonneg hr hp)]
      refine mul_le_of_le_one_left (mul_nonneg hr hp) ?_
      unfold signum
      rcases lt_trichotomy 0 (update L.pressureSwitchIdx) with h1 | h1 | h1
      · simp [h1, not_lt.2 h1.le]
      · simp [← h1]
      · simp [h1, not_lt.2 h1.le]
    · exact not_lt.1 h
  · intro h
    rw [if_neg (not_lt.2 h)]

/-- **C52** A positive pressure stays positive, if the fraction is below one and the interval is positive. -/
theorem C52_pressure_positive (hL : L.primaryVars.Nodup) (h0 : 0 ≤ L.pressureSwitchIdx) (hn : L.pressureSwitchIdx < L.numEq)
    (hr : 0 ≤ l.dpMaxRel) (hr1 : l.dpMaxRel < 1) (hp : 0 < cur.val L.pressureSwitchIdx) (hm : 0 < l.pressMax) :
    0 < (limitedUpdate L f l cur update cur).val L.pressureSwitchIdx := by
  obtain ⟨x, h1, -, h3⟩ := C52_pressure (f := f) (l := l) (update := update) hL h0 hn hr hp.le
  rw [h3]
  have hx : 0 < x := by
    have := (abs_le.1 h1).1
    nlinarith
  unfold clamp
  split_ifs with h
  · exact hx.trans h
  · exact hm
  · exact hx

/-- The state between limiting and projecting, and what it reports -/
theorem update_split {v : PriVars K} {b : Bool} (h : updatePrimaryVariables L f l s was cur update = some (v, b)) :
    ∃ eps, (0 ≤ s.oscillationThreshold → 0 ≤ eps) ∧
      b = (adapt L f s.waterSaturationMax s.waterOnlyThreshold eps (limitedUpdate L f l cur update cur)).2 ∧
      (v = (adapt L f s.waterSaturationMax s.waterOnlyThreshold eps (limitedUpdate L f l cur update cur)).1 ∨
       ∃ b', chopAndNormalize L
        (adapt L f s.waterSaturationMax s.waterOnlyThreshold eps (limitedUpdate L f l cur update cur)).1 = some (v, b')) := by
  unfold updatePrimaryVariables at h
  dsimp only at h
  refine ⟨if was then s.oscillationThreshold else 0, fun h => by split_ifs; exacts [h, le_rfl], ?_⟩
  generalize adapt L f s.waterSaturationMax s.waterOnlyThreshold _ _ = a at h
  split_ifs at h
  · obtain ⟨x, hx, hx'⟩ := Option.map_eq_some_iff.1 h
    obtain ⟨rfl, rfl⟩ := Prod.mk.inj hx'
    exact ⟨rfl, Or.inr ⟨x.2, hx⟩⟩
  · obtain rfl := Option.some.inj h
    exact ⟨rfl, Or.inl rfl⟩

/-- **C52** If nothing was switched, the pressure is the limited one. -/
theorem C52_pressure_unswitched {v : PriVars K} (hL : L.primaryVars.Nodup) (h0 : 0 ≤ L.pressureSwitchIdx)
    (h : updatePrimaryVariables L f l s was cur update = some (v, false)) :
    v.val L.pressureSwitchIdx = (limitedUpdate L f l cur update cur).val L.pressureSwitchIdx := by
  have ne (j : ℕ) (hj : j < 15) (h : 1 ≠ j) : L.pressureSwitchIdx ≠ L.all[j]'hj := Layout.ne hL 1 j h (by decide) hj h0
  obtain ⟨eps, -, hb, hv⟩ := update_split h
  have key : (adapt L f s.waterSaturationMax s.waterOnlyThreshold eps (limitedUpdate L f l cur update cur)).1.val L.pressureSwitchIdx =
      (limitedUpdate L f l cur update cur).val L.pressureSwitchIdx := by
    generalize limitedUpdate L f l cur update cur = u at hb hv
    clear h hv
    unfold adapt at hb ⊢
    by_cases hd : u.water = .Disabled ∧ u.gas = .Disabled
    · rw [if_pos hd]
    rw [if_neg hd] at hb ⊢
    dsimp only at hb ⊢
    have e1 := (adaptBrine_frame (L := L) (f := f) (eps := eps) (v := u)).2.2.2.2 _ (ne 13 (by decide) (by decide))
    have e2 := (adaptSolvent_frame (L := L) (f := f) (eps := eps) (T := temperature L f u) (salt := (adaptBrine L f eps u).2)
      (v := (adaptBrine L f eps u).1)).2.2.2.2 _ (ne 3 (by decide) (by decide))
    rw [← e1]
    refine Eq.trans ?_ e2
    generalize adaptSolvent L f eps (temperature L f u) (adaptBrine L f eps u).2 (adaptBrine L f eps u).1 = u' at hb
    split_ifs at hb ⊢ with hfill
    · exact (adaptWaterFilled_frame (L := L)).2.2.2.2.2.1 _ (ne 0 (by decide) (by decide)) (ne 2 (by decide) (by decide))
    · have hb' := hb.symm
      rw [Bool.or_eq_false_iff] at hb'
      have hw := (adaptWater_step (L := L) (f := f) (eps := eps) (T := temperature L f u)
        (salt := (adaptBrine L f eps u).2) (pcF := pcFactor L f u') (sw := readSw L u) (sg := readSg L f u) (v := u')
        (ne 0 (by decide) (by decide)).symm).1
      rw [hb'.1] at hw
      have hg := (adaptGas_step (L := L) (f := f) (eps := eps) (T := temperature L f u)
        (pcF := pcFactor L f u') (sw := readSw L u) (sg := readSg L f u)
        (v := (adaptWater L f eps (temperature L f u) (adaptBrine L f eps u).2 (pcFactor L f u') (readSw L u) (readSg L f u) u').1)).1
      rw [hb'.2] at hg
      cases hw with
      | same hw =>
        cases hg with
        | same hg => rw [hg, hw]
  rcases hv with rfl | ⟨b', hv⟩
  · exact key
  · rw [← key]
    exact (chop_frame _ (fun _ => ne 0 (by decide) (by decide)) (fun _ => ne 2 (by decide) (by decide))
      (fun _ => ne 3 (by decide) (by decide)) hv).1

/-- **C52** If the water variable is a factor after an update, it is not negative. -/
theorem C52_water_factor {v : PriVars K} {b : Bool} (hL : L.primaryVars.Nodup) (h0 : 0 ≤ L.waterSwitchIdx)
    (hn : L.waterSwitchIdx < L.numEq) (hs : Sensible s) (hf : FactorsNonneg f)
    (h : updatePrimaryVariables L f l s was cur update = some (v, b)) (hv : v.water = .Rvw ∨ v.water = .Rsw) :
    0 ≤ v.val L.waterSwitchIdx := by
  have ne (j : ℕ) (hj : j < 15) (h : 0 ≠ j) : L.waterSwitchIdx ≠ L.all[j]'hj := Layout.ne hL 0 j h (by decide) hj h0
  obtain ⟨eps, -, -, hv'⟩ := update_split h
  have key : ∀ u : PriVars K, (u.water = .Rvw ∨ u.water = .Rsw → 0 ≤ u.val L.waterSwitchIdx) →
      ((adapt L f s.waterSaturationMax s.waterOnlyThreshold eps u).1.water = .Rvw ∨
        (adapt L f s.waterSaturationMax s.waterOnlyThreshold eps u).1.water = .Rsw) →
      0 ≤ (adapt L f s.waterSaturationMax s.waterOnlyThreshold eps u).1.val L.waterSwitchIdx := by
    intro u hu
    unfold adapt
    by_cases hd : u.water = .Disabled ∧ u.gas = .Disabled
    · rw [if_pos hd]; exact hu
    rw [if_neg hd]
    dsimp only
    obtain ⟨m1, -, -, -, e1⟩ := adaptBrine_frame (L := L) (f := f) (eps := eps) (v := u)
    obtain ⟨m2, -, -, -, e2⟩ := adaptSolvent_frame (L := L) (f := f) (eps := eps) (T := temperature L f u)
      (salt := (adaptBrine L f eps u).2) (v := (adaptBrine L f eps u).1)
    rw [m1] at m2
    have e3 := (e2 _ (ne 3 (by decide) (by decide))).trans (e1 _ (ne 13 (by decide) (by decide)))
    generalize adaptSolvent L f eps (temperature L f u) (adaptBrine L f eps u).2 (adaptBrine L f eps u).1 = u' at m2 e3
    rw [← m2, ← e3] at hu
    split_ifs with hfill
    · obtain ⟨a1, -, -, -, -, -, a2, -⟩ := adaptWaterFilled_frame (L := L) (f := f) (swMax := s.waterSaturationMax) (sw := readSw L u) (v := u')
      rw [a1]
      intro hx
      rcases a2 with a2 | a2 | a2 <;> rw [a2]
      · exact le_min (zero_le_one.trans hs.max) (zero_le_one.trans (hs.threshold.trans hfill.1))
      · exact hu hx
    · obtain ⟨-, g1, -, -, g2⟩ := adaptGas_step (L := L) (f := f) (eps := eps) (T := temperature L f u)
        (pcF := pcFactor L f u') (sw := readSw L u) (sg := readSg L f u)
        (v := (adaptWater L f eps (temperature L f u) (adaptBrine L f eps u).2 (pcFactor L f u') (readSw L u) (readSg L f u) u').1)
      rw [g1, g2 _ (ne 2 (by decide) (by decide)) (ne 1 (by decide) (by decide))]
      exact adaptWater_factor hf (ne 1 (by decide) (by decide)) hu
  have first : (limitedUpdate L f l cur update cur).water = .Rvw ∨ (limitedUpdate L f l cur update cur).water = .Rsw →
      0 ≤ (limitedUpdate L f l cur update cur).val L.waterSwitchIdx := by
    intro hx
    change cur.water = .Rvw ∨ cur.water = .Rsw at hx
    rw [updated_water hL h0 hn, if_neg (by rcases hx with hx | hx <;> rw [hx] <;> decide)]
    split_ifs with hc
    · rw [sub_self]
    · exact sub_nonneg.2 (not_lt.1 hc)
  rcases hv' with rfl | ⟨b', hv'⟩
  · exact key _ first hv
  · by_cases hsw : (adapt L f s.waterSaturationMax s.waterOnlyThreshold eps (limitedUpdate L f l cur update cur)).1.water = .Sw
    · have := (chop_meanings hv').1
      rw [this, hsw] at hv
      simp at hv
    · obtain ⟨e1, e2, -⟩ := chop_frame L.waterSwitchIdx (fun hx => absurd hx hsw) (fun _ => ne 2 (by decide) (by decide))
        (fun _ => ne 3 (by decide) (by decide)) hv'
      rw [e2] at hv
      rw [e1]
      exact key _ first hv

/-- **C52** If the gas variable is a factor after an update, it is not negative. -/
theorem C52_gas_factor {v : PriVars K} {b : Bool} (hL : L.primaryVars.Nodup) (h0 : 0 ≤ L.compositionSwitchIdx)
    (hn : L.compositionSwitchIdx < L.numEq) (hw : L.waterSwitchIdx ≠ L.pressureSwitchIdx) (hf : FactorsNonneg f)
    (h : updatePrimaryVariables L f l s was cur update = some (v, b)) (hv : v.gas = .Rs ∨ v.gas = .Rv) :
    0 ≤ v.val L.compositionSwitchIdx := by
  have ne (j : ℕ) (hj : j < 15) (h : 2 ≠ j) : L.compositionSwitchIdx ≠ L.all[j]'hj := Layout.ne hL 2 j h (by decide) hj h0
  obtain ⟨eps, -, -, hv'⟩ := update_split h
  have key : ∀ u : PriVars K, (u.gas = .Rs ∨ u.gas = .Rv → 0 ≤ u.val L.compositionSwitchIdx) →
      ((adapt L f s.waterSaturationMax s.waterOnlyThreshold eps u).1.gas = .Rs ∨
        (adapt L f s.waterSaturationMax s.waterOnlyThreshold eps u).1.gas = .Rv) →
      0 ≤ (adapt L f s.waterSaturationMax s.waterOnlyThreshold eps u).1.val L.compositionSwitchIdx := by
    intro u hu
    unfold adapt
    by_cases hd : u.water = .Disabled ∧ u.gas = .Disabled
    · rw [if_pos hd]; exact hu
    rw [if_neg hd]
    dsimp only
    obtain ⟨-, m1, -, -, e1⟩ := adaptBrine_frame (L := L) (f := f) (eps := eps) (v := u)
    obtain ⟨-, m2, -, -, e2⟩ := adaptSolvent_frame (L := L) (f := f) (eps := eps) (T := temperature L f u)
      (salt := (adaptBrine L f eps u).2) (v := (adaptBrine L f eps u).1)
    rw [m1] at m2
    have e3 := (e2 _ (ne 3 (by decide) (by decide))).trans (e1 _ (ne 13 (by decide) (by decide)))
    generalize adaptSolvent L f eps (temperature L f u) (adaptBrine L f eps u).2 (adaptBrine L f eps u).1 = u' at m2 e3
    rw [← m2, ← e3] at hu
    split_ifs with hfill
    · intro _
      rw [(adaptWaterFilled_frame (L := L)).2.2.2.2.2.2.2 h0]
    · obtain ⟨-, g1, -, -, g2⟩ := adaptWater_step (L := L) (f := f) (eps := eps) (T := temperature L f u)
        (salt := (adaptBrine L f eps u).2) (pcF := pcFactor L f u') (sw := readSw L u) (sg := readSg L f u) (v := u') hw
      refine adaptGas_factor hf ?_
      rw [g1, g2 _ (ne 0 (by decide) (by decide)) (ne 1 (by decide) (by decide))]
      exact hu
  have first : (limitedUpdate L f l cur update cur).gas = .Rs ∨ (limitedUpdate L f l cur update cur).gas = .Rv →
      0 ≤ (limitedUpdate L f l cur update cur).val L.compositionSwitchIdx := by
    intro hx
    change cur.gas = .Rs ∨ cur.gas = .Rv at hx
    rw [updated_composition hL h0 hn, if_neg (by rcases hx with hx | hx <;> rw [hx] <;> decide)]
    split_ifs with hc
    · rw [sub_self]
    · exact sub_nonneg.2 (not_lt.1 hc)
  rcases hv' with rfl | ⟨b', hv'⟩
  · exact key _ first hv
  · by_cases hsw : (adapt L f s.waterSaturationMax s.waterOnlyThreshold eps (limitedUpdate L f l cur update cur)).1.gas = .Sg
    · rw [(chop_meanings hv').2.1, hsw] at hv
      simp at hv
    · obtain ⟨e1, -, e2, -⟩ := chop_frame L.compositionSwitchIdx (fun _ => ne 0 (by decide) (by decide)) (fun hx => absurd hx hsw)
        (fun _ => ne 3 (by decide) (by decide)) hv'
      rw [e2] at hv
      rw [e1]
      exact key _ first hv

/-- **C52** If the solvent variable is a factor after an update, it is not negative. -/
theorem C52_solvent_factor {v : PriVars K} {b : Bool} (hL : L.primaryVars.Nodup) (h0 : 0 ≤ L.solventSaturationIdx)
    (hn : L.solventSaturationIdx < L.numEq) (hw : L.waterSwitchIdx ≠ L.pressureSwitchIdx) (hf : FactorsNonneg f)
    (h : updatePrimaryVariables L f l s was cur update = some (v, b)) (hv : v.solvent = .Rsolw) :
    0 ≤ v.val L.solventSaturationIdx := by
  have ne (j : ℕ) (hj : j < 15) (h : 3 ≠ j) : L.solventSaturationIdx ≠ L.all[j]'hj := Layout.ne hL 3 j h (by decide) hj h0
  obtain ⟨eps, -, -, hv'⟩ := update_split h
  have key : ∀ u : PriVars K, (u.solvent = .Rsolw → 0 ≤ u.val L.solventSaturationIdx) →
      (adapt L f s.waterSaturationMax s.waterOnlyThreshold eps u).1.solvent = .Rsolw →
      0 ≤ (adapt L f s.waterSaturationMax s.waterOnlyThreshold eps u).1.val L.solventSaturationIdx := by
    intro u hu
    unfold adapt
    by_cases hd : u.water = .Disabled ∧ u.gas = .Disabled
    · rw [if_pos hd]; exact hu
    rw [if_neg hd]
    dsimp only
    obtain ⟨-, -, -, m1, e1⟩ := adaptBrine_frame (L := L) (f := f) (eps := eps) (v := u)
    have hu' := adaptSolvent_factor (L := L) (eps := eps) (T := temperature L f u) (salt := (adaptBrine L f eps u).2)
      (v := (adaptBrine L f eps u).1) hf (by rw [m1, e1 _ (ne 13 (by decide) (by decide))]; exact hu)
    generalize adaptSolvent L f eps (temperature L f u) (adaptBrine L f eps u).2 (adaptBrine L f eps u).1 = u' at hu'
    split_ifs with hfill
    · obtain ⟨-, -, a1, -, -, a2, -⟩ := adaptWaterFilled_frame (L := L) (f := f) (swMax := s.waterSaturationMax) (sw := readSw L u) (v := u')
      rw [a1, a2 _ (ne 0 (by decide) (by decide)) (ne 2 (by decide) (by decide))]
      exact hu'
    · obtain ⟨-, -, g1, -, g2⟩ := adaptWater_step (L := L) (f := f) (eps := eps) (T := temperature L f u)
        (salt := (adaptBrine L f eps u).2) (pcF := pcFactor L f u') (sw := readSw L u) (sg := readSg L f u) (v := u') hw
      obtain ⟨-, -, g3, -, g4⟩ := adaptGas_step (L := L) (f := f) (eps := eps) (T := temperature L f u)
        (pcF := pcFactor L f u') (sw := readSw L u) (sg := readSg L f u)
        (v := (adaptWater L f eps (temperature L f u) (adaptBrine L f eps u).2 (pcFactor L f u') (readSw L u) (readSg L f u) u').1)
      rw [g3, g1, g4 _ (ne 2 (by decide) (by decide)) (ne 1 (by decide) (by decide)),
        g2 _ (ne 0 (by decide) (by decide)) (ne 1 (by decide) (by decide))]
      exact hu'
  have first : (limitedUpdate L f l cur update cur).solvent = .Rsolw →
      0 ≤ (limitedUpdate L f l cur update cur).val L.solventSaturationIdx := by
    intro hx
    change cur.solvent = .Rsolw at hx
    rw [updated_solvent hL h0 hn, if_neg (by rw [hx]; decide)]
    split_ifs with hc
    · rw [sub_self]
    · exact sub_nonneg.2 (not_lt.1 hc)
  rcases hv' with rfl | ⟨b', hv'⟩
  · exact key _ first hv
  · have hm := (chop_meanings hv').2.2.1
    rw [hm] at hv
    rw [(chop_frame L.solventSaturationIdx (fun _ => ne 0 (by decide) (by decide)) (fun _ => ne 2 (by decide) (by decide))
      (fun hx => absurd (hv.symm.trans hx) (by decide)) hv').1]
    exact key _ first hv

/-- What holds of a variable which is not switched after limiting holds after the update. -/
theorem update_frame {v : PriVars K} {b : Bool} (h : updatePrimaryVariables L f l s was cur update = some (v, b)) (i : ℤ)
    (h1 : i ≠ L.waterSwitchIdx) (h2 : i ≠ L.pressureSwitchIdx) (h3 : i ≠ L.compositionSwitchIdx) (h4 : i ≠ L.solventSaturationIdx)
    (h5 : i ≠ L.saltConcentrationIdx) (h6 : L.waterSwitchIdx ≠ L.pressureSwitchIdx) :
    v.val i = (limitedUpdate L f l cur update cur).val i := by
  obtain ⟨eps, -, -, hv⟩ := update_split h
  rcases hv with rfl | ⟨b', hv⟩
  · exact adapt_frame i h1 h2 h3 h4 h5 h6
  · rw [(chop_frame i (fun _ => h1) (fun _ => h3) (fun _ => h4) hv).1]
    exact adapt_frame i h1 h2 h3 h4 h5 h6

/-- The bounds of the variables of extensions: each holds if there is such a variable. -/
structure InBounds (L : Layout) (l : Limits K) (v : PriVars K) : Prop where
  temperature : 0 ≤ L.temperatureIdx → l.tempMin ≤ v.val L.temperatureIdx ∧ v.val L.temperatureIdx ≤ l.tempMax
  zFraction : 0 ≤ L.zFractionIdx → 0 ≤ v.val L.zFractionIdx ∧ v.val L.zFractionIdx ≤ 1
  polymer : 0 ≤ L.polymerConcentrationIdx → 0 ≤ v.val L.polymerConcentrationIdx
  polymerMoleWeight : 0 ≤ L.polymerMoleWeightIdx → 0 ≤ v.val L.polymerMoleWeightIdx
  foam : 0 ≤ L.foamConcentrationIdx → 0 ≤ v.val L.foamConcentrationIdx
  microbes : 0 ≤ L.microbialConcentrationIdx →
    0 ≤ v.val L.microbialConcentrationIdx ∧ v.val L.microbialConcentrationIdx ≤ l.densityBiofilm
  oxygen : 0 ≤ L.oxygenConcentrationIdx → 0 ≤ v.val L.oxygenConcentrationIdx ∧ v.val L.oxygenConcentrationIdx ≤ l.maxOxygen
  urea : 0 ≤ L.ureaConcentrationIdx → 0 ≤ v.val L.ureaConcentrationIdx ∧ v.val L.ureaConcentrationIdx ≤ l.maxUrea
  biofilm : 0 ≤ L.biofilmConcentrationIdx → 0 ≤ v.val L.biofilmConcentrationIdx ∧ v.val L.biofilmConcentrationIdx ≤ l.maxSolid
  calcite : 0 ≤ L.calciteConcentrationIdx → 0 ≤ v.val L.calciteConcentrationIdx ∧ v.val L.calciteConcentrationIdx ≤ l.maxSolid

/-- **C52** After an update all variables of extensions are within their bounds, wherever they were before. -/
theorem C52_bounds {v : PriVars K} {b : Bool} (hL : L.primaryVars.Nodup) (hall : ∀ i ∈ L.primaryVars, i < L.numEq)
    (hw : L.waterSwitchIdx ≠ L.pressureSwitchIdx)
    (hm : (0 ≤ L.oxygenConcentrationIdx ∨ 0 ≤ L.ureaConcentrationIdx ∨ 0 ≤ L.biofilmConcentrationIdx ∨ 0 ≤ L.calciteConcentrationIdx) →
      0 ≤ L.microbialConcentrationIdx)
    (hb : l.tempMin ≤ l.tempMax ∧ 0 ≤ l.densityBiofilm ∧ 0 ≤ l.maxOxygen ∧ 0 ≤ l.maxUrea ∧ 0 ≤ l.maxSolid)
    (h : updatePrimaryVariables L f l s was cur update = some (v, b)) : InBounds L l v := by
  have fr (k : ℕ) (hk : k < 15) (h0 : 0 ≤ L.all[k]'hk) (k0 : k ≠ 0) (k1 : k ≠ 1) (k2 : k ≠ 2) (k3 : k ≠ 3) (k13 : k ≠ 13) :
      v.val (L.all[k]'hk) = (limitedUpdate L f l cur update cur).val (L.all[k]'hk) ∧ L.all[k]'hk < L.numEq := by
    refine ⟨update_frame h _ (Layout.ne hL k 0 k0 hk (by decide) h0) (Layout.ne hL k 1 k1 hk (by decide) h0)
      (Layout.ne hL k 2 k2 hk (by decide) h0) (Layout.ne hL k 3 k3 hk (by decide) h0) (Layout.ne hL k 13 k13 hk (by decide) h0) hw, ?_⟩
    apply hall
    unfold Layout.primaryVars
    exact List.mem_filter.2 ⟨List.getElem_mem _, by simpa using h0⟩
  obtain ⟨b1, b2, b3, b4, b5⟩ := hb
  constructor
  · intro h0
    obtain ⟨e, hn⟩ := fr 14 (by decide) h0 (by decide) (by decide) (by decide) (by decide) (by decide)
    exact (show _ = _ from e) ▸ updated_temperature hL h0 hn b1
  · intro h0
    obtain ⟨e, hn⟩ := fr 4 (by decide) h0 (by decide) (by decide) (by decide) (by decide) (by decide)
    exact (show _ = _ from e) ▸ updated_zFraction hL h0 hn
  · intro h0
    obtain ⟨e, hn⟩ := fr 5 (by decide) h0 (by decide) (by decide) (by decide) (by decide) (by decide)
    exact (show _ = _ from e) ▸ updated_polymer hL h0 hn
  · intro h0
    obtain ⟨e, hn⟩ := fr 6 (by decide) h0 (by decide) (by decide) (by decide) (by decide) (by decide)
    exact (show _ = _ from e) ▸ updated_polymerMW hL h0 hn
  · intro h0
    obtain ⟨e, hn⟩ := fr 12 (by decide) h0 (by decide) (by decide) (by decide) (by decide) (by decide)
    exact (show _ = _ from e) ▸ updated_foam hL h0 hn
  · intro h0
    obtain ⟨e, hn⟩ := fr 7 (by decide) h0 (by decide) (by decide) (by decide) (by decide) (by decide)
    exact (show _ = _ from e) ▸ updated_microbialConcentration hL h0 hn b2
  · intro h0
    obtain ⟨e, hn⟩ := fr 8 (by decide) h0 (by decide) (by decide) (by decide) (by decide) (by decide)
    exact (show _ = _ from e) ▸ updated_oxygenConcentration hL h0 hn (hm (Or.inl h0)) b3
  · intro h0
    obtain ⟨e, hn⟩ := fr 9 (by decide) h0 (by decide) (by decide) (by decide) (by decide) (by decide)
    exact (show _ = _ from e) ▸ updated_ureaConcentration hL h0 hn (hm (Or.inr (Or.inl h0))) b4
  · intro h0
    obtain ⟨e, hn⟩ := fr 10 (by decide) h0 (by decide) (by decide) (by decide) (by decide) (by decide)
    exact (show _ = _ from e) ▸ updated_biofilmConcentration hL h0 hn (hm (Or.inr (Or.inr (Or.inl h0)))) b5
  · intro h0
    obtain ⟨e, hn⟩ := fr 11 (by decide) h0 (by decide) (by decide) (by decide) (by decide) (by decide)
    exact (show _ = _ from e) ▸ updated_calciteConcentration hL h0 hn (hm (Or.inr (Or.inr (Or.inr h0)))) b5

/-- **C52** The salt concentration is not negative after limiting, and the saturation of solid salt is below one. -/
theorem C52_salt (hL : L.primaryVars.Nodup) (h0 : 0 ≤ L.saltConcentrationIdx) (hn : L.saltConcentrationIdx < L.numEq) :
    (¬f.saltPrecipitation ∨ cur.brine = .Cs → 0 ≤ (limitedUpdate L f l cur update cur).val L.saltConcentrationIdx) ∧
    (f.saltPrecipitation ∧ cur.brine = .Sp → (limitedUpdate L f l cur update cur).val L.saltConcentrationIdx < 1) := by
  obtain ⟨h1, h2⟩ := updated_salt (f := f) (l := l) (cur := cur) (update := update) hL h0 hn
  refine ⟨h1, fun h => lt_of_le_of_lt (h2 h) ?_⟩
  rw [sub_lt_self_iff]
  exact div_pos one_pos (by norm_num)

/-- **C52** A solvent saturation is in [0, 1] after limiting. -/
theorem C52_solvent_bounds (hL : L.primaryVars.Nodup) (h0 : 0 ≤ L.solventSaturationIdx) (hn : L.solventSaturationIdx < L.numEq)
    (hs : cur.solvent = .Ss) :
    0 ≤ (limitedUpdate L f l cur update cur).val L.solventSaturationIdx ∧
      (limitedUpdate L f l cur update cur).val L.solventSaturationIdx ≤ 1 := by
  rw [updated_solvent hL h0 hn, if_pos hs]
  exact ⟨clamp01_nonneg _, clamp01_le _⟩

/-! ### With the solvent module the oil saturation is not limited -/

/-- A fluid without any dissolution, for the examples -/
def demoFluid : Fluid ℚ where
  oilActive := true
  gasActive := true
  waterActive := true
  vaporizedWater := false
  dissolvedGasInWater := false
  dissolvedGas := false
  vaporizedOil := false
  saltPrecipitation := false
  solventInWater := false
  scale := 1
  temperature := 300
  saltSol := 0
  pcfact := none
  solubilityLimit _ _ _ := 0
  rvwSat _ _ _ := 0
  rswSat _ _ _ := 0
  rsSat _ _ _ _ := 100
  rvSat _ _ _ _ := 0
  extboRs _ _ := 0
  extboRv _ _ := 0
  pcOil _ _ _ := 0
  pcGas _ _ _ := 0
  pcWater _ _ _ := 0
  maxOilSaturation := 0
  maxGasDissolutionFactor := 1000
  maxOilVaporizationFactor := 1000

/-- The default limits, and bounds of MICP -/
def demoLimits : Limits ℚ := ⟨3 / 10, 2 / 10, 5, 0, 1000, -100000, 100000, 1, 1, 1, 1⟩

/-- The default parameters -/
def demoSwitch : SwitchParams ℚ := ⟨1, 1, 1 / 100000, false⟩

/-- The variables (Sw, p, Sg, Ss) = (1/5, 100, 1/5, 0), hence So = 3/5 -/
def solventCell : PriVars ℚ :=
  ⟨fun i => if i = 0 then 1 / 5 else if i = 1 then 100 else if i = 2 then 1 / 5 else 0, .Sw, .Po, .Sg, .Disabled, .Ss⟩

/-- An update by (1/5, 0, 1/5, −1/5) (to be subtracted from the variables, so the signs are the other way) -/
def solventUpdate : ℤ → ℚ := fun i => if i = 0 then -1 / 5 else if i = 2 then -1 / 5 else if i = 3 then 1 / 5 else 0

/-- **C52** … is violated with solvents: the solvent saturation is put back to zero after the changes have been limited, so the oil
saturation changes by twice the maximum. -/
theorem C52_solvent_violated :
    let L := threePhase ⟨1, 0, 0, 0, false, false, 0, 0⟩
    SatNonneg (saturations L demoFluid solventCell) ∧
    ((updatePrimaryVariables L demoFluid demoLimits demoSwitch false solventCell solventUpdate).map
      fun x => (saturations L demoFluid x.1).oil - (saturations L demoFluid solventCell).oil) = some (-(2 * demoLimits.dsMax)) := by
  unfold SatNonneg
  decide +kernel

/-! ### The hypotheses can be met -/

/-- A three-phase model without extensions; gas does dissolve in oil -/
def gasFluid : Fluid ℚ := { demoFluid with dissolvedGas := true }

def plainCell : PriVars ℚ :=
  ⟨fun i => if i = 0 then 1 / 5 else if i = 1 then 100 else if i = 2 then 1 / 10 else 0, .Sw, .Po, .Sg, .Disabled, .Disabled⟩

def plainUpdate : ℤ → ℚ := fun i => if i = 0 then -1 / 2 else if i = 1 then 70 else if i = 2 then 1 / 2 else 0

example : Fits (threePhase ⟨0, 0, 0, 0, false, false, 0, 0⟩) gasFluid plainCell :=
  ⟨by decide, by decide, by decide, by decide, by decide, by decide, by decide, by decide, by decide, by decide⟩

example : SatNonneg (saturations (threePhase ⟨0, 0, 0, 0, false, false, 0, 0⟩) gasFluid plainCell) := by
  unfold SatNonneg
  decide +kernel

example : Sensible demoSwitch := ⟨by decide +kernel, by decide +kernel, by decide +kernel⟩

/-- Water rises by the maximum 1/5, gas falls by its 1/10 only, because then it disappears, and the pressure falls by 30 instead of 70. -/
example : (updatePrimaryVariables (threePhase ⟨0, 0, 0, 0, false, false, 0, 0⟩) gasFluid demoLimits demoSwitch false plainCell plainUpdate).map
    (fun x => (x.1.val 0, x.1.val 1, x.1.val 2, x.1.gas, x.2)) = some (2 / 5, 70, 100, .Rs, true) := by
  decide +kernel

example : FactorsNonneg gasFluid := by
  constructor <;> simp [gasFluid, demoFluid]

/-- All extensions but those which collide -/
example : (threePhase ⟨1, 0, 2, 1, true, true, 0, 0⟩).primaryVars.Nodup ∧
    ∀ i ∈ (threePhase ⟨1, 0, 2, 1, true, true, 0, 0⟩).primaryVars, i < (threePhase ⟨1, 0, 2, 1, true, true, 0, 0⟩).numEq := by
  decide

end Verif.BlackOil
