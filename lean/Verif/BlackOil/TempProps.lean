import Verif.BlackOil.UpdateProps

/-
C52: the limits of the change of the temperature and of the saturation of solid salt.
-/

set_option autoImplicit false
set_option linter.unusedSectionVars false
set_option linter.unusedSimpArgs false
namespace Verif.BlackOil

variable {K : Type} [Field K] [LinearOrder K] [IsStrictOrderedRing K]
variable {L : Layout} {f : Fluid K} {l : Limits K} {s : SwitchParams K} {was : Bool} {cur : PriVars K} {update : ℤ → K}

theorem limitAbs_spec {delta bound : K} (hb : 0 ≤ bound) :
    |limitAbs delta bound| ≤ bound ∧ (|delta| ≤ bound → limitAbs delta bound = delta) ∧ 0 ≤ delta * limitAbs delta bound := by
  unfold limitAbs
  have h0 := abs_nonneg delta
  have hm : 0 ≤ min |delta| bound := le_min h0 hb
  refine ⟨?_, fun h => ?_, ?_⟩
  · rw [abs_mul, abs_of_nonneg hm]
    split_ifs
    · rw [abs_one, one_mul]; exact min_le_right _ _
    · rw [abs_neg, abs_one, one_mul]; exact min_le_right _ _
  · rw [min_eq_left h]
    split_ifs with h1
    · rw [abs_of_nonneg h1, one_mul]
    · rw [abs_of_neg (not_le.1 h1)]; ring
  · split_ifs with h1
    · rw [one_mul]; exact mul_nonneg h1 hm
    · rw [neg_one_mul, mul_neg, ← neg_mul]; exact mul_nonneg (neg_nonneg.2 (not_le.1 h1).le) hm

/-- The new temperature -/
theorem updated_temperature_eq (hL : L.primaryVars.Nodup) (h0 : 0 ≤ L.temperatureIdx) (hn : L.temperatureIdx < L.numEq) :
    (limitedUpdate L f l cur update cur).val L.temperatureIdx =
      clamp (cur.val L.temperatureIdx - limitAbs (update L.temperatureIdx) l.maxTempChange) l.tempMin l.tempMax := by
  obtain ⟨w, h, -⟩ := limitedUpdate_val L f l cur update cur _ h0 hn
  have ne (j : ℕ) (hj : j < 15) (h : 14 ≠ j) : L.temperatureIdx ≠ L.all[j]'hj := Layout.ne hL 14 j h (by decide) hj h0
  rw [h]
  unfold updateVar limitDelta
  dsimp only
  rw [if_neg (fun h => ne 11 (by decide) (by decide) h.2), if_neg (fun h => ne 10 (by decide) (by decide) h.2),
    if_neg (fun h => ne 9 (by decide) (by decide) h.2), if_neg (fun h => ne 8 (by decide) (by decide) h.2),
    if_neg (fun h => ne 7 (by decide) (by decide) h.2), if_neg (fun h => ne 1 (by decide) (by decide) h), if_pos ⟨h0, rfl⟩,
    if_neg (fun h => ne 13 (by decide) (by decide) h.2), if_neg (fun h => ne 12 (by decide) (by decide) h.2),
    if_neg (fun h => ne 6 (by decide) (by decide) h.2), if_neg (fun h => ne 5 (by decide) (by decide) h.2),
    if_neg (fun h => ne 4 (by decide) (by decide) h.2), if_neg (fun h => ne 3 (by decide) (by decide) h.2.1),
    if_neg (fun h => ne 1 (by decide) (by decide) h), if_neg (fun h => ne 0 (by decide) (by decide) h),
    if_neg (fun h => ne 2 (by decide) (by decide) h), if_neg (fun h => ne 3 (by decide) (by decide) h.2),
    if_neg (fun h => ne 4 (by decide) (by decide) h.2), if_neg (fun h => ne 6 (by decide) (by decide) h.2), if_pos ⟨h0, rfl⟩]

/-- **C52** The temperature is changed in the direction of the update by at most the configured maximum, exactly by the update if that
is within the maximum, and the result is moved to the nearest admissible temperature. -/
theorem C52_temperature {v : PriVars K} {b : Bool} (hL : L.primaryVars.Nodup) (h0 : 0 ≤ L.temperatureIdx)
    (hn : L.temperatureIdx < L.numEq) (hw : L.waterSwitchIdx ≠ L.pressureSwitchIdx) (hm : 0 ≤ l.maxTempChange)
    (hb : l.tempMin ≤ l.tempMax) (h : updatePrimaryVariables L f l s was cur update = some (v, b)) :
    (∃ δ, |δ| ≤ l.maxTempChange ∧ 0 ≤ update L.temperatureIdx * δ ∧
      (|update L.temperatureIdx| ≤ l.maxTempChange → δ = update L.temperatureIdx) ∧
      v.val L.temperatureIdx = max l.tempMin (min l.tempMax (cur.val L.temperatureIdx - δ))) ∧
    (l.tempMin ≤ cur.val L.temperatureIdx → cur.val L.temperatureIdx ≤ l.tempMax →
      |v.val L.temperatureIdx - cur.val L.temperatureIdx| ≤ l.maxTempChange) := by
  have ne (j : ℕ) (hj : j < 15) (h : 14 ≠ j) : L.temperatureIdx ≠ L.all[j]'hj := Layout.ne hL 14 j h (by decide) hj h0
  have e := update_frame h L.temperatureIdx (ne 0 (by decide) (by decide)) (ne 1 (by decide) (by decide)) (ne 2 (by decide) (by decide))
    (ne 3 (by decide) (by decide)) (ne 13 (by decide) (by decide)) hw
  rw [updated_temperature_eq hL h0 hn] at e
  obtain ⟨s1, s2, s3⟩ := limitAbs_spec (delta := update L.temperatureIdx) hm
  generalize limitAbs (update L.temperatureIdx) l.maxTempChange = δ at *
  have hc : clamp (cur.val L.temperatureIdx - δ) l.tempMin l.tempMax = max l.tempMin (min l.tempMax (cur.val L.temperatureIdx - δ)) := by
    unfold clamp
    split_ifs with a1 a2
    · rw [min_eq_right (a1.le.trans hb), max_eq_left a1.le]
    · rw [min_eq_left a2.le, max_eq_right hb]
    · rw [min_eq_right (not_lt.1 a2), max_eq_right (not_lt.1 a1)]
  refine ⟨⟨δ, s1, s3, s2, e.trans hc⟩, fun c1 c2 => ?_⟩
  rw [e, abs_le]
  obtain ⟨d1, d2⟩ := abs_le.1 s1
  unfold clamp
  split_ifs with a1 a2 <;> constructor <;> linarith

/-- The new saturation of solid salt -/
theorem updated_solid_salt (hL : L.primaryVars.Nodup) (h0 : 0 ≤ L.saltConcentrationIdx) (hn : L.saltConcentrationIdx < L.numEq)
    (hp : f.saltPrecipitation ∧ cur.brine = .Sp) :
    (limitedUpdate L f l cur update cur).val L.saltConcentrationIdx =
      min (cur.val L.saltConcentrationIdx - limitAbs (update L.saltConcentrationIdx) (1 / 10)) (1 - 1 / 100000000) := by
  obtain ⟨w, h, -⟩ := limitedUpdate_val L f l cur update cur _ h0 hn
  have ne (j : ℕ) (hj : j < 15) (h : 13 ≠ j) : L.saltConcentrationIdx ≠ L.all[j]'hj := Layout.ne hL 13 j h (by decide) hj h0
  have hc : ¬(¬f.saltPrecipitation ∨ cur.brine = .Cs) := by
    rintro (h | h)
    · exact h hp.1
    · exact absurd (h.symm.trans hp.2) (by decide)
  rw [h]
  unfold updateVar limitDelta
  dsimp only
  rw [if_neg (fun h => ne 11 (by decide) (by decide) h.2), if_neg (fun h => ne 10 (by decide) (by decide) h.2),
    if_neg (fun h => ne 9 (by decide) (by decide) h.2), if_neg (fun h => ne 8 (by decide) (by decide) h.2),
    if_neg (fun h => ne 7 (by decide) (by decide) h.2), if_neg (fun h => ne 1 (by decide) (by decide) h),
    if_neg (fun h => ne 14 (by decide) (by decide) h.2), if_pos ⟨h0, rfl⟩, if_pos hp, if_neg hc,
    if_neg (fun h => ne 12 (by decide) (by decide) h.2),
    if_neg (fun h => ne 6 (by decide) (by decide) h.2), if_neg (fun h => ne 5 (by decide) (by decide) h.2),
    if_neg (fun h => ne 4 (by decide) (by decide) h.2), if_neg (fun h => ne 3 (by decide) (by decide) h.2.1),
    if_neg (fun h => ne 1 (by decide) (by decide) h), if_neg (fun h => ne 0 (by decide) (by decide) h),
    if_neg (fun h => ne 2 (by decide) (by decide) h), if_neg (fun h => ne 3 (by decide) (by decide) h.2),
    if_neg (fun h => ne 4 (by decide) (by decide) h.2), if_neg (fun h => ne 6 (by decide) (by decide) h.2),
    if_neg (fun h => ne 14 (by decide) (by decide) h.2), if_pos ⟨h0, rfl, hp⟩]

/-- **C52** Limiting changes the saturation of solid salt by at most 0.1, in the direction of the update. -/
theorem C52_solid_salt (hL : L.primaryVars.Nodup) (h0 : 0 ≤ L.saltConcentrationIdx) (hn : L.saltConcentrationIdx < L.numEq)
    (hp : f.saltPrecipitation ∧ cur.brine = .Sp) (hc : cur.val L.saltConcentrationIdx ≤ 1 - 1 / 100000000) :
    |(limitedUpdate L f l cur update cur).val L.saltConcentrationIdx - cur.val L.saltConcentrationIdx| ≤ 1 / 10 ∧
    0 ≤ update L.saltConcentrationIdx *
      (cur.val L.saltConcentrationIdx - (limitedUpdate L f l cur update cur).val L.saltConcentrationIdx) := by
  rw [updated_solid_salt hL h0 hn hp]
  obtain ⟨s1, s2, s3⟩ := limitAbs_spec (delta := update L.saltConcentrationIdx) (bound := (1 / 10 : K)) (by norm_num)
  generalize limitAbs (update L.saltConcentrationIdx) (1 / 10 : K) = δ at *
  generalize update L.saltConcentrationIdx = u at *
  generalize cur.val L.saltConcentrationIdx = c at *
  obtain ⟨d1, d2⟩ := abs_le.1 s1
  rcases le_total (c - δ) (1 - 1 / 100000000) with h | h
  · rw [min_eq_left h, abs_le]
    exact ⟨⟨by linarith, by linarith⟩, by rw [sub_sub_cancel]; exact s3⟩
  · rw [min_eq_right h, abs_le]
    refine ⟨⟨by linarith, by linarith⟩, ?_⟩
    rcases lt_trichotomy u 0 with hu | hu | hu
    · exact mul_nonneg_of_nonpos_of_nonpos hu.le (by linarith)
    · rw [hu, zero_mul]
    · have : 0 ≤ δ := nonneg_of_mul_nonneg_right s3 hu
      have h2 : c = 1 - 1 / 100000000 := le_antisymm hc (by linarith)
      rw [h2, sub_self, mul_zero]

/-! ### The hypotheses are met -/

/-- A three-phase model with energy and brine: the temperature is the last variable -/
example : (threePhase ⟨0, 0, 0, 1, false, true, 0, 0⟩).temperatureIdx = 4 ∧ (threePhase ⟨0, 0, 0, 1, false, true, 0, 0⟩).numEq = 5 ∧
    (threePhase ⟨0, 0, 0, 1, false, true, 0, 0⟩).primaryVars.Nodup := by
  decide

/-- The update asks for 20 degrees less, and the temperature falls by the maximum of 5. -/
example : (updatePrimaryVariables (threePhase ⟨0, 0, 0, 1, false, true, 0, 0⟩) demoFluid demoLimits demoSwitch false
    ⟨fun i => if i = 4 then 300 else if i = 1 then 100 else 1 / 5, .Sw, .Po, .Sg, .Cs, .Disabled⟩ (fun i => if i = 4 then 20 else 0)).map
    (fun x => x.1.val 4) = some 295 := by
  decide +kernel

/-- Solid salt would fall by 1/2, and falls by 1/10. -/
example : (limitedUpdate (threePhase ⟨0, 0, 0, 1, false, true, 0, 0⟩) { demoFluid with saltPrecipitation := true } demoLimits
    ⟨fun i => if i = 3 then 3 / 5 else if i = 1 then 100 else 1 / 5, .Sw, .Po, .Sg, .Sp, .Disabled⟩ (fun i => if i = 3 then 1 / 2 else 0)
    ⟨fun _ => 0, .Sw, .Po, .Sg, .Sp, .Disabled⟩).val 3 = 1 / 2 := by
  decide +kernel

end Verif.BlackOil
