import Verif.BlackOil.ChopProps

set_option autoImplicit false
set_option linter.unusedSectionVars false

namespace Verif.BlackOil

variable {K : Type} [Field K] [LinearOrder K]

/-- What a loop which sets one entry after the other leaves in an entry -/
theorem foldl_update {A : Type} (g : ℤ → (ℤ → A) → A) (n : ℕ) (v : ℤ → A) (i : ℤ) (h0 : 0 ≤ i) (hn : i < n) :
    ∃ w : ℤ → A, (List.range n).foldl (fun nv (i : ℕ) => Function.update nv (i : ℤ) (g i nv)) v i = g i w ∧
      ∀ k, 0 ≤ k → k < i → w k = (List.range n).foldl (fun nv (i : ℕ) => Function.update nv (i : ℤ) (g i nv)) v k := by
  induction n with
  | zero => omega
  | succ n ih =>
    rw [List.range_succ, List.foldl_append]
    simp only [List.foldl_cons, List.foldl_nil]
    generalize (List.range n).foldl (fun nv (i : ℕ) => Function.update nv (i : ℤ) (g i nv)) v = u at *
    by_cases hi : i < n
    · obtain ⟨w, h1, h2⟩ := ih hi
      refine ⟨w, by rw [Function.update_of_ne (by omega), h1], fun k k0 ki => ?_⟩
      rw [Function.update_of_ne (by omega)]
      exact h2 k k0 ki
    · have : i = n := by omega
      subst this
      refine ⟨u, by rw [Function.update_self], fun k k0 ki => ?_⟩
      rw [Function.update_of_ne (by omega)]

theorem limitedUpdate_val (L : Layout) (f : Fluid K) (l : Limits K) (cur : PriVars K) (update : ℤ → K) (next : PriVars K) (i : ℤ)
    (h0 : 0 ≤ i) (hn : i < L.numEq) :
    ∃ w : ℤ → K, (limitedUpdate L f l cur update next).val i = updateVar L f l cur update i w ∧
      ∀ k, 0 ≤ k → k < i → w k = (limitedUpdate L f l cur update next).val k :=
  foldl_update (fun i nv => updateVar L f l cur update i nv) L.numEq next.val i h0 hn

/-- A variable which is neither of those which are bounded is just changed by the limited amount. -/
theorem updateVar_plain (L : Layout) (f : Fluid K) (l : Limits K) (cur : PriVars K) (update : ℤ → K) (i : ℤ) (w : ℤ → K)
    (h1 : ¬(0 ≤ L.solventSaturationIdx ∧ i = L.solventSaturationIdx ∧ cur.solvent = .Ss)) (h2 : i ≠ L.zFractionIdx)
    (h3 : i ≠ L.polymerConcentrationIdx) (h4 : i ≠ L.polymerMoleWeightIdx) (h5 : i ≠ L.foamConcentrationIdx)
    (h6 : i ≠ L.saltConcentrationIdx) (h7 : i ≠ L.temperatureIdx) (h8 : i ≠ L.pressureSwitchIdx)
    (h9 : i ≠ L.microbialConcentrationIdx) (h10 : i ≠ L.oxygenConcentrationIdx) (h11 : i ≠ L.ureaConcentrationIdx)
    (h12 : i ≠ L.biofilmConcentrationIdx) (h13 : i ≠ L.calciteConcentrationIdx) :
    updateVar L f l cur update i w = cur.val i - limitDelta L f l cur update i := by
  unfold updateVar
  dsimp only
  rw [if_neg (fun h => h13 h.2), if_neg (fun h => h12 h.2), if_neg (fun h => h11 h.2), if_neg (fun h => h10 h.2),
    if_neg (fun h => h9 h.2), if_neg h8, if_neg (fun h => h7 h.2), if_neg (fun h => h6 h.2), if_neg (fun h => h5 h.2),
    if_neg (fun h => h4 h.2), if_neg (fun h => h3 h.2), if_neg (fun h => h2 h.2), if_neg h1]

/-- All indices of primary variables -/
def Layout.all (L : Layout) : List ℤ :=
  [L.waterSwitchIdx, L.pressureSwitchIdx, L.compositionSwitchIdx, L.solventSaturationIdx, L.zFractionIdx,
    L.polymerConcentrationIdx, L.polymerMoleWeightIdx, L.microbialConcentrationIdx, L.oxygenConcentrationIdx,
    L.ureaConcentrationIdx, L.biofilmConcentrationIdx, L.calciteConcentrationIdx, L.foamConcentrationIdx,
    L.saltConcentrationIdx, L.temperatureIdx]

theorem Layout.ne {L : Layout} (h : L.primaryVars.Nodup) (i j : ℕ) (hij : i ≠ j) (hi : i < 15) (hj : j < 15) :
    0 ≤ L.all[i]'hi → L.all[i]'hi ≠ L.all[j]'hj := by
  intro h0
  rcases Nat.lt_or_gt_of_ne hij with h1 | h1
  · exact nodup_filter_ne (l := L.all) h i j h1 hj (decide_eq_true h0)
  · intro he
    exact nodup_filter_ne (l := L.all) h j i h1 hi (decide_eq_true (h0.trans_eq he)) he.symm

variable {L : Layout} {f : Fluid K} {l : Limits K} {cur : PriVars K} {update : ℤ → K} {next : PriVars K}

theorem updated_water (hL : L.primaryVars.Nodup) (h0 : 0 ≤ L.waterSwitchIdx) (hn : L.waterSwitchIdx < L.numEq) :
    (limitedUpdate L f l cur update next).val L.waterSwitchIdx = cur.val L.waterSwitchIdx -
      if cur.water = .Sw then update L.waterSwitchIdx * satAlpha L l cur update
      else if cur.val L.waterSwitchIdx < update L.waterSwitchIdx then cur.val L.waterSwitchIdx else update L.waterSwitchIdx := by
  obtain ⟨w, h, -⟩ := limitedUpdate_val L f l cur update next _ h0 hn
  have ne (j : ℕ) (hj : j < 15) (h : 0 ≠ j) : L.waterSwitchIdx ≠ L.all[j]'hj := Layout.ne hL 0 j h (by decide) hj h0
  rw [h, updateVar_plain L f l cur update L.waterSwitchIdx w (fun h => ne 3 (by decide) (by decide) h.2.1) (ne 4 (by decide) (by decide))
    (ne 5 (by decide) (by decide)) (ne 6 (by decide) (by decide)) (ne 12 (by decide) (by decide)) (ne 13 (by decide) (by decide))
    (ne 14 (by decide) (by decide)) (ne 1 (by decide) (by decide)) (ne 7 (by decide) (by decide)) (ne 8 (by decide) (by decide))
    (ne 9 (by decide) (by decide)) (ne 10 (by decide) (by decide)) (ne 11 (by decide) (by decide))]
  unfold limitDelta
  dsimp only
  rw [if_neg (show ¬ L.waterSwitchIdx = L.pressureSwitchIdx from ne 1 (by decide) (by decide)), if_pos rfl]

theorem updated_composition (hL : L.primaryVars.Nodup) (h0 : 0 ≤ L.compositionSwitchIdx) (hn : L.compositionSwitchIdx < L.numEq) :
    (limitedUpdate L f l cur update next).val L.compositionSwitchIdx = cur.val L.compositionSwitchIdx -
      if cur.gas = .Sg then update L.compositionSwitchIdx * satAlpha L l cur update
      else if cur.val L.compositionSwitchIdx < update L.compositionSwitchIdx then cur.val L.compositionSwitchIdx
      else update L.compositionSwitchIdx := by
  obtain ⟨w, h, -⟩ := limitedUpdate_val L f l cur update next _ h0 hn
  have ne (j : ℕ) (hj : j < 15) (h : 2 ≠ j) : L.compositionSwitchIdx ≠ L.all[j]'hj := Layout.ne hL 2 j h (by decide) hj h0
  rw [h, updateVar_plain L f l cur update L.compositionSwitchIdx w (fun h => ne 3 (by decide) (by decide) h.2.1) (ne 4 (by decide) (by decide))
    (ne 5 (by decide) (by decide)) (ne 6 (by decide) (by decide)) (ne 12 (by decide) (by decide)) (ne 13 (by decide) (by decide))
    (ne 14 (by decide) (by decide)) (ne 1 (by decide) (by decide)) (ne 7 (by decide) (by decide)) (ne 8 (by decide) (by decide))
    (ne 9 (by decide) (by decide)) (ne 10 (by decide) (by decide)) (ne 11 (by decide) (by decide))]
  unfold limitDelta
  dsimp only
  rw [if_neg (show ¬ L.compositionSwitchIdx = L.pressureSwitchIdx from ne 1 (by decide) (by decide)),
    if_neg (show ¬ L.compositionSwitchIdx = L.waterSwitchIdx from ne 0 (by decide) (by decide)), if_pos rfl]

theorem updated_pressure (hL : L.primaryVars.Nodup) (h0 : 0 ≤ L.pressureSwitchIdx) (hn : L.pressureSwitchIdx < L.numEq) :
    (limitedUpdate L f l cur update next).val L.pressureSwitchIdx = clamp (cur.val L.pressureSwitchIdx -
      if l.dpMaxRel * cur.val L.pressureSwitchIdx < |update L.pressureSwitchIdx| then
        signum (update L.pressureSwitchIdx) * l.dpMaxRel * cur.val L.pressureSwitchIdx
      else update L.pressureSwitchIdx) l.pressMin l.pressMax := by
  obtain ⟨w, h, -⟩ := limitedUpdate_val L f l cur update next _ h0 hn
  have ne (j : ℕ) (hj : j < 15) (h : 1 ≠ j) : L.pressureSwitchIdx ≠ L.all[j]'hj := Layout.ne hL 1 j h (by decide) hj h0
  rw [h]
  unfold updateVar limitDelta
  dsimp only
  rw [if_neg (fun h => ne 11 (by decide) (by decide) h.2), if_neg (fun h => ne 10 (by decide) (by decide) h.2),
    if_neg (fun h => ne 9 (by decide) (by decide) h.2), if_neg (fun h => ne 8 (by decide) (by decide) h.2),
    if_neg (fun h => ne 7 (by decide) (by decide) h.2), if_pos rfl, if_neg (fun h => ne 14 (by decide) (by decide) h.2),
    if_neg (fun h => ne 13 (by decide) (by decide) h.2), if_neg (fun h => ne 12 (by decide) (by decide) h.2),
    if_neg (fun h => ne 6 (by decide) (by decide) h.2), if_neg (fun h => ne 5 (by decide) (by decide) h.2),
    if_neg (fun h => ne 4 (by decide) (by decide) h.2), if_neg (fun h => ne 3 (by decide) (by decide) h.2.1), if_pos rfl]

theorem updated_solvent (hL : L.primaryVars.Nodup) (h0 : 0 ≤ L.solventSaturationIdx) (hn : L.solventSaturationIdx < L.numEq) :
    (limitedUpdate L f l cur update next).val L.solventSaturationIdx =
      if cur.solvent = .Ss then
        clamp01 (cur.val L.solventSaturationIdx - update L.solventSaturationIdx * satAlpha L l cur update)
      else cur.val L.solventSaturationIdx - if cur.val L.solventSaturationIdx < update L.solventSaturationIdx then
        cur.val L.solventSaturationIdx else update L.solventSaturationIdx := by
  obtain ⟨w, h, -⟩ := limitedUpdate_val L f l cur update next _ h0 hn
  have ne (j : ℕ) (hj : j < 15) (h : 3 ≠ j) : L.solventSaturationIdx ≠ L.all[j]'hj := Layout.ne hL 3 j h (by decide) hj h0
  rw [h]
  unfold updateVar limitDelta
  dsimp only
  rw [if_neg (fun h => ne 11 (by decide) (by decide) h.2), if_neg (fun h => ne 10 (by decide) (by decide) h.2),
    if_neg (fun h => ne 9 (by decide) (by decide) h.2), if_neg (fun h => ne 8 (by decide) (by decide) h.2),
    if_neg (fun h => ne 7 (by decide) (by decide) h.2), if_neg (fun h => ne 1 (by decide) (by decide) h),
    if_neg (fun h => ne 14 (by decide) (by decide) h.2),
    if_neg (fun h => ne 13 (by decide) (by decide) h.2), if_neg (fun h => ne 12 (by decide) (by decide) h.2),
    if_neg (fun h => ne 6 (by decide) (by decide) h.2), if_neg (fun h => ne 5 (by decide) (by decide) h.2),
    if_neg (fun h => ne 4 (by decide) (by decide) h.2)]
  by_cases hs : cur.solvent = .Ss
  · rw [if_pos ⟨h0, rfl, hs⟩, if_pos hs, if_neg (fun h => ne 1 (by decide) (by decide) h),
      if_neg (fun h => ne 0 (by decide) (by decide) h), if_neg (fun h => ne 2 (by decide) (by decide) h), if_pos ⟨h0, rfl⟩, if_pos hs]
    rfl
  · rw [if_neg (fun h => hs h.2.2), if_neg hs, if_neg (fun h => ne 1 (by decide) (by decide) h),
      if_neg (fun h => ne 0 (by decide) (by decide) h), if_neg (fun h => ne 2 (by decide) (by decide) h), if_pos ⟨h0, rfl⟩, if_neg hs]

variable [IsStrictOrderedRing K]

/-- The changes of saturations, and the largest of them -/
theorem alpha_bound (hd : 0 ≤ l.dsMax) {d : K}
    (h : |d| ≤ max (max (max |if cur.gas = .Sg then update L.compositionSwitchIdx else 0|
      |0 - (if cur.water = .Sw then update L.waterSwitchIdx else 0) - (if cur.gas = .Sg then update L.compositionSwitchIdx else 0) -
        (if cur.solvent = .Ss then update L.solventSaturationIdx else 0)|)
      |if cur.water = .Sw then update L.waterSwitchIdx else 0|) |if cur.solvent = .Ss then update L.solventSaturationIdx else 0|) :
    |d * satAlpha L l cur update| ≤ l.dsMax := by
  unfold satAlpha
  dsimp only
  generalize max (max (max |if cur.gas = .Sg then update L.compositionSwitchIdx else 0|
      |0 - (if cur.water = .Sw then update L.waterSwitchIdx else 0) - (if cur.gas = .Sg then update L.compositionSwitchIdx else 0) -
        (if cur.solvent = .Ss then update L.solventSaturationIdx else 0)|)
      |if cur.water = .Sw then update L.waterSwitchIdx else 0|) |if cur.solvent = .Ss then update L.solventSaturationIdx else 0| = m
    at h ⊢
  split_ifs with hm
  · have hm0 : 0 < m := lt_of_le_of_lt hd hm
    rw [abs_mul, abs_div, abs_of_nonneg hd, abs_of_pos hm0, ← mul_div_assoc, div_le_iff₀ hm0, mul_comm]
    exact mul_le_mul_of_nonneg_left h hd
  · rw [mul_one]
    exact h.trans (not_lt.1 hm)

theorem alpha_nonneg (hd : 0 ≤ l.dsMax) : 0 ≤ satAlpha L l cur update := by
  unfold satAlpha
  extract_lets _ _ _ _ m
  split_ifs with hm
  · exact div_nonneg hd (hd.trans hm.le)
  · exact zero_le_one

end Verif.BlackOil
