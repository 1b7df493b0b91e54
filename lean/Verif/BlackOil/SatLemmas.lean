import Verif.BlackOil.UpdateSpec
import Verif.BlackOil.SwitchLemmas

/-
How far the saturations of the fluid state are changed by the limited update, by switching and by the projection.
-/

set_option autoImplicit false
set_option linter.unusedSectionVars false
set_option linter.unusedSimpArgs false

namespace Verif.BlackOil

variable {K : Type} [Field K] [LinearOrder K] [IsStrictOrderedRing K]

theorem saturations_congr {L : Layout} {f : Fluid K} {v v' : PriVars K} (hw : v'.water = v.water) (hg : v'.gas = v.gas)
    (hs : v'.solvent = v.solvent) (h1 : v.water ≠ .Disabled → v'.val L.waterSwitchIdx = v.val L.waterSwitchIdx)
    (h2 : v.gas ≠ .Disabled → v'.val L.compositionSwitchIdx = v.val L.compositionSwitchIdx)
    (h3 : 0 ≤ L.solventSaturationIdx → v'.val L.solventSaturationIdx = v.val L.solventSaturationIdx) :
    saturations L f v' = saturations L f v := by
  unfold saturations
  rw [hw, hg, hs]
  cases h : v.water <;> cases h' : v.gas <;> simp_all

variable {L : Layout} {f : Fluid K} {v cur : PriVars K} {l : Limits K} {update : ℤ → K}

/-- In models which fit, the saturations sum to one. -/
theorem saturations_sum (h : Fits L f v) :
    (saturations L f v).water + (saturations L f v).oil + (saturations L f v).gas = 1 ∧ (saturations L f v).solvent = 0 := by
  obtain ⟨hn, hw, hnw, hg, hng, hgw, hrsw, hs, hp, hso⟩ := h
  unfold saturations
  have : ¬(0 ≤ L.solventSaturationIdx) := not_le.2 hso.1
  cases h1 : v.water <;> cases h2 : v.gas <;> cases ho : f.oilActive <;> cases hga : f.gasActive <;> cases hwa : f.waterActive <;>
    simp_all <;> ring

theorem limitedUpdate_meanings (L : Layout) (f : Fluid K) (l : Limits K) (cur : PriVars K) (update : ℤ → K) (next : PriVars K) :
    (limitedUpdate L f l cur update next).water = next.water ∧ (limitedUpdate L f l cur update next).gas = next.gas ∧
    (limitedUpdate L f l cur update next).solvent = next.solvent ∧ (limitedUpdate L f l cur update next).pressure = next.pressure ∧
    (limitedUpdate L f l cur update next).brine = next.brine := ⟨rfl, rfl, rfl, rfl, rfl⟩

theorem Fits.limited (h : Fits L f cur) : Fits L f (limitedUpdate L f l cur update cur) := ⟨h.1, h.2, h.3, h.4, h.5, h.6, h.7, h.8, h.9, h.10⟩

/-- The limited update changes no saturation by more than the maximum (models without solvent). -/
theorem limited_close (h : Fits L f cur) (hd : 0 ≤ l.dsMax) :
    SatClose l.dsMax (saturations L f cur) (saturations L f (limitedUpdate L f l cur update cur)) := by
  have hso : cur.solvent = .Disabled := h.solvent.2
  have s1 := saturations_sum h
  have s2 := saturations_sum (h.limited (l := l) (update := update))
  have a (d : K) (hm : |d| ≤ _) := alpha_bound (L := L) (cur := cur) (update := update) hd hm
  have bw := a (if cur.water = .Sw then update L.waterSwitchIdx else 0) (by simp)
  have bg := a (if cur.gas = .Sg then update L.compositionSwitchIdx else 0) (by simp)
  have bo := a (0 - (if cur.water = .Sw then update L.waterSwitchIdx else 0) - (if cur.gas = .Sg then update L.compositionSwitchIdx else 0) -
        (if cur.solvent = .Ss then update L.solventSaturationIdx else 0)) (by simp)
  have vw (hc : cur.water = .Sw) : (limitedUpdate L f l cur update cur).val L.waterSwitchIdx =
      cur.val L.waterSwitchIdx - update L.waterSwitchIdx * satAlpha L l cur update := by
    have := h.water (by rw [hc]; decide)
    rw [updated_water h.nodup this.1 this.2.1, if_pos hc]
  have vg (hc : cur.gas = .Sg) : (limitedUpdate L f l cur update cur).val L.compositionSwitchIdx =
      cur.val L.compositionSwitchIdx - update L.compositionSwitchIdx * satAlpha L l cur update := by
    have := h.gas (by rw [hc]; decide)
    rw [updated_composition h.nodup this.1 this.2.1, if_pos hc]
  generalize satAlpha L l cur update = α at bw bg bo vw vg
  obtain ⟨m1, m2, m3, m4, m5⟩ := limitedUpdate_meanings L f l cur update cur
  obtain ⟨hn, hw, hnw, hg, hng, hgw, hrsw, hs, hp, hsol⟩ := h
  have hsol' : ¬(0 ≤ L.solventSaturationIdx) := not_le.2 hsol.1
  generalize limitedUpdate L f l cur update cur = v at m1 m2 m3 vw vg s2
  simp only [hso, reduceCtorEq, if_false, sub_zero, zero_sub, sub_mul, neg_mul] at bo
  rw [abs_le] at bw bg bo
  clear a
  cases h1 : cur.water <;> cases h2 : cur.gas <;> cases ho : f.oilActive <;> cases hga : f.gasActive <;> cases hwa : f.waterActive
  all_goals
    simp only [h1, h2, hga, hwa, ho, reduceCtorEq, ne_eq, not_true_eq_false, not_false_eq_true, if_true, if_false, forall_true_left,
      false_or, or_false, true_or, or_true, and_false, false_and, and_true, true_and, Bool.false_eq_true, IsEmpty.forall_iff,
      or_self, and_self, not_false_eq_true] at hw hnw hg hng hgw hrsw hs bw bg bo vw vg
  all_goals first
    | contradiction
    | (unfold SatClose saturations
       simp only [m1, m2, m3, h1, h2, hga, hwa, ho, hsol', if_true, if_false, reduceCtorEq, Bool.false_eq_true, false_and, vw, vg]
       refine ⟨?_, ?_, ?_, ?_⟩ <;> rw [abs_le] <;> constructor <;> linarith [bw.1, bw.2, bg.1, bg.2, bo.1, bo.2])

theorem Fits.congr {v' : PriVars K} (h : Fits L f v) (hw : v'.water = v.water) (hg : v'.gas = v.gas) (hs : v'.solvent = v.solvent) :
    Fits L f v' :=
  ⟨h.1, by rw [hw]; exact h.2, by rw [hw]; exact h.3, by rw [hg]; exact h.4, by rw [hg]; exact h.5, h.6, by rw [hw]; exact h.7, h.8, h.9,
    by rw [hs]; exact h.10⟩

/-- The parts of the salt and of the solvent change no saturation. -/
theorem adapt_first (h : Fits L f v) (eps T salt : K) :
    (adaptSolvent L f eps T salt (adaptBrine L f eps v).1).water = v.water ∧
    (adaptSolvent L f eps T salt (adaptBrine L f eps v).1).gas = v.gas ∧
    (adaptSolvent L f eps T salt (adaptBrine L f eps v).1).solvent = v.solvent ∧
    (0 ≤ L.waterSwitchIdx →
      (adaptSolvent L f eps T salt (adaptBrine L f eps v).1).val L.waterSwitchIdx = v.val L.waterSwitchIdx) ∧
    (0 ≤ L.compositionSwitchIdx →
      (adaptSolvent L f eps T salt (adaptBrine L f eps v).1).val L.compositionSwitchIdx = v.val L.compositionSwitchIdx) := by
  have e : adaptSolvent L f eps T salt (adaptBrine L f eps v).1 = (adaptBrine L f eps v).1 := by
    unfold adaptSolvent
    rw [if_neg (fun hc => absurd hc.1 (not_le.2 h.solvent.1))]
  rw [e]
  obtain ⟨h1, h2, -, h4, h5⟩ := adaptBrine_frame (L := L) (f := f) (eps := eps) (v := v)
  exact ⟨h1, h2, h4, fun h0 => h5 _ (Layout.ne h.nodup 0 13 (by decide) (by decide) (by decide) h0),
    fun h0 => h5 _ (Layout.ne h.nodup 2 13 (by decide) (by decide) (by decide) h0)⟩

/-- If water is present, what the meaning of the gas variable makes of it -/
theorem saturations_of_water {v' : PriVars K} (h : Fits L f v) (hwa : f.waterActive) (hw : f.oilActive ∨ f.gasActive) (hg' : v'.gas = v.gas)
    (hv : 0 ≤ L.compositionSwitchIdx → v'.val L.compositionSwitchIdx = v.val L.compositionSwitchIdx) :
    ((saturations L f v').solvent = 0) ∧
    ((f.oilActive ∧ (saturations L f v').gas = (saturations L f v).gas ∧
      (saturations L f v').oil = 1 - (saturations L f v').water - (saturations L f v).gas) ∨
     ((saturations L f v).gas = 1 - (saturations L f v).water ∧ (saturations L f v').gas = 1 - (saturations L f v').water ∧
      (saturations L f v').oil = 0 ∧ (v.gas = .Disabled → f.gasActive))) := by
  have hsol' : ¬(0 ≤ L.solventSaturationIdx) := not_le.2 h.solvent.1
  have hg := h.gas
  have hng := h.noGas
  refine ⟨by unfold saturations; simp [hsol'], ?_⟩
  unfold saturations
  rw [hg']
  simp only [hwa, hsol', if_true, if_false, false_and]
  generalize (match v.water with | .Sw => v.val L.waterSwitchIdx | .Rsw => 1 | .Disabled => 1 | .Rvw => (0 : K)) = x
  generalize (match v'.water with | .Sw => v'.val L.waterSwitchIdx | .Rsw => 1 | .Disabled => 1 | .Rvw => (0 : K)) = y
  cases h2 : v.gas <;> cases ho : f.oilActive <;> cases hga : f.gasActive <;> simp_all

/-- The part of the water keeps within the distance. -/
theorem waterStep_close {d eps : K} {s : Saturations K} {v' : PriVars K} {b : Bool} (h : Fits L f v) (hs : SatNonneg s)
    (hsum : s.water + s.oil + s.gas = 1) (he : 0 ≤ eps) (hc : SatClose d s (saturations L f v))
    (hW : WaterStep L f eps (readSw L v) (readSg L f v) v v' b) (hg' : v'.gas = v.gas) (hs' : v'.solvent = v.solvent)
    (hv : 0 ≤ L.compositionSwitchIdx → v'.val L.compositionSwitchIdx = v.val L.compositionSwitchIdx) :
    Fits L f v' ∧ SatClose d s (saturations L f v') := by
  have hsol' : ¬(0 ≤ L.solventSaturationIdx) := not_le.2 h.solvent.1
  obtain ⟨q1, q2⟩ := saturations_sum h
  by_cases hsame : v' = v
  · rw [hsame]; exact ⟨h, hc⟩
  have hwd : v.water ≠ .Disabled := by
    intro hx
    rcases hW with e | ⟨a1, -⟩ | ⟨a1, -⟩ | ⟨a1, -⟩ | ⟨a1, -⟩
    · exact hsame e
    all_goals exact absurd (hx.symm.trans a1) (by decide)
  obtain ⟨-, -, w3, w4⟩ := h.water hwd
  obtain ⟨p1, p2⟩ := saturations_of_water h w3 w4 hg' hv
  obtain ⟨t1, t2, t3, t4⟩ := hs
  obtain ⟨c1, c2, c3, c4⟩ := hc
  rw [abs_le] at c1 c2 c3
  have hF (hx : v'.water ≠ .Disabled) (hy : v'.water = .Rsw → f.dissolvedGasInWater) : Fits L f v' :=
    ⟨h.nodup, fun _ => h.water hwd, fun hz => absurd hz hx, by rw [hg']; exact h.gas, by rw [hg']; exact h.noGas, h.gasInWater, hy,
      h.some, h.pressure, by rw [hs']; exact h.solvent⟩
  unfold SatClose
  rcases hW with e | ⟨a1, a2, a3, a4, a5, a6⟩ | ⟨a1, a2, a3, a4, a5, a6⟩ | ⟨a1, a2, a3, a4⟩ | ⟨a1, a2, a3, a4⟩
  · exact absurd e hsame
  · refine ⟨hF (by rw [a2]; decide) (by rw [a2]; simp), ?_⟩
    have e1 : (saturations L f v).water = readSw L v := by unfold saturations readSw; simp [w3, a1]
    have e2 : (saturations L f v').water = 0 := by unfold saturations; simp [a2]
    rw [e2] at p2 ⊢
    rw [e1] at p2 c1 q1
    rcases p2 with ⟨r0, r1, r2⟩ | ⟨r0, r1, r2, r3⟩
    · rw [r1, r2, p1]
      refine ⟨?_, ?_, ?_, by rw [← q2]; exact c4⟩ <;> rw [abs_le] <;> constructor <;> linarith
    · rw [r1, r2, p1]
      refine ⟨?_, ?_, ?_, by rw [← q2]; exact c4⟩ <;> rw [abs_le] <;> constructor <;> linarith
  · refine ⟨hF (by rw [a2]; decide) (fun _ => a6), ?_⟩
    have e1 : (saturations L f v).water = readSw L v := by unfold saturations readSw; simp [w3, a1]
    have e2 : (saturations L f v').water = 1 := by unfold saturations; simp [a2, w3]
    obtain ⟨g1, g2⟩ := h.gasInWater a6
    have hgd : v.gas = .Disabled := by
      by_contra hcon
      have := (h.gas hcon).2.2.2
      rw [g1] at this
      exact absurd this (by decide)
    have e3 : readSg L f v = 1 - readSw L v := by unfold readSg; simp [hgd, g2]
    rw [e3] at a4
    rw [e2] at p2 ⊢
    rw [e1] at p2 c1 q1
    rcases p2 with ⟨r0, r1, r2⟩ | ⟨r0, r1, r2, r3⟩
    · rw [g1] at r0
      exact absurd r0 (by decide)
    · rw [r1, r2, p1]
      refine ⟨?_, ?_, ?_, by rw [← q2]; exact c4⟩ <;> rw [abs_le] <;> constructor <;> linarith
  all_goals
    refine ⟨hF (by rw [a2]; decide) (by rw [a2]; simp), ?_⟩
    have e2 : (saturations L f v').water = (saturations L f v).water := by unfold saturations; simp [a1, a2, w3, a4]
    rw [e2] at p2 ⊢
    rcases p2 with ⟨r0, r1, r2⟩ | ⟨r0, r1, r2, r3⟩
    · rw [r1, r2, p1]
      refine ⟨?_, ?_, ?_, by rw [← q2]; exact c4⟩ <;> rw [abs_le] <;> constructor <;> linarith
    · rw [r1, r2, p1]
      refine ⟨?_, ?_, ?_, by rw [← q2]; exact c4⟩ <;> rw [abs_le] <;> constructor <;> linarith

/-- The part of the gas keeps within the distance. -/
theorem gasStep_close {d eps sw sg : K} {s : Saturations K} {v' : PriVars K} {b : Bool} (h : Fits L f v) (hs : SatNonneg s)
    (hsum : s.water + s.oil + s.gas = 1) (he : 0 ≤ eps) (hc : SatClose d s (saturations L f v))
    (hG : GasStep L f eps sw sg v v' b) (hg' : v'.water = v.water) (hs' : v'.solvent = v.solvent)
    (hv : 0 ≤ L.waterSwitchIdx → v'.val L.waterSwitchIdx = v.val L.waterSwitchIdx)
    (hsg : v.gas = .Sg → sg = v.val L.compositionSwitchIdx)
    (hsw : sw = (saturations L f v).water ∨ (sw < 0 ∧ (saturations L f v).water = 0 ∧ v.gas ≠ .Rv) ∨ v.gas = .Disabled) :
    Fits L f v' ∧ SatClose d s (saturations L f v') := by
  have hsol' : ¬(0 ≤ L.solventSaturationIdx) := not_le.2 h.solvent.1
  have hsum' := saturations_sum h
  have hns : solventSaturation L v = 0 := by unfold solventSaturation; rw [if_neg (fun hx => hsol' hx.1)]
  have hwv : (saturations L f v').water = (saturations L f v).water := by
    unfold saturations
    rw [hg']
    have := h.water
    cases hx : v.water <;> simp_all
  obtain ⟨hn, hw, hnw, hg, hng, hgw, hrsw, hsm, hp, hsol⟩ := h
  obtain ⟨t1, t2, t3, t4⟩ := hs
  obtain ⟨c1, c2, c3, c4⟩ := hc
  rw [abs_le] at c1 c2 c3
  rcases hG with e | ⟨a1, a2, a3, a4, a5⟩ | ⟨a1, a2, a3, a4, a5, a6⟩ | ⟨a1, a2, a3, a4⟩ | ⟨a1, a2, a3, a4⟩
  · subst e
    exact ⟨⟨hn, hw, hnw, hg, hng, hgw, hrsw, hsm, hp, hsol⟩, by rw [abs_le]; exact c1, by rw [abs_le]; exact c2,
      by rw [abs_le]; exact c3, c4⟩
  all_goals
    obtain ⟨g1, g2, g3, g4⟩ := hg (by rw [a1]; decide)
    refine ⟨⟨hn, by rw [hg']; exact hw, by rw [hg']; exact hnw, fun _ => ⟨g1, g2, g3, g4⟩, by rw [a2]; simp, hgw,
      by rw [hg']; exact hrsw, hsm, hp, by rw [hs']; exact hsol⟩, ?_⟩
    unfold SatClose
    have e1 : (saturations L f v').oil = 1 - (saturations L f v').water - (saturations L f v').gas := by
      unfold saturations; simp [hsol', g4]
    have e1' : (saturations L f v).oil = 1 - (saturations L f v).water - (saturations L f v).gas := by
      unfold saturations; simp [hsol', g4]
    have e3 : (saturations L f v').solvent = (saturations L f v).solvent := by unfold saturations; simp [hsol']
    rw [e3, e1, hwv]
    rw [e1'] at c2
  · have e2 : (saturations L f v').gas = 0 := by unfold saturations; simp [g3, g4, a2]
    have e2' : (saturations L f v).gas = sg := by unfold saturations; simp [g3, g4, a1, hsg]
    rw [e2]; rw [e2'] at c2 c3
    refine ⟨?_, ?_, ?_, c4⟩ <;> rw [abs_le] <;> constructor <;> linarith
  · have e2 : (saturations L f v').gas = 1 - (saturations L f v).water := by rw [← hwv]; unfold saturations; simp [g3, g4, a2]
    have e2' : (saturations L f v).gas = sg := by unfold saturations; simp [g3, g4, a1, hsg]
    rw [e2]; rw [e2'] at c2 c3
    rw [hns] at a4
    rcases hsw with hsw | ⟨hsw, hsw', -⟩ | hsw
    · rw [hsw] at a4
      refine ⟨?_, ?_, ?_, c4⟩ <;> rw [abs_le] <;> constructor <;> linarith
    · rw [hsw'] at c1 c2 ⊢
      refine ⟨?_, ?_, ?_, c4⟩ <;> rw [abs_le] <;> constructor <;> linarith
    · exact absurd (a1.symm.trans hsw) (by decide)
  · have e2 : (saturations L f v').gas = 0 := by unfold saturations; simp [g3, g4, a2, a4]
    have e2' : (saturations L f v).gas = 0 := by unfold saturations; simp [g3, g4, a1]
    rw [e2]; rw [e2'] at c2 c3
    refine ⟨?_, ?_, ?_, c4⟩ <;> rw [abs_le] <;> constructor <;> linarith
  · rw [hns, sub_zero] at a4
    rcases hsw with hsw | ⟨-, -, hsw⟩ | hsw
    · have e2 : (saturations L f v').gas = 1 - (saturations L f v).water := by
        rw [← hsw, ← a4]; unfold saturations; simp [g3, g4, a2]
      have e2' : (saturations L f v).gas = 1 - (saturations L f v).water := by unfold saturations; simp [g3, g4, a1]
      rw [e2]; rw [e2'] at c2 c3
      refine ⟨?_, ?_, ?_, c4⟩ <;> rw [abs_le] <;> constructor <;> linarith
    · exact absurd a1 hsw
    · exact absurd (a1.symm.trans hsw) (by decide)

theorem readSw_eq (h : Fits L f v) (hdis : ¬(v.water = .Disabled ∧ v.gas = .Disabled)) :
    readSw L v = (saturations L f v).water := by
  have hw := h.water
  have hnw := h.noWater
  have hg := h.gas
  clear h
  unfold readSw saturations
  cases hx : v.water <;> simp_all

/-- Moving towards admissible saturations keeps within the distance. -/
theorem adapt_close (h : Fits L f v) {d swMax threshold eps : K} {s : Saturations K} (hs : SatNonneg s)
    (hsum : s.water + s.oil + s.gas = 1) (hs0 : s.solvent = 0) (he : 0 ≤ eps) (ht : 1 ≤ threshold) (hm : 1 ≤ swMax)
    (hc : SatClose d s (saturations L f v)) :
    Fits L f (adapt L f swMax threshold eps v).1 ∧ SatClose d s (saturations L f (adapt L f swMax threshold eps v).1) := by
  unfold adapt
  by_cases hdis : v.water = .Disabled ∧ v.gas = .Disabled
  · rw [if_pos hdis]
    exact ⟨h, hc⟩
  rw [if_neg hdis]
  dsimp only
  obtain ⟨f1, f2, f3, f4, f5⟩ := adapt_first h eps (temperature L f v) (adaptBrine L f eps v).2
  generalize adaptSolvent L f eps (temperature L f v) (adaptBrine L f eps v).2 (adaptBrine L f eps v).1 = u at f1 f2 f3 f4 f5
  have hF := h.congr f1 f2 f3
  have hsol' : ¬(0 ≤ L.solventSaturationIdx) := not_le.2 h.solvent.1
  have hc0 := hc
  obtain ⟨t1, t2, t3, t4⟩ := hs
  obtain ⟨c1, c2, c3, -⟩ := hc
  rw [abs_le] at c1 c2 c3
  have ssum := saturations_sum h
  by_cases hfill : threshold ≤ readSw L v ∧ ¬f.dissolvedGasInWater
  · -- a cell with water only
    rw [if_pos hfill]
    have hrs : v.water = .Sw := by
      have h1 := ht.trans hfill.1
      unfold readSw at h1
      cases hcon : v.water <;> rw [hcon] at h1 <;> dsimp only at h1
      · exact absurd h1 (not_le.2 zero_lt_one)
      · exact absurd (h.rsw hcon) hfill.2
      · exact absurd h1 (not_le.2 zero_lt_one)
    obtain ⟨w0, w1, w2, w3⟩ := h.water (by rw [hrs]; decide)
    have wc : L.waterSwitchIdx ≠ L.compositionSwitchIdx := Layout.ne h.nodup 0 2 (by decide) (by decide) (by decide) w0
    have hsw : readSw L v = v.val L.waterSwitchIdx := by unfold readSw; rw [hrs]
    rw [hsw] at hfill ⊢
    have e : (adaptWaterFilled L f swMax (v.val L.waterSwitchIdx) u).1.water = .Sw ∧
        (adaptWaterFilled L f swMax (v.val L.waterSwitchIdx) u).1.solvent = .Disabled ∧
        (adaptWaterFilled L f swMax (v.val L.waterSwitchIdx) u).1.val L.waterSwitchIdx = min swMax (v.val L.waterSwitchIdx) ∧
        (0 ≤ L.compositionSwitchIdx → (adaptWaterFilled L f swMax (v.val L.waterSwitchIdx) u).1.val L.compositionSwitchIdx = 0) ∧
        (adaptWaterFilled L f swMax (v.val L.waterSwitchIdx) u).1.gas = if 0 ≤ L.compositionSwitchIdx then .Sg else .Disabled := by
      unfold adaptWaterFilled
      rw [if_pos w2]
      have g0 := h.noGas
      have g1 := h.gas
      rw [← f2] at g0 g1
      have hsd : u.solvent = .Disabled := hF.solvent.2
      by_cases c0 : 0 ≤ L.compositionSwitchIdx
      · cases hg : u.gas <;> simp_all [PriVars.set, Function.update_apply]
      · have : u.gas = .Disabled := by
          by_contra hcon
          exact c0 (g1 hcon).1
        simp only [c0, if_false, and_false]
        simp_all [PriVars.set, Function.update_apply]
    generalize (adaptWaterFilled L f swMax (v.val L.waterSwitchIdx) u).1 = u' at e
    obtain ⟨e1, e2, e3, e4, e5⟩ := e
    have m1 : 1 ≤ min swMax (v.val L.waterSwitchIdx) := le_min hm (ht.trans hfill.1)
    have m2 : min swMax (v.val L.waterSwitchIdx) ≤ v.val L.waterSwitchIdx := min_le_right _ _
    generalize min swMax (v.val L.waterSwitchIdx) = m at e3 m1 m2
    have g0 := h.noGas
    have g1 := h.gas
    constructor
    · refine ⟨h.1, fun _ => h.water (by rw [hrs]; decide), fun hx => absurd (e1.symm.trans hx) (by decide), fun hx => ?_, fun hx => ?_,
        h.6, fun hx => absurd (e1.symm.trans hx) (by decide), h.8, h.9, h.10.1, e2⟩
      · apply h.gas
        intro hcon
        have := h.noGas hcon
        rw [e5, if_neg (not_le.2 this.1)] at hx
        exact hx rfl
      · apply h.noGas
        by_contra hcon
        have := h.gas hcon
        rw [e5, if_pos this.1] at hx
        exact absurd hx (by decide)
    · have hu : saturations L f u' = ⟨m, if f.oilActive then 1 - m else 0, if f.oilActive then 0 else 1 - m, 0⟩ := by
        unfold saturations
        rw [e1, e3, e5]
        by_cases c0 : 0 ≤ L.compositionSwitchIdx
        · have hg : v.gas ≠ .Disabled := fun hcon => absurd c0 (not_le.2 (h.noGas hcon).1)
          obtain ⟨-, -, g3, g4⟩ := g1 hg
          simp [w2, c0, g3, g4, hsol', e4]
        · have hg : v.gas = .Disabled := by
            by_contra hcon
            exact c0 (g1 hcon).1
          have := (g0 hg).2
          rw [if_neg c0]
          cases ho : f.oilActive <;> cases hga : f.gasActive <;> simp_all
      have hv : (saturations L f v).water = v.val L.waterSwitchIdx := by
        unfold saturations
        simp [w2, hrs]
      rw [hu]
      rw [hv] at c1 ssum
      unfold SatClose
      dsimp only
      have hcl := hfill.1
      refine ⟨by rw [abs_le]; constructor <;> linarith, ?_, ?_, by rw [hs0]; simp; linarith⟩
      · split_ifs with ho
        · rw [abs_le]; constructor <;> linarith
        · have : (saturations L f v).oil = 0 := by unfold saturations; simp [ho]
          rw [abs_le]
          rw [this] at c2
          exact c2
      · split_ifs with ho
        · rw [abs_le]; constructor <;> linarith
        · have : (saturations L f v).oil = 0 := by unfold saturations; simp [ho]
          rw [this] at c2 ssum
          rw [abs_le]; constructor <;> linarith
  · rw [if_neg hfill]
    clear hfill
    have pc : L.pressureSwitchIdx ≠ L.compositionSwitchIdx := Layout.ne h.nodup 1 2 (by decide) (by decide) (by decide) h.pressure.1
    have pw : L.pressureSwitchIdx ≠ L.waterSwitchIdx := Layout.ne h.nodup 1 0 (by decide) (by decide) (by decide) h.pressure.1
    have hu : saturations L f u = saturations L f v :=
      saturations_congr f1 f2 f3 (fun hx => f4 (h.water hx).1) (fun hx => f5 (h.gas hx).1) (fun hx => absurd hx hsol')
    have r1 : readSw L v = readSw L u := by
      unfold readSw
      rw [f1]
      cases hx : v.water <;> dsimp only
      exact (f4 (h.water (by rw [hx]; decide)).1).symm
    have r2 : readSg L f v = readSg L f u := by
      unfold readSg
      rw [f2, r1]
      cases hx : v.gas <;> dsimp only
      exact (f5 (h.gas (by rw [hx]; decide)).1).symm
    obtain ⟨hW, wg, ws, wb, wv⟩ := adaptWater_step (L := L) (f := f) (eps := eps) (T := temperature L f v)
      (salt := (adaptBrine L f eps v).2) (pcF := pcFactor L f u) (sw := readSw L v) (sg := readSg L f v) (v := u) pw.symm
    generalize adaptWater L f eps (temperature L f v) (adaptBrine L f eps v).2 (pcFactor L f u) (readSw L v) (readSg L f v) u = w
      at hW wg ws wb wv
    obtain ⟨hG, gg, gs, gb, gv⟩ := adaptGas_step (L := L) (f := f) (eps := eps) (T := temperature L f v)
      (pcF := pcFactor L f u) (sw := readSw L v) (sg := readSg L f v) (v := w.1)
    generalize adaptGas L f eps (temperature L f v) (pcFactor L f u) (readSw L v) (readSg L f v) w.1 = g at hG gg gs gb gv
    have wv' (h0 : 0 ≤ L.compositionSwitchIdx) : w.1.val L.compositionSwitchIdx = u.val L.compositionSwitchIdx :=
      wv _ (Layout.ne h.nodup 2 0 (by decide) (by decide) (by decide) h0) pc.symm
    rw [r1, r2] at hW hG
    obtain ⟨k1, k2⟩ := waterStep_close hF ⟨t1, t2, t3, t4⟩ hsum he (hu ▸ hc0) hW wg ws wv'
    refine gasStep_close k1 ⟨t1, t2, t3, t4⟩ hsum he k2 hG gg gs
      (fun h0 => gv _ (Layout.ne h.nodup 0 2 (by decide) (by decide) (by decide) h0) pw.symm) ?_ ?_
    · intro hx
      rw [wg] at hx
      rw [wv' (hF.gas (by rw [hx]; decide)).1]
      unfold readSg
      rw [hx]
    · have hw := hF.water
      have hnw := hF.noWater
      have hdis' : ¬(u.water = .Disabled ∧ u.gas = .Disabled) := by rw [f1, f2]; exact hdis
      have hg := hF.gas
      clear hG
      generalize w.2 = b at hW
      rcases hW with e | ⟨a1, a2, a3, a4, a5, a6⟩ | ⟨a1, a2, a3, a4, a5, a6⟩ | ⟨a1, a2, a3, a4⟩ | ⟨a1, a2, a3, a4⟩
      · left
        rw [e]
        exact readSw_eq hF hdis'
      · right; left
        refine ⟨by linarith, by simp [saturations, a2], ?_⟩
        intro hx
        unfold readSg at a5
        rw [← wg, hx] at a5
        dsimp only at a5
        linarith
      · right; right
        by_contra hcon
        have h1 := (k1.gas hcon).2.2.2
        rw [(hF.gasInWater a6).1] at h1
        exact absurd h1 (by decide)
      · left
        have := (hw (by rw [a1]; decide)).2.2.1
        simp [readSw, saturations, a1, a2, a4, this]
      · left
        have := (hw (by rw [a1]; decide)).2.2.1
        simp [readSw, saturations, a1, a2, a4, this]

theorem chop_lemma {x y z x0 y0 z0 d st : K} (hx0 : 0 ≤ x0) (hy0 : 0 ≤ y0) (hz0 : 0 ≤ z0) (h0 : x0 + y0 + z0 = 1)
    (h : x + y + z = 1) (hx : |x - x0| ≤ d) (hy : |y - y0| ≤ d) (hz : |z - z0| ≤ d)
    (hst : st = clamp01 x + clamp01 y + clamp01 z) : |clamp01 x / st - x0| ≤ d := by
  rw [abs_le] at *
  have c (u : K) : clamp01 u ≤ max u 0 := min_le_left _ _
  have hge : 1 ≤ st := by
    have := clamp01_sum (a := x) (b := y) (c := z) (d := 0) (by rw [h, add_zero])
    rw [clamp01_of le_rfl zero_le_one] at this
    linarith
  have hpos : 0 < st := lt_of_lt_of_le zero_lt_one hge
  have up (u : K) : clamp01 u / st ≤ max u 0 := (div_le_self (clamp01_nonneg u) hge).trans (c u)
  have tot : clamp01 x / st + clamp01 y / st + clamp01 z / st = 1 := by
    rw [← add_div, ← add_div, ← hst, div_self hpos.ne']
  have zero (u : K) (hu : u ≤ 0) : clamp01 u / st = 0 := by
    unfold clamp01
    rw [max_eq_right hu, min_eq_left zero_le_one, zero_div]
  constructor
  · rcases le_or_gt y 0 with y1 | y1
    · rcases le_or_gt z 0 with z1 | z1
      · rw [zero y y1, zero z z1] at tot
        linarith [hx.1, hx.2]
      · rw [zero y y1] at tot
        have := up z
        rw [max_eq_left z1.le] at this
        linarith [hz.2]
    · rcases le_or_gt z 0 with z1 | z1
      · rw [zero z z1] at tot
        have := up y
        rw [max_eq_left y1.le] at this
        linarith [hy.2]
      · rcases le_or_gt x 0 with x1 | x1
        · rw [zero x x1]
          linarith [hx.1]
        · rw [hst, clamp01_of x1.le (by linarith), clamp01_of y1.le (by linarith), clamp01_of z1.le (by linarith), h, div_one]
          exact hx.1
  · have := up x
    rcases le_or_gt x 0 with x1 | x1
    · rw [max_eq_right x1] at this
      linarith [hx.1, hx.2]
    · rw [max_eq_left x1.le] at this
      linarith [hx.2]

/-- The projection keeps within the distance. -/
theorem chop_close {d : K} {s : Saturations K} (h : Fits L f v) (hs : SatNonneg s)
    (hsum : s.water + s.oil + s.gas = 1) (hc : SatClose d s (saturations L f v)) :
    ∃ v' b, chopAndNormalize L v = some (v', b) ∧ Fits L f v' ∧ SatClose d s (saturations L f v') := by
  by_cases hdis : v.water = .Disabled ∧ v.gas = .Disabled
  · refine ⟨v, false, ?_, h, hc⟩
    unfold chopAndNormalize
    rw [if_pos hdis]
  have hsol' : ¬(0 ≤ L.solventSaturationIdx) := not_le.2 h.solvent.1
  obtain ⟨v', b, e0, e1, e2, e3, e4, e5, e6, e7, -, e8⟩ :=
    chop_eq h.nodup (v := v) ⟨fun hx => (h.water hx).1, fun hx => (h.gas hx).1, fun hx => absurd h.solvent.2 hx⟩ hdis
  refine ⟨v', b, e0, h.congr e1 e2 e3, ?_⟩
  have hsum' := saturations_sum h
  have hsum'' := saturations_sum (h.congr e1 e2 e3)
  have hss : explicitSs L v = 0 := by unfold explicitSs; rw [h.solvent.2]; simp
  have c0 : clamp01 (0 : K) = 0 := clamp01_of le_rfl zero_le_one
  have hcs : chopSum L v = clamp01 (explicitSw L v) + clamp01 (1 - explicitSw L v - explicitSg L v) + clamp01 (explicitSg L v) := by
    unfold chopSum
    rw [hss, c0, sub_zero, add_zero]
  obtain ⟨t1, t2, t3, -⟩ := hs
  obtain ⟨c1, c2, c3, c4⟩ := hc
  -- it is enough to look at the saturations which are variables
  suffices hmain : (saturations L f v').water = clamp01 (saturations L f v).water /
        (clamp01 (saturations L f v).water + clamp01 (saturations L f v).oil + clamp01 (saturations L f v).gas) ∧
      (saturations L f v').gas = clamp01 (saturations L f v).gas /
        (clamp01 (saturations L f v).water + clamp01 (saturations L f v).oil + clamp01 (saturations L f v).gas) by
    obtain ⟨m1, m2⟩ := hmain
    have hge : 0 < clamp01 (saturations L f v).water + clamp01 (saturations L f v).oil + clamp01 (saturations L f v).gas := by
      have := clamp01_sum (a := (saturations L f v).water) (b := (saturations L f v).oil) (c := (saturations L f v).gas) (d := 0)
        (by rw [hsum'.1, add_zero])
      rw [c0] at this
      linarith
    have m3 : (saturations L f v').oil = clamp01 (saturations L f v).oil /
        (clamp01 (saturations L f v).water + clamp01 (saturations L f v).oil + clamp01 (saturations L f v).gas) := by
      have hx := hsum''.1
      rw [m1, m2] at hx
      have : (saturations L f v').oil = 1 - clamp01 (saturations L f v).water /
        (clamp01 (saturations L f v).water + clamp01 (saturations L f v).oil + clamp01 (saturations L f v).gas)
        - clamp01 (saturations L f v).gas /
        (clamp01 (saturations L f v).water + clamp01 (saturations L f v).oil + clamp01 (saturations L f v).gas) := by linarith
      rw [this, eq_div_iff hge.ne', sub_mul, sub_mul, div_mul_cancel₀ _ hge.ne', div_mul_cancel₀ _ hge.ne']
      ring
    unfold SatClose
    rw [m1, m2, m3]
    refine ⟨chop_lemma t1 t2 t3 hsum hsum'.1 c1 c2 c3 rfl,
      chop_lemma t2 t1 t3 (by linarith) (by linarith [hsum'.1]) c2 c1 c3 (by ring),
      chop_lemma t3 t1 t2 (by linarith) (by linarith [hsum'.1]) c3 c1 c2 (by ring), ?_⟩
    rw [hsum''.2, ← hsum'.2]
    exact c4
  have one (x : K) : clamp01 x + clamp01 (1 - x) = 1 := by
    rcases le_total x 0 with h0 | h0
    · have : clamp01 x = 0 := by unfold clamp01; rw [max_eq_right h0, min_eq_left zero_le_one]
      rw [this, clamp01_one (by linarith), zero_add]
    · rcases le_total x 1 with h1 | h1
      · rw [clamp01_of h0 h1, clamp01_of (by linarith) (by linarith)]; ring
      · have : clamp01 (1 - x) = 0 := by unfold clamp01; rw [max_eq_right (by linarith), min_eq_left zero_le_one]
        rw [this, clamp01_one h1, add_zero]
  have hw := h.water
  have hnw := h.noWater
  have hg := h.gas
  have hng := h.noGas
  have hgw := h.gasInWater
  have hrsw := h.rsw
  have c1' : clamp01 (1 : K) = 1 := clamp01_of zero_le_one le_rfl
  clear h hsum' hsum'' c1 c2 c3 c4 e8 e0 e4 e5 hss
  rw [hcs] at e6 e7
  unfold explicitSw explicitSg at e6 e7
  rw [e1] at e6
  rw [e2] at e7
  unfold saturations
  rw [e1, e2]
  simp only [hsol', false_and, if_false, sub_zero]
  clear e1 e2 e3 hsol' hcs
  have one' (x : K) : clamp01 (1 - x) + clamp01 x = 1 := by rw [add_comm]; exact one x
  cases h1 : v.water <;> cases h2 : v.gas <;> cases ho : f.oilActive <;> cases hga : f.gasActive <;> cases hwa : f.waterActive
  all_goals
    simp only [h1, h2, hga, hwa, ho, reduceCtorEq, ne_eq, not_true_eq_false, not_false_eq_true, if_true, if_false, forall_true_left,
      false_or, or_false, true_or, or_true, and_false, false_and, and_true, true_and, Bool.false_eq_true, IsEmpty.forall_iff,
      or_self, and_self, not_false_eq_true, c0, c1', one, one', sub_zero, add_zero, zero_add, sub_self, zero_div, div_one]
        at hw hnw hg hng hgw hrsw e6 e7 hdis ⊢
  all_goals first
    | contradiction
    | trivial
    | exact ⟨e6, e7⟩
    | exact e7
    | exact e6
    | exact ⟨e6, by rw [e6]; linarith [one (v.val L.waterSwitchIdx)]⟩

end Verif.BlackOil
