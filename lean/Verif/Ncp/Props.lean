import Verif.Ncp.Lemmas
import Mathlib.Tactic.NormNum
import Mathlib.Algebra.BigOperators.Ring.Finset
import Mathlib.Tactic.IntervalCases
import Mathlib.Algebra.Order.Field.Rat

set_option autoImplicit false
set_option linter.unusedSectionVars false

namespace Verif.Ncp

variable {K : Type*} [Field K] [LinearOrder K] [IsStrictOrderedRing K]

/-! ## C91: limits of Newton updates -/

theorem saturation_first {z : Sizes} {pv : ℕ → K} {i : ℕ} (h : i < z.phases - 1) :
    saturation z pv i = pv (z.sat0 + i) := if_pos h

theorem saturation_last {z : Sizes} {pv : ℕ → K} {i : ℕ} (h : ¬ i < z.phases - 1) :
    saturation z pv i = 1 - ∑ j ∈ Finset.range (z.phases - 1), pv (z.sat0 + j) := by
  unfold saturation
  rw [if_neg h, sum_range_eq]

/-- From the fourth iteration on, no saturation (including that of the last phase, which is one minus the others)
changes by more than 0.2, for any number of phases. -/
theorem C91_saturations_late (z : Sizes) (iter : ℕ) (hiter : 3 ≤ iter) (minPhi cur u : ℕ → K)
    (phase : ℕ) :
    |saturation z (updatePrimaryVariables z iter minPhi cur u) phase - saturation z cur phase| ≤ 1 / 5 := by
  have hit : ¬ iter < 3 := by omega
  by_cases h : phase < z.phases - 1
  · rw [saturation_first h, saturation_first h, updated_sat z iter minPhi cur u h, if_neg hit]
    have := satScale_mul_le z u (satDelta_le z u h)
    rw [← abs_neg]
    convert this using 2; ring
  · rw [saturation_last h, saturation_last h]
    have h1 : ∀ j ∈ Finset.range (z.phases - 1), updatePrimaryVariables z iter minPhi cur u (z.sat0 + j) =
        cur (z.sat0 + j) - satScale z u * u (z.sat0 + j) := by
      intro j hj
      rw [updated_sat z iter minPhi cur u (Finset.mem_range.mp hj), if_neg hit]
    rw [Finset.sum_congr rfl h1, Finset.sum_sub_distrib, ← Finset.mul_sum]
    have h2 := satDelta_sum_le z u
    rw [sum_range_eq] at h2
    have := satScale_mul_le z u h2
    convert this using 2; ring

/-- With at most three phases the limit holds in every iteration. -/
theorem C91_saturations_partial (z : Sizes) (hz : z.phases ≤ 3) (iter : ℕ) (minPhi cur u : ℕ → K)
    (phase : ℕ) :
    |saturation z (updatePrimaryVariables z iter minPhi cur u) phase - saturation z cur phase| ≤ 1 / 5 := by
  by_cases hit : iter < 3
  swap
  · exact C91_saturations_late z iter (by omega) minPhi cur u phase
  have hone : ∀ i, i < z.phases - 1 →
      |updatePrimaryVariables z iter minPhi cur u (z.sat0 + i) - cur (z.sat0 + i)| ≤ 1 / 5 := by
    intro i hi
    rw [updated_sat z iter minPhi cur u hi, if_pos hit]
    refine (barrier_abs _ _ _).trans ?_
    have := satScale_mul_le z u (satDelta_le z u hi)
    rw [← abs_neg]
    convert this using 2; ring
  by_cases h : phase < z.phases - 1
  · rw [saturation_first h, saturation_first h]; exact hone phase h
  · rw [saturation_last h, saturation_last h]
    have h5 : (0 : K) ≤ 1 / 5 := by norm_num
    obtain h0 | h0 | h0 : z.phases - 1 = 0 ∨ z.phases - 1 = 1 ∨ z.phases - 1 = 2 := by omega
    · rw [h0]; simp
    · rw [h0]
      have := hone 0 (by omega)
      rw [Finset.sum_range_one, Finset.sum_range_one, ← abs_neg]
      convert this using 2; ring
    · rw [h0, Finset.sum_range_succ, Finset.sum_range_one, Finset.sum_range_succ, Finset.sum_range_one]
      have a0 := abs_le.mp (hone 0 (by omega))
      have a1 := abs_le.mp (hone 1 (by omega))
      have hs := satDelta_sum_le z u
      rw [sum_range_eq, h0, Finset.sum_range_succ, Finset.sum_range_one] at hs
      have hs := abs_le.mp (satScale_mul_le z u hs)
      rw [updated_sat z iter minPhi cur u (show 0 < z.phases - 1 by omega), if_pos hit] at a0 ⊢
      rw [updated_sat z iter minPhi cur u (show 1 < z.phases - 1 by omega), if_pos hit] at a1 ⊢
      have b0 := barrier_between 1 (cur (z.sat0 + 0)) (cur (z.sat0 + 0) - satScale z u * u (z.sat0 + 0))
      have b1 := barrier_between 1 (cur (z.sat0 + 1)) (cur (z.sat0 + 1) - satScale z u * u (z.sat0 + 1))
      rw [mul_add] at hs
      rcases le_total 0 (satScale z u * u (z.sat0 + 0)) with c0 | c0 <;>
        rcases le_total 0 (satScale z u * u (z.sat0 + 1)) with c1 | c1
      · obtain ⟨d0, d0'⟩ := b0.2 (by linarith)
        obtain ⟨d1, d1'⟩ := b1.2 (by linarith)
        rw [abs_le]; constructor <;> linarith
      · obtain ⟨d0, d0'⟩ := b0.2 (by linarith)
        obtain ⟨d1, d1'⟩ := b1.1 (by linarith)
        rw [abs_le]; constructor <;> linarith
      · obtain ⟨d0, d0'⟩ := b0.1 (by linarith)
        obtain ⟨d1, d1'⟩ := b1.2 (by linarith)
        rw [abs_le]; constructor <;> linarith
      · obtain ⟨d0, d0'⟩ := b0.1 (by linarith)
        obtain ⟨d1, d1'⟩ := b1.1 (by linarith)
        rw [abs_le]; constructor <;> linarith

/-- With four phases the restrictions of the first iterations break the limit for the last phase. -/
theorem C91_four_phases_violated :
    ∃ (z : Sizes) (minPhi cur u : ℕ → ℚ), z.phases = 4 ∧
      (∀ phase < 4, 0 ≤ saturation z cur phase ∧ saturation z cur phase ≤ 1) ∧
      1 / 5 < |saturation z (updatePrimaryVariables z 0 minPhi cur u) 3 - saturation z cur 3| := by
  refine ⟨⟨0, 0, 4⟩, fun _ => 1, fun k => if k = 0 then 1 / 4 else if k = 1 then 1 / 4 else if k = 2 then 1 / 20 else 1,
    fun k => if k = 0 then -1 / 5 else if k = 1 then -1 / 5 else if k = 2 then 1 / 5 else 0, rfl, ?_, ?_⟩
  · intro p hp
    interval_cases p <;> decide +kernel
  · decide +kernel

/-- The pressure changes by at most 20 % and stays positive. -/
theorem C91_pressure (z : Sizes) (hz : 0 < z.phases) (iter : ℕ) (minPhi cur u : ℕ → K) (hp : 0 < cur z.pres0) :
    let p := updatePrimaryVariables z iter minPhi cur u z.pres0
    0 < p ∧ |p - cur z.pres0| ≤ cur z.pres0 / 5 := by
  intro p
  have h : p = _ := updated_pres z iter minPhi cur u hz
  obtain ⟨h1, h2⟩ := clamp_bounds (val := cur z.pres0 - u z.pres0)
    (lo := cur z.pres0 * (4 / 5)) (hi := cur z.pres0 * (6 / 5)) (by linarith)
  rw [← h] at h1 h2
  refine ⟨by linarith, abs_le.mpr ⟨by linarith, by linarith⟩⟩

/-- Fugacities never become negative, and a non-negative fugacity changes by at most 70 % of the smallest activity
coefficient (or of 0.1 % of the pressure, if that is larger). -/
theorem C91_fugacities (z : Sizes) (hz : 0 < z.phases) (iter : ℕ) (minPhi cur u : ℕ → K) (i : ℕ) (hi : i < z.comps)
    (hphi : 0 ≤ minPhi i) :
    let f := updatePrimaryVariables z iter minPhi cur u (z.fug0 + i)
    0 ≤ f ∧ (0 ≤ cur (z.fug0 + i) →
      |f - cur (z.fug0 + i)| ≤ 7 / 10 * max (cur z.pres0 / 1000) (minPhi i)) := by
  intro f
  have h : f = _ := updated_fug z iter minPhi cur u hz hi
  have hd : maxFugDelta z cur (minPhi i) = 7 / 10 * max (cur z.pres0 / 1000) (minPhi i) := by
    unfold maxFugDelta; rw [one_div, inv_mul_eq_div]
  have hd0 : 0 ≤ maxFugDelta z cur (minPhi i) := by
    unfold maxFugDelta; exact mul_nonneg (by norm_num) (hphi.trans (le_max_right _ _))
  rw [← hd]
  generalize maxFugDelta z cur (minPhi i) = d at h hd0
  generalize cur (z.fug0 + i) = old at h
  generalize u (z.fug0 + i) = du at h
  obtain ⟨h1, h2⟩ := clamp_bounds (val := old - du) (lo := old - d) (hi := old + d) (by linarith)
  simp only [] at h
  generalize clamp (old - du) (old - d) (old + d) = c at h h1 h2
  have hm0 : 0 ≤ max c 0 := le_max_right _ _
  have hb : 0 ≤ old → |max c 0 - old| ≤ d := by
    intro ho
    rw [abs_le]
    refine ⟨by have := le_max_left c 0; linarith, ?_⟩
    have : max c 0 ≤ old + d := max_le h2 (by linarith)
    linarith
  split at h
  · rw [h]
    refine ⟨?_, fun ho => (barrier_abs _ _ _).trans (hb ho)⟩
    unfold barrier
    split
    · exact hphi
    · split
      · exact le_refl _
      · exact hm0
  · rw [h]; exact ⟨hm0, hb⟩

/-- An update which respects all limits is applied unchanged from the fourth iteration on. -/
theorem C91_small_updates_exact (z : Sizes) (hz : 0 < z.phases) (iter : ℕ) (hiter : 3 ≤ iter) (minPhi cur u : ℕ → K)
    (hs : ∀ i < z.phases - 1, |u (z.sat0 + i)| ≤ 1 / 5)
    (hsum : |∑ i ∈ Finset.range (z.phases - 1), u (z.sat0 + i)| ≤ 1 / 5)
    (hp : |u z.pres0| ≤ cur z.pres0 / 5)
    (hf : ∀ i < z.comps, |u (z.fug0 + i)| ≤ 7 / 10 * max (cur z.pres0 / 1000) (minPhi i) ∧
      0 ≤ cur (z.fug0 + i) - u (z.fug0 + i)) (k : ℕ) :
    updatePrimaryVariables z iter minPhi cur u k = cur k - u k := by
  have hit : ¬ iter < 3 := by omega
  by_cases h1 : k < z.off ∨ z.off + z.comps + z.phases ≤ k
  · exact updated_other z iter minPhi cur u hz h1
  by_cases h2 : k < z.off + z.comps
  · obtain ⟨i, rfl⟩ : ∃ i, k = z.fug0 + i := ⟨k - z.off, by unfold Sizes.fug0; omega⟩
    have hi : i < z.comps := by unfold Sizes.fug0 at h2; omega
    rw [updated_fug z iter minPhi cur u hz hi]
    simp only []
    rw [if_neg hit]
    have hd : maxFugDelta z cur (minPhi i) = 7 / 10 * max (cur z.pres0 / 1000) (minPhi i) := by
      unfold maxFugDelta; rw [one_div, inv_mul_eq_div]
    obtain ⟨h3, h4⟩ := hf i hi
    rw [← hd] at h3
    obtain ⟨h5, h6⟩ := abs_le.mp h3
    rw [clamp_id (by linarith) (by linarith), max_eq_left h4]
  · by_cases h3 : k = z.pres0
    · subst h3
      rw [updated_pres z iter minPhi cur u hz]
      obtain ⟨h5, h6⟩ := abs_le.mp hp
      exact clamp_id (by linarith) (by linarith)
    · have hi : k - z.sat0 < z.phases - 1 := by
        unfold Sizes.pres0 Sizes.sat0 Sizes.fug0 at h3
        unfold Sizes.sat0 Sizes.fug0
        omega
      have hk : k = z.sat0 + (k - z.sat0) := by unfold Sizes.sat0 Sizes.fug0; omega
      rw [hk, updated_sat z iter minPhi cur u hi, if_neg hit]
      have : satScale z u = 1 := by
        unfold satScale
        rw [if_neg]
        rw [not_lt]
        have h := foldl_satDelta (fun i => u (z.sat0 + i)) (z.phases - 1)
        unfold maxSatDelta
        simp only [] at h ⊢
        rw [h.2, sum_range_eq, abs_neg]
        refine max_le hsum ?_
        have key : ∀ n ≤ z.phases - 1, ((List.range n).foldl
            (fun (a : K × K) i => (max |u (z.sat0 + i)| a.1, a.2 + u (z.sat0 + i))) (0, 0)).1 ≤ 1 / 5 := by
          intro n hn
          induction n with
          | zero => simp
          | succ n ih =>
            rw [List.range_succ, List.foldl_append]
            exact max_le (hs n (by omega)) (ih (by omega))
        exact key _ le_rfl
      rw [this, one_mul]

/-- Variables other than fugacities, saturations and the pressure get the plain Newton update. -/
theorem C91_other_variables (z : Sizes) (hz : 0 < z.phases) (iter : ℕ) (minPhi cur u : ℕ → K) (k : ℕ)
    (hk : k < z.off ∨ z.off + z.comps + z.phases ≤ k) :
    updatePrimaryVariables z iter minPhi cur u k = cur k - u k :=
  updated_other z iter minPhi cur u hz hk

/-- Two components and three phases: every limit acts. -/
example : let z : Sizes := ⟨0, 2, 3⟩
    let cur : ℕ → ℚ := fun k => if k = 4 then 100 else if k = 2 then 1 / 2 else if k = 3 then 1 / 10 else 10
    let u : ℕ → ℚ := fun k => if k = 4 then -50 else if k = 2 then 1 / 2 else if k = 3 then 1 / 2 else 30
    (List.range 5).map (updatePrimaryVariables z 3 (fun _ => 20) cur u) = [0, 0, 2 / 5, 0, 120] := by
  decide +kernel

/-! ## C92: the first iterations -/

/-- During the first three iterations saturations of all but the last phase which are strictly between zero and one
stay between zero and one, and fugacities strictly between zero and the smallest activity coefficient stay there. -/
theorem C92_first_iterations_partial (z : Sizes) (hz : 0 < z.phases) (iter : ℕ) (hiter : iter < 3)
    (minPhi cur u : ℕ → K) :
    (∀ phase, phase + 1 < z.phases → 0 < saturation z cur phase → saturation z cur phase < 1 →
      0 ≤ saturation z (updatePrimaryVariables z iter minPhi cur u) phase ∧
        saturation z (updatePrimaryVariables z iter minPhi cur u) phase ≤ 1) ∧
    (∀ i < z.comps, 0 < cur (z.fug0 + i) → cur (z.fug0 + i) < minPhi i →
      0 ≤ updatePrimaryVariables z iter minPhi cur u (z.fug0 + i) ∧
        updatePrimaryVariables z iter minPhi cur u (z.fug0 + i) ≤ minPhi i) := by
  constructor
  · intro phase h h0 h1
    have h : phase < z.phases - 1 := by omega
    rw [saturation_first h] at *
    rw [updated_sat z iter minPhi cur u h, if_pos hiter]
    exact barrier_range zero_le_one h0.le h1.le (fun e => absurd e h1.ne) (fun e => absurd e h0.ne')
  · intro i hi h0 h1
    rw [updated_fug z iter minPhi cur u hz hi]
    simp only []
    rw [if_pos hiter]
    exact barrier_range (h0.trans h1).le h0.le h1.le (fun e => absurd e h1.ne) (fun e => absurd e h0.ne')

/-- With two phases the saturation of the last phase stays between zero and one, too. -/
theorem C92_two_phases (z : Sizes) (hz : z.phases = 2) (iter : ℕ) (hiter : iter < 3) (minPhi cur u : ℕ → K)
    (h0 : 0 < saturation z cur 1) (h1 : saturation z cur 1 < 1) :
    0 ≤ saturation z (updatePrimaryVariables z iter minPhi cur u) 1 ∧
      saturation z (updatePrimaryVariables z iter minPhi cur u) 1 ≤ 1 := by
  have hl : ¬ 1 < z.phases - 1 := by omega
  have hf : 0 < z.phases - 1 := by omega
  have e : z.phases - 1 = 1 := by omega
  rw [saturation_last hl, e, Finset.sum_range_one] at h0 h1
  rw [saturation_last hl, e, Finset.sum_range_one]
  have := (C92_first_iterations_partial z (by omega) iter hiter minPhi cur u).1 0 (by omega)
    (by rw [saturation_first hf]; linarith) (by rw [saturation_first hf]; linarith)
  rw [saturation_first hf] at this
  constructor <;> linarith [this.1, this.2]

/-- With three phases the saturation of the last phase can become negative in the first iteration, although all
saturations are strictly between zero and one before. -/
theorem C92_last_phase_violated :
    ∃ (z : Sizes) (minPhi cur u : ℕ → ℚ), z.phases = 3 ∧
      (∀ phase < 3, 0 < saturation z cur phase ∧ saturation z cur phase < 1) ∧
      saturation z (updatePrimaryVariables z 0 minPhi cur u) 2 < 0 := by
  refine ⟨⟨0, 0, 3⟩, fun _ => 1, fun k => if k = 2 then 1 else 9 / 20, fun k => if k = 2 then 0 else -1, rfl, ?_, ?_⟩
  · intro p hp
    interval_cases p <;> decide +kernel
  · decide +kernel

/-- A saturation which is exactly one is not restricted: it can become 1.2 in the first iteration. -/
theorem C92_boundary_violated :
    ∃ (z : Sizes) (minPhi cur u : ℕ → ℚ), z.phases = 2 ∧
      saturation z cur 0 = 1 ∧ saturation z cur 1 = 0 ∧
      saturation z (updatePrimaryVariables z 0 minPhi cur u) 0 = 6 / 5 :=
  ⟨⟨0, 0, 2⟩, fun _ => 1, fun _ => 1, fun _ => -1, rfl, by decide +kernel, by decide +kernel, by decide +kernel⟩

/-! ## C93: phase presence -/

/-- The phase presence conditions: saturations are not negative, the mole fractions of a phase sum up to at most
one, and to exactly one if the phase is present. -/
def PresenceOk (z : Sizes) (fs : FluidState K) (phase : ℕ) : Prop :=
  0 ≤ fs.sat phase ∧ ∑ i ∈ Finset.range z.comps, fs.moleFrac phase i ≤ 1 ∧
    (0 < fs.sat phase → ∑ i ∈ Finset.range z.comps, fs.moleFrac phase i = 1)

theorem notPresent_eq (z : Sizes) (fs : FluidState K) (phase : ℕ) :
    phaseNotPresentIneq z fs phase = 1 - ∑ i ∈ Finset.range z.comps, fs.moleFrac phase i := by
  unfold phaseNotPresentIneq
  rw [foldl_sub, sum_range_eq]

theorem computeSource_at (z : Sizes) (src : ℕ → K) (fs : FluidState K) {phase : ℕ} (h : phase < z.phases) :
    computeSource z src fs (z.ncp0 + phase) = phaseNcp z fs phase := by
  unfold computeSource
  rw [forRange_at _ _ h]

/-- The source entries of the phase presence equations all vanish exactly if the phase presence conditions hold for
all phases; the other source terms are those of the problem. -/
theorem C93_presence_iff (z : Sizes) (src : ℕ → K) (fs : FluidState K) :
    ((∀ phase < z.phases, computeSource z src fs (z.ncp0 + phase) = 0) ↔ ∀ phase < z.phases, PresenceOk z fs phase) ∧
    ∀ eq, (∀ phase < z.phases, eq ≠ z.ncp0 + phase) → computeSource z src fs eq = src eq := by
  refine ⟨forall₂_congr fun phase h => ?_, fun eq h => ?_⟩
  · rw [computeSource_at z src fs h]
    unfold phaseNcp phasePresentIneq PresenceOk
    rw [notPresent_eq]
    generalize ∑ i ∈ Finset.range z.comps, fs.moleFrac phase i = s
    constructor
    · intro h
      have h1 : 0 ≤ 1 - s := h ▸ min_le_left _ _
      have h2 : 0 ≤ fs.sat phase := h ▸ min_le_right _ _
      refine ⟨h2, by linarith, fun h3 => ?_⟩
      rcases min_choice (1 - s) (fs.sat phase) with h4 | h4 <;> rw [h4] at h <;> linarith
    · rintro ⟨h1, h2, h3⟩
      rcases h1.lt_or_eq with h4 | h4
      · rw [h3 h4, sub_self, min_eq_left h1]
      · rw [← h4]; exact min_eq_right (by linarith)
  · unfold computeSource
    rw [forRange_out]
    rintro ⟨h1, h2⟩
    exact h (eq - z.ncp0) (by omega) (by omega)

/-- If the source entry of a phase presence equation is at most `ε` in magnitude, the conditions hold up to `ε`, and
vice versa. -/
theorem C93_presence_tolerance (z : Sizes) (src : ℕ → K) (fs : FluidState K) (ε : K) (phase : ℕ)
    (h : phase < z.phases) :
    |computeSource z src fs (z.ncp0 + phase)| ≤ ε ↔
      -ε ≤ fs.sat phase ∧ ∑ i ∈ Finset.range z.comps, fs.moleFrac phase i ≤ 1 + ε ∧
        (ε < fs.sat phase → 1 - ε ≤ ∑ i ∈ Finset.range z.comps, fs.moleFrac phase i) := by
  rw [computeSource_at z src fs h]
  unfold phaseNcp phasePresentIneq
  rw [notPresent_eq]
  generalize ∑ i ∈ Finset.range z.comps, fs.moleFrac phase i = s
  rw [abs_le, le_min_iff, min_le_iff]
  constructor
  · rintro ⟨⟨h1, h2⟩, h3⟩
    refine ⟨h2, by linarith, fun h4 => ?_⟩
    rcases h3 with h3 | h3
    · linarith
    · exact absurd h3 (not_le.mpr h4)
  · rintro ⟨h1, h2, h3⟩
    refine ⟨⟨by linarith, h1⟩, ?_⟩
    by_cases h4 : ε < fs.sat phase
    · left; linarith [h3 h4]
    · right; exact not_lt.mp h4

/-- Two phases and two components, water only: the conditions hold. -/
example : let z : Sizes := ⟨0, 2, 2⟩
    let fs : FluidState ℚ := ⟨fun p => if p = 0 then 1 else 0, fun _ => 1, fun p c => if p = 0 then (if c = 0 then 1 else 0)
      else if c = 0 then 1 / 10 else 1 / 5⟩
    ∀ phase < z.phases, PresenceOk z fs phase := by
  intro z fs phase h
  unfold PresenceOk
  have : phase < 2 := h
  interval_cases phase <;> norm_num [fs, z, Finset.sum_range_succ]

/-! ## C94: accepted solutions -/

/-- The error which decides about convergence is at most the tolerance exactly if the weighted residuals of all
equations other than the phase presence equations are, for all degrees of freedom of the grid which have a volume and
are not constrained. -/
theorem C94_error_conservation_partial (z : Sizes) (g : Grid K) (r : ℕ → ℕ → K) (tol : K) (htol : 0 ≤ tol) :
    error z g r ≤ tol ↔
      ∀ dof, dof < g.numDof → dof < g.numGridDof → 0 < g.volume dof →
        ¬ (g.enableConstraints = true ∧ g.constrained dof = true) →
        ∀ eq, eq < g.numEq → (∀ phase < z.phases, eq ≠ z.ncp0 + phase) → |r dof eq * g.weight dof eq| ≤ tol := by
  rw [error_le_iff]
  have h1 : ∀ dof, g.skipped dof = false ↔ dof < g.numGridDof ∧ 0 < g.volume dof ∧
      ¬ (g.enableConstraints = true ∧ g.constrained dof = true) := by
    intro dof
    unfold Grid.skipped
    cases g.enableConstraints <;> cases g.constrained dof <;> simp
  have h2 : ∀ eq, isNcpEq z eq = false ↔ ∀ phase < z.phases, eq ≠ z.ncp0 + phase := by
    intro eq
    unfold isNcpEq
    simp only [Bool.and_eq_false_iff, decide_eq_false_iff_not]
    constructor
    · intro h phase hp e; omega
    · intro h
      by_contra hc
      exact h (eq - z.ncp0) (by omega) (by omega)
  constructor
  · rintro ⟨-, h⟩ dof ha hb hc hd eq he hq
    exact h dof ha ((h1 dof).mpr ⟨hb, hc, hd⟩) eq he ((h2 eq).mpr hq)
  · intro h
    refine ⟨htol, fun dof ha hs eq he hq => ?_⟩
    obtain ⟨hb, hc, hd⟩ := (h1 dof).mp hs
    exact h dof ha hb hc hd eq he ((h2 eq).mp hq)

/-- The error of a solution with arbitrarily wrong phase presence is accepted: a degree of freedom where a phase has
saturation -1 and mole fractions summing to 3 has error zero. -/
theorem C94_presence_violated :
    ∃ (z : Sizes) (g : Grid ℚ) (fs : FluidState ℚ) (r : ℕ → ℕ → ℚ),
      g.skipped 0 = false ∧ g.numDof = 1 ∧ g.numEq = 4 ∧ z.phases = 2 ∧
      -- the residual: the mass balances are fulfilled, the phase presence equations are not
      (∀ eq, r 0 eq = -(g.volume 0) * computeSource z (fun _ => 0) fs eq) ∧
      error z g r = 0 ∧ ¬ PresenceOk z fs 0 ∧ ¬ PresenceOk z fs 1 := by
  refine ⟨⟨0, 2, 2⟩, ⟨1, 1, 4, fun _ => 1, fun _ => false, false, fun _ _ => 1⟩,
    ⟨fun p => if p = 0 then -1 else 2, fun _ => 1, fun _ _ => 3 / 2⟩,
    fun _ eq => -1 * computeSource ⟨0, 2, 2⟩ (fun _ => 0)
      ⟨fun p => if p = 0 then -1 else 2, fun _ => 1, fun _ _ => 3 / 2⟩ eq,
    by decide +kernel, rfl, rfl, rfl, fun _ => rfl, by decide +kernel, ?_, ?_⟩
  · rintro ⟨h, -⟩; norm_num at h
  · rintro ⟨-, h, -⟩; norm_num [Finset.sum_range_succ] at h

/-! ## C95: storing and reading fluid states -/

/-- Saturations, pressures and fugacities of a fluid state whose saturations sum up to one and whose pressures obey
the capillary pressure law can be read back from the primary variables; other variables are kept. -/
theorem C95_round_trip (z : Sizes) (hz : 0 < z.phases) (phi : ℕ → K) (fs : FluidState K) (ref : ℕ) (pv pc : ℕ → K)
    (hsum : ∑ i ∈ Finset.range z.phases, fs.sat i = 1)
    (hpc : ∀ phase < z.phases, fs.pres phase = fs.pres 0 + (pc phase - pc 0)) :
    let new := assignNaive z phi fs ref pv
    (∀ phase < z.phases, saturation z new phase = fs.sat phase) ∧
    (∀ phase < z.phases, pressure z pc new phase = fs.pres phase) ∧
    (∀ i < z.comps, new (z.fug0 + i) = phi i * fs.moleFrac ref i * fs.pres ref) ∧
    (∀ k, k < z.off ∨ z.off + z.comps + z.phases ≤ k → new k = pv k) := by
  intro new
  have hs : ∀ i, i < z.phases - 1 → new (z.sat0 + i) = fs.sat i := by
    intro i hi
    show assignNaive z phi fs ref pv (z.sat0 + i) = _
    unfold assignNaive
    rw [forRange_at _ _ hi]
  refine ⟨fun phase h => ?_, fun phase h => ?_, fun i hi => ?_, fun k hk => ?_⟩
  · by_cases h1 : phase < z.phases - 1
    · rw [saturation_first h1, hs phase h1]
    · rw [saturation_last h1, Finset.sum_congr rfl (fun j hj => hs j (Finset.mem_range.mp hj))]
      have e : z.phases = (z.phases - 1) + 1 := by omega
      rw [e, Finset.sum_range_succ] at hsum
      have : phase = z.phases - 1 := by omega
      rw [this]; linarith
  · unfold pressure
    have : new z.pres0 = fs.pres 0 := by
      show assignNaive z phi fs ref pv z.pres0 = _
      unfold assignNaive
      rw [forRange_out _ _ (by unfold Sizes.pres0; omega), Function.update_self]
    rw [this, hpc phase h]
  · show assignNaive z phi fs ref pv (z.fug0 + i) = _
    unfold assignNaive
    rw [forRange_out _ _ (by unfold Sizes.sat0; omega),
      Function.update_of_ne (by unfold Sizes.pres0 Sizes.sat0; omega), forRange_at _ _ hi]
  · show assignNaive z phi fs ref pv k = _
    unfold assignNaive
    rw [forRange_out _ _ (by unfold Sizes.sat0 Sizes.fug0; omega),
      Function.update_of_ne (by unfold Sizes.pres0 Sizes.sat0 Sizes.fug0; omega),
      forRange_out _ _ (by unfold Sizes.fug0; omega)]

/-- In thermodynamic equilibrium (a component has the same fugacity in all phases) the stored fugacities give back
the mole fractions of every phase if the fugacity coefficients do not depend on the composition. -/
theorem C95_compositions (z : Sizes) (hz : 0 < z.phases) (phi : ℕ → ℕ → K) (fs : FluidState K) (ref : ℕ) (pv : ℕ → K)
    (hphi : ∀ phase < z.phases, ∀ i < z.comps, 0 < phi phase i) (hp : ∀ phase < z.phases, 0 < fs.pres phase)
    (heq : ∀ phase < z.phases, ∀ i < z.comps,
      phi phase i * fs.moleFrac phase i * fs.pres phase = phi ref i * fs.moleFrac ref i * fs.pres ref) :
    ∀ phase < z.phases, ∀ i < z.comps,
      assignNaive z (phi ref) fs ref pv (z.fug0 + i) / (phi phase i * fs.pres phase) = fs.moleFrac phase i := by
  intro phase h i hi
  have : assignNaive z (phi ref) fs ref pv (z.fug0 + i) = phi ref i * fs.moleFrac ref i * fs.pres ref := by
    unfold assignNaive
    rw [forRange_out _ _ (by unfold Sizes.sat0; omega),
      Function.update_of_ne (by unfold Sizes.pres0 Sizes.sat0; omega), forRange_at _ _ hi]
  rw [this, ← heq phase h i hi]
  have h1 := (hphi phase h i hi).ne'
  have h2 := (hp phase h).ne'
  field_simp

/-- The smallest activity coefficient is positive, is a lower bound of the products of fugacity coefficients and
pressures of all phases, and is attained (if one of the products is at most 1e100); otherwise an exception tells that
some product is not positive. -/
theorem C95_activity_coefficient (z : Sizes) (phi : ℕ → K) (fs : FluidState K) :
    (∀ m, minActivityCoeff z phi fs = some m → 0 < m ∧ (∀ phase < z.phases, m ≤ phi phase * fs.pres phase) ∧
      (m = 10 ^ 100 ∨ ∃ phase < z.phases, m = phi phase * fs.pres phase)) ∧
    (minActivityCoeff z phi fs = none ↔ ∃ phase < z.phases, phi phase * fs.pres phase ≤ 0) := by
  have key : ∀ n, let m := (List.range n).foldl (fun m phase => min m (phi phase * fs.pres phase)) (10 ^ 100)
      (∀ phase < n, m ≤ phi phase * fs.pres phase) ∧ (m = 10 ^ 100 ∨ ∃ phase < n, m = phi phase * fs.pres phase) := by
    intro n
    induction n with
    | zero => simp
    | succ n ih =>
      rw [List.range_succ, List.foldl_append]
      simp only [List.foldl_cons, List.foldl_nil]
      simp only [] at ih
      generalize (List.range n).foldl (fun m phase => min m (phi phase * fs.pres phase)) (10 ^ 100) = m at ih
      refine ⟨fun phase h => ?_, ?_⟩
      · rcases Nat.lt_succ_iff_lt_or_eq.mp h with h | h
        · exact (min_le_left _ _).trans (ih.1 phase h)
        · subst h; exact min_le_right _ _
      · rcases min_choice m (phi n * fs.pres n) with h | h
        · rw [h]
          rcases ih.2 with h1 | ⟨p, h1, h2⟩
          · exact .inl h1
          · exact .inr ⟨p, by omega, h2⟩
        · exact .inr ⟨n, by omega, h⟩
  have hk := key z.phases
  simp only [] at hk
  unfold minActivityCoeff
  simp only []
  generalize (List.range z.phases).foldl (fun m phase => min m (phi phase * fs.pres phase)) (10 ^ 100) = m at hk
  constructor
  · intro m' h
    split at h
    · cases h
    · rename_i hm
      cases h
      exact ⟨not_le.mp hm, hk.1, hk.2⟩
  · constructor
    · intro h
      split at h
      · rename_i hm
        rcases hk.2 with h1 | ⟨p, h1, h2⟩
        · have : (0 : K) < 10 ^ 100 := by positivity
          rw [h1] at hm; exact absurd hm (not_le.mpr this)
        · exact ⟨p, h1, h2 ▸ hm⟩
      · cases h
    · rintro ⟨p, h1, h2⟩
      rw [if_pos ((hk.1 p h1).trans h2)]

/-- Two phases in equilibrium. -/
example : let z : Sizes := ⟨0, 1, 2⟩
    let fs : FluidState ℚ := ⟨fun p => if p = 0 then 3 / 10 else 7 / 10, fun p => if p = 0 then 100 else 110, fun p _ =>
      if p = 0 then 1 else 10 / 11⟩
    (List.range 3).map (assignNaive z (fun _ => 1) fs 1 (fun _ => 0)) = [100, 3 / 10, 100] := by
  decide +kernel

end Verif.Ncp
