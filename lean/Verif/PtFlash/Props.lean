import Verif.PtFlash.Model
import Verif.Ncp.Lemmas
import Mathlib.Tactic.NormNum
import Mathlib.Tactic.Positivity
import Mathlib.Tactic.IntervalCases
import Mathlib.Algebra.BigOperators.Ring.Finset
import Mathlib.Algebra.BigOperators.Field
import Mathlib.Algebra.Order.BigOperators.Group.Finset
import Mathlib.Algebra.Order.Field.Rat

set_option autoImplicit false
set_option linter.unusedSectionVars false

namespace Verif.PtFlash

open Verif.Ncp (forRange forRange_at forRange_out foldl_satDelta sum_range_eq foldl_sub)

variable {K : Type*} [Field K] [LinearOrder K] [IsStrictOrderedRing K]

/-- The mole fraction of a component which the primary variables stand for: the last one is one minus the others. -/
def moleFraction (s : Sizes) (pv : ℕ → K) (i : ℕ) : K :=
  if i + 1 < s.comps then pv (s.z0 + i) else 1 - ∑ j ∈ Finset.range (s.comps - 1), pv (s.z0 + j)

/-! ### helpers -/

theorem deltaZ_le (s : Sizes) (u : ℕ → K) {i : ℕ} (hi : i < s.comps - 1) : |u (s.z0 + i)| ≤ maxDeltaZ s u :=
  ((foldl_satDelta (fun i => u (s.z0 + i)) (s.comps - 1)).1 i hi).trans (le_max_right _ _)

theorem deltaZ_sum_le (s : Sizes) (u : ℕ → K) :
    |∑ i ∈ Finset.range (s.comps - 1), u (s.z0 + i)| ≤ maxDeltaZ s u := by
  have h := (foldl_satDelta (fun i => u (s.z0 + i)) (s.comps - 1)).2
  unfold maxDeltaZ
  rw [← sum_range_eq (fun i => u (s.z0 + i)), ← h]
  exact le_max_left _ _

def zScale (s : Sizes) (u : ℕ → K) : K := if 1 / 5 < maxDeltaZ s u then 1 / 5 / maxDeltaZ s u else 1

theorem zScale_pos (s : Sizes) (u : ℕ → K) : 0 < zScale s u := by
  unfold zScale
  split
  · rename_i h; have : (0 : K) < 1 / 5 := by norm_num
    exact div_pos this (this.trans h)
  · exact one_pos

theorem zScale_mul_le (s : Sizes) (u : ℕ → K) {x : K} (h : |x| ≤ maxDeltaZ s u) : |zScale s u * x| ≤ 1 / 5 := by
  rw [abs_mul, abs_of_pos (zScale_pos s u)]
  unfold zScale
  split
  · rename_i h'
    have h0 : (0 : K) < 1 / 5 := by norm_num
    have hm := h0.trans h'
    calc 1 / 5 / maxDeltaZ s u * |x| ≤ 1 / 5 / maxDeltaZ s u * maxDeltaZ s u :=
          mul_le_mul_of_nonneg_left h (div_pos h0 hm).le
      _ = 1 / 5 := div_mul_cancel₀ _ hm.ne'
  · rename_i h'; rw [one_mul]; exact h.trans (not_lt.mp h')

theorem cutZ_bounds (val : K) : tol ≤ cutZ val ∧ cutZ val ≤ 1 - tol := by
  have h : (tol : K) ≤ 1 - tol := by unfold tol; norm_num
  unfold cutZ
  split
  · exact ⟨le_refl _, h⟩
  · split
    · exact ⟨h, le_refl _⟩
    · rename_i h1 h2; exact ⟨not_lt.mp h1, not_lt.mp h2⟩

theorem cutZ_between {old : K} (val : K) (h0 : tol ≤ old) (h1 : old ≤ 1 - tol) :
    (old ≤ val → old ≤ cutZ val ∧ cutZ val ≤ val) ∧ (val ≤ old → val ≤ cutZ val ∧ cutZ val ≤ old) := by
  unfold cutZ
  split
  · rename_i h; exact ⟨fun h' => absurd (h0.trans h') (not_le.mpr h), fun _ => ⟨h.le, h0⟩⟩
  · split
    · rename_i h; exact ⟨fun _ => ⟨h1, h.le⟩, fun h' => absurd (h'.trans h1) (not_le.mpr h)⟩
    · exact ⟨fun h => ⟨h, le_refl _⟩, fun h => ⟨le_refl _, h⟩⟩

theorem cutZ_id {val : K} (h0 : tol ≤ val) (h1 : val ≤ 1 - tol) : cutZ val = val := by
  unfold cutZ
  rw [if_neg (not_lt.mpr h0), if_neg (not_lt.mpr h1)]

theorem updated_z (s : Sizes) (cur u new : ℕ → K) (h : updatePrimaryVariables s cur u = some new) {i : ℕ}
    (hi : i < s.comps - 1) : new (s.z0 + i) = cutZ (cur (s.z0 + i) - zScale s u * u (s.z0 + i)) := by
  unfold updatePrimaryVariables at h
  simp only [] at h
  split at h
  · cases h
  · rename_i p hp
    cases h
    rw [forRange_at _ _ hi]
    unfold scaleZ zScale
    split
    · rw [forRange_at _ _ hi]
    · rw [Function.update_of_ne (by unfold Sizes.z0; omega), one_mul]

theorem updated_p (s : Sizes) (cur u new : ℕ → K) (h : updatePrimaryVariables s cur u = some new) :
    clampValue (cur s.pres0 - u s.pres0) (cur s.pres0 * (1 - 1 / 5)) (cur s.pres0 * (1 + 1 / 5)) =
      some (new s.pres0) := by
  unfold updatePrimaryVariables at h
  simp only [] at h
  split at h
  · cases h
  · rename_i p hp
    cases h
    have hz : ¬ (s.z0 ≤ s.pres0 ∧ s.pres0 < s.z0 + (s.comps - 1)) := by unfold Sizes.z0; omega
    rw [hp, forRange_out _ _ hz]
    unfold scaleZ
    split
    · rw [forRange_out _ _ hz, Function.update_self]
    · rw [Function.update_self]

/-! ## C96: limits of Newton updates -/

/-- With a positive pressure the update is defined, the pressure changes by at most 20 % and stays positive, and the
stored mole fractions are between 1e-8 and one minus 1e-8. -/
theorem C96_pressure_and_range (s : Sizes) (cur u : ℕ → K) (hp : 0 < cur s.pres0) :
    ∃ new, updatePrimaryVariables s cur u = some new ∧
      0 < new s.pres0 ∧ |new s.pres0 - cur s.pres0| ≤ cur s.pres0 / 5 ∧
      ∀ i, i + 1 < s.comps → 1 / 100000000 ≤ moleFraction s new i ∧ moleFraction s new i ≤ 1 - 1 / 100000000 := by
  have hc : ¬ cur s.pres0 * (1 + 1 / 5) < cur s.pres0 * (1 - 1 / 5) := by
    rw [not_lt]; linarith
  have : ∃ new, updatePrimaryVariables s cur u = some new := by
    have : ∃ p, clampValue (cur s.pres0 - u s.pres0) (cur s.pres0 * (1 - 1 / 5)) (cur s.pres0 * (1 + 1 / 5)) = some p := by
      unfold clampValue
      rw [if_neg hc]
      exact ⟨_, rfl⟩
    obtain ⟨p, hp'⟩ := this
    unfold updatePrimaryVariables
    simp only [hp']
    exact ⟨_, rfl⟩
  obtain ⟨new, hnew⟩ := this
  refine ⟨new, hnew, ?_⟩
  have h := updated_p s cur u new hnew
  unfold clampValue at h
  rw [if_neg hc, Option.some.injEq] at h
  refine ⟨?_, ?_, fun i hi => ?_⟩
  · rw [← h]
    split
    · linarith
    · split <;> linarith
  · rw [← h, abs_le]
    split
    · constructor <;> linarith
    · split
      · constructor <;> linarith
      · constructor <;> linarith
  · unfold moleFraction
    rw [if_pos hi, updated_z s cur u new hnew (by omega)]
    exact cutZ_bounds _

/-- With at most three components whose stored mole fractions are within the range which updates produce, no mole
fraction (including that of the last component) changes by more than 0.2. -/
theorem C96_mole_fractions_partial (s : Sizes) (hs : s.comps ≤ 3) (cur u new : ℕ → K)
    (hnew : updatePrimaryVariables s cur u = some new)
    (hcur : ∀ i, i + 1 < s.comps → 1 / 100000000 ≤ moleFraction s cur i ∧ moleFraction s cur i ≤ 1 - 1 / 100000000)
    (i : ℕ) : |moleFraction s new i - moleFraction s cur i| ≤ 1 / 5 := by
  have hr : ∀ j, j < s.comps - 1 → tol ≤ cur (s.z0 + j) ∧ cur (s.z0 + j) ≤ 1 - tol := by
    intro j hj
    have := hcur j (by omega)
    unfold moleFraction at this
    rw [if_pos (by omega)] at this
    exact this
  have hone : ∀ j, j < s.comps - 1 → |new (s.z0 + j) - cur (s.z0 + j)| ≤ 1 / 5 := by
    intro j hj
    rw [updated_z s cur u new hnew hj]
    obtain ⟨r0, r1⟩ := hr j hj
    obtain ⟨b1, b2⟩ := cutZ_between (cur (s.z0 + j) - zScale s u * u (s.z0 + j)) r0 r1
    obtain ⟨c1, c2⟩ := abs_le.mp (zScale_mul_le s u (deltaZ_le s u hj))
    rw [abs_le]
    rcases le_total 0 (zScale s u * u (s.z0 + j)) with h | h
    · obtain ⟨d1, d2⟩ := b2 (by linarith)
      constructor <;> linarith
    · obtain ⟨d1, d2⟩ := b1 (by linarith)
      constructor <;> linarith
  unfold moleFraction
  by_cases h : i + 1 < s.comps
  · rw [if_pos h, if_pos h]; exact hone i (by omega)
  · rw [if_neg h, if_neg h]
    obtain h0 | h0 | h0 : s.comps - 1 = 0 ∨ s.comps - 1 = 1 ∨ s.comps - 1 = 2 := by omega
    · rw [h0]; simp
    · rw [h0]
      have := hone 0 (by omega)
      rw [Finset.sum_range_one, Finset.sum_range_one, ← abs_neg]
      convert this using 2; ring
    · rw [h0, Finset.sum_range_succ, Finset.sum_range_one, Finset.sum_range_succ, Finset.sum_range_one]
      have a0 := abs_le.mp (hone 0 (by omega))
      have a1 := abs_le.mp (hone 1 (by omega))
      have hs := deltaZ_sum_le s u
      rw [h0, Finset.sum_range_succ, Finset.sum_range_one] at hs
      have hs := abs_le.mp (zScale_mul_le s u hs)
      rw [updated_z s cur u new hnew (show 0 < s.comps - 1 by omega)] at a0 ⊢
      rw [updated_z s cur u new hnew (show 1 < s.comps - 1 by omega)] at a1 ⊢
      have b0 := cutZ_between (cur (s.z0 + 0) - zScale s u * u (s.z0 + 0)) (hr 0 (by omega)).1 (hr 0 (by omega)).2
      have b1 := cutZ_between (cur (s.z0 + 1) - zScale s u * u (s.z0 + 1)) (hr 1 (by omega)).1 (hr 1 (by omega)).2
      rw [mul_add] at hs
      rcases le_total 0 (zScale s u * u (s.z0 + 0)) with c0 | c0 <;>
        rcases le_total 0 (zScale s u * u (s.z0 + 1)) with c1 | c1
      · obtain ⟨d0, d0'⟩ := b0.2 (by linarith)
        obtain ⟨d1, d1'⟩ := b1.2 (by linarith)
        rw [abs_le]; constructor <;> linarith
      · obtain ⟨d0, d0'⟩ := b0.2 (by linarith)
        obtain ⟨d1, d1'⟩ := b1.1 (by linarith)
        rw [abs_le]; constructor <;> linarith
      · obtain ⟨d0, d0'⟩ := b0.1 (by linarith)
        obtain ⟨d1, d1'⟩ := b1.2 (by linarith)
        rw [abs_le]; constructor <;> linarith
      · obtain ⟨d0, d0'⟩ := b0.1 (by linarith)
        obtain ⟨d1, d1'⟩ := b1.1 (by linarith)
        rw [abs_le]; constructor <;> linarith

/-- With four components cutting a single mole fraction breaks the limit for the last component. -/
theorem C96_four_components_violated :
    ∃ (s : Sizes) (cur u new : ℕ → ℚ), s.comps = 4 ∧ updatePrimaryVariables s cur u = some new ∧
      (∀ i < 4, 1 / 100000000 ≤ moleFraction s cur i ∧ moleFraction s cur i ≤ 1 - 1 / 100000000) ∧
      1 / 5 < |moleFraction s new 3 - moleFraction s cur 3| := by
  let s : Sizes := ⟨0, 4⟩
  let cur : ℕ → ℚ := fun k => if k = 1 then 1 / 4 else if k = 2 then 1 / 4 else if k = 3 then 1 / 20 else 1
  let u : ℕ → ℚ := fun k => if k = 1 then -1 / 5 else if k = 2 then -1 / 5 else if k = 3 then 1 / 5 else 0
  have hex : ∃ new, updatePrimaryVariables s cur u = some new :=
    let ⟨new, h, _⟩ := C96_pressure_and_range s cur u (by decide +kernel)
    ⟨new, h⟩
  obtain ⟨new, h⟩ := hex
  refine ⟨s, cur, u, new, rfl, h, ?_, ?_⟩
  · intro i hi
    unfold moleFraction
    interval_cases i <;> norm_num [s, cur, Sizes.z0, Sizes.pres0, Finset.sum_range_succ]
  · have hm : moleFraction s new 3 = 1 - ∑ j ∈ Finset.range 3, cutZ (cur (s.z0 + j) - zScale s u * u (s.z0 + j)) := by
      unfold moleFraction
      rw [if_neg (by decide)]
      congr 1
      exact Finset.sum_congr rfl fun j hj => updated_z s cur u new h (Finset.mem_range.mp hj)
    rw [hm]
    unfold moleFraction
    rw [if_neg (by decide)]
    decide +kernel

/-- An update within the limits is applied unchanged. -/
theorem C96_small_updates_exact (s : Sizes) (cur u : ℕ → K) (hp : |u s.pres0| ≤ cur s.pres0 / 5)
    (hz : ∀ i, i + 1 < s.comps → |u (s.z0 + i)| ≤ 1 / 5 ∧ 1 / 100000000 ≤ cur (s.z0 + i) - u (s.z0 + i) ∧
      cur (s.z0 + i) - u (s.z0 + i) ≤ 1 - 1 / 100000000)
    (hsum : |∑ i ∈ Finset.range (s.comps - 1), u (s.z0 + i)| ≤ 1 / 5) :
    ∃ new, updatePrimaryVariables s cur u = some new ∧ ∀ k, new k = cur k - u k := by
  obtain ⟨p1, p2⟩ := abs_le.mp hp
  have hscale : ¬ 1 / 5 < maxDeltaZ s u := by
    rw [not_lt]
    have h := foldl_satDelta (fun i => u (s.z0 + i)) (s.comps - 1)
    unfold maxDeltaZ
    simp only [] at h ⊢
    rw [h.2, sum_range_eq]
    refine max_le hsum ?_
    have key : ∀ n ≤ s.comps - 1, ((List.range n).foldl
        (fun (a : K × K) i => (max |u (s.z0 + i)| a.1, a.2 + u (s.z0 + i))) (0, 0)).1 ≤ 1 / 5 := by
      intro n hn
      induction n with
      | zero => simp
      | succ n ih =>
        rw [List.range_succ, List.foldl_append]
        exact max_le (hz n (by omega)).1 (ih (by omega))
    exact key _ le_rfl
  have hclamp : clampValue (cur s.pres0 - u s.pres0) (cur s.pres0 * (1 - 1 / 5)) (cur s.pres0 * (1 + 1 / 5)) =
      some (cur s.pres0 - u s.pres0) := by
    unfold clampValue
    rw [if_neg (by rw [not_lt]; linarith), if_neg (by rw [not_lt]; linarith), if_neg (by rw [not_lt]; linarith)]
  have hupd : updatePrimaryVariables s cur u = some (forRange (s.comps - 1) s.z0 (fun _ val => cutZ val)
      (scaleZ s cur u (Function.update (fun k => cur k - u k) s.pres0 (cur s.pres0 - u s.pres0)))) := by
    unfold updatePrimaryVariables
    simp only [hclamp]
  refine ⟨_, hupd, fun k => ?_⟩
  have hu : ∀ k, Function.update (fun k => cur k - u k) s.pres0 (cur s.pres0 - u s.pres0) k = cur k - u k := by
    intro k
    by_cases h : k = s.pres0
    · subst h; rw [Function.update_self]
    · rw [Function.update_of_ne h]
  by_cases hk : s.z0 ≤ k ∧ k < s.z0 + (s.comps - 1)
  · obtain ⟨i, rfl⟩ : ∃ i, k = s.z0 + i := ⟨k - s.z0, by omega⟩
    rw [forRange_at _ _ (by omega)]
    unfold scaleZ
    rw [if_neg hscale, hu]
    obtain ⟨-, h1, h2⟩ := hz i (by omega)
    exact cutZ_id h1 h2
  · rw [forRange_out _ _ hk]
    unfold scaleZ
    rw [if_neg hscale, hu]

/-- Three components: both limits act. -/
example : ((updatePrimaryVariables ⟨0, 3⟩ (fun k => if k = 0 then 100 else if k = 1 then 1 / 2 else (1 / 10 : ℚ))
      (fun k => if k = 0 then -50 else if k = 1 then -1 else 1 / 4)).map
    fun new => (List.range 3).map new) = some [120, 7 / 10, 1 / 20] := by
  decide +kernel

/-! ## C97: compositions and saturations -/

theorem rawZ_eq (s : Sizes) (hs : 0 < s.comps) (pv : ℕ → K) (i : ℕ) : rawZ s pv i = moleFraction s pv i := by
  unfold rawZ moleFraction
  by_cases h : i + 1 < s.comps
  · rw [if_pos h, if_pos (by omega)]
  · rw [if_neg h, if_neg (by omega), foldl_sub (fun j => pv (s.z0 + j)), sum_range_eq]

theorem foldl_add (f : ℕ → K) (l : List ℕ) (a : K) : l.foldl (fun a i => a + f i) a = a + (l.map f).sum := by
  induction l generalizing a with
  | nil => simp
  | cons x l ih => rw [List.foldl_cons, ih, List.map_cons, List.sum_cons]; ring

theorem sumZ_eq (s : Sizes) (hs : 0 < s.comps) (pv : ℕ → K) :
    sumZ s pv = ∑ i ∈ Finset.range s.comps, max (moleFraction s pv i) (1 / 100000000) := by
  unfold sumZ
  rw [foldl_add (fun i => max (rawZ s pv i) (1 / 100000000)), zero_add, sum_range_eq]
  exact Finset.sum_congr rfl fun i _ => by rw [rawZ_eq s hs]

theorem sumZ_pos (s : Sizes) (hs : 0 < s.comps) (pv : ℕ → K) : 0 < sumZ s pv := by
  rw [sumZ_eq s hs]
  refine Finset.sum_pos (fun i _ => lt_of_lt_of_le ?_ (le_max_right _ _)) ⟨0, Finset.mem_range.mpr hs⟩
  norm_num

theorem sum_moleFraction (s : Sizes) (hs : 0 < s.comps) (pv : ℕ → K) :
    ∑ i ∈ Finset.range s.comps, moleFraction s pv i = 1 := by
  have e : s.comps = (s.comps - 1) + 1 := by omega
  rw [e, Finset.sum_range_succ]
  have h1 : ∀ j ∈ Finset.range (s.comps - 1), moleFraction s pv j = pv (s.z0 + j) := by
    intro j hj
    have := Finset.mem_range.mp hj
    unfold moleFraction; rw [if_pos (by omega)]
  rw [Finset.sum_congr rfl h1]
  unfold moleFraction
  rw [if_neg (by omega)]
  ring

/-- The mole fractions handed to the flash calculation are positive and sum up to one, whatever the primary
variables are; if all stored mole fractions are at least 1e-8 they are handed over unchanged. -/
theorem C97_compositions (s : Sizes) (hs : 0 < s.comps) (pv : ℕ → K) :
    (∀ i, 0 < readZ s pv i) ∧ ∑ i ∈ Finset.range s.comps, readZ s pv i = 1 ∧
    ((∀ i < s.comps, 1 / 100000000 ≤ moleFraction s pv i) → ∀ i < s.comps, readZ s pv i = moleFraction s pv i) := by
  have hpos := sumZ_pos s hs pv
  refine ⟨fun i => ?_, ?_, fun h i hi => ?_⟩
  · unfold readZ
    refine div_pos (lt_of_lt_of_le ?_ (le_max_right _ _)) hpos
    norm_num
  · unfold readZ
    rw [← Finset.sum_div, Finset.sum_congr rfl (fun i _ => by rw [rawZ_eq s hs]), ← sumZ_eq s hs, div_self hpos.ne']
  · unfold readZ
    have h1 : sumZ s pv = 1 := by
      rw [sumZ_eq s hs]
      exact (Finset.sum_congr rfl fun i hi => max_eq_left (h i (Finset.mem_range.mp hi))).trans
        (sum_moleFraction s hs pv)
    rw [h1, div_one, rawZ_eq s hs, max_eq_left (h i hi)]

/-- The saturations are between zero and one and sum up to one; for a liquid fraction between zero and one and
positive compressibility factors they are the volume fractions of the phases. -/
theorem C97_saturations (L ZL ZV : K) :
    let S := saturations L ZL ZV
    0 ≤ S.1 ∧ 0 ≤ S.2 ∧ S.1 + S.2 = 1 ∧
    (0 ≤ L → L ≤ 1 → 0 < ZL → 0 < ZV →
      S.1 = L * ZL / (L * ZL + (1 - L) * ZV) ∧ S.2 = (1 - L) * ZV / (L * ZL + (1 - L) * ZV)) := by
  intro S
  have hS : S = saturations L ZL ZV := rfl
  unfold saturations at hS
  simp only [] at hS
  generalize hq : L * ZL / (L * ZL + (1 - L) * ZV) = q at hS
  have h0 : 0 ≤ max q 0 := le_max_right _ _
  have h1 : 0 ≤ max (1 - max q 0) 0 := le_max_right _ _
  have hsum : 1 ≤ max q 0 + max (1 - max q 0) 0 := by
    have := le_max_left (1 - max q 0) 0; linarith
  have hpos : 0 < max q 0 + max (1 - max q 0) 0 := by linarith
  rw [hS]
  refine ⟨div_nonneg h0 hpos.le, div_nonneg h1 hpos.le, ?_, fun a b c d => ?_⟩
  · rw [← add_div, div_self hpos.ne']
  · have hb : 0 ≤ 1 - L := by linarith
    have hden : 0 < L * ZL + (1 - L) * ZV := by
      rcases a.lt_or_eq with h | h
      · have := mul_pos h c; have := mul_nonneg hb d.le; linarith
      · rw [← h]; linarith
    have hq0 : 0 ≤ q := by rw [← hq]; exact div_nonneg (mul_nonneg a c.le) hden.le
    have hq1 : 1 - q = (1 - L) * ZV / (L * ZL + (1 - L) * ZV) := by
      rw [← hq, eq_div_iff hden.ne', sub_mul, div_mul_cancel₀ _ hden.ne']; ring
    have hq2 : 0 ≤ 1 - q := by rw [hq1]; exact div_nonneg (mul_nonneg hb d.le) hden.le
    rw [max_eq_left hq0, max_eq_left hq2]
    have : q + (1 - q) = 1 := by ring
    rw [this, div_one, div_one]
    exact ⟨rfl, hq1⟩

example : saturations (1 / 2) (1 / 4) (3 / 4 : ℚ) = (1 / 4, 3 / 4) := by decide +kernel

/-! ## C98: storing fluid states -/

/-- The total amount of a component. -/
def amount (phases : ℕ) (fs : FluidState K) (i : ℕ) : K :=
  ∑ phase ∈ Finset.range phases, fs.molarity phase i * fs.sat phase

/-- The total amount of all components. -/
def total (phases comps : ℕ) (fs : FluidState K) : K := ∑ i ∈ Finset.range comps, amount phases fs i

theorem inner_spec (n : ℕ) (g : ℕ → K) (a : (ℕ → K) × K) :
    let r := (List.range n).foldl (fun (a : (ℕ → K) × K) i =>
      (Function.update a.1 i (a.1 i + max (g i) (1 / 100000000)), a.2 + g i)) a
    (∀ i, r.1 i = if i < n then a.1 i + max (g i) (1 / 100000000) else a.1 i) ∧
      r.2 = a.2 + ∑ i ∈ Finset.range n, g i := by
  induction n with
  | zero => simp
  | succ n ih =>
    rw [List.range_succ, List.foldl_append]
    simp only [List.foldl_cons, List.foldl_nil]
    obtain ⟨ih1, ih2⟩ := ih
    refine ⟨fun i => ?_, by rw [ih2, Finset.sum_range_succ]; ring⟩
    by_cases h : i = n
    · subst h
      rw [Function.update_self, ih1, if_neg (lt_irrefl _), if_pos (Nat.lt_succ_self _)]
    · rw [Function.update_of_ne h, ih1]
      by_cases h' : i < n
      · rw [if_pos h', if_pos (by omega)]
      · rw [if_neg h', if_neg (by omega)]

theorem amounts_spec (phases comps : ℕ) (fs : FluidState K) :
    (∀ i < comps, (amounts phases comps fs).1 i =
      ∑ phase ∈ Finset.range phases, max (fs.molarity phase i * fs.sat phase) (1 / 100000000)) ∧
    (amounts phases comps fs).2 = total phases comps fs := by
  unfold amounts
  induction phases with
  | zero => simp [total, amount]
  | succ n ih =>
    rw [List.range_succ, List.foldl_append]
    simp only [List.foldl_cons, List.foldl_nil]
    obtain ⟨h1, h2⟩ := inner_spec comps (fun i => fs.molarity n i * fs.sat n)
      ((List.range n).foldl (fun a phase =>
        (List.range comps).foldl (fun (a : (ℕ → K) × K) i =>
          let tmp := fs.molarity phase i * fs.sat phase
          (Function.update a.1 i (a.1 i + max tmp (1 / 100000000)), a.2 + tmp)) a) (fun _ => 0, 0))
    simp only [] at h1 h2
    refine ⟨fun i hi => ?_, ?_⟩
    · rw [h1, if_pos hi, ih.1 i hi, Finset.sum_range_succ]
    · rw [h2, ih.2]
      unfold total amount
      rw [← Finset.sum_add_distrib]
      exact Finset.sum_congr rfl fun i _ => by rw [Finset.sum_range_succ]

/-- The stored mole fraction of a component differs from the ratio of its total amount and that of all components by
at most 1e-8 per phase over the total amount, if no amount is negative; it is exact if every component is present in
every phase.  The pressure is that of the first phase. -/
theorem C98_stored_partial (s : Sizes) (phases : ℕ) (fs : FluidState K) (htot : 0 < total phases s.comps fs)
    (hn : ∀ phase < phases, ∀ i < s.comps, 0 ≤ fs.molarity phase i * fs.sat phase) :
    assignNaive s phases fs s.pres0 = fs.pres 0 ∧
    (∀ i, i + 1 < s.comps →
      |moleFraction s (assignNaive s phases fs) i - amount phases fs i / total phases s.comps fs| ≤
        phases * (1 / 100000000) / total phases s.comps fs) ∧
    ((∀ phase < phases, ∀ i < s.comps, 1 / 100000000 ≤ fs.molarity phase i * fs.sat phase) →
      ∀ i < s.comps, moleFraction s (assignNaive s phases fs) i = amount phases fs i / total phases s.comps fs) := by
  obtain ⟨h1, h2⟩ := amounts_spec phases s.comps fs
  have hz : ∀ i, i < s.comps - 1 → assignNaive s phases fs (s.z0 + i) =
      (∑ phase ∈ Finset.range phases, max (fs.molarity phase i * fs.sat phase) (1 / 100000000)) /
        total phases s.comps fs := by
    intro i hi
    unfold assignNaive
    rw [Function.update_of_ne (by unfold Sizes.z0; omega), forRange_at _ _ hi, h1 i (by omega), h2]
  refine ⟨by unfold assignNaive; rw [Function.update_self], fun i hi => ?_, fun hp i hi => ?_⟩
  · unfold moleFraction
    rw [if_pos hi, hz i (by omega), ← sub_div, abs_div, abs_of_pos htot]
    refine div_le_div_of_nonneg_right ?_ htot.le
    unfold amount
    rw [← Finset.sum_sub_distrib]
    refine (Finset.abs_sum_le_sum_abs _ _).trans ?_
    have hb : ∀ phase ∈ Finset.range phases,
        |max (fs.molarity phase i * fs.sat phase) (1 / 100000000) - fs.molarity phase i * fs.sat phase| ≤
          (1 / 100000000 : K) := by
      intro phase hph
      have h0 := hn phase (Finset.mem_range.mp hph) i (by omega)
      rw [abs_le]
      have ha := le_max_left (fs.molarity phase i * fs.sat phase) (1 / 100000000)
      have hc : (0 : K) < 1 / 100000000 := by norm_num
      constructor
      · linarith
      · have : max (fs.molarity phase i * fs.sat phase) (1 / 100000000) ≤
            fs.molarity phase i * fs.sat phase + 1 / 100000000 := max_le (by linarith) (by linarith)
        linarith
    refine (Finset.sum_le_sum hb).trans ?_
    rw [Finset.sum_const, Finset.card_range, nsmul_eq_mul]
  · have he : ∀ i, i < s.comps - 1 → assignNaive s phases fs (s.z0 + i) =
        amount phases fs i / total phases s.comps fs := by
      intro i hi
      rw [hz i hi]
      congr 1
      exact Finset.sum_congr rfl fun phase hph => max_eq_left (hp phase (Finset.mem_range.mp hph) i (by omega))
    unfold moleFraction
    by_cases hl : i + 1 < s.comps
    · rw [if_pos hl, he i (by omega)]
    · rw [if_neg hl, Finset.sum_congr rfl (fun j hj => he j (Finset.mem_range.mp hj)), ← Finset.sum_div]
      rw [eq_div_iff htot.ne', sub_mul, div_mul_cancel₀ _ htot.ne', one_mul]
      have e : s.comps = (s.comps - 1) + 1 := by omega
      have : i = s.comps - 1 := by omega
      have ht : total phases s.comps fs = ∑ j ∈ Finset.range (s.comps - 1), amount phases fs j +
          amount phases fs (s.comps - 1) := by
        conv_lhs => rw [e]
        unfold total
        rw [Finset.sum_range_succ]
      rw [ht, this]; ring

/-- If a phase is absent the stored mole fractions are too large: they sum up to more than one. -/
theorem C98_absent_phase_violated :
    ∃ (s : Sizes) (fs : FluidState ℚ), s.comps = 2 ∧ 0 < total 2 s.comps fs ∧
      (∀ phase < 2, ∀ i < 2, 0 ≤ fs.molarity phase i * fs.sat phase) ∧
      amount 2 fs 0 / total 2 s.comps fs = 1 ∧ 1 < moleFraction s (assignNaive s 2 fs) 0 := by
  refine ⟨⟨0, 2⟩, ⟨fun _ i => if i = 0 then 1 else 0, fun p => if p = 0 then 1 else 0, fun _ => 1⟩, rfl, ?_, ?_, ?_, ?_⟩
  · decide +kernel
  · intro p hp i hi
    interval_cases p <;> interval_cases i <;> decide +kernel
  · decide +kernel
  · decide +kernel

end Verif.PtFlash
