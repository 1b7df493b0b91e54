import Verif.Richards.Model
import Mathlib.Order.Monotone.Basic
import Mathlib.Tactic.Linarith
import Mathlib.Tactic.NormNum
import Mathlib.Tactic.Ring
import Mathlib.Algebra.Order.Field.Rat

set_option autoImplicit false
set_option linter.unusedSectionVars false

namespace Verif.Richards

variable {K : Type*} [Field K] [LinearOrder K] [IsStrictOrderedRing K]

/-- A capillary pressure law: capillary pressures decrease with the liquid saturation, and the saturation belonging
to a pressure difference inverts the capillary pressure (as the regularized laws do). -/
structure Law.Regular (law : Law K) : Prop where
  pc_anti : Antitone law.pc
  sw_anti : Antitone law.sw
  inv : ∀ S, law.sw (law.pc S) = S

theorem saturation_eq (law : Law K) (h : law.Regular) (ref pW : K) :
    saturation law ref pW = min (law.sw (ref - pW)) 1 := by
  unfold saturation gasPressure
  have : max ref (pW + law.pc 1) - pW = max (ref - pW) (law.pc 1) := by
    rcases le_total ref (pW + law.pc 1) with h1 | h1
    · rw [max_eq_right h1, max_eq_right (by linarith), add_sub_cancel_left]
    · rw [max_eq_left h1, max_eq_left (by linarith)]
  rw [this]
  rcases le_total (ref - pW) (law.pc 1) with h1 | h1
  · have := h.sw_anti h1
    rw [h.inv] at this
    rw [max_eq_right h1, h.inv, min_eq_right this]
  · have := h.sw_anti h1
    rw [h.inv] at this
    rw [max_eq_left h1, min_eq_left this]

/-! ## C99: Newton updates -/

/-- In the first five iterations an update of the pressure changes the liquid saturation by at most 0.2 (if it was
not negative), for every regular capillary pressure law; later the update is applied unchanged. -/
theorem C99_saturation_change (law : Law K) (h : law.Regular) (ref : K) (iter : ℕ) (cur update : K) :
    (iter ≤ 4 → 0 ≤ saturation law ref cur →
      |saturation law ref (updatePressure law ref iter cur update) - saturation law ref cur| ≤ 1 / 5) ∧
    (4 < iter → updatePressure law ref iter cur update = cur - update) := by
  refine ⟨fun hi h0 => ?_, fun hi => if_pos hi⟩
  have hso : satOld law ref cur = saturation law ref cur := max_eq_right h0
  have hle1 : saturation law ref cur ≤ 1 := by rw [saturation_eq law h]; exact min_le_right _ _
  have hpm : pwMin law ref cur ≤ pwMax law ref cur := by
    unfold pwMin pwMax
    have : law.pc (satOld law ref cur + 1 / 5) ≤ law.pc (satOld law ref cur - 1 / 5) :=
      h.pc_anti (by linarith [show (0 : K) < 1 / 5 by norm_num])
    linarith
  have hnew : updatePressure law ref iter cur update =
      max (pwMin law ref cur) (min (cur - update) (pwMax law ref cur)) := if_neg (by omega)
  have hlo : pwMin law ref cur ≤ updatePressure law ref iter cur update := by rw [hnew]; exact le_max_left _ _
  have hhi : updatePressure law ref iter cur update ≤ pwMax law ref cur := by
    rw [hnew]; exact max_le hpm (min_le_right _ _)
  generalize updatePressure law ref iter cur update = p at hlo hhi
  unfold pwMin pwMax at *
  rw [hso] at hlo hhi
  have hge : ref ≤ gasPressure law ref cur := le_max_left _ _
  -- the new saturation is not too small
  have h1 : saturation law ref cur - 1 / 5 ≤ saturation law ref p := by
    rw [saturation_eq law h ref p]
    refine le_min ?_ (by linarith [show (0 : K) < 1 / 5 by norm_num])
    have : ref - p ≤ law.pc (saturation law ref cur - 1 / 5) := by linarith
    have := h.sw_anti this
    rwa [h.inv] at this
  -- and not too large
  have h2 : saturation law ref p ≤ saturation law ref cur + 1 / 5 := by
    rcases le_total (cur + law.pc 1) ref with hc | hc
    · have hg : gasPressure law ref cur = ref := max_eq_left hc
      rw [hg] at hhi
      have : law.pc (saturation law ref cur + 1 / 5) ≤ ref - p := by linarith
      have := h.sw_anti this
      rw [h.inv] at this
      rw [saturation_eq law h ref p]
      exact (min_le_left _ _).trans this
    · have : saturation law ref cur = 1 := by
        unfold saturation
        have hg : gasPressure law ref cur = cur + law.pc 1 := max_eq_right hc
        rw [hg, add_sub_cancel_left, h.inv]
      rw [this, saturation_eq law h ref p]
      refine (min_le_right _ _).trans ?_
      norm_num
  rw [abs_le]
  constructor <;> linarith

/-- An update in the first iterations which keeps the pressure between those of the saturations 0.2 below and above
the current one is applied unchanged. -/
theorem C99_small_updates_exact (law : Law K) (ref : K) (iter : ℕ) (cur update : K)
    (h0 : 0 ≤ saturation law ref cur)
    (hlo : gasPressure law ref cur - law.pc (saturation law ref cur - 1 / 5) ≤ cur - update)
    (hhi : cur - update ≤ gasPressure law ref cur - law.pc (saturation law ref cur + 1 / 5)) :
    updatePressure law ref iter cur update = cur - update := by
  have hso : satOld law ref cur = saturation law ref cur := max_eq_right h0
  unfold updatePressure
  split
  · rfl
  · unfold pwMin pwMax
    rw [hso, min_eq_left hhi, max_eq_right hlo]

/-- A linear capillary pressure law is regular, and the limit acts: without it the saturation would drop by 0.5. -/
example : let law : Law ℚ := ⟨fun S => 100 * (1 - S), fun p => 1 - p / 100⟩
    law.Regular ∧ saturation law 1000 (1000 - 20) = 4 / 5 ∧
    saturation law 1000 (updatePressure law 1000 0 980 50) = 3 / 5 ∧
    saturation law 1000 (updatePressure law 1000 5 980 50) = 3 / 10 := by
  refine ⟨⟨fun a b h => ?_, fun a b h => ?_, fun S => ?_⟩, by decide +kernel, by decide +kernel, by decide +kernel⟩
  · show 100 * (1 - b) ≤ 100 * (1 - a); linarith
  · show 1 - b / 100 ≤ 1 - a / 100; linarith
  · show 1 - 100 * (1 - S) / 100 = S; linarith

/-! ## C100: storing states -/

/-- A state given by the pressure and the saturation of the wetting phase is read back: the gas has the reference
pressure. -/
theorem C100_wetting_partial (law : Law K) (h : law.Regular) (pn sw : K) (h1 : sw ≤ 1) :
    ∃ p, assignFromWetting law (pn - law.pc sw) sw = some p ∧
      p = pn - law.pc sw ∧ saturation law pn p = sw ∧ gasPressure law pn p = pn := by
  refine ⟨_, rfl, rfl, ?_, ?_⟩
  · rw [saturation_eq law h]
    have : pn - (pn - law.pc sw) = law.pc sw := by ring
    rw [this, h.inv, min_eq_left h1]
  · unfold gasPressure
    refine max_eq_left ?_
    have := h.pc_anti h1
    linarith

/-- A state given by the pressure and the saturation of the non-wetting phase is not stored: whatever it is, the
pressure which is stored has never been set. -/
theorem C100_non_wetting_violated (law : Law K) (pn sn : K) : assignFromNonWetting law pn sn = none := rfl

example : let law : Law ℚ := ⟨fun S => 100 * (1 - S), fun p => 1 - p / 100⟩
    assignFromWetting law (1000 - 40) (3 / 5) = some 960 ∧ saturation law 1000 960 = 3 / 5 := by
  decide +kernel

end Verif.Richards
