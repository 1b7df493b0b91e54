import Verif.Todd.Model
import Mathlib.Tactic.Linarith
import Mathlib.Tactic.Ring
import Mathlib.Tactic.FieldSimp
import Mathlib.Tactic.Positivity
import Mathlib.Tactic.NormNum

/-
Facts about means and fourth roots.
-/

set_option autoImplicit false

namespace Verif.Todd

open Input

theorem cutOff_pos : 0 < cutOff := by unfold cutOff; positivity

theorem root_pow {a : ℝ} (h : 0 ≤ a) : (a ^ (1 / 4 : ℝ)) ^ (4 : ℝ) = a := by
  rw [← Real.rpow_mul h]; norm_num

theorem pow_root {a : ℝ} (h : 0 ≤ a) : (a ^ (4 : ℝ)) ^ (1 / 4 : ℝ) = a := by
  rw [← Real.rpow_mul h]; norm_num

theorem root_le {a b : ℝ} (ha : 0 ≤ a) (hab : a ≤ b) : a ^ (1 / 4 : ℝ) ≤ b ^ (1 / 4 : ℝ) := Real.rpow_le_rpow ha hab (by norm_num)

theorem pow_le {a b : ℝ} (ha : 0 ≤ a) (hab : a ≤ b) : a ^ (4 : ℝ) ≤ b ^ (4 : ℝ) := Real.rpow_le_rpow ha hab (by norm_num)

theorem root_pos {a : ℝ} (ha : 0 < a) : 0 < a ^ (1 / 4 : ℝ) := Real.rpow_pos_of_pos ha _

/-- A weighted geometric mean lies between. -/
theorem interpolate_bounds {w a b lo hi : ℝ} (hw : 0 ≤ w) (hw1 : w ≤ 1) (hlo : 0 < lo) (ha : lo ≤ a) (hb : lo ≤ b) (ha' : a ≤ hi)
    (hb' : b ≤ hi) : lo ≤ interpolate w a b ∧ interpolate w a b ≤ hi := by
  have a0 : 0 < a := lt_of_lt_of_le hlo ha
  have b0 : 0 < b := lt_of_lt_of_le hlo hb
  have hi0 : 0 < hi := lt_of_lt_of_le a0 ha'
  have e : ∀ {c : ℝ}, 0 < c → c ^ (1 - w) * c ^ w = c := by
    intro c hc
    rw [← Real.rpow_add hc]; simp
  unfold interpolate
  constructor
  · calc lo = lo ^ (1 - w) * lo ^ w := (e hlo).symm
      _ ≤ a ^ (1 - w) * b ^ w := mul_le_mul (Real.rpow_le_rpow hlo.le ha (by linarith)) (Real.rpow_le_rpow hlo.le hb hw)
          (Real.rpow_nonneg hlo.le _) (Real.rpow_nonneg a0.le _)
  · calc a ^ (1 - w) * b ^ w ≤ hi ^ (1 - w) * hi ^ w := mul_le_mul (Real.rpow_le_rpow a0.le ha' (by linarith))
          (Real.rpow_le_rpow b0.le hb' hw) (Real.rpow_nonneg b0.le _) (Real.rpow_nonneg hi0.le _)
      _ = hi := e hi0

theorem interpolate_pos {w a b : ℝ} (ha : 0 < a) (hb : 0 < b) : 0 < interpolate w a b :=
  mul_pos (Real.rpow_pos_of_pos ha _) (Real.rpow_pos_of_pos hb _)

theorem interpolate_zero (a b : ℝ) : interpolate 0 a b = a := by simp [interpolate]

theorem interpolate_one (a b : ℝ) : interpolate 1 a b = b := by simp [interpolate]

/-- The root of the mixture of two -/
theorem root_mix {a b p q : ℝ} (ha : 0 < a) (hb : 0 < b) (hp : 0 ≤ p) (hq : 0 ≤ q) (hpq : p + q = 1) :
    (a * (b / (p * b ^ (1 / 4 : ℝ) + q * a ^ (1 / 4 : ℝ)) ^ (4 : ℝ))) ^ (1 / 4 : ℝ) =
        a ^ (1 / 4 : ℝ) * b ^ (1 / 4 : ℝ) / (p * b ^ (1 / 4 : ℝ) + q * a ^ (1 / 4 : ℝ)) ∧
      0 < p * b ^ (1 / 4 : ℝ) + q * a ^ (1 / 4 : ℝ) := by
  have hA := root_pos ha
  have hB := root_pos hb
  have hD : 0 < p * b ^ (1 / 4 : ℝ) + q * a ^ (1 / 4 : ℝ) := by
    rcases hp.lt_or_eq with h | h
    · have := mul_pos h hB
      have := mul_nonneg hq hA.le
      linarith
    · rw [← h] at hpq ⊢
      have : q = 1 := by linarith
      rw [this]
      linarith
  refine ⟨?_, hD⟩
  rw [← mul_div_assoc, Real.div_rpow (mul_nonneg ha.le hb.le) (Real.rpow_nonneg hD.le _), Real.mul_rpow ha.le hb.le, pow_root hD.le]

/-- The root of the mixture of three -/
theorem root_mix3 {a b c p q r : ℝ} (ha : 0 < a) (hb : 0 < b) (hc : 0 < c) (hp : 0 ≤ p) (hq : 0 ≤ q) (hr : 0 ≤ r) (h : p + q + r = 1) :
    (a * (b * c / (p * b ^ (1 / 4 : ℝ) * c ^ (1 / 4 : ℝ) + q * a ^ (1 / 4 : ℝ) * c ^ (1 / 4 : ℝ) +
          r * b ^ (1 / 4 : ℝ) * a ^ (1 / 4 : ℝ)) ^ (4 : ℝ))) ^ (1 / 4 : ℝ) =
        a ^ (1 / 4 : ℝ) * (b ^ (1 / 4 : ℝ) * c ^ (1 / 4 : ℝ)) / (p * b ^ (1 / 4 : ℝ) * c ^ (1 / 4 : ℝ) +
          q * a ^ (1 / 4 : ℝ) * c ^ (1 / 4 : ℝ) + r * b ^ (1 / 4 : ℝ) * a ^ (1 / 4 : ℝ)) ∧
      0 < p * b ^ (1 / 4 : ℝ) * c ^ (1 / 4 : ℝ) + q * a ^ (1 / 4 : ℝ) * c ^ (1 / 4 : ℝ) + r * b ^ (1 / 4 : ℝ) * a ^ (1 / 4 : ℝ) := by
  have hA := root_pos ha
  have hB := root_pos hb
  have hC := root_pos hc
  have h1 : 0 ≤ p * b ^ (1 / 4 : ℝ) * c ^ (1 / 4 : ℝ) := by positivity
  have h2 : 0 ≤ q * a ^ (1 / 4 : ℝ) * c ^ (1 / 4 : ℝ) := by positivity
  have h3 : 0 ≤ r * b ^ (1 / 4 : ℝ) * a ^ (1 / 4 : ℝ) := by positivity
  have hD : 0 < p * b ^ (1 / 4 : ℝ) * c ^ (1 / 4 : ℝ) + q * a ^ (1 / 4 : ℝ) * c ^ (1 / 4 : ℝ) + r * b ^ (1 / 4 : ℝ) * a ^ (1 / 4 : ℝ) := by
    rcases hp.lt_or_eq with h | h'
    · have : 0 < p * b ^ (1 / 4 : ℝ) * c ^ (1 / 4 : ℝ) := by positivity
      linarith
    · rcases hq.lt_or_eq with h | h''
      · have : 0 < q * a ^ (1 / 4 : ℝ) * c ^ (1 / 4 : ℝ) := by positivity
        linarith
      · have hr1 : r = 1 := by linarith
        have : 0 < r * b ^ (1 / 4 : ℝ) * a ^ (1 / 4 : ℝ) := by rw [hr1]; positivity
        linarith
  refine ⟨?_, hD⟩
  rw [← mul_div_assoc, Real.div_rpow (by positivity) (Real.rpow_nonneg hD.le _), Real.mul_rpow ha.le (by positivity),
    Real.mul_rpow hb.le hc.le, pow_root hD.le]

/-- Harmonic means lie between. -/
theorem harmonic_bounds {A B p q lo hi : ℝ} (hlo : 0 < lo) (hA : lo ≤ A) (hB : lo ≤ B) (hA' : A ≤ hi) (hB' : B ≤ hi) (hp : 0 ≤ p)
    (hq : 0 ≤ q) (hpq : p + q = 1) (hD : 0 < p * B + q * A) :
    lo ≤ A * B / (p * B + q * A) ∧ A * B / (p * B + q * A) ≤ hi := by
  have a0 : 0 < A := lt_of_lt_of_le hlo hA
  have b0 : 0 < B := lt_of_lt_of_le hlo hB
  have e : A * B = p * B * A + q * A * B := by
    have : q = 1 - p := by linarith
    rw [this]; ring
  constructor
  · rw [le_div_iff₀ hD, e]
    have h1 := mul_le_mul_of_nonneg_left hA (mul_nonneg hp b0.le)
    have h2 := mul_le_mul_of_nonneg_left hB (mul_nonneg hq a0.le)
    linarith
  · rw [div_le_iff₀ hD, e]
    have h1 := mul_le_mul_of_nonneg_left hA' (mul_nonneg hp b0.le)
    have h2 := mul_le_mul_of_nonneg_left hB' (mul_nonneg hq a0.le)
    linarith

/-- The same for three; nothing is assumed about `A` if its weight is zero. -/
theorem harmonic3_bounds {A B C p q r lo hi : ℝ} (hlo : 0 < lo) (hA0 : 0 < A) (hA : p * lo ≤ p * A) (hB : lo ≤ B) (hC : lo ≤ C)
    (hA' : p * A ≤ p * hi) (hB' : B ≤ hi) (hC' : C ≤ hi) (hp : 0 ≤ p) (hq : 0 ≤ q) (hr : 0 ≤ r) (h : p + q + r = 1)
    (hD : 0 < p * B * C + q * A * C + r * B * A) :
    lo ≤ A * (B * C) / (p * B * C + q * A * C + r * B * A) ∧ A * (B * C) / (p * B * C + q * A * C + r * B * A) ≤ hi := by
  have b0 : 0 < B := lt_of_lt_of_le hlo hB
  have c0 : 0 < C := lt_of_lt_of_le hlo hC
  have e : A * (B * C) = (p * A) * (B * C) + q * A * C * B + r * B * A * C := by
    have : r = 1 - p - q := by linarith
    rw [this]; ring
  have bc : 0 ≤ B * C := by positivity
  have f2 : 0 ≤ q * A * C := by positivity
  have f3 : 0 ≤ r * B * A := by positivity
  constructor
  · rw [le_div_iff₀ hD, e]
    have h1 := mul_le_mul_of_nonneg_right hA bc
    have h2 := mul_le_mul_of_nonneg_left hB f2
    have h3 := mul_le_mul_of_nonneg_left hC f3
    nlinarith
  · rw [div_le_iff₀ hD, e]
    have h1 := mul_le_mul_of_nonneg_right hA' bc
    have h2 := mul_le_mul_of_nonneg_left hB' f2
    have h3 := mul_le_mul_of_nonneg_left hC' f3
    nlinarith

/-- Convex combinations lie between. -/
theorem convex_bounds {f a b lo hi : ℝ} (hf : 0 ≤ f) (hf1 : f ≤ 1) (ha : lo ≤ a) (hb : lo ≤ b) (ha' : a ≤ hi) (hb' : b ≤ hi) :
    lo ≤ a * f + b * (1 - f) ∧ a * f + b * (1 - f) ≤ hi := by
  have h0 : 0 ≤ 1 - f := by linarith
  constructor
  · have h1 := mul_le_mul_of_nonneg_right ha hf
    have h2 := mul_le_mul_of_nonneg_right hb h0
    nlinarith
  · have h1 := mul_le_mul_of_nonneg_right ha' hf
    have h2 := mul_le_mul_of_nonneg_right hb' h0
    nlinarith

/-- The fraction of the first of two fluids in a mixture with the root `c` of the viscosity is indeed one. -/
theorem fraction_bounds {a b c : ℝ} (ha : 0 < a) (hb : 0 < b) (h : min a b ≤ c) (h' : c ≤ max a b) (hne : a ≠ b) :
    0 ≤ a * (b - c) / (c * (b - a)) ∧ a * (b - c) / (c * (b - a)) ≤ 1 := by
  have hc : 0 < c := lt_of_lt_of_le (lt_min ha hb) h
  rcases lt_or_gt_of_ne hne with hab | hab
  · rw [min_eq_left hab.le] at h
    rw [max_eq_right hab.le] at h'
    have hd : 0 < c * (b - a) := mul_pos hc (by linarith)
    refine ⟨div_nonneg (mul_nonneg ha.le (by linarith)) hd.le, ?_⟩
    rw [div_le_one hd]
    nlinarith
  · rw [min_eq_right hab.le] at h
    rw [max_eq_left hab.le] at h'
    have hd : 0 < c * (a - b) := mul_pos hc (by linarith)
    have e : a * (b - c) / (c * (b - a)) = a * (c - b) / (c * (a - b)) := by
      rw [← neg_sub c b, ← neg_sub a b, mul_neg, mul_neg, neg_div_neg_eq]
    rw [e]
    refine ⟨div_nonneg (mul_nonneg ha.le (by linarith)) hd.le, ?_⟩
    rw [div_le_one hd]
    nlinarith

/-- The viscosity which belongs to interpolated factors lies between. -/
theorem blendMu_bounds {p bEff b muEff mu lo hi : ℝ} (hp : 0 ≤ p) (hp1 : p ≤ 1) (hbE : 0 < bEff) (hb : 0 < b) (hlo : 0 < lo)
    (hE : lo ≤ muEff) (hm : lo ≤ mu) (hE' : muEff ≤ hi) (hm' : mu ≤ hi) :
    lo ≤ blendMu p bEff b muEff mu ∧ blendMu p bEff b muEff mu ≤ hi := by
  have e0 : 0 < muEff := lt_of_lt_of_le hlo hE
  have m0 : 0 < mu := lt_of_lt_of_le hlo hm
  have h0 : 0 ≤ 1 - p := by linarith
  have w1 : 0 ≤ p * bEff := mul_nonneg hp hbE.le
  have w2 : 0 ≤ (1 - p) * b := mul_nonneg h0 hb.le
  have hD : 0 < p * bEff / muEff + (1 - p) * b / mu := by
    rcases hp.lt_or_eq with h | h
    · have := div_pos (mul_pos h hbE) e0
      have := div_nonneg w2 m0.le
      linarith
    · have := div_nonneg w1 e0.le
      have h4 : 0 < (1 - p) * b / mu := by
        rw [← h]
        exact div_pos (by linarith) m0
      linarith
  have d1 : p * bEff / muEff * muEff = p * bEff := div_mul_cancel₀ _ e0.ne'
  have d2 : (1 - p) * b / mu * mu = (1 - p) * b := div_mul_cancel₀ _ m0.ne'
  have q1 : 0 ≤ p * bEff / muEff := div_nonneg w1 e0.le
  have q2 : 0 ≤ (1 - p) * b / mu := div_nonneg w2 m0.le
  unfold blendMu blend
  constructor
  · rw [le_div_iff₀ hD]
    have h1 := mul_le_mul_of_nonneg_left hE q1
    have h2 := mul_le_mul_of_nonneg_left hm q2
    rw [d1] at h1
    rw [d2] at h2
    nlinarith
  · rw [div_le_iff₀ hD]
    have h1 := mul_le_mul_of_nonneg_left hE' q1
    have h2 := mul_le_mul_of_nonneg_left hm' q2
    rw [d1] at h1
    rw [d2] at h2
    nlinarith

theorem blend_mul (p r d b : ℝ) (hd : d ≠ 0) : blend p (r / d) b * d = r * p + b * d * (1 - p) := by
  unfold blend
  rw [add_mul]
  have : p * (r / d) * d = r * p := by field_simp
  rw [this]; ring

end Verif.Todd
