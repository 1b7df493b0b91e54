import Verif.Extend.ToddLongstaff
import Mathlib.Tactic.Ring
import Mathlib.Tactic.Linarith
import Mathlib.Tactic.FieldSimp
import Mathlib.Tactic.Positivity

set_option autoImplicit false
/-
Lemmas about means for C122.
-/
namespace Verif.Extend.TL

theorem cutOff_pos : 0 < cutOff := by unfold cutOff; norm_num

theorem quarter_pos {x : ℝ} (h : 0 < x) : 0 < quarter x := Real.rpow_pos_of_pos h _

theorem quarter_pow {x : ℝ} (h : 0 < x) : quarter x ^ 4 = x := by
  unfold quarter
  rw [← Real.rpow_natCast, ← Real.rpow_mul h.le]
  norm_num

theorem quarter_of_pow {x : ℝ} (h : 0 < x) : quarter (x ^ 4) = x := by
  unfold quarter
  rw [← Real.rpow_natCast, ← Real.rpow_mul h.le]
  norm_num

theorem quarter_mono {x y : ℝ} (hx : 0 < x) (h : x ≤ y) : quarter x ≤ quarter y :=
  Real.rpow_le_rpow hx.le h (by norm_num)

theorem quarter_one : quarter 1 = 1 := Real.one_rpow _

/-- Weighted geometric means lie between the numbers. -/
theorem blend_bounds {omega mu mix lo hi : ℝ} (h0 : 0 ≤ omega) (h1 : omega ≤ 1) (hlo : 0 < lo) (hmu : lo ≤ mu) (hmu' : mu ≤ hi)
    (hmix : lo ≤ mix) (hmix' : mix ≤ hi) : lo ≤ blend omega mu mix ∧ blend omega mu mix ≤ hi := by
  have split : ∀ x : ℝ, 0 < x → x = x ^ (1 - omega) * x ^ omega := fun x hx => by
    rw [← Real.rpow_add hx]; simp
  have hmu0 : 0 < mu := by linarith
  have hmix0 : 0 < mix := by linarith
  have hhi : 0 < hi := by linarith
  constructor
  · calc lo = lo ^ (1 - omega) * lo ^ omega := split lo hlo
      _ ≤ mu ^ (1 - omega) * mix ^ omega :=
        mul_le_mul (Real.rpow_le_rpow hlo.le hmu (by linarith)) (Real.rpow_le_rpow hlo.le hmix h0)
          (Real.rpow_pos_of_pos hlo _).le (Real.rpow_pos_of_pos hmu0 _).le
  · calc mu ^ (1 - omega) * mix ^ omega ≤ hi ^ (1 - omega) * hi ^ omega :=
        mul_le_mul (Real.rpow_le_rpow hmu0.le hmu' (by linarith)) (Real.rpow_le_rpow hmix0.le hmix' h0)
          (Real.rpow_pos_of_pos hmix0 _).le (Real.rpow_pos_of_pos hhi _).le
      _ = hi := (split hi hhi).symm

/-- Weighted harmonic means of three numbers, the first of which may be arbitrary if its weight is zero. -/
theorem harmonic3 {o s g x y z l h : ℝ} (ho : 0 < o) (hs : 0 < s) (hg : 0 < g) (hx : 0 ≤ x) (hy : 0 ≤ y) (hz : 0 ≤ z)
    (hsum : x + y + z = 1) (hl : 0 < l) (hob : x = 0 ∨ (l ≤ o ∧ o ≤ h)) (hsb : l ≤ s ∧ s ≤ h) (hgb : l ≤ g ∧ g ≤ h) :
    0 < x * s * g + y * o * g + z * s * o ∧
    l ≤ o * s * g / (x * s * g + y * o * g + z * s * o) ∧ o * s * g / (x * s * g + y * o * g + z * s * o) ≤ h := by
  have a1 : 0 < s * g := mul_pos hs hg
  have a2 : 0 < o * g := mul_pos ho hg
  have a3 : 0 < s * o := mul_pos hs ho
  have hpos : 0 < x * s * g + y * o * g + z * s * o := by
    rcases hx.lt_or_eq with h1 | h1
    · have := mul_pos h1 a1
      have := mul_nonneg hy a2.le
      have := mul_nonneg hz a3.le
      nlinarith
    · rcases hy.lt_or_eq with h2 | h2
      · have := mul_pos h2 a2
        have := mul_nonneg hx a1.le
        have := mul_nonneg hz a3.le
        nlinarith
      · have hz1 : z = 1 := by linarith
        rw [← h1, ← h2, hz1]; simp; exact a3
  have e : o * s * g = x * (o * s * g) + y * (o * s * g) + z * (o * s * g) := by rw [← add_mul, ← add_mul, hsum, one_mul]
  refine ⟨hpos, ?_, ?_⟩
  · rw [le_div_iff₀ hpos, e]
    have t2 : y * (o * g) * l ≤ y * (o * g) * s := mul_le_mul_of_nonneg_left hsb.1 (mul_nonneg hy a2.le)
    have t3 : z * (s * o) * l ≤ z * (s * o) * g := mul_le_mul_of_nonneg_left hgb.1 (mul_nonneg hz a3.le)
    have t1 : x * (s * g) * l ≤ x * (s * g) * o := by
      rcases hob with h0 | h0
      · rw [h0]; simp
      · exact mul_le_mul_of_nonneg_left h0.1 (mul_nonneg hx a1.le)
    nlinarith
  · rw [div_le_iff₀ hpos, e]
    have t2 : y * (o * g) * s ≤ y * (o * g) * h := mul_le_mul_of_nonneg_left hsb.2 (mul_nonneg hy a2.le)
    have t3 : z * (s * o) * g ≤ z * (s * o) * h := mul_le_mul_of_nonneg_left hgb.2 (mul_nonneg hz a3.le)
    have t1 : x * (s * g) * o ≤ x * (s * g) * h := by
      rcases hob with h0 | h0
      · rw [h0]; simp
      · exact mul_le_mul_of_nonneg_left h0.2 (mul_nonneg hx a1.le)
    nlinarith

/-- The fourth power form of the three fluid mixture. -/
theorem mix3_eq {muO muS muG x y z : ℝ} (ho : 0 < muO) (hs : 0 < muS) (hg : 0 < muG) :
    muO * (muS * muG / (x * quarter muS * quarter muG + y * quarter muO * quarter muG + z * quarter muS * quarter muO) ^ 4) =
      (quarter muO * quarter muS * quarter muG /
        (x * quarter muS * quarter muG + y * quarter muO * quarter muG + z * quarter muS * quarter muO)) ^ 4 := by
  rw [div_pow, mul_pow, mul_pow, quarter_pow ho, quarter_pow hs, quarter_pow hg]
  ring

/-- The fourth power form of the two fluid mixture. -/
theorem mix2_eq {mu1 muS x y : ℝ} (h1 : 0 < mu1) (hs : 0 < muS) :
    mu1 * (muS / (x * quarter muS + y * quarter mu1) ^ 4) = (quarter mu1 * quarter muS / (x * quarter muS + y * quarter mu1)) ^ 4 := by
  rw [div_pow, mul_pow, quarter_pow h1, quarter_pow hs]; ring

theorem harmonic2 {a b x y l h : ℝ} (ha : 0 < a) (hb : 0 < b) (hx : 0 ≤ x) (hy : 0 ≤ y) (hsum : x + y = 1) (hl : 0 < l)
    (hab : l ≤ a ∧ a ≤ h) (hbb : l ≤ b ∧ b ≤ h) :
    0 < x * b + y * a ∧ l ≤ a * b / (x * b + y * a) ∧ a * b / (x * b + y * a) ≤ h := by
  have := harmonic3 (o := a) (s := b) (g := 1) (x := x) (y := y) (z := 0) (l := l) (h := h) ha hb one_pos hx hy le_rfl
  have hpos : 0 < x * b + y * a := by
    rcases hx.lt_or_eq with h1 | h1
    · have := mul_pos h1 hb; have := mul_nonneg hy ha.le; linarith
    · have hy1 : y = 1 := by linarith
      rw [← h1, hy1]; simp; exact ha
  have e : a * b = x * (a * b) + y * (a * b) := by rw [← add_mul, hsum, one_mul]
  refine ⟨hpos, ?_, ?_⟩
  · rw [le_div_iff₀ hpos, e]
    have t1 : x * b * l ≤ x * b * a := mul_le_mul_of_nonneg_left hab.1 (mul_nonneg hx hb.le)
    have t2 : y * a * l ≤ y * a * b := mul_le_mul_of_nonneg_left hbb.1 (mul_nonneg hy ha.le)
    nlinarith
  · rw [div_le_iff₀ hpos, e]
    have t1 : x * b * a ≤ x * b * h := mul_le_mul_of_nonneg_left hab.2 (mul_nonneg hx hb.le)
    have t2 : y * a * b ≤ y * a * h := mul_le_mul_of_nonneg_left hbb.2 (mul_nonneg hy ha.le)
    nlinarith

theorem pow4_bounds {l h x lo hi : ℝ} (hl : 0 < l) (h1 : l ≤ x) (h2 : x ≤ h) (el : l ^ 4 = lo) (eh : h ^ 4 = hi) :
    lo ≤ x ^ 4 ∧ x ^ 4 ≤ hi := by
  rw [← el, ← eh]
  exact ⟨pow_le_pow_left₀ hl.le h1 4, pow_le_pow_left₀ (by linarith) h2 4⟩

/-- Mixtures of two fluids are as viscous as something in between. -/
theorem mix2_bounds {s1 sS mu1 muS lo hi : ℝ} (h1 : 0 ≤ s1) (hS : 0 ≤ sS) (hlo : 0 < lo) (hm1 : lo ≤ mu1 ∧ mu1 ≤ hi)
    (hmS : lo ≤ muS ∧ muS ≤ hi) : lo ≤ mix2 s1 sS mu1 muS ∧ mix2 s1 sS mu1 muS ≤ hi := by
  unfold mix2
  split
  case isTrue hc =>
    have ht : 0 < s1 + sS := lt_trans cutOff_pos hc
    have p1 : 0 < mu1 := by linarith [hm1.1]
    have pS : 0 < muS := by linarith [hmS.1]
    rw [mix2_eq p1 pS]
    have hb := harmonic2 (quarter_pos p1) (quarter_pos pS) (div_nonneg h1 ht.le) (div_nonneg hS ht.le)
      (by rw [← add_div, div_self ht.ne']) (quarter_pos hlo) ⟨quarter_mono hlo hm1.1, quarter_mono p1 hm1.2⟩
      ⟨quarter_mono hlo hmS.1, quarter_mono pS hmS.2⟩
    exact pow4_bounds (quarter_pos hlo) hb.2.1 hb.2.2 (quarter_pow hlo) (quarter_pow (by linarith [hm1.2]))
  case isFalse => exact hm1

/-- A number between two others as a fraction of the way, for `solventGasEffFraction`. -/
theorem fraction_bounds {a b e : ℝ} (ha : 0 < a) (hb : 0 < b) (he : 0 < e) (hab : a ≠ b) (h1 : min a b ≤ e) (h2 : e ≤ max a b) :
    0 ≤ a * (b - e) / (e * (b - a)) ∧ a * (b - e) / (e * (b - a)) ≤ 1 := by
  rcases lt_or_gt_of_ne hab with h | h
  · rw [min_eq_left h.le] at h1; rw [max_eq_right h.le] at h2
    have hd : 0 < e * (b - a) := mul_pos he (by linarith)
    refine ⟨div_nonneg (mul_nonneg ha.le (by linarith)) hd.le, ?_⟩
    rw [div_le_one hd]; nlinarith [mul_nonneg (sub_nonneg.2 h1) (by linarith : 0 ≤ b)]
  · rw [min_eq_right h.le] at h1; rw [max_eq_left h.le] at h2
    have hd : 0 < e * (a - b) := mul_pos he (by linarith)
    have e1 : a * (b - e) / (e * (b - a)) = a * (e - b) / (e * (a - b)) := by
      rw [← neg_div_neg_eq]; congr 1 <;> ring
    rw [e1]
    refine ⟨div_nonneg (mul_nonneg ha.le (by linarith)) hd.le, ?_⟩
    rw [div_le_one hd]
    nlinarith [mul_nonneg (sub_nonneg.2 h2) hb.le]

/-- Convex combinations of two numbers. -/
theorem convex2 {f x y lo hi : ℝ} (h0 : 0 ≤ f) (h1 : f ≤ 1) (hx : lo ≤ x ∧ x ≤ hi) (hy : lo ≤ y ∧ y ≤ hi) :
    lo ≤ x * f + y * (1 - f) ∧ x * f + y * (1 - f) ≤ hi := by
  have a := mul_le_mul_of_nonneg_left hx.1 h0
  have b := mul_le_mul_of_nonneg_left hy.1 (sub_nonneg.2 h1)
  have c := mul_le_mul_of_nonneg_left hx.2 h0
  have d := mul_le_mul_of_nonneg_left hy.2 (sub_nonneg.2 h1)
  constructor <;> nlinarith

/-- Interpolating `b / mu` gives a viscosity in between. -/
theorem interpolate_bounds {pm bEff muEff b mu lo hi : ℝ} (h0 : 0 ≤ pm) (h1 : pm ≤ 1) (hbE : 0 < bEff) (hb : 0 < b) (hlo : 0 < lo)
    (hm : lo ≤ mu ∧ mu ≤ hi) (hmE : lo ≤ muEff ∧ muEff ≤ hi) :
    lo ≤ interpolate pm bEff muEff b mu ∧ interpolate pm bEff muEff b mu ≤ hi := by
  have pmu : 0 < mu := by linarith [hm.1]
  have pmE : 0 < muEff := by linarith [hmE.1]
  have hhi : 0 < hi := by linarith [hm.2]
  have w1 : 0 ≤ pm * bEff := mul_nonneg h0 hbE.le
  have w2 : 0 ≤ (1 - pm) * b := mul_nonneg (by linarith) hb.le
  have hpos : 0 < pm * bEff / muEff + (1 - pm) * b / mu := by
    rcases h0.lt_or_eq with h | h
    · have : 0 < pm * bEff / muEff := div_pos (mul_pos h hbE) pmE
      have := div_nonneg w2 pmu.le; linarith
    · rw [← h]; simp; exact div_pos hb pmu
  have t1 : pm * bEff / muEff * lo ≤ pm * bEff := by
    rw [div_mul_eq_mul_div, div_le_iff₀ pmE]; exact mul_le_mul_of_nonneg_left hmE.1 w1
  have t2 : (1 - pm) * b / mu * lo ≤ (1 - pm) * b := by
    rw [div_mul_eq_mul_div, div_le_iff₀ pmu]; exact mul_le_mul_of_nonneg_left hm.1 w2
  have t3 : pm * bEff ≤ pm * bEff / muEff * hi := by
    rw [div_mul_eq_mul_div, le_div_iff₀ pmE]; exact mul_le_mul_of_nonneg_left hmE.2 w1
  have t4 : (1 - pm) * b ≤ (1 - pm) * b / mu * hi := by
    rw [div_mul_eq_mul_div, le_div_iff₀ pmu]; exact mul_le_mul_of_nonneg_left hm.2 w2
  unfold interpolate
  constructor
  · rw [le_div_iff₀ hpos]; nlinarith
  · rw [div_le_iff₀ hpos]; nlinarith

end Verif.Extend.TL
