import Verif.Numbers.Model
import Mathlib.Tactic.Linarith
import Mathlib.Tactic.Positivity
import Mathlib.Tactic.NormNum
import Mathlib.Tactic.FieldSimp
import Mathlib.Tactic.Ring
import Mathlib.Tactic.Push
import Mathlib.Algebra.Order.Field.Power

set_option autoImplicit false

namespace Verif.Numbers

theorem unit_pos (p : ℕ) (x : ℚ) : 0 < unit p x := by unfold unit; positivity

theorem printed_error (p : ℕ) (x : ℚ) : |printed p x - x| ≤ unit p x / 2 := by
  have hu := unit_pos p x
  have h := abs_sub_round (x / unit p x)
  have e : printed p x - x = -((x / unit p x - round (x / unit p x)) * unit p x) := by
    unfold printed; field_simp; ring
  rw [e, abs_neg, abs_mul, abs_of_pos hu]
  nlinarith

theorem unit_le (p : ℕ) (x : ℚ) (hx : x ≠ 0) : unit p x ≤ (10 : ℚ) ^ (1 - (p : ℤ)) * |x| := by
  have h := Int.zpow_log_le_self (b := 10) (r := |x|) (by norm_num) (abs_pos.2 hx)
  unfold unit
  rw [add_sub_assoc, zpow_add₀ (by norm_num), mul_comm]
  exact mul_le_mul_of_nonneg_left (by exact_mod_cast h) (by positivity)

theorem lt_unit (p : ℕ) (x : ℚ) : (10 : ℚ) ^ (-(p : ℤ)) * |x| < unit p x := by
  have h := Int.lt_zpow_succ_log_self (R := ℚ) (b := 10) (by norm_num) |x|
  unfold unit
  rw [show Int.log 10 |x| + 1 - (p : ℤ) = -(p : ℤ) + (Int.log 10 |x| + 1) by ring, zpow_add₀ (by norm_num)]
  exact mul_lt_mul_of_pos_left (by exact_mod_cast h) (by positivity)

theorem zpow_two_pos (e : ℤ) : (0 : ℚ) < 2 ^ e := by positivity

/-- Two multiples of `2^e` which differ are at least that far apart. -/
theorem sep_of_multiples (a b e : ℤ) (h : (a : ℚ) * 2 ^ e ≠ b * 2 ^ e) : (2 : ℚ) ^ e ≤ |(a : ℚ) * 2 ^ e - b * 2 ^ e| := by
  have hab : a ≠ b := by rintro rfl; exact h rfl
  have h1 : (1 : ℤ) ≤ |a - b| := Int.one_le_abs (sub_ne_zero.2 hab)
  have h2 : (1 : ℚ) ≤ |(a : ℚ) - b| := by exact_mod_cast h1
  rw [← sub_mul, abs_mul, abs_of_pos (zpow_two_pos e)]
  nlinarith [zpow_two_pos e]

theorem double_abs (m e : ℤ) (hm : |m| ≤ 2 ^ 53) : |(m : ℚ) * 2 ^ e| ≤ 2 ^ 53 * 2 ^ e := by
  rw [abs_mul, abs_of_pos (zpow_two_pos e)]
  have : |(m : ℚ)| ≤ 2 ^ 53 := by exact_mod_cast hm
  exact mul_le_mul_of_nonneg_right this (zpow_two_pos e).le

/-- Different doubles are at least `2^-54` apart, relative to one of them. -/
theorem double_sep (x y : ℚ) (hx : IsDouble x) (hy : IsDouble y) (h : x ≠ y) : |x| / 2 ^ 54 ≤ |x - y| := by
  obtain ⟨m, e, hm, rfl⟩ := hx
  obtain ⟨n, f, hn, rfl⟩ := hy
  rcases le_total e f with hef | hfe
  · obtain ⟨k, rfl⟩ := Int.le.dest hef
    have e1 : (n : ℚ) * 2 ^ (e + (k : ℤ)) = ((n * 2 ^ k : ℤ) : ℚ) * 2 ^ e := by
      rw [zpow_add₀ (by norm_num)]; push_cast; rw [zpow_natCast]; ring
    rw [e1] at h ⊢
    have h1 := sep_of_multiples m (n * 2 ^ k) e h
    have h2 := double_abs m e hm
    refine le_trans ?_ h1
    rw [div_le_iff₀ (by positivity)]
    refine h2.trans ?_
    have := zpow_two_pos e
    nlinarith
  · obtain ⟨k, rfl⟩ := Int.le.dest hfe
    have e1 : (m : ℚ) * 2 ^ (f + (k : ℤ)) = ((m * 2 ^ k : ℤ) : ℚ) * 2 ^ f := by
      rw [zpow_add₀ (by norm_num)]; push_cast; rw [zpow_natCast]; ring
    rw [e1] at h ⊢
    have h1 := sep_of_multiples (m * 2 ^ k) n f h
    have h2 := double_abs n f hn
    generalize ((m * 2 ^ k : ℤ) : ℚ) * 2 ^ f = X at *
    generalize (n : ℚ) * 2 ^ f = Y at *
    have hf := zpow_two_pos f
    have h3 := abs_sub_abs_le_abs_sub X Y
    have h4 := abs_nonneg X
    rw [div_le_iff₀ (by positivity)]
    by_cases hc : |X| ≤ 2 * |Y|
    · nlinarith
    · push Not at hc
      nlinarith [abs_nonneg (X - Y)]

/-- Every number has a double nearby. -/
theorem exists_double (q : ℚ) : ∃ y, IsDouble y ∧ |y - q| ≤ |q| / 2 ^ 53 := by
  rcases eq_or_ne q 0 with rfl | hq
  · exact ⟨0, ⟨0, 0, by norm_num, by simp⟩, by simp⟩
  have hpos := abs_pos.2 hq
  have hlo := Int.zpow_log_le_self (b := 2) (r := |q|) (by norm_num) hpos
  have hhi := Int.lt_zpow_succ_log_self (R := ℚ) (b := 2) (by norm_num) |q|
  push_cast at hlo hhi
  set l := Int.log 2 |q| with hl
  set u : ℚ := 2 ^ (l - 52) with hu
  have hupos : 0 < u := by positivity
  have e1 : (2 : ℚ) ^ l = u * 2 ^ 52 := by
    rw [hu, ← zpow_natCast, ← zpow_add₀ (by norm_num)]; congr 1; push_cast; ring
  have e2 : (2 : ℚ) ^ (l + 1) = u * 2 ^ 53 := by
    rw [hu, ← zpow_natCast, ← zpow_add₀ (by norm_num)]; congr 1; push_cast; ring
  have hr := abs_sub_round (q / u)
  refine ⟨round (q / u) * u, ⟨round (q / u), l - 52, ?_, rfl⟩, ?_⟩
  · have hq' : |q / u| < 2 ^ 53 := by
      rw [abs_div, abs_of_pos hupos, div_lt_iff₀ hupos]
      linarith [e2 ▸ hhi]
    have h1 : |(round (q / u) : ℚ)| < 2 ^ 53 + 1 := by
      have := abs_sub_abs_le_abs_sub (round (q / u) : ℚ) (q / u)
      rw [abs_sub_comm] at this
      linarith
    have h2 : |round (q / u)| < (2 : ℤ) ^ 53 + 1 := by exact_mod_cast h1
    omega
  · have e : round (q / u) * u - q = -((q / u - round (q / u)) * u) := by field_simp; ring
    rw [e, abs_neg, abs_mul, abs_of_pos hupos, le_div_iff₀ (by positivity)]
    have : u * 2 ^ 52 ≤ |q| := by rw [← e1]; exact hlo
    nlinarith

theorem read_error (read : ℚ → ℚ) (hr : Reads read) (q : ℚ) : |read q - q| ≤ |q| / 2 ^ 53 := by
  obtain ⟨y, hy, he⟩ := exists_double q
  exact ((hr q).2 y hy).trans he

theorem read_double (read : ℚ → ℚ) (hr : Reads read) (x : ℚ) (hx : IsDouble x) : read x = x := by
  have := (hr x).2 x hx
  simp at this
  linarith

/-- Rounding to a grid finds a nearby grid point. -/
theorem printed_eq (p : ℕ) (x : ℚ) (k : ℤ) (h : |x - k * unit p x| < unit p x / 2) : printed p x = k * unit p x := by
  have hu := unit_pos p x
  have h1 : |x / unit p x - k| < 1 / 2 := by
    have e : x / unit p x - k = (x - k * unit p x) / unit p x := by field_simp
    rw [e, abs_div, abs_of_pos hu, div_lt_iff₀ hu]
    linarith
  have : round (x / unit p x) = k := by
    rw [round_eq, Int.floor_eq_iff]
    rw [abs_lt] at h1
    constructor <;> linarith [h1.1, h1.2]
  rw [printed, this]

end Verif.Numbers
