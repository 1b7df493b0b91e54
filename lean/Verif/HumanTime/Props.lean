import Mathlib.Tactic.Linarith
import Mathlib.Tactic.NormNum
import Mathlib.Tactic.Ring
import Mathlib.Tactic.FieldSimp
import Mathlib.Data.Rat.Floor
import Verif.HumanTime.Spec
set_option autoImplicit false
set_option linter.unusedSimpArgs false
set_option linter.unusedSectionVars false
/-!
# C109: times in human readable form
-/
namespace HumanTime
variable {K : Type} [Field K] [LinearOrder K] [IsStrictOrderedRing K] [FloorRing K]

theorem year_eq : (year : K) = 31557600 := by unfold year; norm_num

/-- the remainder behind a truncated quotient -/
theorem truncate_spec (x : K) (c : K) (hc : 0 < c) :
    0 ≤ x - truncate (x / c) * c ∧ x - truncate (x / c) * c < c := by
  unfold truncate
  have h1 := Int.floor_le (x / c)
  have h2 := Int.lt_floor_add_one (x / c)
  rw [le_div_iff₀ hc] at h1
  rw [div_lt_iff₀ hc] at h2
  constructor <;> linarith

theorem truncate_whole (x : K) (hx : 0 ≤ x) : Whole (truncate x) := by
  unfold truncate Whole
  refine ⟨⌊x⌋.toNat, ?_⟩
  have : 0 ≤ ⌊x⌋ := Int.floor_nonneg.2 hx
  have h2 : (⌊x⌋.toNat : ℤ) = ⌊x⌋ := Int.toNat_of_nonneg this
  rw [← Int.cast_natCast, h2]

theorem truncate_nonneg (x : K) (hx : 0 ≤ x) : 0 ≤ truncate x := by
  unfold truncate
  exact_mod_cast Int.floor_nonneg.2 hx

theorem truncate_le (x : K) : truncate x ≤ x := Int.floor_le x

theorem truncate_lt (x : K) (n : ℕ) (hx : x < n) : truncate x + 1 ≤ n := by
  unfold truncate
  have : ⌊x⌋ < (n : ℤ) := Int.floor_lt.2 (by exact_mod_cast hx)
  exact_mod_cast this

theorem truncate_pos (x : K) (hx : 1 ≤ x) : 1 ≤ truncate x := by
  unfold truncate
  exact_mod_cast Int.le_floor.2 (by exact_mod_cast hx)

theorem round_spec (x : K) : |round x - x| ≤ 1 / 2 := by
  unfold round
  have h1 := Int.floor_le (x + 1 / 2)
  have h2 := Int.lt_floor_add_one (x + 1 / 2)
  rw [abs_le]
  constructor <;> linarith

theorem round_nonneg (x : K) (hx : 0 ≤ x) : 0 ≤ round x := by
  unfold round
  exact_mod_cast Int.floor_nonneg.2 (by linarith)

theorem round_le (x : K) (n : ℕ) (hx : x < n) : round x ≤ n := by
  unfold round
  have : ⌊x + 1 / 2⌋ < (n : ℤ) + 1 := by
    apply Int.floor_lt.2
    push_cast
    linarith
  have h2 : ⌊x + 1 / 2⌋ ≤ (n : ℤ) := by omega
  exact_mod_cast h2

theorem tol_years (t : K) (h1 : t ≥ 31557600) : tolerance t = 18 := by
  unfold tolerance
  rw [if_pos (by simp only [length]; linarith)]
  simp only [length]; norm_num

theorem tol_days (t : K) (h1 : ¬ t ≥ 31557600) (h2 : t ≥ 24 * 60 * 60) :
    tolerance t = 60 / 200 := by
  unfold tolerance
  rw [if_neg (by simp only [length]; intro h; apply h1; linarith),
    if_pos (by simp only [length]; linarith)]
  simp only [length]

theorem tol_hours (t : K) (h1 : ¬ t ≥ 31557600) (h2 : ¬ t ≥ 24 * 60 * 60) (h3 : t ≥ 60 * 60) :
    tolerance t = 1 / 200 := by
  unfold tolerance
  rw [if_neg (by simp only [length]; intro h; apply h1; linarith),
    if_neg (by simp only [length]; intro h; apply h2; linarith),
    if_pos (by simp only [length]; linarith)]
  simp only [length]

theorem tol_rest (t : K) (h1 : ¬ t ≥ 31557600) (h2 : ¬ t ≥ 24 * 60 * 60) (h3 : ¬ t ≥ 60 * 60) :
    tolerance t = 1 / 2000 := by
  unfold tolerance
  rw [if_neg (by simp only [length]; intro h; apply h1; linarith),
    if_neg (by simp only [length]; intro h; apply h2; linarith),
    if_neg (by simp only [length]; intro h; apply h3; linarith)]
  simp only [length]

/-- The text denotes the time, up to half of the last digit that is kept; if there is no
text, it is an amendment and the time is less than a minute. -/
theorem C109_close (t : K) (isAmendment : Bool) :
    match humanReadableTime t isAmendment with
    | some parts => |denotes parts - t| ≤ tolerance t
    | none => isAmendment = true ∧ t < 60 := by
  unfold humanReadableTime
  by_cases h1 : t ≥ year
  · rw [if_pos h1]
    rw [year_eq] at h1
    simp only
    generalize truncate (t / year) = y
    generalize truncate ((t - y * year) / (24 * 60 * 60)) = d
    have hr := round_spec (1 / (1 / 100) * (t - y * year - d * (24 * 60 * 60)) / (60 * 60) : K)
    generalize round (1 / (1 / 100) * (t - y * year - d * (24 * 60 * 60)) / (60 * 60) : K) = r at *
    rw [year_eq] at hr
    simp only [denotes, length, List.map_cons, List.map_nil, List.sum_cons, List.sum_nil]
    rw [tol_years t h1]
    rw [abs_le] at hr ⊢
    constructor <;> linarith
  rw [if_neg h1]
  rw [year_eq] at h1
  by_cases h2 : t ≥ 24 * 60 * 60
  · rw [if_pos h2]
    simp only
    generalize truncate (t / (24 * 60 * 60)) = d
    generalize truncate ((t - d * (24 * 60 * 60)) / (60 * 60)) = o
    have hr := round_spec (1 / (1 / 100) * (t - d * (24 * 60 * 60) - o * (60 * 60)) / 60 : K)
    generalize round (1 / (1 / 100) * (t - d * (24 * 60 * 60) - o * (60 * 60)) / 60 : K) = r at *
    simp only [denotes, length, List.map_cons, List.map_nil, List.sum_cons, List.sum_nil]
    rw [tol_days t h1 h2]
    rw [abs_le] at hr ⊢
    constructor <;> linarith
  rw [if_neg h2]
  by_cases h3 : t ≥ 60 * 60
  · rw [if_pos h3]
    simp only
    generalize truncate (t / (60 * 60)) = o
    generalize truncate ((t - o * (60 * 60)) / 60) = d
    have hr := round_spec (1 / (1 / 100) * (t - o * (60 * 60) - d * 60) : K)
    generalize round (1 / (1 / 100) * (t - o * (60 * 60) - d * 60) : K) = r at *
    simp only [denotes, length, List.map_cons, List.map_nil, List.sum_cons, List.sum_nil]
    rw [tol_hours t h1 h2 h3]
    rw [abs_le] at hr ⊢
    constructor <;> linarith
  rw [if_neg h3]
  by_cases h4 : t ≥ 60
  · rw [if_pos h4]
    simp only
    generalize truncate (t / 60) = d
    have hr := round_spec (1 / (1 / 1000) * (t - d * 60) : K)
    generalize round (1 / (1 / 1000) * (t - d * 60) : K) = r at *
    simp only [denotes, length, List.map_cons, List.map_nil, List.sum_cons, List.sum_nil]
    rw [tol_rest t h1 h2 h3]
    rw [abs_le] at hr ⊢
    constructor <;> linarith
  rw [if_neg h4]
  cases isAmendment with
  | false =>
    simp only [denotes, length, List.map_cons, List.map_nil, List.sum_cons, List.sum_nil,
      Bool.not_false, if_true]
    rw [tol_rest t h1 h2 h3]
    simp
  | true => exact ⟨rfl, lt_of_not_ge h4⟩

/-- Proved part of "the numbers are those of a clock": the first number is a whole number
and at least one, the middle one is a whole number in its usual range, and the last one
is not negative and at most as large as the next larger unit. -/
theorem C109_clock_partial (t : K) (ht : 60 ≤ t) (isAmendment : Bool) :
    ∃ parts, humanReadableTime t isAmendment = some parts ∧
      ((∃ y d o, parts = [(y, .years), (d, .days), (o, .hours)] ∧
          Whole y ∧ 1 ≤ y ∧ Whole d ∧ d ≤ 365 ∧ 0 ≤ o ∧ o ≤ 24) ∨
       (∃ d o m, parts = [(d, .days), (o, .hours), (m, .minutes)] ∧
          Whole d ∧ 1 ≤ d ∧ d ≤ 365 ∧ Whole o ∧ o ≤ 23 ∧ 0 ≤ m ∧ m ≤ 60) ∨
       (∃ o m s, parts = [(o, .hours), (m, .minutes), (s, .seconds)] ∧
          Whole o ∧ 1 ≤ o ∧ o ≤ 23 ∧ Whole m ∧ m ≤ 59 ∧ 0 ≤ s ∧ s ≤ 60) ∨
       (∃ m s, parts = [(m, .minutes), (s, .seconds)] ∧
          Whole m ∧ 1 ≤ m ∧ m ≤ 59 ∧ 0 ≤ s ∧ s ≤ 60)) := by
  unfold humanReadableTime
  by_cases h1 : t ≥ year
  · rw [if_pos h1]
    refine ⟨_, rfl, Or.inl ⟨_, _, _, rfl, ?_⟩⟩
    have hy : (0 : K) < year := by rw [year_eq]; norm_num
    have h0 : (0 : K) ≤ t / year := div_nonneg (by linarith) hy.le
    have hrem := truncate_spec t year hy
    have hge : 1 ≤ truncate (t / year) := truncate_pos _ (by rw [le_div_iff₀ hy]; linarith)
    have hw := truncate_whole (t / year) h0
    generalize truncate (t / year) = y at *
    have hd0 : 0 ≤ (t - y * year) / (24 * 60 * 60) := div_nonneg hrem.1 (by norm_num)
    have hdw := truncate_whole _ hd0
    have hdrem := truncate_spec (t - y * year) (24 * 60 * 60) (by norm_num)
    have hdl : truncate ((t - y * year) / (24 * 60 * 60)) + 1 ≤ ((366 : ℕ) : K) := by
      apply truncate_lt
      rw [div_lt_iff₀ (by norm_num)]
      have := hrem.2
      rw [year_eq] at this ⊢
      push_cast
      linarith
    generalize truncate ((t - y * year) / (24 * 60 * 60)) = d at *
    push_cast at hdl
    refine ⟨hw, hge, hdw, by linarith, ?_, ?_⟩
    · apply mul_nonneg _ (by norm_num)
      apply round_nonneg
      apply div_nonneg (mul_nonneg (by norm_num) hdrem.1) (by norm_num)
    · have : round (1 / (1 / 100) * (t - y * year - d * (24 * 60 * 60)) / (60 * 60) : K)
          ≤ ((2400 : ℕ) : K) := by
        apply round_le
        rw [div_lt_iff₀ (by norm_num)]
        have := hdrem.2
        push_cast
        linarith
      push_cast at this
      linarith
  rw [if_neg h1]
  rw [year_eq] at h1
  by_cases h2 : t ≥ 24 * 60 * 60
  · rw [if_pos h2]
    refine ⟨_, rfl, Or.inr (Or.inl ⟨_, _, _, rfl, ?_⟩)⟩
    have h0 : (0 : K) ≤ t / (24 * 60 * 60) := div_nonneg (by linarith) (by norm_num)
    have hrem := truncate_spec t (24 * 60 * 60) (by norm_num)
    have hge : 1 ≤ truncate (t / (24 * 60 * 60)) :=
      truncate_pos _ (by rw [le_div_iff₀ (by norm_num)]; linarith)
    have hle : truncate (t / (24 * 60 * 60)) + 1 ≤ ((366 : ℕ) : K) := by
      apply truncate_lt
      rw [div_lt_iff₀ (by norm_num)]
      push_cast
      linarith
    have hw := truncate_whole _ h0
    generalize truncate (t / (24 * 60 * 60)) = y at *
    have hd0 : 0 ≤ (t - y * (24 * 60 * 60)) / (60 * 60) := div_nonneg hrem.1 (by norm_num)
    have hdw := truncate_whole _ hd0
    have hdrem := truncate_spec (t - y * (24 * 60 * 60)) (60 * 60) (by norm_num)
    have hdl : truncate ((t - y * (24 * 60 * 60)) / (60 * 60)) + 1 ≤ ((24 : ℕ) : K) := by
      apply truncate_lt
      rw [div_lt_iff₀ (by norm_num)]
      have := hrem.2
      push_cast
      linarith
    generalize truncate ((t - y * (24 * 60 * 60)) / (60 * 60)) = d at *
    push_cast at hdl hle
    refine ⟨hw, hge, by linarith, hdw, by linarith, ?_, ?_⟩
    · apply mul_nonneg _ (by norm_num)
      apply round_nonneg
      apply div_nonneg (mul_nonneg (by norm_num) hdrem.1) (by norm_num)
    · have : round (1 / (1 / 100) * (t - y * (24 * 60 * 60) - d * (60 * 60)) / 60 : K)
          ≤ ((6000 : ℕ) : K) := by
        apply round_le
        rw [div_lt_iff₀ (by norm_num)]
        have := hdrem.2
        push_cast
        linarith
      push_cast at this
      linarith
  rw [if_neg h2]
  by_cases h3 : t ≥ 60 * 60
  · rw [if_pos h3]
    refine ⟨_, rfl, Or.inr (Or.inr (Or.inl ⟨_, _, _, rfl, ?_⟩))⟩
    have h0 : (0 : K) ≤ t / (60 * 60) := div_nonneg (by linarith) (by norm_num)
    have hrem := truncate_spec t (60 * 60) (by norm_num)
    have hge : 1 ≤ truncate (t / (60 * 60)) :=
      truncate_pos _ (by rw [le_div_iff₀ (by norm_num)]; linarith)
    have hle : truncate (t / (60 * 60)) + 1 ≤ ((24 : ℕ) : K) := by
      apply truncate_lt
      rw [div_lt_iff₀ (by norm_num)]
      push_cast
      linarith
    have hw := truncate_whole _ h0
    generalize truncate (t / (60 * 60)) = y at *
    have hd0 : 0 ≤ (t - y * (60 * 60)) / 60 := div_nonneg hrem.1 (by norm_num)
    have hdw := truncate_whole _ hd0
    have hdrem := truncate_spec (t - y * (60 * 60)) 60 (by norm_num)
    have hdl : truncate ((t - y * (60 * 60)) / 60) + 1 ≤ ((60 : ℕ) : K) := by
      apply truncate_lt
      rw [div_lt_iff₀ (by norm_num)]
      have := hrem.2
      push_cast
      linarith
    generalize truncate ((t - y * (60 * 60)) / 60) = d at *
    push_cast at hdl hle
    refine ⟨hw, hge, by linarith, hdw, by linarith, ?_, ?_⟩
    · apply mul_nonneg _ (by norm_num)
      apply round_nonneg
      apply mul_nonneg (by norm_num) hdrem.1
    · have : round (1 / (1 / 100) * (t - y * (60 * 60) - d * 60) : K) ≤ ((6000 : ℕ) : K) := by
        apply round_le
        have := hdrem.2
        push_cast
        linarith
      push_cast at this
      linarith
  rw [if_neg h3]
  rw [if_pos ht]
  refine ⟨_, rfl, Or.inr (Or.inr (Or.inr ⟨_, _, rfl, ?_⟩))⟩
  have h0 : (0 : K) ≤ t / 60 := div_nonneg (by linarith) (by norm_num)
  have hrem := truncate_spec t 60 (by norm_num)
  have hge : 1 ≤ truncate (t / 60) := truncate_pos _ (by rw [le_div_iff₀ (by norm_num)]; linarith)
  have hle : truncate (t / 60) + 1 ≤ ((60 : ℕ) : K) := by
    apply truncate_lt
    rw [div_lt_iff₀ (by norm_num)]
    push_cast
    linarith
  have hw := truncate_whole _ h0
  generalize truncate (t / 60) = y at *
  push_cast at hle
  refine ⟨hw, hge, by linarith, ?_, ?_⟩
  · apply mul_nonneg _ (by norm_num)
    apply round_nonneg
    apply mul_nonneg (by norm_num) hrem.1
  · have : round (1 / (1 / 1000) * (t - y * 60) : K) ≤ ((60000 : ℕ) : K) := by
      apply round_le
      have := hrem.2
      push_cast
      linarith
    push_cast at this
    linarith

/-- The full property would have the last number below the next larger unit, as on a
clock.  It is false: a millisecond before a whole day is printed as 23 hours, 59 minutes
and 60 seconds, and ten seconds before the end of a year's day as 24 hours. -/
theorem C109_clock_violated :
    humanReadableTime (86399999 / 1000 : ℚ) true =
        some [(23, .hours), (59, .minutes), (60, .seconds)] ∧
      humanReadableTime (31557600 + 86390 : ℚ) true =
        some [(1, .years), (0, .days), (24, .hours)] := by
  constructor
  · have a : ⌊(86399999 / 1000 : ℚ) / (60 * 60)⌋ = 23 := by rw [Int.floor_eq_iff]; norm_num
    have b : ⌊((86399999 / 1000 : ℚ) - 23 * (60 * 60)) / 60⌋ = 59 := by
      rw [Int.floor_eq_iff]; norm_num
    have c : ⌊1 / (1 / 100) * ((86399999 / 1000 : ℚ) - 23 * (60 * 60) - 59 * 60) + 1 / 2⌋ = 6000 := by
      rw [Int.floor_eq_iff]; norm_num
    unfold humanReadableTime truncate round
    rw [year_eq, if_neg (by norm_num), if_neg (by norm_num), if_pos (by norm_num)]
    simp only [a, Int.cast_ofNat, b, c]
    norm_num
  · have a : ⌊(31557600 + 86390 : ℚ) / 31557600⌋ = 1 := by rw [Int.floor_eq_iff]; norm_num
    have b : ⌊((31557600 + 86390 : ℚ) - 1 * 31557600) / (24 * 60 * 60)⌋ = 0 := by
      rw [Int.floor_eq_iff]; norm_num
    have c : ⌊1 / (1 / 100) * ((31557600 + 86390 : ℚ) - 1 * 31557600 - 0 * (24 * 60 * 60))
        / (60 * 60) + 1 / 2⌋ = 2400 := by
      rw [Int.floor_eq_iff]; norm_num
    unfold humanReadableTime truncate round
    rw [year_eq, if_pos (by norm_num)]
    simp only [a, Int.cast_ofNat, Int.cast_one, Int.cast_zero, b, c]
    norm_num

/-- Non-vacuity: a time of more than a minute. -/
example : (60 : ℚ) ≤ 874000 := by norm_num

end HumanTime
