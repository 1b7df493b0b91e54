import Verif.Numbers.Lemmas
import Verif.Util.Chars

set_option autoImplicit false
/-
Properties C20 (numbers in restart files), C21 (names of restart files) and C59 (default values of parameters).
-/
namespace Verif.Numbers

/-! ### reading is possible -/

/-- Rounding to 53 binary digits. -/
def nearest (q : ℚ) : ℚ := round (q / 2 ^ (Int.log 2 |q| - 52)) * 2 ^ (Int.log 2 |q| - 52)

/-- `nearest` reads numbers, so the hypotheses below can be met. -/
theorem reads_nearest : Reads nearest := by
  intro q
  rcases eq_or_ne q 0 with rfl | hq
  · exact ⟨⟨0, 0, by norm_num, by simp [nearest]⟩, fun y _ => by simp [nearest]⟩
  have hpos := abs_pos.2 hq
  have hlo := Int.zpow_log_le_self (b := 2) (r := |q|) (by norm_num) hpos
  have hhi := Int.lt_zpow_succ_log_self (R := ℚ) (b := 2) (by norm_num) |q|
  push_cast at hlo hhi
  unfold nearest
  set l := Int.log 2 |q| with hl
  set u : ℚ := 2 ^ (l - 52) with hu
  have hupos : 0 < u := by positivity
  have e1 : (2 : ℚ) ^ l = u * 2 ^ 52 := by
    rw [hu, ← zpow_natCast, ← zpow_add₀ (by norm_num)]; congr 1; push_cast; ring
  have e2 : (2 : ℚ) ^ (l + 1) = u * 2 ^ 53 := by
    rw [hu, ← zpow_natCast, ← zpow_add₀ (by norm_num)]; congr 1; push_cast; ring
  have hr := abs_sub_round (q / u)
  -- nearest among the multiples of `u`
  have hgrid : ∀ k : ℤ, |round (q / u) * u - q| ≤ |(k : ℚ) * u - q| := by
    intro k
    have h1 := round_le (q / u) k
    have e : ∀ z : ℚ, |z * u - q| = |q / u - z| * u := by
      intro z
      have : z * u - q = -((q / u - z) * u) := by field_simp; ring
      rw [this, abs_neg, abs_mul, abs_of_pos hupos]
    rw [e, e]
    exact mul_le_mul_of_nonneg_right h1 hupos.le
  refine ⟨⟨round (q / u), l - 52, ?_, rfl⟩, ?_⟩
  · have hq' : |q / u| < 2 ^ 53 := by
      rw [abs_div, abs_of_pos hupos, div_lt_iff₀ hupos]
      linarith [e2 ▸ hhi]
    have h1 : |(round (q / u) : ℚ)| < 2 ^ 53 + 1 := by
      have := abs_sub_abs_le_abs_sub (round (q / u) : ℚ) (q / u)
      rw [abs_sub_comm] at this
      linarith
    have h2 : |round (q / u)| < (2 : ℤ) ^ 53 + 1 := by exact_mod_cast h1
    omega
  · rintro y ⟨n, f, hn, rfl⟩
    rcases le_or_gt (l - 52) f with hf | hf
    · obtain ⟨k, hk⟩ := Int.le.dest hf
      have e : (n : ℚ) * 2 ^ f = ((n * 2 ^ k : ℤ) : ℚ) * u := by
        rw [← hk, zpow_add₀ (by norm_num), ← hu]; push_cast; rw [zpow_natCast]; ring
      rw [e]
      exact hgrid _
    · have h1 := double_abs n f hn
      have h2 : (2 : ℚ) ^ 53 * 2 ^ f ≤ 2 ^ l := by
        rw [← zpow_natCast, ← zpow_add₀ (by norm_num)]
        exact zpow_le_zpow_right₀ (by norm_num) (by push_cast; omega)
      have h3 : |q| - 2 ^ l ≤ |(n : ℚ) * 2 ^ f - q| := by
        have := abs_sub_abs_le_abs_sub q ((n : ℚ) * 2 ^ f)
        rw [abs_sub_comm] at this
        linarith
      refine le_trans ?_ h3
      rcases le_total 0 q with h0 | h0
      · have := hgrid (2 ^ 52)
        have e : (((2 : ℤ) ^ 52 : ℤ) : ℚ) * u = 2 ^ l := by rw [e1]; norm_num; ring
        rw [e] at this
        rw [abs_of_nonneg h0] at hlo ⊢
        rw [abs_sub_comm ((2 : ℚ) ^ l) q, abs_of_nonneg (a := q - 2 ^ l) (by linarith)] at this
        exact this
      · have := hgrid (-2 ^ 52)
        have e : ((-(2 : ℤ) ^ 52 : ℤ) : ℚ) * u = -2 ^ l := by rw [e1]; norm_num; ring
        rw [e] at this
        rw [abs_of_nonpos h0] at hlo ⊢
        have e : |-(2 : ℚ) ^ l - q| = -q - 2 ^ l := by
          rw [show -(2 : ℚ) ^ l - q = -q - 2 ^ l by ring, abs_of_nonneg (by linarith)]
        rw [e] at this
        exact this

/-! ### C20 -/

/-- C20 (numbers): a double written with the 20 digits of a restart file is read back exactly. -/
theorem C20_twenty_digits_suffice (read : ℚ → ℚ) (hr : Reads read) (x : ℚ) (hx : IsDouble x) :
    read (printed 20 x) = x := by
  rcases eq_or_ne x 0 with rfl | h0
  · have : printed 20 0 = 0 := by simp [printed]
    rw [this]
    exact read_double read hr 0 ⟨0, 0, by norm_num, by simp⟩
  by_contra hne
  have h1 := double_sep x _ hx (hr (printed 20 x)).1 (Ne.symm hne)
  have h2 := (hr (printed 20 x)).2 x hx
  have h3 := printed_error 20 x
  have h4 := unit_le 20 x h0
  have h5 : |x - read (printed 20 x)| ≤ |x - printed 20 x| + |read (printed 20 x) - printed 20 x| := by
    have := abs_sub_le x (printed 20 x) (read (printed 20 x))
    rwa [abs_sub_comm (printed 20 x) (read _)] at this
  rw [abs_sub_comm] at h3
  have hx := abs_pos.2 h0
  have e : (10 : ℚ) ^ (1 - ((20 : ℕ) : ℤ)) = 1 / 10 ^ 19 := by norm_num
  rw [e] at h4
  have h6 : |x| / 2 ^ 54 ≤ 1 / 10 ^ 19 * |x| := by linarith
  rw [div_le_iff₀ (by positivity)] at h6
  nlinarith

example : nearest (printed 20 1234567) = 1234567 :=
  C20_twenty_digits_suffice _ reads_nearest _ ⟨1234567, 0, by norm_num, by norm_num⟩

/-! ### C59 -/

/-- C59 (partial): a default value which is the double denoted by a decimal literal of at most six significant
digits is read back exactly.  What is missing: all other doubles, for which the claim is false in general. -/
theorem C59_short_literals_partial (read : ℚ → ℚ) (hr : Reads read) (k u : ℤ) (hk : |k| < 10 ^ 6) :
    read (printed 6 (read (k * (10 : ℚ) ^ u))) = read (k * (10 : ℚ) ^ u) := by
  set q : ℚ := k * (10 : ℚ) ^ u with hq
  set x := read q with hx
  rcases eq_or_ne k 0 with rfl | hk0
  · have hq0 : q = 0 := by simp [hq]
    have hx0 : x = 0 := by
      rw [hx, hq0]; exact read_double read hr 0 ⟨0, 0, by norm_num, by simp⟩
    have : printed 6 0 = 0 := by simp [printed]
    rw [hx0, this]
    exact read_double read hr 0 ⟨0, 0, by norm_num, by simp⟩
  have hu10 : (0 : ℚ) < 10 ^ u := by positivity
  have hq0 : q ≠ 0 := by
    rw [hq]; exact mul_ne_zero (by exact_mod_cast hk0) hu10.ne'
  have herr : |x - q| ≤ |q| / 2 ^ 53 := read_error read hr q
  have hqpos := abs_pos.2 hq0
  have hxq : |x| ≤ |q| + |q| / 2 ^ 53 := by
    have := abs_sub_abs_le_abs_sub x q; linarith
  have hqx : |q| ≤ |x| + |q| / 2 ^ 53 := by
    have := abs_sub_abs_le_abs_sub q x; rw [abs_sub_comm] at this; linarith
  have hxpos : 0 < |x| := by
    by_contra hc
    push Not at hc
    rw [le_antisymm hc (abs_nonneg x), zero_add, le_div_iff₀ (by positivity)] at hqx
    nlinarith
  have hqabs : |q| ≤ (10 ^ 6 - 1) * 10 ^ u := by
    rw [hq, abs_mul, abs_of_pos hu10]
    refine mul_le_mul_of_nonneg_right ?_ hu10.le
    have : |k| ≤ 10 ^ 6 - 1 := by omega
    exact_mod_cast this
  -- the exponent of x
  have hlog : Int.log 10 |x| < u + 6 := by
    rw [← Int.lt_zpow_iff_log_lt (by norm_num) hxpos]
    push_cast
    rw [zpow_add₀ (by norm_num)]
    have : |x| < 10 ^ u * 10 ^ 6 := by
      have : |q| / 2 ^ 53 * 2 ^ 53 = |q| := by field_simp
      nlinarith
    exact_mod_cast this
  -- q is a multiple of the unit of x
  obtain ⟨n, hn⟩ : ∃ n : ℕ, u = (Int.log 10 |x| + 1 - ((6 : ℕ) : ℤ)) + n := by
    obtain ⟨n, hn⟩ := Int.le.dest (show Int.log 10 |x| + 1 - ((6 : ℕ) : ℤ) ≤ u by push_cast; omega)
    exact ⟨n, hn.symm⟩
  have hmul : q = ((k * 10 ^ n : ℤ) : ℚ) * unit 6 x := by
    rw [hq, unit]
    conv_lhs => rw [hn, zpow_add₀ (by norm_num : (10 : ℚ) ≠ 0), zpow_natCast]
    push_cast
    ring
  have hlt := lt_unit 6 x
  have e6 : (10 : ℚ) ^ (-((6 : ℕ) : ℤ)) = 1 / 10 ^ 6 := by norm_num
  rw [e6] at hlt
  have hclose : |x - ((k * 10 ^ n : ℤ) : ℚ) * unit 6 x| < unit 6 x / 2 := by
    rw [← hmul]
    refine lt_of_le_of_lt herr ?_
    have : |q| / 2 ^ 53 * 2 ^ 53 = |q| := by field_simp
    nlinarith
  rw [printed_eq 6 x _ hclose, ← hmul]

example : nearest (printed 6 (nearest ((-12345 : ℤ) * (10 : ℚ) ^ (-3 : ℤ)))) = nearest ((-12345 : ℤ) * (10 : ℚ) ^ (-3 : ℤ)) :=
  C59_short_literals_partial nearest reads_nearest (-12345) (-3) (by norm_num)

theorem printed_million : printed 6 1000001 = 1000000 := by
  have hl : Int.log 10 |(1000001 : ℚ)| = 6 := by
    apply le_antisymm
    · rw [← Int.lt_add_one_iff, ← Int.lt_zpow_iff_log_lt (by norm_num) (by norm_num)]
      norm_num
    · rw [← Int.zpow_le_iff_le_log (by norm_num) (by norm_num)]
      norm_num
  have hu : unit 6 1000001 = 10 := by rw [unit, hl]; norm_num
  have h := printed_eq 6 1000001 100000 (by rw [hu]; norm_num [abs_lt])
  rw [h, hu]
  norm_num

theorem printed_million' : printed 6 1000000 = 1000000 := by
  have hl : Int.log 10 |(1000000 : ℚ)| = 6 := by
    apply le_antisymm
    · rw [← Int.lt_add_one_iff, ← Int.lt_zpow_iff_log_lt (by norm_num) (by norm_num)]
      norm_num
    · rw [← Int.zpow_le_iff_le_log (by norm_num) (by norm_num)]
      norm_num
  have hu : unit 6 1000000 = 10 := by rw [unit, hl]; norm_num
  have h := printed_eq 6 1000000 100000 (by rw [hu]; norm_num [abs_lt])
  rw [h, hu]
  norm_num

/-- C59 (refuted): the default value 1000001 is read back as 1000000, however numbers are read. -/
theorem C59_defaults_read_back_violated (read : ℚ → ℚ) (hr : Reads read) :
    IsDouble 1000001 ∧ read (printed 6 1000001) = 1000000 := by
  refine ⟨⟨1000001, 0, by norm_num, by norm_num⟩, ?_⟩
  rw [printed_million]
  exact read_double read hr _ ⟨1000000, 0, by norm_num, by norm_num⟩

/-! ### C21 -/

/-- `restartFileName_`, opm/models/io/restart.hh:73-88.  `layout` is the layout of a number, `rank` the text of the rank. -/
def restartFileName (layout : ℚ → List Char) (outputDir simName : List Char) (t : ℚ) (rank : List Char) : List Char :=
  let dir := if outputDir = c!"." then []
    else if outputDir ≠ [] ∧ outputDir.getLast? ≠ some '/' then outputDir ++ c!"/" else outputDir
  dir ++ simName ++ c!"_time=" ++ layout (printed 6 t) ++ c!"_rank=" ++ rank ++ c!".ers"

/-- C21 (refuted): the snapshots at 1000000 s and 1000001 s have the same name. -/
theorem C21_distinct_names_violated (layout : ℚ → List Char) (dir sim rank : List Char) :
    restartFileName layout dir sim 1000000 rank = restartFileName layout dir sim 1000001 rank := by
  simp only [restartFileName, printed_million, printed_million']

/-- C21 (partial): the name determines the time up to six significant digits, and the rank.  What is missing:
different times which agree in six digits. -/
theorem C21_names_partial (layout : ℚ → List Char) (hinj : ∀ a b, layout a = layout b → a = b)
    (hsep : ∀ a, '_' ∉ layout a) (dir sim : List Char) (t t' : ℚ) (rank rank' : List Char)
    (h : restartFileName layout dir sim t rank = restartFileName layout dir sim t' rank') :
    printed 6 t = printed 6 t' ∧ rank = rank' := by
  have key : ∀ (a b x y : List Char), '_' ∉ a → '_' ∉ b → a ++ '_' :: x = b ++ '_' :: y → a = b ∧ x = y := by
    intro a
    induction a with
    | nil =>
      intro b x y _ hb h
      cases b with
      | nil => simpa using h
      | cons c b => simp at h hb; exact absurd h.1.symm (fun e => hb.1 (e ▸ rfl))
    | cons c a ih =>
      intro b x y ha hb h
      cases b with
      | nil => simp at h ha; exact absurd h.1 (fun e => ha.1 (e ▸ rfl))
      | cons d b =>
        simp only [List.cons_append, List.cons.injEq] at h
        simp only [List.mem_cons, not_or] at ha hb
        obtain ⟨h1, h2⟩ := ih b x y ha.2 hb.2 h.2
        exact ⟨by rw [h.1, h1], h2⟩
  simp only [restartFileName, List.append_assoc, List.append_cancel_left_eq] at h
  obtain ⟨h1, h2⟩ := key _ _ (c!"rank=" ++ (rank ++ c!".ers")) (c!"rank=" ++ (rank' ++ c!".ers"))
    (hsep _) (hsep _) (by simpa using h)
  refine ⟨hinj _ _ h1, ?_⟩
  simpa using h2

/-- Different six-digit times have different names. -/
theorem printed_short (k u : ℤ) (hk : |k| < 10 ^ 6) : printed 6 (k * (10 : ℚ) ^ u) = k * (10 : ℚ) ^ u := by
  set q : ℚ := k * (10 : ℚ) ^ u with hq
  rcases eq_or_ne k 0 with rfl | hk0
  · have hq0 : q = 0 := by simp [hq]
    rw [hq0]; simp [printed]
  have hu10 : (0 : ℚ) < 10 ^ u := by positivity
  have hq0 : q ≠ 0 := by rw [hq]; exact mul_ne_zero (by exact_mod_cast hk0) hu10.ne'
  have hqabs : |q| < 10 ^ 6 * 10 ^ u := by
    rw [hq, abs_mul, abs_of_pos hu10]
    refine mul_lt_mul_of_pos_right ?_ hu10
    exact_mod_cast hk
  have hlog : Int.log 10 |q| < u + 6 := by
    rw [← Int.lt_zpow_iff_log_lt (by norm_num) (abs_pos.2 hq0)]
    push_cast
    rw [zpow_add₀ (by norm_num)]
    rw [mul_comm]
    exact_mod_cast hqabs
  obtain ⟨n, hn⟩ : ∃ n : ℕ, u = (Int.log 10 |q| + 1 - ((6 : ℕ) : ℤ)) + n := by
    obtain ⟨n, hn⟩ := Int.le.dest (show Int.log 10 |q| + 1 - ((6 : ℕ) : ℤ) ≤ u by push_cast; omega)
    exact ⟨n, hn.symm⟩
  have hmul : q = ((k * 10 ^ n : ℤ) : ℚ) * unit 6 q := by
    conv_lhs => rw [hq]
    rw [unit]
    conv_lhs => rw [hn, zpow_add₀ (by norm_num : (10 : ℚ) ≠ 0), zpow_natCast]
    push_cast
    ring
  have := printed_eq 6 q (k * 10 ^ n) (by rw [← hmul]; simpa using unit_pos 6 q)
  rw [this, ← hmul]

/-- C21 (partial): snapshots at different times which have at most six significant digits have different names. -/
theorem C21_short_times_partial (layout : ℚ → List Char) (hinj : ∀ a b, layout a = layout b → a = b)
    (hsep : ∀ a, '_' ∉ layout a) (dir sim rank : List Char) (k u k' u' : ℤ) (hk : |k| < 10 ^ 6) (hk' : |k'| < 10 ^ 6)
    (hne : (k * (10 : ℚ) ^ u) ≠ k' * (10 : ℚ) ^ u') :
    restartFileName layout dir sim (k * (10 : ℚ) ^ u) rank ≠ restartFileName layout dir sim (k' * (10 : ℚ) ^ u') rank := by
  intro h
  have := (C21_names_partial layout hinj hsep dir sim _ _ _ _ h).1
  rw [printed_short k u hk, printed_short k' u' hk'] at this
  exact hne this

/-- A layout: numerator and denominator in unary, separated by a slash. -/
def demoLayout (q : ℚ) : List Char :=
  (if q.num < 0 then ['-'] else []) ++ List.replicate q.num.natAbs '1' ++ '/' :: List.replicate q.den '1'

example : (∀ a b, demoLayout a = demoLayout b → a = b) ∧ ∀ a, '_' ∉ demoLayout a := by
  constructor
  · intro a b h
    unfold demoLayout at h
    have hs : ∀ (n m d e : ℕ), List.replicate n '1' ++ '/' :: List.replicate d '1' =
        List.replicate m '1' ++ '/' :: List.replicate e '1' → n = m ∧ d = e := by
      intro n
      induction n with
      | zero =>
        intro m d e h
        cases m with
        | zero => simpa using h
        | succ m => simp [List.replicate_succ] at h
      | succ n ih =>
        intro m d e h
        cases m with
        | zero => simp [List.replicate_succ] at h
        | succ m => simp only [List.replicate_succ, List.cons_append, List.cons.injEq, true_and] at h; simpa using ih m d e h
    have hm : ∀ (n d : ℕ) (r : List Char), List.replicate n '1' ++ '/' :: List.replicate d '1' ≠ '-' :: r := by
      intro n d r h
      cases n <;> simp [List.replicate_succ] at h
    by_cases ha : a.num < 0 <;> by_cases hb : b.num < 0 <;> simp only [ha, hb, if_true, if_false, List.nil_append,
      List.cons_append, List.cons.injEq, true_and] at h
    · obtain ⟨h1, h2⟩ := hs _ _ _ _ h; exact Rat.ext (by omega) h2
    · exact absurd h.symm (hm _ _ _)
    · exact absurd h (hm _ _ _)
    · obtain ⟨h1, h2⟩ := hs _ _ _ _ h; exact Rat.ext (by omega) h2
  · intro a h
    unfold demoLayout at h
    split at h <;> simp at h

end Verif.Numbers
