import Verif.Convergence.Spec
import Verif.Pvs.Model
import Mathlib.Algebra.Order.Field.Rat
import Mathlib.Tactic.Linarith
import Mathlib.Tactic.NormNum
import Mathlib.Tactic.Ring
import Mathlib.Tactic.Positivity
import Mathlib.Tactic.FieldSimp

/-
Theorems about the output for analysing convergence.
-/
set_option autoImplicit false

namespace Verif.Convergence

variable {K : Type} [Field K] [LinearOrder K] [IsStrictOrderedRing K]

theorem foldl_max_ge {α : Type} (f : α → K) (l : List α) (x : K) :
    x ≤ l.foldl (fun r j => max r (f j)) x ∧ (∀ j ∈ l, f j ≤ l.foldl (fun r j => max r (f j)) x) ∧
      (l.foldl (fun r j => max r (f j)) x = x ∨ ∃ j ∈ l, l.foldl (fun r j => max r (f j)) x = f j) := by
  induction l generalizing x with
  | nil => simp
  | cons a l ih =>
    obtain ⟨h1, h2, h3⟩ := ih (max x (f a))
    rw [List.foldl_cons]
    refine ⟨(le_max_left _ _).trans h1, ?_, ?_⟩
    · rintro j hj
      rcases List.mem_cons.1 hj with rfl | hj
      · exact (le_max_right _ _).trans h1
      · exact h2 j hj
    · rcases h3 with h | ⟨j, hj, h⟩
      · rcases max_choice x (f a) with e | e
        · left; rw [h, e]
        · right; exact ⟨a, List.mem_cons_self, by rw [h, e]⟩
      · right; exact ⟨j, List.mem_cons_of_mem _ hj, h⟩

theorem relativeDofError_nonneg (n : ℕ) (weight u v : ℕ → K) : 0 ≤ relativeDofError n weight u v := (foldl_max_ge _ _ 0).1

theorem largest_of (n : ℕ) (weight u v : ℕ → K) (hw : ∀ j < n, 0 < weight j) :
    LargestChange n weight u v (relativeDofError n weight u v) := by
  obtain ⟨h1, h2, h3⟩ := foldl_max_ge (fun j => |(u j - v j) * weight j|) (List.range n) 0
  have e : ∀ j < n, |(u j - v j) * weight j| = weight j * |u j - v j| := fun j hj => by
    rw [abs_mul, abs_of_pos (hw j hj), mul_comm]
  refine ⟨fun j hj => ?_, ?_⟩
  · rw [← e j hj]; exact h2 j (List.mem_range.2 hj)
  · rcases h3 with h | ⟨j, hj, h⟩
    · left
      refine ⟨h, fun j hj => ?_⟩
      have h4 : |(u j - v j) * weight j| ≤ 0 := by
        have := h2 j (List.mem_range.2 hj)
        rwa [h] at this
      have h5 := abs_nonpos_iff.1 h4
      rcases mul_eq_zero.1 h5 with h6 | h6
      · exact sub_eq_zero.1 h6
      · exact absurd h6 (hw j hj).ne'
    · right
      have hj' := List.mem_range.1 hj
      exact ⟨j, hj', by rw [← e j hj']; exact h⟩

/-- **C163** The field "relative error" is the largest weighted change which the linear solver has found for the primary variables of the
degree of freedom; it is zero exactly where nothing is to be changed.  "priVar", "weight", "delta" and "defect" are the primary variables,
their weights, the changes and the residuals. -/
theorem C163_error_partial (n numGridDof : ℕ) (weight u deltaU residual : ℕ → ℕ → K) (hw : ∀ i j, j < n → 0 < weight i j) (i : ℕ) :
    let f := fields n numGridDof weight u deltaU residual
    LargestChange n (weight i) (u i) (fun j => u i j + f.delta i j) (f.relError i) ∧
      (f.relError i = 0 ↔ ∀ j < n, f.delta i j = 0) ∧ (∀ j, f.priVar i j = u i j ∧ f.weight i j = weight i j ∧ f.defect i j = residual i j) := by
  have e : (fun j => u i j + -deltaU i j) = fun j => u i j - deltaU i j := funext fun j => (sub_eq_add_neg _ _).symm
  have hL := largest_of n (weight i) (u i) (fun j => u i j - deltaU i j) (hw i)
  refine ⟨?_, ?_, fun j => ⟨rfl, rfl, rfl⟩⟩
  · show LargestChange n (weight i) (u i) (fun j => u i j + -deltaU i j) _
    rw [e]; exact hL
  · show relativeDofError n (weight i) (u i) (fun j => u i j - deltaU i j) = 0 ↔ ∀ j < n, -deltaU i j = 0
    refine ⟨fun h j hj => ?_, fun h => ?_⟩
    · have := hL.1 j hj
      rw [h] at this
      have h1 : |u i j - (u i j - deltaU i j)| ≤ 0 := by
        by_contra hc
        push Not at hc
        exact absurd (mul_pos (hw i j hj) hc) (not_lt.2 this)
      have h2 := abs_nonpos_iff.1 h1
      rw [neg_eq_zero]
      rwa [sub_sub_cancel] at h2
    · rcases hL.2 with ⟨h0, -⟩ | ⟨j, hj, h0⟩
      · exact h0
      · rw [h0, sub_sub_cancel, neg_eq_zero.1 (h j hj), abs_zero, mul_zero]

theorem extremes_spec (err : ℕ → K) (h0 : ∀ i, 0 ≤ err i) (n : ℕ) :
    0 ≤ (extremes err n).1 ∧ (∀ i < n, (extremes err n).1 ≤ err i ∧ err i ≤ (extremes err n).2) ∧
      (0 < n → ∃ i < n, (extremes err n).2 = err i) := by
  unfold extremes
  induction n with
  | zero => simp
  | succ n ih =>
    rw [List.range_succ, List.foldl_append, List.foldl_cons, List.foldl_nil]
    obtain ⟨h1, h2, h3⟩ := ih
    refine ⟨le_min (h0 n) h1, fun i hi => ?_, fun _ => ?_⟩
    · rcases Nat.lt_succ_iff_lt_or_eq.1 hi with h | rfl
      · exact ⟨(min_le_right _ _).trans (h2 i h).1, (h2 i h).2.trans (le_max_right _ _)⟩
      · exact ⟨min_le_left _ _, le_max_left _ _⟩
    · rcases Nat.eq_zero_or_pos n with rfl | hn
      · refine ⟨0, by omega, ?_⟩
        have : (-10 ^ 30 : K) ≤ err 0 := le_trans (neg_nonpos.2 (by positivity)) (h0 0)
        simpa using this
      · obtain ⟨i, hi, he⟩ := h3 hn
        rcases max_choice (err n) ((List.range n).foldl (fun s i => (min (err i) s.1, max (err i) s.2)) (10 ^ 30, -10 ^ 30)).2 with e | e
        · exact ⟨n, by omega, e⟩
        · exact ⟨i, by omega, e.trans he⟩

/-- **C163** The field "normalized relative error" lies between zero and one and has the order of the relative errors, and one of its
values is one, unless all relative errors are tiny. -/
theorem C163_normalized (n numGridDof : ℕ) (weight u deltaU residual : ℕ → ℕ → K) :
    let f := fields n numGridDof weight u deltaU residual
    (∀ i < numGridDof, 0 ≤ f.normalized i ∧ f.normalized i ≤ 1) ∧
      (∀ i j, f.normalized i ≤ f.normalized j ↔ f.relError i ≤ f.relError j) ∧
      ((∃ i < numGridDof, 1 / 10 ^ 20 ≤ f.relError i) → ∃ i < numGridDof, f.normalized i = 1) := by
  intro f
  set err := fun i => relativeDofError n (weight i) (u i) (fun j => u i j - deltaU i j) with herr
  have h0 : ∀ i, 0 ≤ err i := fun i => relativeDofError_nonneg _ _ _ _
  obtain ⟨h1, h2, h3⟩ := extremes_spec err h0 numGridDof
  set s := extremes err numGridDof with hs
  set alpha : K := max (1 / 10 ^ 20) (max |s.2| |s.1|) with ha
  have hpos : 0 < alpha := lt_of_lt_of_le (by positivity) (le_max_left _ _)
  have hn : ∀ i, f.normalized i = err i / alpha := fun _ => rfl
  have hr : ∀ i, f.relError i = err i := fun _ => rfl
  refine ⟨fun i hi => ?_, fun i j => ?_, ?_⟩
  · rw [hn]
    refine ⟨div_nonneg (h0 i) hpos.le, (div_le_one hpos).2 ?_⟩
    exact ((h2 i hi).2.trans (le_abs_self _)).trans ((le_max_left _ _).trans (le_max_right _ _))
  · rw [hn, hn, hr, hr, div_le_div_iff_of_pos_right hpos]
  · rintro ⟨i, hi, he⟩
    obtain ⟨k, hk, ek⟩ := h3 (by omega)
    refine ⟨k, hk, ?_⟩
    rw [hn, div_eq_one_iff_eq hpos.ne', ha, ek]
    have a1 : |err k| = err k := abs_of_nonneg (h0 k)
    have a2 : |s.1| ≤ err k := by
      rw [abs_of_nonneg h1]
      exact (h2 k hk).1
    have a3 : 1 / 10 ^ 20 ≤ err k := by
      rw [← ek]
      exact he.trans (h2 i hi).2
    rw [a1, max_eq_left a2, max_eq_right a3]

example : let f := fields 2 2 (fun _ _ => (1 : ℚ)) (fun _ _ => 5) (fun i j => i + 2 * j) (fun _ _ => 0)
    f.relError 0 = 2 ∧ f.relError 1 = 3 ∧ f.normalized 0 = 2 / 3 ∧ f.normalized 1 = 1 ∧ f.delta 1 1 = -3 := by
  decide +kernel

/-- **C163** (violated) The "relative error" is not how much the solution changes: models limit updates, for instance the PVS model the
change of the pressure. -/
theorem C163_limited_violated : ∃ (cur : Pvs.PriVars ℚ) (update : ℕ → ℚ), 0 < cur.val 0 ∧
    (fields 1 1 (fun _ _ => 1 / 100) (fun _ => cur.val) (fun _ => update) (fun _ _ => 0)).relError 0 = 1 ∧
    relativeDofError 1 (fun _ => 1 / 100) cur.val (Pvs.updatePrimaryVariables 1 cur update).val = 1 / 5 :=
  ⟨⟨fun _ => 100, 1⟩, fun _ => 100, by decide +kernel, by decide +kernel, by decide +kernel⟩

/-! ### Times -/

theorem iterate_spec (w : Writer K) (n : ℕ) : Nat.iterate Writer.beginIteration n w = ⟨w.timeStepIdx, w.iteration + n,
    w.stamps ++ (List.range n).map fun i => (w.timeStepIdx : K) + ((w.iteration + i + 1 : ℕ) : K) / 100⟩ := by
  induction n with
  | zero => simp
  | succ n ih =>
    rw [Function.iterate_succ_apply', ih]
    simp only [Writer.beginIteration, List.range_succ, List.map_append, List.map_cons, List.map_nil, List.append_assoc]
    rfl

theorem newton_spec (w : Writer K) (n : ℕ) (ended : Bool) : (w.newton n ended).timeStepIdx = w.timeStepIdx + 1 ∧
    (w.newton n ended).stamps = w.stamps ++ (List.range n).map fun i => ((w.timeStepIdx + 1 : ℕ) : K) + ((i + 1 : ℕ) : K) / 100 := by
  unfold Writer.newton
  rw [iterate_spec]
  cases ended <;> simp [Writer.beginTimeStep, Writer.endTimeStep]

/-- **C163** Times of the data for analysing convergence: data of later iterations and of later calls of the Newton method have later
times, as long as no call has more than a hundred iterations. -/
theorem C163_times_partial (calls : List (ℕ × Bool)) (h : ∀ c ∈ calls, c.1 ≤ 100) : Increasing (stamps (K := K) calls) := by
  have key : ∀ (calls : List (ℕ × Bool)) (w : Writer K), (∀ c ∈ calls, c.1 ≤ 100) → Increasing w.stamps →
      (∀ x ∈ w.stamps, x < (w.timeStepIdx : K) + 1 + 1 / 100) →
      Increasing (calls.foldl (fun w c => w.newton c.1 c.2) w).stamps := by
    intro calls
    induction calls with
    | nil => exact fun w _ hw _ => hw
    | cons c calls ih =>
      intro w hc hw hlast
      obtain ⟨e1, e2⟩ := newton_spec w c.1 c.2
      have hle := hc c List.mem_cons_self
      rw [List.foldl_cons]
      refine ih _ (fun c' hc' => hc c' (List.mem_cons_of_mem _ hc')) ?_ ?_
      · rw [e2]
        unfold Increasing
        rw [List.pairwise_append]
        refine ⟨hw, ?_, fun x hx y hy => ?_⟩
        · rw [List.pairwise_map]
          refine List.pairwise_lt_range.imp fun {i j} hij => ?_
          have : ((i + 1 : ℕ) : K) < ((j + 1 : ℕ) : K) := Nat.cast_lt.2 (by omega)
          have := div_lt_div_of_pos_right this (by norm_num : (0 : K) < 100)
          linarith
        · obtain ⟨i, -, rfl⟩ := List.mem_map.1 hy
          have h1 : (1 : K) ≤ ((i + 1 : ℕ) : K) := by exact_mod_cast Nat.succ_le_succ (Nat.zero_le i)
          have h2 := div_le_div_of_nonneg_right h1 (by norm_num : (0 : K) ≤ 100)
          have h3 := hlast x hx
          push_cast at h2 h3 ⊢
          linarith
      · rw [e1, e2]
        intro x hx
        rcases List.mem_append.1 hx with hx | hx
        · have := hlast x hx
          push_cast
          linarith
        · obtain ⟨i, hi, rfl⟩ := List.mem_map.1 hx
          have h1 : ((i + 1 : ℕ) : K) ≤ ((100 : ℕ) : K) := Nat.cast_le.2 (by have := List.mem_range.1 hi; omega)
          have h2 := div_le_div_of_nonneg_right h1 (by norm_num : (0 : K) ≤ 100)
          push_cast at h2 ⊢
          have h3 : (100 : K) / 100 = 1 := by norm_num
          rw [h3] at h2
          linarith [show (0 : K) < 1 / 100 by norm_num]
  exact key calls Writer.start h List.Pairwise.nil (by simp [Writer.start])

example : Increasing (stamps (K := ℚ) [(3, true), (20, false), (1, true)]) := C163_times_partial _ (by decide)

/-- **C163** (violated) If a call has more iterations, the time of one of them is the one of an iteration of the next call. -/
theorem C163_times_violated : ¬ Increasing (stamps (K := ℚ) [(101, true), (1, true)]) := by
  unfold Increasing
  decide +kernel

end Verif.Convergence
