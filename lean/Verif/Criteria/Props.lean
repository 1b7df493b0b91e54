import Verif.Criteria.Model
import Mathlib.Tactic.Linarith
import Mathlib.Tactic.NormNum
import Mathlib.Tactic.Positivity
/-
C47: what the criteria decide.
-/

set_option autoImplicit false
set_option linter.unusedSectionVars false

namespace Verif.Criteria

variable {K : Type} [Field K] [LinearOrder K] [IsStrictOrderedRing K]
variable {P : ℕ} {n : Fin (P + 1) → ℕ}

/-! ### Specification -/

/-- `e` is the largest of the values `f p i` of all processes, or zero if there is none or all are negative. -/
def IsLargest (f : (p : Fin (P + 1)) → Fin (n p) → K) (e : K) : Prop :=
  0 ≤ e ∧ (∀ p i, f p i ≤ e) ∧ (e = 0 ∨ ∃ p i, e = f p i)

/-- The size of an entry `x` of a vector: its absolute value, times the weight of this entry if weights were set. -/
def Weighted (w : Option (Vec P n K)) (p : Fin (P + 1)) (i : Fin (n p)) (x : K) : K :=
  w.elim |x| fun w => w ⟨p, i⟩ * |x|

/-! ### Lemmas -/

theorem weighted_eq (w : Option (Vec P n K)) (p : Fin (P + 1)) (i : Fin (n p)) (x : K) :
    Weighted w p i x = weight w p i * |x| := by
  cases w <;> simp [Weighted, weight]

theorem foldl_max_le {α : Type} (f : α → K) (l : List α) (e b : K) :
    l.foldl (fun d i => max d (f i)) e ≤ b ↔ e ≤ b ∧ ∀ i ∈ l, f i ≤ b := by
  induction l generalizing e with
  | nil => simp
  | cons a l ih => simp [ih, and_assoc]

theorem foldl_max_mem {α : Type} (f : α → K) (l : List α) (e : K) :
    l.foldl (fun d i => max d (f i)) e = e ∨ ∃ i ∈ l, l.foldl (fun d i => max d (f i)) e = f i := by
  induction l generalizing e with
  | nil => simp
  | cons a l ih =>
    rcases ih (max e (f a)) with h | ⟨i, hi, h⟩
    · rcases max_choice e (f a) with hm | hm
      · left; rw [List.foldl_cons, h, hm]
      · right; exact ⟨a, by simp, by rw [List.foldl_cons, h, hm]⟩
    · right; exact ⟨i, by simp [hi], by simpa using h⟩

/-- The maximum which a loop and `comm.max` compute. -/
def global (f : (p : Fin (P + 1)) → Fin (n p) → K) : K :=
  commMax fun p => (List.finRange (n p)).foldl (fun d i => max d (f p i)) 0

theorem global_le (f : (p : Fin (P + 1)) → Fin (n p) → K) (b : K) (hb : 0 ≤ b) :
    global f ≤ b ↔ ∀ p i, f p i ≤ b := by
  unfold global commMax
  rw [Finset.sup'_le_iff]
  simp only [Finset.mem_univ, true_implies, foldl_max_le, List.mem_finRange, hb, true_and]

theorem global_nonneg (f : (p : Fin (P + 1)) → Fin (n p) → K) : 0 ≤ global f := by
  unfold global commMax
  rw [Finset.le_sup'_iff]
  refine ⟨0, Finset.mem_univ _, ?_⟩
  exact ((foldl_max_le (f 0) (List.finRange (n 0)) 0 _).1 le_rfl).1

theorem lt_global (f : (p : Fin (P + 1)) → Fin (n p) → K) (b : K) (hb : 0 ≤ b) : b < global f ↔ ∃ p i, b < f p i := by
  rw [← not_le, global_le f b hb]; push Not; rfl

theorem global_lt (f : (p : Fin (P + 1)) → Fin (n p) → K) (b : K) (hb : 0 < b) : global f < b ↔ ∀ p i, f p i < b := by
  constructor
  · intro h p i
    exact lt_of_le_of_lt ((global_le f _ (global_nonneg f)).1 le_rfl p i) h
  · intro h
    obtain ⟨p, -, hp⟩ := Finset.exists_mem_eq_sup' (Finset.univ_nonempty (α := Fin (P + 1)))
      (fun p => (List.finRange (n p)).foldl (fun d i => max d (f p i)) 0)
    unfold global commMax
    rw [hp]
    rcases foldl_max_mem (f p) (List.finRange (n p)) 0 with h0 | ⟨i, -, hi⟩
    · rw [h0]; exact hb
    · rw [hi]; exact h p i

theorem isLargest_global (f : (p : Fin (P + 1)) → Fin (n p) → K) : IsLargest f (global f) := by
  refine ⟨global_nonneg f, (global_le f _ (global_nonneg f)).1 le_rfl, ?_⟩
  obtain ⟨p, -, hp⟩ := Finset.exists_mem_eq_sup' (Finset.univ_nonempty (α := Fin (P + 1)))
    (fun p => (List.finRange (n p)).foldl (fun d i => max d (f p i)) 0)
  unfold global commMax
  rw [hp]
  rcases foldl_max_mem (f p) (List.finRange (n p)) 0 with h0 | ⟨i, -, hi⟩
  · left; exact h0
  · right; exact ⟨p, i, hi⟩

theorem IsLargest.unique {f : (p : Fin (P + 1)) → Fin (n p) → K} {a b : K} (ha : IsLargest f a) (hb : IsLargest f b) :
    a = b := by
  apply le_antisymm
  · rcases ha.2.2 with h | ⟨p, i, h⟩
    · rw [h]; exact hb.1
    · rw [h]; exact hb.2.1 p i
  · rcases hb.2.2 with h | ⟨p, i, h⟩
    · rw [h]; exact ha.1
    · rw [h]; exact ha.2.1 p i

theorem combinedLoop_fst (d r : Vec P n K) (p : Fin (P + 1)) :
    (combinedLoop d r p).1 = (List.finRange (n p)).foldl (fun e i => max e |r ⟨p, i⟩|) 0 := by
  unfold combinedLoop
  suffices ∀ (l : List (Fin (n p))) (e : K) (b : Bool),
      (l.foldl (fun (st : K × Bool) i =>
        (max st.1 |r ⟨p, i⟩|, if st.2 && decide (d ⟨p, i⟩ ≠ 0) then false else st.2)) (e, b)).1 =
      l.foldl (fun e i => max e |r ⟨p, i⟩|) e from this _ _ _
  intro l
  induction l with
  | nil => intros; rfl
  | cons a l ih => intro e b; simp only [List.foldl_cons]; exact ih _ _

theorem combinedLoop_snd (d r : Vec P n K) (p : Fin (P + 1)) : (combinedLoop d r p).2 = true ↔ ∀ i, d ⟨p, i⟩ = 0 := by
  unfold combinedLoop
  suffices ∀ (l : List (Fin (n p))) (e : K) (b : Bool),
      (l.foldl (fun (st : K × Bool) i =>
        (max st.1 |r ⟨p, i⟩|, if st.2 && decide (d ⟨p, i⟩ ≠ 0) then false else st.2)) (e, b)).2 = true ↔
      b = true ∧ ∀ i ∈ l, d ⟨p, i⟩ = 0 by
    rw [this]; simp
  intro l
  induction l with
  | nil => intros; simp
  | cons a l ih =>
    intro e b
    simp only [List.foldl_cons]
    rw [ih]
    by_cases h : d ⟨p, a⟩ = 0 <;> cases b <;> simp [h]

theorem combined_error (s : CombinedState K) (d r : Vec P n K) :
    (combinedUpdateErrors s d r).residualError = global (fun p i => |r ⟨p, i⟩|) := by
  unfold combinedUpdateErrors global
  simp only [combinedLoop_fst]

theorem combined_stagnates (s : CombinedState K) (d r : Vec P n K) :
    (combinedUpdateErrors s d r).stagnates = true ↔ ∀ p i, d ⟨p, i⟩ = 0 := by
  unfold combinedUpdateErrors commAnd
  simp only [List.all_eq_true, List.mem_finRange, true_implies, combinedLoop_snd]

theorem combined_initial (tiny a b m : K) (s : CombinedState K) (x r : Vec P n K) :
    ((combined tiny a b m).setInitial s x r).initialResidualError = max (global fun p i => |r ⟨p, i⟩|) tiny ∧
      ((combined tiny a b m).setInitial s x r).residualError = max (global fun p i => |r ⟨p, i⟩|) tiny := by
  simp only [combined, combined_error, and_self]

theorem combined_keeps (tiny a b m : K) (s : CombinedState K) (x d r : Vec P n K) :
    ((combined tiny a b m).update s x d r).initialResidualError = s.initialResidualError := rfl

theorem use_append {V S : Type} (c : Criterion V S) (s : S) (i : V × V) (us : List (V × V × V)) (u : V × V × V) :
    use c s i (us ++ [u]) = c.update (use c s i us) u.1 u.2.1 u.2.2 := by
  simp [use, List.foldl_append]

theorem combined_use_initial (tiny a b m : K) (s : CombinedState K) (i : Vec P n K × Vec P n K)
    (us : List (Vec P n K × Vec P n K × Vec P n K)) :
    (use (combined tiny a b m) s i us).initialResidualError = max (global fun p j => |i.2 ⟨p, j⟩|) tiny := by
  induction us using List.reverseRecOn with
  | nil => exact (combined_initial tiny a b m s i.1 i.2).1
  | append_singleton us u ih => rw [use_append, combined_keeps, ih]

theorem weighted_error (w : Option (Vec P n K)) (s : WeightedState (Vec P n K) K) (x r : Vec P n K) :
    (weightedUpdateErrors w s x r).residualError = global (fun p i => weight w p i * |r ⟨p, i⟩|) := rfl

theorem weighted_use_initial (w : Option (Vec P n K)) (a f b m : K) (s : WeightedState (Vec P n K) K)
    (i : Vec P n K × Vec P n K) (us : List (Vec P n K × Vec P n K × Vec P n K)) :
    (use (weighted w a f b m) s i us).initialResidualError = max (global fun p j => weight w p j * |i.2 ⟨p, j⟩|) (1 / 10 ^ 20) := by
  induction us using List.reverseRecOn with
  | nil => rfl
  | append_singleton us u ih => rw [use_append]; exact ih

theorem residReduction_use_initial {V : Type} (norm : V → K) (tiny tol : K) (s : ReductionState K) (i : V × V)
    (us : List (V × V × V)) :
    (use (residReduction norm tiny tol) s i us).initialDefect = max (norm i.2) tiny := by
  induction us using List.reverseRecOn with
  | nil => rfl
  | append_singleton us u ih => rw [use_append]; exact ih

theorem fixPoint_use_last (w : Option (Vec P n K)) (tol : K) (s : FixPointState (Vec P n K) K) (i : Vec P n K × Vec P n K)
    (us : List (Vec P n K × Vec P n K × Vec P n K)) :
    (use (fixPoint w tol) s i us).lastSol = (us.map (·.1)).getLastD i.1 := by
  induction us using List.reverseRecOn with
  | nil => rfl
  | append_singleton us u ih => rw [use_append]; simp [fixPoint]

/-! ### The properties

Each statement ranges over every previous state `s` of the criterion, every initial solution and residual and every
history of updates; `us ++ [u]` are the updates and `u = (x, delta, r)` is the last one. -/

/-- **C47** The residual reduction criterion is met exactly if the norm of the last residual is at most the tolerance times
the norm of the initial residual (which counts as `tiny` if it is smaller), and never fails. -/
theorem C47_reduction {V : Type} (norm : V → K) (tiny tol : K) (ht : 0 < tiny) (s : ReductionState K) (i : V × V)
    (us : List (V × V × V)) (u : V × V × V) :
    ((residReduction norm tiny tol).converged (use (residReduction norm tiny tol) s i (us ++ [u])) = true ↔
        norm u.2.2 ≤ tol * max (norm i.2) tiny) ∧
      (residReduction norm tiny tol).failed (use (residReduction norm tiny tol) s i (us ++ [u])) = false := by
  refine ⟨?_, rfl⟩
  have hpos : 0 < max (norm i.2) tiny := lt_of_lt_of_le ht (le_max_right _ _)
  have h : (use (residReduction norm tiny tol) s i (us ++ [u])).initialDefect = max (norm i.2) tiny :=
    residReduction_use_initial norm tiny tol s i _
  have h2 : (use (residReduction norm tiny tol) s i (us ++ [u])).curDefect = norm u.2.2 := by
    rw [use_append]; rfl
  simp only [residReduction, decide_eq_true_eq] at h h2 ⊢
  rw [h2, h, div_le_iff₀ hpos]

/-- **C47** The combined criterion is converged exactly if every entry of the last residual on every process is at most the
reduction tolerance times the largest entry of the initial residual (which counts as 1e-20 if it is smaller), or every
entry is at most the absolute tolerance.  It fails exactly if it is not converged and no process has changed its solution
or some entry of the residual exceeds the maximum. -/
theorem C47_combined (tiny a b m : K) (ht1 : tiny ≤ 1 / 10 ^ 20) (ha : 0 ≤ a) (hb : 0 ≤ b) (hm : 0 ≤ m)
    (s : CombinedState K) (i : Vec P n K × Vec P n K) (us : List (Vec P n K × Vec P n K × Vec P n K))
    (u : Vec P n K × Vec P n K × Vec P n K) (e : K) (he : IsLargest (fun p j => |i.2 ⟨p, j⟩|) e) :
    let c : Criterion (Vec P n K) (CombinedState K) := combined tiny a b m
    let last := use c s i (us ++ [u])
    (c.converged last = true ↔
        (∀ p j, |u.2.2 ⟨p, j⟩| ≤ a * max (1 / 10 ^ 20) e) ∨ ∀ p j, |u.2.2 ⟨p, j⟩| ≤ b) ∧
      (c.failed last = true ↔
        c.converged last = false ∧ ((∀ p j, u.2.1 ⟨p, j⟩ = 0) ∨ ∃ p j, m < |u.2.2 ⟨p, j⟩|)) := by
  intro c last
  have hlast : last = c.update (use c s i us) u.1 u.2.1 u.2.2 := use_append _ _ _ _ _
  have hi : last.initialResidualError = max e tiny := by
    exact (combined_use_initial tiny a b m s i _).trans (by rw [(isLargest_global _).unique he])
  have hr : last.residualError = global (fun p j => |u.2.2 ⟨p, j⟩|) := by
    rw [hlast]; exact combined_error _ _ _
  have hs : last.stagnates = true ↔ ∀ p j, u.2.1 ⟨p, j⟩ = 0 := by
    rw [hlast]; exact combined_stagnates _ _ _
  have hmax : max ((1 : K) / 10 ^ 20) (max e tiny) = max (1 / 10 ^ 20) e := by
    rw [max_comm e tiny, ← max_assoc, max_eq_left ht1]
  have hpos : (0 : K) < max (1 / 10 ^ 20) e := lt_of_lt_of_le (by positivity) (le_max_left _ _)
  constructor
  · simp only [c, combined, combinedConverged, Bool.or_eq_true, decide_eq_true_eq]
    unfold residualReduction
    rw [hi, hmax, hr, div_le_iff₀ hpos, global_le _ _ (mul_nonneg ha hpos.le), global_le _ _ hb]
  · simp only [c, combined, Bool.and_eq_true, Bool.or_eq_true, Bool.not_eq_true', decide_eq_true_eq]
    rw [hs, hr, lt_global _ _ hm]

/-- **C47** The fix-point criterion is met exactly if every weighted difference between the last two solutions (the initial
one included) is less than the tolerance, and never fails. -/
theorem C47_fix_point (w : Option (Vec P n K)) (tol : K) (ht : 0 < tol) (s : FixPointState (Vec P n K) K)
    (i : Vec P n K × Vec P n K) (us : List (Vec P n K × Vec P n K × Vec P n K)) (u : Vec P n K × Vec P n K × Vec P n K) :
    ((fixPoint w tol).converged (use (fixPoint w tol) s i (us ++ [u])) = true ↔
        ∀ p j, Weighted w p j (u.1 ⟨p, j⟩ - (us.map (·.1)).getLastD i.1 ⟨p, j⟩) < tol) ∧
      (fixPoint w tol).converged (use (fixPoint w tol) s i []) = false ∧
      (fixPoint w tol).failed (use (fixPoint w tol) s i (us ++ [u])) = false := by
  refine ⟨?_, ?_, rfl⟩
  · simp only [weighted_eq]
    rw [use_append]
    have h : ((fixPoint w tol).update (use (fixPoint w tol) s i us) u.1 u.2.1 u.2.2).delta =
        global (fun p j => weight w p j * |u.1 ⟨p, j⟩ - (us.map (·.1)).getLastD i.1 ⟨p, j⟩|) := by
      rw [← fixPoint_use_last w tol s i us]; rfl
    have h' : ∀ q : FixPointState (Vec P n K) K, (fixPoint w tol).converged q = true ↔ q.delta < tol := by
      intro q; simp [fixPoint]
    rw [h', h, global_lt _ _ ht]
  · have h' : (fixPoint w tol).converged (use (fixPoint w tol) s i []) = decide (1000 * tol < tol) := rfl
    rw [h', decide_eq_false_iff_not]; linarith

/-- **C47** The weighted criterion is converged exactly if every weighted entry of the last residual is at most the
reduction tolerance times the largest weighted entry of the initial residual (which counts as 1e-20 if it is smaller), or
at most the absolute tolerance. -/
theorem C47_weighted (w : Option (Vec P n K)) (a f b m : K) (ha : 0 ≤ a) (hb : 0 ≤ b) (s : WeightedState (Vec P n K) K)
    (i : Vec P n K × Vec P n K) (us : List (Vec P n K × Vec P n K × Vec P n K)) (u : Vec P n K × Vec P n K × Vec P n K)
    (e : K) (he : IsLargest (fun p j => Weighted w p j (i.2 ⟨p, j⟩)) e) :
    (weighted w a f b m).converged (use (weighted w a f b m) s i (us ++ [u])) = true ↔
      (∀ p j, Weighted w p j (u.2.2 ⟨p, j⟩) ≤ a * max (1 / 10 ^ 20) e) ∨ ∀ p j, Weighted w p j (u.2.2 ⟨p, j⟩) ≤ b := by
  simp only [weighted_eq] at he ⊢
  set last := use (weighted w a f b m) s i (us ++ [u]) with hlast
  have hi : last.initialResidualError = max e (1 / 10 ^ 20) := by
    rw [hlast, weighted_use_initial, (isLargest_global _).unique he]
  have hr : last.residualError = global (fun p j => weight w p j * |u.2.2 ⟨p, j⟩|) := by
    rw [hlast, use_append]; rfl
  have hpos : (0 : K) < max (1 / 10 ^ 20) e := lt_of_lt_of_le (by positivity) (le_max_left _ _)
  simp only [weighted, weightedConverged, Bool.or_eq_true, decide_eq_true_eq]
  rw [hi, hr, max_comm e, max_eq_right (le_max_left _ _), div_le_iff₀ hpos, global_le _ _ (mul_nonneg ha hpos.le),
    global_le _ _ hb]

/-- **C47** The weighted criterion reports failure exactly if it is not converged and the last two solutions (the initial
one included) differ by at most the fix-point tolerance in every entry on every process, relative to the last solution
where that is larger than one, or if some weighted entry of the last residual exceeds the tolerated maximum. -/
theorem C47_weighted_failed (w : Option (Vec P n K)) (a f b m : K) (hf : 0 ≤ f) (hm : 0 ≤ m)
    (s : WeightedState (Vec P n K) K) (i : Vec P n K × Vec P n K) (us : List (Vec P n K × Vec P n K × Vec P n K))
    (u : Vec P n K × Vec P n K × Vec P n K) :
    let c : Criterion (Vec P n K) (WeightedState (Vec P n K) K) := weighted w a f b m
    let last := use c s i (us ++ [u])
    c.failed last = true ↔
      (c.converged last = false ∧
        ∀ p j, |u.1 ⟨p, j⟩ - (us.map (·.1)).getLastD i.1 ⟨p, j⟩| ≤ f * max 1 (u.1 ⟨p, j⟩)) ∨
      ∃ p j, m < Weighted w p j (u.2.2 ⟨p, j⟩) := by
  intro c last
  have hls : (use c s i us).lastSol = (us.map (·.1)).getLastD i.1 := by
    induction us using List.reverseRecOn with
    | nil => rfl
    | append_singleton us u ih => rw [use_append]; simp [c, weighted, weightedUpdateErrors]
  have hlast : last = c.update (use c s i us) u.1 u.2.1 u.2.2 := use_append _ _ _ _ _
  have hx : last.fixPointError = global (fun p j =>
      |u.1 ⟨p, j⟩ - (us.map (·.1)).getLastD i.1 ⟨p, j⟩| / max 1 (u.1 ⟨p, j⟩)) := by
    rw [hlast, ← hls]; rfl
  have hr : last.residualError = global (fun p j => weight w p j * |u.2.2 ⟨p, j⟩|) := by
    rw [hlast]; rfl
  simp only [weighted_eq]
  have hd : ∀ p j, |u.1 ⟨p, j⟩ - (us.map (·.1)).getLastD i.1 ⟨p, j⟩| / max 1 (u.1 ⟨p, j⟩) ≤ f ↔
      |u.1 ⟨p, j⟩ - (us.map (·.1)).getLastD i.1 ⟨p, j⟩| ≤ f * max 1 (u.1 ⟨p, j⟩) := fun p j =>
    div_le_iff₀ (lt_of_lt_of_le one_pos (le_max_left _ _))
  simp only [← hd]
  rw [← global_le _ f hf, ← lt_global _ m hm, ← hx, ← hr]
  simp only [c, weighted, Bool.or_eq_true, Bool.and_eq_true, Bool.not_eq_true', decide_eq_true_eq]

/-- **C47** (partial) With the weighted criterion, converging and failing exclude each other as long as the error is within
the tolerated maximum.  Missing: errors beyond it, for which this is false (`C47_weighted_violated`). -/
theorem C47_weighted_partial (w : Option (Vec P n K)) (a f b m : K) (s : WeightedState (Vec P n K) K)
    (hm : s.residualError ≤ m) (h : (weighted w a f b m).converged s = true) : (weighted w a f b m).failed s = false := by
  simp only [weighted] at h ⊢
  rw [h]; simp [hm]

/-- **C47** is false of the weighted criterion: with the default `maxError` of zero it reports failure together with
convergence whenever the solver gets all but an exact solution.  Here the residual is reduced from 1 to 1/10, which was
asked for. -/
theorem C47_weighted_violated :
    ∃ (s : WeightedState (Vec 0 (fun _ => 1) ℚ) ℚ) (i : Vec 0 (fun _ => 1) ℚ × Vec 0 (fun _ => 1) ℚ)
      (u : Vec 0 (fun _ => 1) ℚ × Vec 0 (fun _ => 1) ℚ × Vec 0 (fun _ => 1) ℚ),
      (weighted none (1 / 10) 0 0 0).converged (use (weighted none (1 / 10) 0 0 0) s i [u]) = true ∧
        (weighted none (1 / 10) 0 0 0).failed (use (weighted none (1 / 10) 0 0 0) s i [u]) = true := by
  refine ⟨⟨fun _ => 0, 0, 0, 0, 0⟩, (fun _ => 0, fun _ => 1), (fun _ => 9 / 10, fun _ => 9 / 10, fun _ => 1 / 10),
    ?_, ?_⟩ <;> decide +kernel

/-! ### Examples -/

/-- Two processes with three and one entries. -/
def exampleN (p : Fin 2) : ℕ := if p = 0 then 3 else 1

/-- The criterion of the examples: reduction by 100, no absolute tolerance, residuals of up to 1000. -/
def exampleCriterion : Criterion (Vec 1 exampleN ℚ) (CombinedState ℚ) := combined (1 / 10 ^ 30) (1 / 100) 0 1000

/-- The state after the initial residual 5 and the given updates with constant vectors. -/
def exampleUse (us : List (ℚ × ℚ × ℚ)) : CombinedState ℚ :=
  use exampleCriterion ⟨0, 0, 0, true⟩ (fun _ => 0, fun _ => 5)
    (us.map fun u => (fun _ => u.1, fun _ => u.2.1, fun _ => u.2.2))

/-- A history of two updates in which the combined criterion converges because of the reduction of the residual. -/
example : exampleCriterion.converged (exampleUse [(1, 1, 1), (1, 1, 1 / 20)]) = true := by decide +kernel

/-- After the first update it was neither converged nor failed. -/
example : exampleCriterion.converged (exampleUse [(1, 1, 1)]) = false ∧
    exampleCriterion.failed (exampleUse [(1, 1, 1)]) = false := by decide +kernel

/-- It fails if nothing changes any more. -/
example : exampleCriterion.failed (exampleUse [(1, 0, 1)]) = true := by decide +kernel

/-- The weighted criterion gives up although a residual of 1/2 is tolerated, because the solution does not change any more
(and the weight of the entry counts). -/
example : let c : Criterion (Vec 0 (fun _ => 1) ℚ) (WeightedState (Vec 0 (fun _ => 1) ℚ) ℚ) :=
      weighted (some fun _ => 3) (1 / 10) (1 / 100) 0 2
    let last := use c ⟨fun _ => 0, 0, 0, 0, 0⟩ (fun _ => 4, fun _ => 1)
      [(fun _ => 4 + 1 / 50, fun _ => 1 / 50, fun _ => 1 / 2)]
    c.converged last = false ∧ c.failed last = true ∧ last.residualError = 3 / 2 := by
  refine ⟨?_, ?_, ?_⟩ <;> decide +kernel

end Verif.Criteria
