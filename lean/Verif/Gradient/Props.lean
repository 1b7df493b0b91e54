import Verif.Gradient.Model
import Mathlib.Tactic.Linarith
import Mathlib.Tactic.Ring
import Mathlib.Tactic.FieldSimp
import Mathlib.Tactic.NormNum
import Mathlib.Algebra.Order.BigOperators.Ring.Finset
/-
C43 and C74: face values and gradients.
-/

set_option autoImplicit false

namespace Verif.Gradient

variable {dim : ℕ}

theorem distance_nonneg (a b n : Fin dim → ℝ) : 0 ≤ distance a b n := Real.sqrt_nonneg _

/-- The point at the fraction `t` of the way from the interior to the exterior volume. -/
def onLine (f : Face dim) (t : ℝ) : Fin dim → ℝ := fun k => f.interiorPos k + t * (f.exteriorPos k - f.interiorPos k)

/-- The value at a point on the line of a quantity which is linear along it and is `qi`, `qj` in the volumes. -/
def linear (qi qj t : ℝ) : ℝ := qi + t * (qj - qi)

/-- The face is not parallel to the line between the volumes. -/
def Proper (f : Face dim) : Prop := ∑ k, (f.exteriorPos k - f.interiorPos k) * f.normal k ≠ 0

theorem distances_on_line (f : Face dim) (t : ℝ) (hf : f.integrationPos = onLine f t) :
    distance f.interiorPos f.integrationPos f.normal =
        √(|t| * |∑ k, (f.exteriorPos k - f.interiorPos k) * f.normal k|) ∧
      distance f.exteriorPos f.integrationPos f.normal =
        √(|1 - t| * |∑ k, (f.exteriorPos k - f.interiorPos k) * f.normal k|) := by
  unfold distance
  rw [hf]
  constructor
  · rw [← abs_mul, Finset.mul_sum, ← abs_neg, ← Finset.sum_neg_distrib]
    congr 3
    funext k; simp only [onLine]; ring
  · rw [← abs_mul, Finset.mul_sum]
    congr 3
    funext k; simp only [onLine]; ring

/-- **C43** (partial) If the face is in the middle between the two volumes, the face value of every linear quantity is
exact.  Missing: all other positions, for which this is false (`C43_violated`). -/
theorem C43_middle_partial (f : Face dim) (hp : Proper f) (hf : f.integrationPos = onLine f (1 / 2)) (qi qj : ℝ) :
    scalarValue f qi qj = linear qi qj (1 / 2) := by
  obtain ⟨h1, h2⟩ := distances_on_line f (1 / 2) hf
  have e : |(1 : ℝ) - 1 / 2| = |(1 / 2 : ℝ)| := by norm_num
  rw [e] at h2
  have hd : 0 < distance f.interiorPos f.integrationPos f.normal := by
    rw [h1]
    apply Real.sqrt_pos.2
    exact mul_pos (by norm_num) (abs_pos.2 hp)
  unfold scalarValue linear
  rw [h2, ← h1]
  field_simp
  ring

/-- **C43** (partial) The face value is always between the two values, and is exact for constants. -/
theorem C43_between_partial (f : Face dim) (t : ℝ) (hp : Proper f) (hf : f.integrationPos = onLine f t) (qi qj : ℝ)
    (h : qi ≤ qj) : qi ≤ scalarValue f qi qj ∧ scalarValue f qi qj ≤ qj := by
  obtain ⟨h1, h2⟩ := distances_on_line f t hf
  have ha := distance_nonneg f.interiorPos f.integrationPos f.normal
  have hb := distance_nonneg f.exteriorPos f.integrationPos f.normal
  have hd : 0 < distance f.interiorPos f.integrationPos f.normal + distance f.exteriorPos f.integrationPos f.normal := by
    by_cases ht : t = 0
    · have : 0 < distance f.exteriorPos f.integrationPos f.normal := by
        rw [h2]; apply Real.sqrt_pos.2; exact mul_pos (by simp [ht]) (abs_pos.2 hp)
      linarith
    · have : 0 < distance f.interiorPos f.integrationPos f.normal := by
        rw [h1]; apply Real.sqrt_pos.2; exact mul_pos (abs_pos.2 ht) (abs_pos.2 hp)
      linarith
  unfold scalarValue
  constructor
  · rw [le_div_iff₀ hd]; nlinarith
  · rw [div_le_iff₀ hd]; nlinarith

/-- **C43** is false: at every face strictly between the volumes but not in the middle, every linear quantity that is not
constant gets a wrong value. -/
theorem C43_violated (f : Face dim) (t : ℝ) (h0 : 0 < t) (h1 : t < 1) (hm : t ≠ 1 / 2) (hp : Proper f)
    (hf : f.integrationPos = onLine f t) (qi qj : ℝ) (hq : qi ≠ qj) : scalarValue f qi qj ≠ linear qi qj t := by
  obtain ⟨e1, e2⟩ := distances_on_line f t hf
  have hd0 : 0 < |∑ k, (f.exteriorPos k - f.interiorPos k) * f.normal k| := abs_pos.2 hp
  rw [abs_of_pos h0, Real.sqrt_mul h0.le] at e1
  rw [abs_of_pos (by linarith : 0 < 1 - t), Real.sqrt_mul (by linarith : 0 ≤ 1 - t)] at e2
  set D := √|∑ k, (f.exteriorPos k - f.interiorPos k) * f.normal k| with hD
  have hDpos : 0 < D := Real.sqrt_pos.2 hd0
  set a := √t with ha
  set b := √(1 - t) with hb
  have hapos : 0 < a := Real.sqrt_pos.2 h0
  have hbpos : 0 < b := Real.sqrt_pos.2 (by linarith)
  have ha2 : a * a = t := Real.mul_self_sqrt h0.le
  have hb2 : b * b = 1 - t := Real.mul_self_sqrt (by linarith)
  unfold scalarValue linear
  rw [e1, e2]
  intro h
  rw [div_eq_iff (by positivity)] at h
  -- `b (1 - t) = t a`, i.e. the third powers of the roots agree
  have h3 : (qj - qi) * D * (b * (1 - t) - t * a) = 0 := by linarith [h]
  have h4 : b * (1 - t) - t * a = 0 := by
    rcases mul_eq_zero.1 h3 with h | h
    · rcases mul_eq_zero.1 h with h | h
      · exact absurd (by linarith : qi = qj) hq
      · exact absurd h hDpos.ne'
    · exact h
  have h5 : (b - a) * (b * b + b * a + a * a) = 0 := by
    have : b * (b * b) - a * a * a = 0 := by rw [hb2, ha2]; linarith
    linarith
  rcases mul_eq_zero.1 h5 with h | h
  · apply hm
    have : b = a := by linarith
    rw [this] at hb2
    linarith
  · nlinarith

/-- a face at a fifth of the way -/
def uneven : Face 1 := { interiorPos := fun _ => 0, exteriorPos := fun _ => 5, integrationPos := fun _ => 1, normal := fun _ => 1 }

example : Proper uneven ∧ uneven.integrationPos = onLine uneven (1 / 5) := by
  constructor
  · simp [Proper, uneven]
  · funext k; simp [onLine, uneven]

/-! ### C74 -/

theorem distSquared_pos (xi xj : Fin dim → ℝ) (h : xi ≠ xj) : 0 < ∑ k, (xj k - xi k) * (xj k - xi k) := by
  obtain ⟨k, hk⟩ := Function.ne_iff.1 h
  refine Finset.sum_pos' (fun k _ => mul_self_nonneg _) ⟨k, Finset.mem_univ k, ?_⟩
  exact mul_self_pos.2 (sub_ne_zero.2 (Ne.symm hk))

/-- **C74** The slope of the two-point gradient along the line between two different positions is exact for every
quantity. -/
theorem C74_slope (xi xj : Fin dim → ℝ) (h : xi ≠ xj) (qi qj : ℝ) :
    ∑ k, gradient xi xj qi qj k * (xj k - xi k) = qj - qi := by
  have hd := distSquared_pos xi xj h
  unfold gradient
  have : ∀ k, (qj - qi) * ((xj k - xi k) / ∑ k, (xj k - xi k) * (xj k - xi k)) * (xj k - xi k) =
      (qj - qi) / (∑ k, (xj k - xi k) * (xj k - xi k)) * ((xj k - xi k) * (xj k - xi k)) := by intro k; ring
  simp only [this]
  rw [← Finset.mul_sum, div_mul_cancel₀ _ hd.ne']

/-- **C74** The two-point gradient is the exact gradient of every affine quantity whose gradient is parallel to the line
between the two positions. -/
theorem C74_exact (xi xj : Fin dim → ℝ) (h : xi ≠ xj) (g : Fin dim → ℝ) (c lambda : ℝ)
    (hpar : ∀ k, g k = lambda * (xj k - xi k)) (q : (Fin dim → ℝ) → ℝ) (hq : ∀ x, q x = c + ∑ k, g k * x k) :
    gradient xi xj (q xi) (q xj) = g := by
  have hd := distSquared_pos xi xj h
  have hdiff : q xj - q xi = lambda * ∑ k, (xj k - xi k) * (xj k - xi k) := by
    rw [hq, hq, Finset.mul_sum]
    have : (c + ∑ k, g k * xj k) - (c + ∑ k, g k * xi k) = ∑ k, (g k * xj k - g k * xi k) := by
      rw [Finset.sum_sub_distrib]; ring
    rw [this]
    apply Finset.sum_congr rfl
    intro k _
    rw [hpar]; ring
  funext k
  unfold gradient
  simp only [hdiff, hpar k]
  generalize ∑ k, (xj k - xi k) * (xj k - xi k) = D at hd
  field_simp

/-- **C74** Swapping the two volumes does not change the gradient. -/
theorem C74_symmetric (xi xj : Fin dim → ℝ) (qi qj : ℝ) : gradient xj xi qj qi = gradient xi xj qi qj := by
  funext k
  unfold gradient
  have : ∑ k, (xi k - xj k) * (xi k - xj k) = ∑ k, (xj k - xi k) * (xj k - xi k) := by
    apply Finset.sum_congr rfl; intro k _; ring
  simp only [this]
  ring

example : (fun _ => 0 : Fin 2 → ℝ) ≠ (fun k => if k = 0 then 3 else 4) := by
  intro h
  have := congrFun h 0
  simp at this

end Verif.Gradient
