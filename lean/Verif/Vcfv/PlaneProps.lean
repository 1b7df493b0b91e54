import Verif.Vcfv.Plane

/-
Properties C116 and C117 for elements in one and two dimensions: the sub-control volumes of an element fill it, and their faces close up
and point from the interior to the exterior.
-/

set_option autoImplicit false

namespace Verif.Vcfv

open Spec

/-! ### Volumes -/

/-- **C116** The sub-control volumes of a line between `a` and `b` are the parts on either side of its middle. -/
theorem C116_line (a b : ℝ) :
    (scvVolumeLine |b - a| 0 = |(a + b) / 2 - a| ∧ scvVolumeLine |b - a| 1 = |b - (a + b) / 2|) ∧
      scvVolumeLine |b - a| 0 + scvVolumeLine |b - a| 1 = |b - a| := by
  have h1 : (a + b) / 2 - a = 1 / 2 * (b - a) := by ring
  have h2 : b - (a + b) / 2 = 1 / 2 * (b - a) := by ring
  refine ⟨⟨?_, ?_⟩, ?_⟩
  · rw [h1, abs_mul, abs_of_pos (by norm_num : (0 : ℝ) < 1 / 2), scvVolumeLine]
  · rw [h2, abs_mul, abs_of_pos (by norm_num : (0 : ℝ) < 1 / 2), scvVolumeLine]
  · unfold scvVolumeLine; ring

/-- **C116** The volume of each sub-control volume of a triangle is the area of the polygon from the corner to the middle of one edge, the
centre of the triangle and the middle of the other edge; together they are the area of the triangle. -/
theorem C116_triangle (x : ℕ → V2) :
    (∀ v < 3, scvVolumeTriangle |signedArea3 (x 0) (x 1) (x 2)| v =
      |signedArea4 (x v) (middle (x v) (x (next3 v))) ((1 / 3 : ℝ) • (x 0 + x 1 + x 2)) (middle (x v) (x (prev3 v)))|) ∧
      ∑ v ∈ Finset.range 3, scvVolumeTriangle |signedArea3 (x 0) (x 1) (x 2)| v = |signedArea3 (x 0) (x 1) (x 2)| := by
  constructor
  · intro v hv
    have h : signedArea4 (x v) (middle (x v) (x (next3 v))) ((1 / 3 : ℝ) • (x 0 + x 1 + x 2)) (middle (x v) (x (prev3 v))) =
        signedArea3 (x 0) (x 1) (x 2) / 3 := by
      interval_cases v <;> simp [signedArea4, signedArea3, det2, middle, next3, prev3] <;> ring
    rw [h, abs_div, abs_of_pos (by norm_num : (0 : ℝ) < 3), scvVolumeTriangle]
  · simp only [scvVolumeTriangle, Finset.sum_range_succ, Finset.sum_range_zero]
    ring

/-- **C116** The volume of each sub-control volume of a convex quadrilateral is positive, and it is the area of the polygon from the
corner to the middle of one edge, the centre and the middle of the other edge; together they are the area of the quadrilateral. -/
theorem C116_quadrilateral (x : ℕ → V2) (h : Convex x) :
    (∀ v < 4, 0 < scvVolumeQuadrilateral x v ∧ scvVolumeQuadrilateral x v =
      |signedArea4 (x v) (middle (x v) (x (next4 v))) ((1 / 4 : ℝ) • (x 0 + x 1 + x 2 + x 3)) (middle (x v) (x (prev4 v)))|) ∧
      ∑ v ∈ Finset.range 4, scvVolumeQuadrilateral x v = |signedArea4 (x 0) (x 1) (x 3) (x 2)| := by
  constructor
  · intro v hv
    refine ⟨?_, scvVolume_quad x v hv⟩
    rw [scvVolume_quad x v hv, abs_pos]
    rcases h with h | h
    · exact (quadPart_pos h hv).ne'
    · exact (quadPart_neg h hv).ne
  · rw [← quadParts_sum]
    simp only [Finset.sum_range_succ, Finset.sum_range_zero, zero_add]
    rw [scvVolume_quad x 0 (by norm_num), scvVolume_quad x 1 (by norm_num), scvVolume_quad x 2 (by norm_num),
      scvVolume_quad x 3 (by norm_num)]
    rcases h with h | h
    · have h0 := quadPart_pos h (v := 0) (by norm_num)
      have h1 := quadPart_pos h (v := 1) (by norm_num)
      have h2 := quadPart_pos h (v := 2) (by norm_num)
      have h3 := quadPart_pos h (v := 3) (by norm_num)
      rw [abs_of_pos h0, abs_of_pos h1, abs_of_pos h2, abs_of_pos h3, abs_of_pos (by linarith)]
    · have h0 := quadPart_neg h (v := 0) (by norm_num)
      have h1 := quadPart_neg h (v := 1) (by norm_num)
      have h2 := quadPart_neg h (v := 2) (by norm_num)
      have h3 := quadPart_neg h (v := 3) (by norm_num)
      rw [abs_of_neg h0, abs_of_neg h1, abs_of_neg h2, abs_of_neg h3, abs_of_neg (by linarith)]
      ring

/-- A convex quadrilateral which is not a parallelogram -/
def demoQuad : ℕ → V2
  | 0 => ![0, 0] | 1 => ![2, 0] | 2 => ![0, 1] | _ => ![3, 3]

theorem demoQuad_left : TurnsLeft demoQuad := by
  intro v hv
  interval_cases v <;> simp [det2, demoQuad, next4, prev4] <;> norm_num

example : Convex demoQuad := Or.inl demoQuad_left

/-- The same quadrilateral with the corners in the opposite orientation -/
def mirroredQuad : ℕ → V2
  | 0 => ![0, 0] | 1 => ![0, 1] | 2 => ![2, 0] | _ => ![3, 3]

example : Convex mirroredQuad := by
  right
  intro v hv
  interval_cases v <;> simp [det2, mirroredQuad, next4, prev4] <;> norm_num

/-- **C116** is false for quadrilaterals which are not convex (the corner 3 of this one lies inside the triangle of the others): the volumes of the sub-control
volumes add up to more than its area. -/
theorem C116_concave_violated :
    let x : ℕ → V2 := fun | 0 => ![0, 0] | 1 => ![4, 0] | 2 => ![0, 4] | _ => ![1 / 2, 1 / 2]
    |signedArea4 (x 0) (x 1) (x 3) (x 2)| < ∑ v ∈ Finset.range 4, scvVolumeQuadrilateral x v := by
  intro x
  simp only [Finset.sum_range_succ, Finset.sum_range_zero, zero_add]
  rw [scvVolume_quad x 0 (by norm_num), scvVolume_quad x 1 (by norm_num), scvVolume_quad x 2 (by norm_num),
    scvVolume_quad x 3 (by norm_num)]
  simp [quadPart, signedArea4, det2, middle, next4, prev4, x]
  norm_num [abs_of_pos, abs_of_neg]

/-! ### Faces -/

/-- `normal` points into the direction from `x i` to `x j`. -/
def pointsTo (n p q : V2) : Prop := 0 < n 0 * (q 0 - p 0) + n 1 * (q 1 - p 1)

theorem oriented (R : RefElement) (x : ℕ → V2) (k : ℕ)
    (h : det2 (x (faceIndices R k).2 - x (faceIndices R k).1) (elementGlobal R x - edgeCoord R x k) ≠ 0) :
    elementGlobal R x - edgeCoord R x k ≠ 0 ∧
      pointsTo (normal2 R x k) (x (faceIndices R k).1) (x (faceIndices R k).2) := by
  have hne : elementGlobal R x - edgeCoord R x k ≠ 0 := by
    intro e
    rw [e] at h
    exact h (by simp [det2])
  refine ⟨hne, ?_⟩
  have hp : 0 < area2 R x k := by rw [area_eq]; exact norm2_pos hne
  have hr : 0 < rawNormal2 R x k 0 * (x (faceIndices R k).2 0 - x (faceIndices R k).1 0) +
      rawNormal2 R x k 1 * (x (faceIndices R k).2 1 - x (faceIndices R k).1 1) := by
    rw [raw_flip]
    generalize elementGlobal R x - edgeCoord R x k = c at *
    split_ifs with hc
    · simp only [det2, Pi.sub_apply] at hc
      simp only [right, Pi.neg_apply, Matrix.cons_val_zero, Matrix.cons_val_one]
      linarith
    · have := lt_of_le_of_ne (not_lt.1 hc) (Ne.symm h)
      simp only [det2, Pi.sub_apply] at this
      simp only [right, Matrix.cons_val_zero, Matrix.cons_val_one]
      linarith
  have : normal2 R x k 0 * (x (faceIndices R k).2 0 - x (faceIndices R k).1 0) +
      normal2 R x k 1 * (x (faceIndices R k).2 1 - x (faceIndices R k).1 1) =
      (rawNormal2 R x k 0 * (x (faceIndices R k).2 0 - x (faceIndices R k).1 0) +
      rawNormal2 R x k 1 * (x (faceIndices R k).2 1 - x (faceIndices R k).1 1)) / area2 R x k := by
    simp only [normal2]
    ring
  rw [pointsTo, this]
  exact div_pos hr hp

theorem quad_det (x : ℕ → V2) (k : ℕ) (hk : k < 4) :
    det2 (x (faceIndices quadrilateral k).2 - x (faceIndices quadrilateral k).1)
      (elementGlobal quadrilateral x - edgeCoord quadrilateral x k) =
      (corner x (faceIndices quadrilateral k).1 + corner x (faceIndices quadrilateral k).2) / 4 := by
  rw [quad_edge, quad_center]
  interval_cases k <;> simp [quadrilateral, faceIndices, det2, middle, corner, next4, prev4] <;> ring

theorem quad_indices_lt (k : ℕ) (hk : k < 4) : (faceIndices quadrilateral k).1 < 4 ∧ (faceIndices quadrilateral k).2 < 4 := by
  interval_cases k <;> decide

theorem quad_raw_left {x : ℕ → V2} (h : TurnsLeft x) (k : ℕ) (hk : k < 4) :
    0 < det2 (x (faceIndices quadrilateral k).2 - x (faceIndices quadrilateral k).1)
      (elementGlobal quadrilateral x - edgeCoord quadrilateral x k) := by
  rw [quad_det x k hk]
  have h1 : 0 < corner x _ := h _ (quad_indices_lt k hk).1
  have h2 : 0 < corner x _ := h _ (quad_indices_lt k hk).2
  linarith

theorem quad_raw_right {x : ℕ → V2} (h : TurnsRight x) (k : ℕ) (hk : k < 4) :
    det2 (x (faceIndices quadrilateral k).2 - x (faceIndices quadrilateral k).1)
      (elementGlobal quadrilateral x - edgeCoord quadrilateral x k) < 0 := by
  rw [quad_det x k hk]
  have h1 : corner x _ < 0 := h _ (quad_indices_lt k hk).1
  have h2 : corner x _ < 0 := h _ (quad_indices_lt k hk).2
  linarith

/-- The two corners of a face are the ends of an edge, and each edge of the element has one face. -/
theorem quad_faces (k : ℕ) (hk : k < 4) : next4 (faceIndices quadrilateral k).1 = (faceIndices quadrilateral k).2 := by
  interval_cases k <;> decide

/-- **C117** In a convex quadrilateral each face between two sub-control volumes is the line from the middle of the edge between their
corners to the centre: its area is the length of that line, its normal has length one, is perpendicular to it and points from the interior
to the exterior corner. -/
theorem C117_quadrilateral_faces (x : ℕ → V2) (h : Convex x) (k : ℕ) (hk : k < 4) :
    let i := (faceIndices quadrilateral k).1
    let j := (faceIndices quadrilateral k).2
    let line : V2 := (1 / 4 : ℝ) • (x 0 + x 1 + x 2 + x 3) - middle (x i) (x j)
    0 < area2 quadrilateral x k ∧ area2 quadrilateral x k = norm2 line ∧ norm2 (normal2 quadrilateral x k) = 1 ∧
      normal2 quadrilateral x k 0 * line 0 + normal2 quadrilateral x k 1 * line 1 = 0 ∧
      pointsTo (normal2 quadrilateral x k) (x i) (x j) ∧ (next4 i = j ∨ next4 j = i) := by
  intro i j line
  have hl : line = elementGlobal quadrilateral x - edgeCoord quadrilateral x k := by
    rw [quad_edge, quad_center]
    simp only [line, i, j]
    congr 1
    interval_cases k <;> simp [quadrilateral, faceIndices, middle, add_comm]
  have hd : det2 (x j - x i) (elementGlobal quadrilateral x - edgeCoord quadrilateral x k) ≠ 0 := by
    rcases h with h | h
    · exact (quad_raw_left h k hk).ne'
    · exact (quad_raw_right h k hk).ne
  obtain ⟨hne, hpt⟩ := oriented quadrilateral x k hd
  refine ⟨?_, ?_, normal_unit _ _ _ hne, ?_, hpt, Or.inl (quad_faces k hk)⟩
  · rw [area_eq]; exact norm2_pos hne
  · rw [area_eq, hl]
  · rw [hl]
    simp only [normal2]
    rw [raw_flip]
    generalize elementGlobal quadrilateral x - edgeCoord quadrilateral x k = c
    split_ifs <;> simp only [right, Pi.neg_apply, Matrix.cons_val_zero, Matrix.cons_val_one] <;> ring

/-- **C117** The faces of the sub-control volume of a corner close up: the area vectors of its faces in the element and the halves of the
two edges of the element at the corner, all pointing outwards, add up to zero.  If one walks around the element counterclockwise, then
outwards is to the right. -/
theorem C117_quadrilateral_closed (x : ℕ → V2) (v : ℕ) (hv : v < 4) :
    (TurnsLeft x → outOf 4 (faceIndices quadrilateral) (area2 quadrilateral x) (normal2 quadrilateral x) v +
      right (middle (x v) (x (next4 v)) - x v) + right (x v - middle (x v) (x (prev4 v))) = 0) ∧
    (TurnsRight x → outOf 4 (faceIndices quadrilateral) (area2 quadrilateral x) (normal2 quadrilateral x) v -
      right (middle (x v) (x (next4 v)) - x v) - right (x v - middle (x v) (x (prev4 v))) = 0) := by
  constructor
  · intro h
    have hS : ∀ k < 4, area2 quadrilateral x k • normal2 quadrilateral x k =
        right (elementGlobal quadrilateral x - edgeCoord quadrilateral x k) := by
      intro k hk
      have := quad_raw_left h k hk
      rw [area_normal _ _ _ (oriented _ x k this.ne').1, raw_flip, if_neg (not_lt.2 this.le)]
    have h0 := hS 0 (by norm_num)
    have h1 := hS 1 (by norm_num)
    have h2 := hS 2 (by norm_num)
    have h3 := hS 3 (by norm_num)
    unfold outOf
    simp only [Finset.sum_range_succ, Finset.sum_range_zero, h0, h1, h2, h3, quad_edge, quad_center]
    funext m
    interval_cases v <;> fin_cases m <;> simp [quadrilateral, faceIndices, right, middle, next4, prev4] <;> ring
  · intro h
    have hS : ∀ k < 4, area2 quadrilateral x k • normal2 quadrilateral x k =
        -right (elementGlobal quadrilateral x - edgeCoord quadrilateral x k) := by
      intro k hk
      have := quad_raw_right h k hk
      rw [area_normal _ _ _ (oriented _ x k this.ne).1, raw_flip, if_pos this]
    have h0 := hS 0 (by norm_num)
    have h1 := hS 1 (by norm_num)
    have h2 := hS 2 (by norm_num)
    have h3 := hS 3 (by norm_num)
    unfold outOf
    simp only [Finset.sum_range_succ, Finset.sum_range_zero, h0, h1, h2, h3, quad_edge, quad_center]
    funext m
    interval_cases v <;> fin_cases m <;> simp [quadrilateral, faceIndices, right, middle, next4, prev4] <;> ring

/-! ### Triangles -/

theorem tri_det (x : ℕ → V2) (k : ℕ) (hk : k < 3) :
    det2 (x (faceIndices triangle k).2 - x (faceIndices triangle k).1)
      (elementGlobal triangle x - edgeCoord triangle x k) =
      (if k = 1 then -1 else 1) * (2 / 3 * signedArea3 (x 0) (x 1) (x 2)) := by
  rw [tri_edge, tri_center]
  interval_cases k <;> simp [triangle, faceIndices, det2, middle, signedArea3] <;> ring

theorem tri_ne {x : ℕ → V2} (h : signedArea3 (x 0) (x 1) (x 2) ≠ 0) (k : ℕ) (hk : k < 3) :
    det2 (x (faceIndices triangle k).2 - x (faceIndices triangle k).1)
      (elementGlobal triangle x - edgeCoord triangle x k) ≠ 0 := by
  rw [tri_det x k hk]
  refine mul_ne_zero ?_ (mul_ne_zero (by norm_num) h)
  split_ifs <;> norm_num

/-- **C117** The same for triangles -/
theorem C117_triangle_faces (x : ℕ → V2) (h : signedArea3 (x 0) (x 1) (x 2) ≠ 0) (k : ℕ) (hk : k < 3) :
    let i := (faceIndices triangle k).1
    let j := (faceIndices triangle k).2
    let line : V2 := (1 / 3 : ℝ) • (x 0 + x 1 + x 2) - middle (x i) (x j)
    0 < area2 triangle x k ∧ area2 triangle x k = norm2 line ∧ norm2 (normal2 triangle x k) = 1 ∧
      normal2 triangle x k 0 * line 0 + normal2 triangle x k 1 * line 1 = 0 ∧
      pointsTo (normal2 triangle x k) (x i) (x j) ∧ (next3 i = j ∨ next3 j = i) := by
  intro i j line
  have hl : line = elementGlobal triangle x - edgeCoord triangle x k := by
    rw [tri_edge, tri_center]
    simp only [line, i, j]
    congr 1
  obtain ⟨hne, hpt⟩ := oriented triangle x k (tri_ne h k hk)
  refine ⟨?_, ?_, normal_unit _ _ _ hne, ?_, hpt, ?_⟩
  · rw [area_eq]; exact norm2_pos hne
  · rw [area_eq, hl]
  · rw [hl]
    simp only [normal2]
    rw [raw_flip]
    generalize elementGlobal triangle x - edgeCoord triangle x k = c
    split_ifs <;> simp only [right, Pi.neg_apply, Matrix.cons_val_zero, Matrix.cons_val_one] <;> ring
  · simp only [i, j]
    interval_cases k <;> decide

/-- **C117** The same for triangles -/
theorem C117_triangle_closed (x : ℕ → V2) (v : ℕ) (hv : v < 3) :
    (0 < signedArea3 (x 0) (x 1) (x 2) → outOf 3 (faceIndices triangle) (area2 triangle x) (normal2 triangle x) v +
      right (middle (x v) (x (next3 v)) - x v) + right (x v - middle (x v) (x (prev3 v))) = 0) ∧
    (signedArea3 (x 0) (x 1) (x 2) < 0 → outOf 3 (faceIndices triangle) (area2 triangle x) (normal2 triangle x) v -
      right (middle (x v) (x (next3 v)) - x v) - right (x v - middle (x v) (x (prev3 v))) = 0) := by
  have hS : signedArea3 (x 0) (x 1) (x 2) ≠ 0 → ∀ k < 3, area2 triangle x k • normal2 triangle x k =
      if det2 (x (faceIndices triangle k).2 - x (faceIndices triangle k).1)
        (elementGlobal triangle x - edgeCoord triangle x k) < 0 then -right (elementGlobal triangle x - edgeCoord triangle x k)
      else right (elementGlobal triangle x - edgeCoord triangle x k) := by
    intro hs k hk
    rw [area_normal _ _ _ (oriented _ x k (tri_ne hs k hk)).1, raw_flip]
  constructor
  · intro h
    have h0 := hS h.ne' 0 (by norm_num)
    have h1 := hS h.ne' 1 (by norm_num)
    have h2 := hS h.ne' 2 (by norm_num)
    rw [tri_det x _ (by norm_num), if_neg (by norm_num; linarith)] at h0 h2
    rw [tri_det x _ (by norm_num), if_pos (by norm_num; linarith)] at h1
    unfold outOf
    simp only [Finset.sum_range_succ, Finset.sum_range_zero, h0, h1, h2, tri_edge, tri_center]
    funext m
    interval_cases v <;> fin_cases m <;> simp [triangle, faceIndices, right, middle, next3, prev3] <;> ring
  · intro h
    have h0 := hS h.ne 0 (by norm_num)
    have h1 := hS h.ne 1 (by norm_num)
    have h2 := hS h.ne 2 (by norm_num)
    rw [tri_det x _ (by norm_num), if_pos (by norm_num; linarith)] at h0 h2
    rw [tri_det x _ (by norm_num), if_neg (by norm_num; linarith)] at h1
    unfold outOf
    simp only [Finset.sum_range_succ, Finset.sum_range_zero, h0, h1, h2, tri_edge, tri_center]
    funext m
    interval_cases v <;> fin_cases m <;> simp [triangle, faceIndices, right, middle, next3, prev3] <;> ring

example : signedArea3 (demoQuad 0) (demoQuad 1) (demoQuad 2) ≠ 0 ∧ 0 < signedArea3 (demoQuad 0) (demoQuad 1) (demoQuad 2) := by
  constructor <;> simp [signedArea3, det2, demoQuad]

/-- **C117** The parts of a boundary edge are its halves. -/
theorem C117_boundary_plane (R : RefElement) (x : ℕ → V2) (f : ℕ) :
    let i := (R.edges.getD f (0, 0)).1
    let j := (R.edges.getD f (0, 0)).2
    boundaryArea2 R x f = norm2 (middle (x i) (x j) - x i) ∧ boundaryArea2 R x f = norm2 (x j - middle (x i) (x j)) := by
  intro i j
  have key : ∀ d : V2, 1 / 2 * norm2 d = norm2 ((1 / 2 : ℝ) • d) := by
    intro d
    simp only [norm2, Pi.smul_apply, smul_eq_mul]
    rw [show 1 / 2 * d 0 * (1 / 2 * d 0) + 1 / 2 * d 1 * (1 / 2 * d 1) = (1 / 2) ^ 2 * (d 0 * d 0 + d 1 * d 1) by ring,
      Real.sqrt_mul (by norm_num), Real.sqrt_sq (by norm_num)]
  have e : boundaryArea2 R x f = 1 / 2 * norm2 (x j - x i) := rfl
  rw [e, key]
  constructor
  · congr 1
    funext m
    simp [middle]; ring
  · congr 1
    funext m
    simp [middle]; ring

end Verif.Vcfv
