import Verif.Vcfv.Space

/-
Properties C116 and C117 for tetrahedra and hexahedra.
-/

set_option autoImplicit false
set_option linter.unusedSimpArgs false

namespace Verif.Vcfv

open Spec Matrix

/-! ### Closed surfaces -/

/-- **C117** The faces of each sub-control volume of a tetrahedron close up: the area vectors of its faces in the element and of its parts
of the faces of the element, all pointing outwards, add up to zero. -/
theorem C117_tetrahedron_closed (x : ℕ → V3) (hx : ∀ k < 6, rawNormal3 tetrahedron x k ≠ 0) (v : ℕ) (hv : v < 4) :
    outOf 6 (faceIndices tetrahedron) (area3 tetrahedron x) (normal3 tetrahedron x) v + (parts tetCycles x v).sum = 0 := by
  have hS : ∀ k < 6, area3 tetrahedron x k • normal3 tetrahedron x k = rawNormal3 tetrahedron x k :=
    fun k hk => area_normal3 _ _ _ (hx k hk)
  unfold outOf
  simp only [Finset.sum_range_succ, Finset.sum_range_zero, hS 0 (by norm_num), hS 1 (by norm_num), hS 2 (by norm_num),
    hS 3 (by norm_num), hS 4 (by norm_num), hS 5 (by norm_num)]
  rw [tet_parts x v hv]
  simp only [tet_indices, tet_raw]
  funext m
  interval_cases v <;> fin_cases m <;>
    simp [tetrahedron, edgeToFace, part, areaVector_0, areaVector_1, areaVector_2, average_range4, average3, middle_apply] <;> ring

/-- **C117** The same for hexahedra, whatever the positions of their corners -/
theorem C117_hexahedron_closed (x : ℕ → V3) (hx : ∀ k < 12, rawNormal3 hexahedron x k ≠ 0) (v : ℕ) (hv : v < 8) :
    outOf 12 (faceIndices hexahedron) (area3 hexahedron x) (normal3 hexahedron x) v + (parts hexCycles x v).sum = 0 := by
  have hS : ∀ k < 12, area3 hexahedron x k • normal3 hexahedron x k = rawNormal3 hexahedron x k :=
    fun k hk => area_normal3 _ _ _ (hx k hk)
  unfold outOf
  simp only [Finset.sum_range_succ, Finset.sum_range_zero, hS 0 (by norm_num), hS 1 (by norm_num), hS 2 (by norm_num),
    hS 3 (by norm_num), hS 4 (by norm_num), hS 5 (by norm_num), hS 6 (by norm_num), hS 7 (by norm_num), hS 8 (by norm_num),
    hS 9 (by norm_num), hS 10 (by norm_num), hS 11 (by norm_num)]
  rw [hex_parts x v hv]
  simp only [hex_indices, hex_raw]
  funext m
  interval_cases v <;> fin_cases m <;>
    simp [hexahedron, edgeToFace, part, areaVector_0, areaVector_1, areaVector_2, average_range8, average4, middle_apply] <;> ring

/-! ### Orientation -/

/-- The vector `n` points into the direction from `p` to `q`. -/
def pointsTo3 (n p q : V3) : Prop := 0 < n ⬝ᵥ (q - p)

/-- The signed volume spanned by the edges at the corner 0 of a tetrahedron -/
noncomputable def tetDet (x : ℕ → V3) : ℝ := det3 (x 1 - x 0) (x 2 - x 0) (x 3 - x 0)

theorem tetDet_eq (x : ℕ → V3) : tetDet x =
    (x 1 0 - x 0 0) * ((x 2 1 - x 0 1) * (x 3 2 - x 0 2) - (x 2 2 - x 0 2) * (x 3 1 - x 0 1)) +
    (x 1 1 - x 0 1) * ((x 2 2 - x 0 2) * (x 3 0 - x 0 0) - (x 2 0 - x 0 0) * (x 3 2 - x 0 2)) +
    (x 1 2 - x 0 2) * ((x 2 0 - x 0 0) * (x 3 1 - x 0 1) - (x 2 1 - x 0 1) * (x 3 0 - x 0 0)) := by
  simp [tetDet, det3, cross_apply, dotProduct, Fin.sum_univ_three]
  ring

theorem tet_dot (x : ℕ → V3) (k : ℕ) (hk : k < 6) :
    rawNormal3 tetrahedron x k ⬝ᵥ (x (faceIndices tetrahedron k).2 - x (faceIndices tetrahedron k).1) = tetDet x / 12 := by
  rw [tetDet_eq]
  simp only [tet_indices, tet_raw, dotProduct, Fin.sum_univ_three, Pi.sub_apply]
  interval_cases k <;>
    simp [tetrahedron, edgeToFace, areaVector_0, areaVector_1, areaVector_2, average_range4, average3, middle_apply] <;> ring

theorem normal_dot (R : RefElement) (x : ℕ → V3) (k : ℕ) (d : V3) :
    normal3 R x k ⬝ᵥ d = (rawNormal3 R x k ⬝ᵥ d) / area3 R x k := by
  simp only [normal3, dotProduct, Fin.sum_univ_three]
  ring

theorem tet_raw_ne {x : ℕ → V3} (h : tetDet x ≠ 0) {k : ℕ} (hk : k < 6) : rawNormal3 tetrahedron x k ≠ 0 := by
  intro e
  have := tet_dot x k hk
  rw [e, zero_dotProduct] at this
  exact h (by linarith)

/-- **C117** (partial) In a positively oriented tetrahedron the faces between sub-control volumes have positive area and unit normals which
point from the interior to the exterior corner.  Missing: negatively oriented ones, see below. -/
theorem C117_tetrahedron_normals_partial (x : ℕ → V3) (h : 0 < tetDet x) (k : ℕ) (hk : k < 6) :
    0 < area3 tetrahedron x k ∧ norm3 (normal3 tetrahedron x k) = 1 ∧
      pointsTo3 (normal3 tetrahedron x k) (x (faceIndices tetrahedron k).1) (x (faceIndices tetrahedron k).2) := by
  have hne := tet_raw_ne h.ne' hk
  refine ⟨norm3_pos hne, normal3_unit _ _ _ hne, ?_⟩
  rw [pointsTo3, normal_dot, tet_dot x k hk]
  exact div_pos (by linarith) (norm3_pos hne)

/-- **C117** is false for negatively oriented tetrahedra: all normals point from the exterior to the interior corner. -/
theorem C117_mirrored_violated (x : ℕ → V3) (h : tetDet x < 0) (k : ℕ) (hk : k < 6) :
    pointsTo3 (normal3 tetrahedron x k) (x (faceIndices tetrahedron k).2) (x (faceIndices tetrahedron k).1) := by
  have hne := tet_raw_ne h.ne hk
  have e : x (faceIndices tetrahedron k).1 - x (faceIndices tetrahedron k).2 =
      -(x (faceIndices tetrahedron k).2 - x (faceIndices tetrahedron k).1) := by abel
  rw [pointsTo3, e, dotProduct_neg, normal_dot, tet_dot x k hk, ← neg_div]
  exact div_pos (by linarith) (norm3_pos hne)

/-- A tetrahedron -/
def demoTet : ℕ → V3
  | 0 => ![0, 0, 0] | 1 => ![1, 0, 0] | 2 => ![1, 2, 0] | _ => ![0, 1, 3]

theorem demoTet_pos : 0 < tetDet demoTet := by
  rw [tetDet_eq]
  simp [demoTet]

/-- The same with two corners exchanged -/
def mirroredTet : ℕ → V3
  | 0 => ![0, 0, 0] | 1 => ![1, 2, 0] | 2 => ![1, 0, 0] | _ => ![0, 1, 3]

example : tetDet mirroredTet < 0 := by
  rw [tetDet_eq]
  simp [mirroredTet]

example : ∀ k < 6, rawNormal3 tetrahedron demoTet k ≠ 0 := fun _ hk => tet_raw_ne demoTet_pos.ne' hk

/-- The parts of the faces of the element in the closed surface do point outwards: away from the centre. -/
theorem C117_tetrahedron_outwards (x : ℕ → V3) (h : 0 < tetDet x) (l : List ℕ) (hl : l ∈ tetCycles) (t : ℕ × ℕ × ℕ)
    (ht : t ∈ triples l) : pointsTo3 (part x l t) (average x (List.range 4)) (average x l) := by
  have key : part x l t ⬝ᵥ (average x l - average x (List.range 4)) = tetDet x / 24 := by
    rw [tetDet_eq]
    simp only [tetCycles, List.mem_cons, List.not_mem_nil, or_false] at hl
    rcases hl with rfl | rfl | rfl | rfl
    · rw [show triples [0, 2, 1] = [(0, 2, 1), (2, 1, 0), (1, 0, 2)] by decide] at ht
      simp only [List.mem_cons, List.not_mem_nil, or_false] at ht
      rcases ht with rfl | rfl | rfl <;>
        simp only [part, dotProduct, Fin.sum_univ_three, Pi.sub_apply, areaVector_0, areaVector_1, areaVector_2, average_range4,
          average3, middle_apply] <;> ring
    · rw [show triples [0, 1, 3] = [(0, 1, 3), (1, 3, 0), (3, 0, 1)] by decide] at ht
      simp only [List.mem_cons, List.not_mem_nil, or_false] at ht
      rcases ht with rfl | rfl | rfl <;>
        simp only [part, dotProduct, Fin.sum_univ_three, Pi.sub_apply, areaVector_0, areaVector_1, areaVector_2, average_range4,
          average3, middle_apply] <;> ring
    · rw [show triples [0, 3, 2] = [(0, 3, 2), (3, 2, 0), (2, 0, 3)] by decide] at ht
      simp only [List.mem_cons, List.not_mem_nil, or_false] at ht
      rcases ht with rfl | rfl | rfl <;>
        simp only [part, dotProduct, Fin.sum_univ_three, Pi.sub_apply, areaVector_0, areaVector_1, areaVector_2, average_range4,
          average3, middle_apply] <;> ring
    · rw [show triples [1, 2, 3] = [(1, 2, 3), (2, 3, 1), (3, 1, 2)] by decide] at ht
      simp only [List.mem_cons, List.not_mem_nil, or_false] at ht
      rcases ht with rfl | rfl | rfl <;>
        simp only [part, dotProduct, Fin.sum_univ_three, Pi.sub_apply, areaVector_0, areaVector_1, areaVector_2, average_range4,
          average3, middle_apply] <;> ring
  rw [pointsTo3, key]
  linarith

/-! ### Areas of parts of the boundary -/

/-- **C117** The area of each part of a boundary face of a tetrahedron is the one of the polygon from its corner to the middle of one edge,
the centre of the face and the middle of the other edge: the face in the closed surface above. -/
theorem C117_boundary_tetrahedron (x : ℕ → V3) (f : ℕ) (hf : f < 4) (v : ℕ) (hv : v ∈ tetrahedron.faces.getD f []) :
    ∃ t ∈ triples (tetCycles.getD f []), t.1 = v ∧ boundaryArea3 tetrahedron x f v = norm3 (part x (tetCycles.getD f []) t) := by
  have key : ∀ t ∈ triples (tetCycles.getD f []), normalOfQuadrilateral3D (x t.1)
        (edgeCoord tetrahedron x (((rightEdge 4).getD f []).getD t.1 0)) (faceCoord tetrahedron x f)
        (edgeCoord tetrahedron x (((leftEdge 4).getD f []).getD t.1 0)) = part x (tetCycles.getD f []) t ∨
      normalOfQuadrilateral3D (x t.1)
        (edgeCoord tetrahedron x (((rightEdge 4).getD f []).getD t.1 0)) (faceCoord tetrahedron x f)
        (edgeCoord tetrahedron x (((leftEdge 4).getD f []).getD t.1 0)) = -part x (tetCycles.getD f []) t := by
    simp only [normalOf_eq, edge_middle, faceCoord_eq]
    intro t ht
    interval_cases f
    all_goals
      simp [tetCycles, triples, List.rotate] at ht
      rcases ht with rfl | rfl | rfl <;>
      first
      | (left
         funext m
         fin_cases m <;> simp [tetrahedron, rightEdge, leftEdge, tetCycles, part, areaVector_0, areaVector_1, areaVector_2, average3,
           middle_apply] <;> ring1)
      | (right
         funext m
         fin_cases m <;> simp [tetrahedron, rightEdge, leftEdge, tetCycles, part, areaVector_0, areaVector_1, areaVector_2, average3,
           middle_apply] <;> ring1)
  have hex : ∃ t ∈ triples (tetCycles.getD f []), t.1 = v := by
    interval_cases f
    all_goals
      simp only [tetrahedron, List.getD_cons_zero, List.getD_cons_succ, List.mem_cons, List.not_mem_nil, or_false] at hv
      rcases hv with rfl | rfl | rfl <;> decide
  obtain ⟨t, ht, rfl⟩ := hex
  refine ⟨t, ht, rfl, ?_⟩
  have e : boundaryArea3 tetrahedron x f t.1 = norm3 (normalOfQuadrilateral3D (x t.1)
        (edgeCoord tetrahedron x (((rightEdge 4).getD f []).getD t.1 0)) (faceCoord tetrahedron x f)
        (edgeCoord tetrahedron x (((leftEdge 4).getD f []).getD t.1 0))) := rfl
  rcases key t ht with h | h
  · rw [e, h]
  · rw [e, h, norm3_neg]

/-! ### Volumes -/

/-- **C116** The volume of each sub-control volume of a tetrahedron is the volume enclosed by its faces, which are plane; together they are
the volume of the tetrahedron, a sixth of what its edges span. -/
theorem C116_tetrahedron (x : ℕ → V3) (h : 0 < tetDet x) :
    (∀ v < 4, scvVolumeTetrahedron (|tetDet x| / 6) v =
      enclosed x 6 (faceIndices tetrahedron) (area3 tetrahedron x) (normal3 tetrahedron x) (parts tetCycles x v) v) ∧
    (∀ k < 6, Coplanar (edgeCoord tetrahedron x k) (faceCoord tetrahedron x ((edgeToFace 4).2.getD k 0))
      (elementGlobal tetrahedron x) (faceCoord tetrahedron x ((edgeToFace 4).1.getD k 0))) ∧
    ∑ v ∈ Finset.range 4, scvVolumeTetrahedron (|tetDet x| / 6) v = |tetDet x| / 6 := by
  refine ⟨fun v hv => ?_, fun k hk => ?_, ?_⟩
  · have hS : ∀ k < 6, area3 tetrahedron x k • normal3 tetrahedron x k = rawNormal3 tetrahedron x k :=
      fun k hk => area_normal3 _ _ _ (tet_raw_ne h.ne' hk)
    unfold enclosed
    simp only [Finset.sum_range_succ, Finset.sum_range_zero, hS 0 (by norm_num), hS 1 (by norm_num), hS 2 (by norm_num),
      hS 3 (by norm_num), hS 4 (by norm_num), hS 5 (by norm_num)]
    rw [tet_parts x v hv, abs_of_pos h, tetDet_eq, scvVolumeTetrahedron]
    simp only [tet_indices, tet_raw, dotProduct, Fin.sum_univ_three]
    interval_cases v <;>
      simp [tetrahedron, edgeToFace, part, areaVector_0, areaVector_1, areaVector_2, average_range4, average3, middle_apply] <;> ring
  · rw [Coplanar, edge_middle, faceCoord_eq, faceCoord_eq, elementGlobal_eq]
    simp only [det3, dotProduct, Fin.sum_univ_three, cross_apply]
    interval_cases k <;>
      simp [tetrahedron, edgeToFace, average_range4, average3, middle_apply] <;> ring
  · simp only [scvVolumeTetrahedron, Finset.sum_range_succ, Finset.sum_range_zero]
    ring

end Verif.Vcfv
