import Verif.Vcfv.SpaceProps

/-
Properties C116 and C117 for hexahedra.
-/

set_option autoImplicit false
set_option linter.unusedSimpArgs false

namespace Verif.Vcfv

open Spec Matrix

variable (p a b c : V3)

theorem det3_eq : det3 a b c = a 0 * (b 1 * c 2 - b 2 * c 1) + a 1 * (b 2 * c 0 - b 0 * c 2) + a 2 * (b 0 * c 1 - b 1 * c 0) := by
  simp [det3, cross_apply, dotProduct, Fin.sum_univ_three]

theorem box0 (m : Fin 3) : box p a b c 0 m = p m := by simp [box]
theorem box1 (m : Fin 3) : box p a b c 1 m = p m + a m := by simp [box, Nat.testBit]
theorem box2 (m : Fin 3) : box p a b c 2 m = p m + b m := by simp [box, Nat.testBit]
theorem box3 (m : Fin 3) : box p a b c 3 m = p m + a m + b m := by simp [box, Nat.testBit]
theorem box4 (m : Fin 3) : box p a b c 4 m = p m + c m := by simp [box, Nat.testBit]
theorem box5 (m : Fin 3) : box p a b c 5 m = p m + a m + c m := by simp [box, Nat.testBit]
theorem box6 (m : Fin 3) : box p a b c 6 m = p m + b m + c m := by simp [box, Nat.testBit]
theorem box7 (m : Fin 3) : box p a b c 7 m = p m + a m + b m + c m := by simp [box, Nat.testBit]

theorem hex_dot (k : ℕ) (hk : k < 12) :
    rawNormal3 hexahedron (box p a b c) k ⬝ᵥ
      (box p a b c (faceIndices hexahedron k).2 - box p a b c (faceIndices hexahedron k).1) = det3 a b c / 4 := by
  rw [det3_eq]
  simp only [hex_indices, hex_raw, dotProduct, Fin.sum_univ_three, Pi.sub_apply]
  interval_cases k <;>
    simp [hexahedron, edgeToFace, areaVector_0, areaVector_1, areaVector_2, average_range8, average4, middle_apply, box0, box1, box2,
      box3, box4, box5, box6, box7] <;> ring

theorem hex_raw_ne {p a b c : V3} (h : det3 a b c ≠ 0) {k : ℕ} (hk : k < 12) : rawNormal3 hexahedron (box p a b c) k ≠ 0 := by
  intro e
  have := hex_dot p a b c k hk
  rw [e, zero_dotProduct] at this
  exact h (by linarith)

/-- **C117** (partial) In a positively oriented parallelepiped the faces between sub-control volumes have positive area and unit normals
which point from the interior to the exterior corner.  Missing: general hexahedra. -/
theorem C117_hexahedron_normals_partial (h : 0 < det3 a b c) (k : ℕ) (hk : k < 12) :
    0 < area3 hexahedron (box p a b c) k ∧ norm3 (normal3 hexahedron (box p a b c) k) = 1 ∧
      pointsTo3 (normal3 hexahedron (box p a b c) k) (box p a b c (faceIndices hexahedron k).1)
        (box p a b c (faceIndices hexahedron k).2) := by
  have hne := hex_raw_ne (p := p) h.ne' hk
  refine ⟨norm3_pos hne, normal3_unit _ _ _ hne, ?_⟩
  rw [pointsTo3, normal_dot, hex_dot p a b c k hk]
  exact div_pos (by linarith) (norm3_pos hne)

example : 0 < det3 ![1, 0, 0] ![1, 2, 0] ![0, 1, 3] := by rw [det3_eq]; simp

example : ∀ k < 12, rawNormal3 hexahedron (box ![5, 5, 5] ![1, 0, 0] ![1, 2, 0] ![0, 1, 3]) k ≠ 0 :=
  fun _ hk => hex_raw_ne (by rw [det3_eq]; simp) hk

/-- **C117** The parts of the faces of the element in the closed surface do point outwards: away from the centre. -/
theorem C117_hexahedron_outwards (h : 0 < det3 a b c) (l : List ℕ) (hl : l ∈ hexCycles) (t : ℕ × ℕ × ℕ)
    (ht : t ∈ triples l) :
    pointsTo3 (part (box p a b c) l t) (average (box p a b c) (List.range 8)) (average (box p a b c) l) := by
  have key : part (box p a b c) l t ⬝ᵥ (average (box p a b c) l - average (box p a b c) (List.range 8)) = det3 a b c / 8 := by
    rw [det3_eq]
    simp only [hexCycles, List.mem_cons, List.not_mem_nil, or_false] at hl
    rcases hl with rfl | rfl | rfl | rfl | rfl | rfl
    all_goals
      simp [triples, List.rotate] at ht
      rcases ht with rfl | rfl | rfl | rfl <;>
        simp only [part, dotProduct, Fin.sum_univ_three, Pi.sub_apply, areaVector_0, areaVector_1, areaVector_2, average_range8,
          average4, middle_apply, box0, box1, box2, box3, box4, box5, box6, box7] <;> ring
  rw [pointsTo3, key]
  linarith

/-- **C117** The area of each part of a boundary face of a hexahedron is the one of the polygon from its corner to the middle of one edge,
the centre of the face and the middle of the other edge. -/
theorem C117_boundary_hexahedron (x : ℕ → V3) (f : ℕ) (hf : f < 6) (v : ℕ) (hv : v ∈ hexahedron.faces.getD f []) :
    ∃ t ∈ triples (hexCycles.getD f []), t.1 = v ∧ boundaryArea3 hexahedron x f v = norm3 (part x (hexCycles.getD f []) t) := by
  have key : ∀ t ∈ triples (hexCycles.getD f []), normalOfQuadrilateral3D (x t.1)
        (edgeCoord hexahedron x (((rightEdge 8).getD f []).getD t.1 0)) (faceCoord hexahedron x f)
        (edgeCoord hexahedron x (((leftEdge 8).getD f []).getD t.1 0)) = part x (hexCycles.getD f []) t ∨
      normalOfQuadrilateral3D (x t.1)
        (edgeCoord hexahedron x (((rightEdge 8).getD f []).getD t.1 0)) (faceCoord hexahedron x f)
        (edgeCoord hexahedron x (((leftEdge 8).getD f []).getD t.1 0)) = -part x (hexCycles.getD f []) t := by
    simp only [normalOf_eq, edge_middle, faceCoord_eq]
    intro t ht
    interval_cases f
    all_goals
      simp [hexCycles, triples, List.rotate] at ht
      rcases ht with rfl | rfl | rfl | rfl <;>
      first
      | (left
         funext m
         fin_cases m <;> simp [hexahedron, rightEdge, leftEdge, hexCycles, part, areaVector_0, areaVector_1, areaVector_2, average4,
           middle_apply] <;> ring1)
      | (right
         funext m
         fin_cases m <;> simp [hexahedron, rightEdge, leftEdge, hexCycles, part, areaVector_0, areaVector_1, areaVector_2, average4,
           middle_apply] <;> ring1)
  have hex : ∃ t ∈ triples (hexCycles.getD f []), t.1 = v := by
    interval_cases f
    all_goals
      simp only [hexahedron, List.getD_cons_zero, List.getD_cons_succ, List.mem_cons, List.not_mem_nil, or_false] at hv
      rcases hv with rfl | rfl | rfl | rfl <;> decide
  obtain ⟨t, ht, rfl⟩ := hex
  refine ⟨t, ht, rfl, ?_⟩
  have e : boundaryArea3 hexahedron x f t.1 = norm3 (normalOfQuadrilateral3D (x t.1)
        (edgeCoord hexahedron x (((rightEdge 8).getD f []).getD t.1 0)) (faceCoord hexahedron x f)
        (edgeCoord hexahedron x (((leftEdge 8).getD f []).getD t.1 0))) := rfl
  rcases key t ht with h | h
  · rw [e, h]
  · rw [e, h, norm3_neg]

/-! ### Volumes -/

/-- The volume of a prism with its sign -/
noncomputable def signedPrism (p0 p1 p2 p3 p4 p5 : V3) : ℝ :=
  1 / 6 * (((p1 1 - p0 1) * (p2 2 - p0 2) - (p1 2 - p0 2) * (p2 1 - p0 1) +
      ((p4 1 - p0 1) * (p1 2 - p3 2) - (p4 2 - p0 2) * (p1 1 - p3 1))) * (p5 0 - p0 0) +
    ((p1 2 - p0 2) * (p2 0 - p0 0) - (p1 0 - p0 0) * (p2 2 - p0 2) +
      ((p4 2 - p0 2) * (p1 0 - p3 0) - (p4 0 - p0 0) * (p1 2 - p3 2))) * (p5 1 - p0 1) +
    ((p1 0 - p0 0) * (p2 1 - p0 1) - (p1 1 - p0 1) * (p2 0 - p0 0) +
      ((p4 0 - p0 0) * (p1 1 - p3 1) - (p4 1 - p0 1) * (p1 0 - p3 0))) * (p5 2 - p0 2))

theorem prismVolume_eq (p0 p1 p2 p3 p4 p5 : V3) : prismVolume p0 p1 p2 p3 p4 p5 = |signedPrism p0 p1 p2 p3 p4 p5| := by
  simp [prismVolume, signedPrism, crossProduct]

/-- The corners of the hexahedron of each sub-control volume: on the layer of the corner 0 first -/
noncomputable def scvCorners (x : ℕ → V3) (v : ℕ) : ℕ → V3 :=
  let e := edgeCoord hexahedron x
  let f := faceCoord hexahedron x
  let c := elementGlobal hexahedron x
  let l := match v with
    | 0 => [x 0, e 6, f 4, e 4, e 0, f 2, c, f 0]
    | 1 => [x 1, e 5, f 4, e 6, e 1, f 1, c, f 2]
    | 2 => [x 2, e 4, f 4, e 7, e 2, f 0, c, f 3]
    | 3 => [x 3, e 7, f 4, e 5, e 3, f 3, c, f 1]
    | 4 => [e 0, f 2, c, f 0, x 4, e 10, f 5, e 8]
    | 5 => [e 1, f 1, c, f 2, x 5, e 9, f 5, e 10]
    | 6 => [e 2, f 0, c, f 3, x 6, e 8, f 5, e 11]
    | _ => [e 3, f 3, c, f 1, x 7, e 11, f 5, e 9]
  fun i => l.getD i 0

/-- The two prisms of a sub-control volume -/
noncomputable def prism1 (x : ℕ → V3) (v : ℕ) : ℝ :=
  let q := scvCorners x v
  signedPrism (q 0) (q 1) (q 2) (q 4) (q 5) (q 6)

noncomputable def prism2 (x : ℕ → V3) (v : ℕ) : ℝ :=
  let q := scvCorners x v
  signedPrism (q 0) (q 2) (q 3) (q 4) (q 6) (q 7)

theorem scvVolume_hex (x : ℕ → V3) (v : ℕ) : scvVolumeHexahedron x v = |prism1 x v| + |prism2 x v| := by
  unfold prism1 prism2 scvCorners scvVolumeHexahedron
  rcases v with _ | _ | _ | _ | _ | _ | _ | v <;>
    simp only [hexahedronVolume, prismVolume_eq, List.getD_cons_zero, List.getD_cons_succ]

theorem box_prisms (v : ℕ) (hv : v < 8) :
    prism1 (box p a b c) v = det3 a b c / 16 ∧ prism2 (box p a b c) v = det3 a b c / 16 := by
  rw [det3_eq]
  unfold prism1 prism2 scvCorners
  simp only [edge_middle, faceCoord_eq, elementGlobal_eq]
  constructor <;> interval_cases v <;>
    simp only [hexahedron, List.getD_cons_zero, List.getD_cons_succ, signedPrism, average_range8, average4, middle_apply, box0, box1,
      box2, box3, box4, box5, box6, box7] <;> ring

/-- **C116** The volume of each sub-control volume of a parallelepiped is the volume enclosed by its faces, which are plane; together they
are the volume of the parallelepiped. -/
theorem C116_parallelepiped (h : 0 < det3 a b c) :
    (∀ v < 8, scvVolumeHexahedron (box p a b c) v =
      enclosed (box p a b c) 12 (faceIndices hexahedron) (area3 hexahedron (box p a b c)) (normal3 hexahedron (box p a b c))
        (parts hexCycles (box p a b c) v) v) ∧
    (∀ k < 12, Coplanar (edgeCoord hexahedron (box p a b c) k) (faceCoord hexahedron (box p a b c) ((edgeToFace 8).2.getD k 0))
      (elementGlobal hexahedron (box p a b c)) (faceCoord hexahedron (box p a b c) ((edgeToFace 8).1.getD k 0))) ∧
    ∑ v ∈ Finset.range 8, scvVolumeHexahedron (box p a b c) v = |det3 a b c| := by
  have hvol : ∀ v < 8, scvVolumeHexahedron (box p a b c) v = det3 a b c / 8 := by
    intro v hv
    rw [scvVolume_hex, (box_prisms p a b c v hv).1, (box_prisms p a b c v hv).2, abs_of_pos (by linarith)]
    ring
  refine ⟨fun v hv => ?_, fun k hk => ?_, ?_⟩
  · have hS : ∀ k < 12, area3 hexahedron (box p a b c) k • normal3 hexahedron (box p a b c) k =
        rawNormal3 hexahedron (box p a b c) k := fun k hk => area_normal3 _ _ _ (hex_raw_ne h.ne' hk)
    rw [hvol v hv]
    unfold enclosed
    simp only [Finset.sum_range_succ, Finset.sum_range_zero, hS 0 (by norm_num), hS 1 (by norm_num), hS 2 (by norm_num),
      hS 3 (by norm_num), hS 4 (by norm_num), hS 5 (by norm_num), hS 6 (by norm_num), hS 7 (by norm_num), hS 8 (by norm_num),
      hS 9 (by norm_num), hS 10 (by norm_num), hS 11 (by norm_num)]
    rw [hex_parts _ v hv, det3_eq]
    simp only [hex_indices, hex_raw, dotProduct, Fin.sum_univ_three]
    interval_cases v <;>
      simp [hexahedron, edgeToFace, part, areaVector_0, areaVector_1, areaVector_2, average_range8, average4, middle_apply, box0, box1,
        box2, box3, box4, box5, box6, box7] <;> ring
  · rw [Coplanar, edge_middle, faceCoord_eq, faceCoord_eq, elementGlobal_eq]
    simp only [det3_eq]
    interval_cases k <;>
      simp [hexahedron, edgeToFace, average_range8, average4, middle_apply, box0, box1, box2, box3, box4, box5, box6, box7] <;> ring
  · rw [Finset.sum_congr rfl fun v hv => hvol v (Finset.mem_range.1 hv), abs_of_pos h]
    simp
    ring

end Verif.Vcfv
