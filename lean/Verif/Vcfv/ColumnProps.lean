import Verif.Vcfv.Integrals

/-
Property C116 for hexahedra which are not parallelepipeds.
-/

set_option autoImplicit false
set_option linter.unusedSimpArgs false

namespace Verif.Vcfv

open Spec Matrix

variable (p a b c d : V3)

theorem column0 (m : Fin 3) : column p a b c d 0 m = p m := by simp [column]
theorem column1 (m : Fin 3) : column p a b c d 1 m = p m + a m := by simp [column]
theorem column2 (m : Fin 3) : column p a b c d 2 m = p m + b m := by simp [column]
theorem column3 (m : Fin 3) : column p a b c d 3 m = p m + a m + b m + d m := by simp [column]
theorem column4 (m : Fin 3) : column p a b c d 4 m = p m + c m := by simp [column]
theorem column5 (m : Fin 3) : column p a b c d 5 m = p m + a m + c m := by simp [column]
theorem column6 (m : Fin 3) : column p a b c d 6 m = p m + b m + c m := by simp [column]
theorem column7 (m : Fin 3) : column p a b c d 7 m = p m + a m + b m + c m + d m := by simp [column]

/-- The determinants at the four corners of the quadrilateral -/
noncomputable def cornerDet : ℕ → ℝ
  | 0 => det3 a b c | 1 => det3 a (b + d) c | 2 => det3 (a + d) b c | _ => det3 (a + d) (b + d) c

theorem column_prisms (v : ℕ) (hv : v < 8) :
    prism1 (column p a b c d) v = match v % 4 with
      | 0 => (cornerDet a b c d 0 + cornerDet a b c d 1) / 32
      | 1 => (cornerDet a b c d 1 + cornerDet a b c d 3) / 32
      | 2 => (cornerDet a b c d 0 + cornerDet a b c d 2) / 32
      | _ => (cornerDet a b c d 2 + cornerDet a b c d 3) / 32 := by
  unfold prism1 scvCorners
  simp only [edge_middle, faceCoord_eq, elementGlobal_eq]
  interval_cases v <;>
    simp only [hexahedron, List.getD_cons_zero, List.getD_cons_succ, signedPrism, average_range8, average4, middle_apply, column0,
      column1, column2, column3, column4, column5, column6, column7, cornerDet, det3_eq, Pi.add_apply, Nat.reduceMod] <;> ring

theorem column_prisms2 (v : ℕ) (hv : v < 8) :
    prism2 (column p a b c d) v = match v % 4 with
      | 0 => (cornerDet a b c d 0 + cornerDet a b c d 2) / 32
      | 1 => (cornerDet a b c d 0 + cornerDet a b c d 1) / 32
      | 2 => (cornerDet a b c d 2 + cornerDet a b c d 3) / 32
      | _ => (cornerDet a b c d 1 + cornerDet a b c d 3) / 32 := by
  unfold prism2 scvCorners
  simp only [edge_middle, faceCoord_eq, elementGlobal_eq]
  interval_cases v <;>
    simp only [hexahedron, List.getD_cons_zero, List.getD_cons_succ, signedPrism, average_range8, average4, middle_apply, column0,
      column1, column2, column3, column4, column5, column6, column7, cornerDet, det3_eq, Pi.add_apply, Nat.reduceMod] <;> ring

theorem column_volume : hexVolume (column p a b c d) =
    (cornerDet a b c d 0 + cornerDet a b c d 1 + cornerDet a b c d 2 + cornerDet a b c d 3) / 4 := by
  rw [hexVolume_of (a := fun i j k => match i, j, k with
    | 0, 0, 0 => det3 a b c | 1, 0, 0 => det3 a d c | 0, 1, 0 => det3 d b c | _, _, _ => 0)]
  · simp only [Finset.sum_range_succ, Finset.sum_range_zero, cornerDet, det3_eq, Pi.add_apply]
    norm_num
    ring
  · intro s t u
    simp only [Finset.sum_range_succ, Finset.sum_range_zero, det3_eq, deriv_s, deriv_t, deriv_u, column0, column1, column2, column3,
      column4, column5, column6, column7]
    norm_num
    ring

/-- **C116** (partial) The volumes of the sub-control volumes of a column are positive and add up to the volume of the element: the
integral of the determinant of the derivatives of the position.  (The mesh may be distorted in two directions, as long as the
quadrilateral is convex: the determinants at its corners are positive.)  Missing: hexahedra the opposite faces of which are not
translates of each other; for them the claim is false in general. -/
theorem C116_column_partial (h0 : 0 < det3 a b c) (h1 : 0 < det3 a (b + d) c) (h2 : 0 < det3 (a + d) b c)
    (h3 : 0 < det3 (a + d) (b + d) c) :
    (∀ v < 8, 0 < scvVolumeHexahedron (column p a b c d) v) ∧
      ∑ v ∈ Finset.range 8, scvVolumeHexahedron (column p a b c d) v = hexVolume (column p a b c d) := by
  change 0 < cornerDet a b c d 0 at h0
  change 0 < cornerDet a b c d 1 at h1
  change 0 < cornerDet a b c d 2 at h2
  change 0 < cornerDet a b c d 3 at h3
  have hp : ∀ v < 8, 0 < prism1 (column p a b c d) v ∧ 0 < prism2 (column p a b c d) v := by
    intro v hv
    rw [column_prisms _ _ _ _ _ v hv, column_prisms2 _ _ _ _ _ v hv]
    interval_cases v <;> simp only [Nat.reduceMod] <;> exact ⟨div_pos (add_pos ‹_› ‹_›) (by norm_num), div_pos (add_pos ‹_› ‹_›) (by norm_num)⟩
  have hvol : ∀ v < 8, scvVolumeHexahedron (column p a b c d) v = prism1 (column p a b c d) v + prism2 (column p a b c d) v := by
    intro v hv
    rw [scvVolume_hex, abs_of_pos (hp v hv).1, abs_of_pos (hp v hv).2]
  refine ⟨fun v hv => ?_, ?_⟩
  · rw [hvol v hv]
    linarith [(hp v hv).1, (hp v hv).2]
  · rw [Finset.sum_congr rfl fun v hv => hvol v (Finset.mem_range.1 hv), column_volume]
    simp only [Finset.sum_range_succ, Finset.sum_range_zero, column_prisms, column_prisms2, Nat.reduceLT, Nat.reduceMod]
    ring

/-- A column over a quadrilateral which is not a parallelogram -/
example : 0 < det3 ![2, 0, 0] ![0, 1, 0] ![1, 0, 1] ∧ 0 < det3 ![2, 0, 0] (![0, 1, 0] + ![-1, 1, 0]) ![1, 0, 1] ∧
    0 < det3 (![2, 0, 0] + ![-1, 1, 0]) ![0, 1, 0] ![1, 0, 1] ∧
    0 < det3 (![2, 0, 0] + ![-1, 1, 0]) (![0, 1, 0] + ![-1, 1, 0]) ![1, 0, 1] := by
  simp only [det3_eq]
  simp
  norm_num

/-- The unit cube with the corner (1, 0, 1) moved to (1, -1, 1) -/
noncomputable def warped : ℕ → V3
  | 0 => ![0, 0, 0] | 1 => ![1, 0, 0] | 2 => ![0, 1, 0] | 3 => ![1, 1, 0]
  | 4 => ![0, 0, 1] | 5 => ![1, -1, 1] | 6 => ![0, 1, 1] | _ => ![1, 1, 1]

theorem warped_det (s t u : ℝ) : det3 (deriv (fun s => trilinear warped s t u) s) (deriv (fun t => trilinear warped s t u) t)
    (deriv (fun u => trilinear warped s t u) u) = 1 + s * u := by
  simp only [det3_eq, deriv_s, deriv_t, deriv_u, warped]
  simp
  ring

/-- **C116** (violated) If the faces of a hexahedron are not plane, the volumes of its sub-control volumes do not add up to its volume, even
though the element is not degenerate anywhere: the common face of the two prisms of a sub-control volume is not the same surface for
both. -/
theorem C116_hexahedron_violated :
    (∀ s ∈ Set.Icc (0 : ℝ) 1, ∀ t ∈ Set.Icc (0 : ℝ) 1, ∀ u ∈ Set.Icc (0 : ℝ) 1,
      0 < det3 (deriv (fun s => trilinear warped s t u) s) (deriv (fun t => trilinear warped s t u) t)
        (deriv (fun u => trilinear warped s t u) u)) ∧
    hexVolume warped = 5 / 4 ∧ ∑ v ∈ Finset.range 8, scvVolumeHexahedron warped v = 5 / 4 + 1 / 48 := by
  refine ⟨?_, ?_, ?_⟩
  · intro s hs t _ u hu
    rw [warped_det]
    have := mul_nonneg hs.1 hu.1
    linarith
  · rw [hexVolume_of (a := fun i j k => match i, j, k with
      | 0, 0, 0 => 1 | 1, 0, 1 => 1 | _, _, _ => 0)]
    · simp only [Finset.sum_range_succ, Finset.sum_range_zero]
      norm_num
    · intro s t u
      simp only [warped_det, Finset.sum_range_succ, Finset.sum_range_zero]
      ring
  · simp only [Finset.sum_range_succ, Finset.sum_range_zero, scvVolume_hex]
    unfold prism1 prism2 scvCorners
    simp only [edge_middle, faceCoord_eq, elementGlobal_eq]
    simp only [hexahedron, List.getD_cons_zero, List.getD_cons_succ, signedPrism, average_range8, average4, middle_apply, warped]
    simp
    norm_num [abs_of_pos]

end Verif.Vcfv
