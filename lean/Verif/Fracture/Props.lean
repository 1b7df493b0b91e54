import Verif.Fracture.Model
import Mathlib.Algebra.BigOperators.Field
import Mathlib.Algebra.BigOperators.Ring.Finset
import Mathlib.Algebra.Order.BigOperators.Group.List
import Mathlib.Algebra.Order.Ring.Rat
import Mathlib.Data.Finset.Prod
import Mathlib.Data.Fin.VecNotation
import Mathlib.Tactic.Linarith
import Mathlib.Tactic.Ring
import Mathlib.Tactic.FieldSimp
import Mathlib.Tactic.Positivity
import Mathlib.Tactic.NormNum

set_option autoImplicit false
set_option linter.unusedSimpArgs false
set_option linter.unusedSectionVars false

/-
**C135** Fractures take the place of the matrix, and nothing else.
-/
namespace Verif.Fracture

variable {K : Type} [Field K] [LinearOrder K] [IsStrictOrderedRing K]

/-! ### which edges are fractures -/

/-- The mapper after some calls of `addFractureEdge`. -/
def Mapper.addAll (m : Mapper) (l : List (ℕ × ℕ)) : Mapper := l.foldl (fun m e => m.add e.1 e.2) m

theorem mkEdge_eq (a b c d : ℕ) : mkEdge a b = mkEdge c d ↔ (a = c ∧ b = d) ∨ (a = d ∧ b = c) := by
  simp only [mkEdge, Prod.mk.injEq]
  omega

theorem addAll_mem (l : List (ℕ × ℕ)) (m : Mapper) (e : ℕ × ℕ) (v : ℕ) :
    (e ∈ (m.addAll l).edges ↔ e ∈ m.edges ∨ ∃ x ∈ l, e = mkEdge x.1 x.2) ∧
    (v ∈ (m.addAll l).vertices ↔ v ∈ m.vertices ∨ ∃ x ∈ l, v = x.1 ∨ v = x.2) := by
  induction l generalizing m with
  | nil => simp [Mapper.addAll]
  | cons x l ih =>
    obtain ⟨h1, h2⟩ := ih (m.add x.1 x.2)
    have e1 : m.addAll (x :: l) = (m.add x.1 x.2).addAll l := rfl
    rw [e1, h1, h2]
    simp only [Mapper.add, List.mem_cons, exists_eq_or_imp]
    constructor
    · tauto
    · generalize (∃ x ∈ l, v = x.1 ∨ v = x.2) = P
      tauto

theorem isEdge_iff (m : Mapper) (a b : ℕ) : m.isEdge a b = true ↔ mkEdge a b ∈ m.edges := by simp [Mapper.isEdge]

theorem isVertex_iff (m : Mapper) (v : ℕ) : m.isVertex v = true ↔ v ∈ m.vertices := by simp [Mapper.isVertex]

/-- **C135** For every history of calls, an edge is a fracture if and only if it has been marked, in either orientation, and a vertex
is on a fracture if and only if it is an end of a marked edge. -/
theorem C135_marked (l : List (ℕ × ℕ)) (a b v : ℕ) :
    ((Mapper.empty.addAll l).isEdge a b = true ↔ (a, b) ∈ l ∨ (b, a) ∈ l) ∧
    ((Mapper.empty.addAll l).isVertex v = true ↔ ∃ w, (v, w) ∈ l ∨ (w, v) ∈ l) := by
  constructor
  · rw [isEdge_iff]
    simp only [(addAll_mem l Mapper.empty (mkEdge a b) v).1, mkEdge_eq, show Mapper.empty.edges = [] from rfl, List.not_mem_nil,
      false_or, Prod.exists]
    constructor
    · rintro ⟨c, d, h, ⟨rfl, rfl⟩ | ⟨rfl, rfl⟩⟩
      · exact Or.inl h
      · exact Or.inr h
    · rintro (h | h)
      · exact ⟨a, b, h, Or.inl ⟨rfl, rfl⟩⟩
      · exact ⟨b, a, h, Or.inr ⟨rfl, rfl⟩⟩
  · rw [isVertex_iff]
    simp only [(addAll_mem l Mapper.empty (mkEdge a b) v).2, show Mapper.empty.vertices = [] from rfl, List.not_mem_nil,
      false_or, Prod.exists]
    constructor
    · rintro ⟨c, d, h, rfl | rfl⟩
      · exact ⟨d, Or.inl h⟩
      · exact ⟨c, Or.inr h⟩
    · rintro ⟨w, h | h⟩
      · exact ⟨v, w, h, Or.inl rfl⟩
      · exact ⟨w, v, h, Or.inr rfl⟩

example : (Mapper.empty.addAll [(4, 1), (1, 7)]).isEdge 1 4 = true ∧ (Mapper.empty.addAll [(4, 1), (1, 7)]).isEdge 4 7 = false ∧
    (Mapper.empty.addAll [(4, 1), (1, 7)]).isVertex 7 = true := by decide

/-! ### volumes -/

theorem foldl_sum (f : ℕ → K) (p : ℕ → Prop) [DecidablePred p] (l : List ℕ) (s : K) :
    l.foldl (fun s w => if p w then s else s + f w) s = s + (l.map fun w => if p w then 0 else f w).sum := by
  induction l generalizing s with
  | nil => simp
  | cons w l ih =>
    rw [List.foldl_cons, ih]
    simp only [List.map_cons, List.sum_cons]
    by_cases h : p w
    · simp [h]
    · simp only [if_neg h]; ring

/-- The volume of all fractures of an element. -/
def elementVolume (m : Mapper) (width len : ℕ → ℕ → K) (dofs : List ℕ) : K := (dofs.map fun v => fractureVolume m width len dofs v).sum

theorem element_volume (l : List (ℕ × ℕ)) (width len : ℕ → ℕ → K) (hw : ∀ a b, width a b = width b a) (hl : ∀ a b, len a b = len b a)
    (dofs : List ℕ) (hd : dofs.Nodup) :
    elementVolume (Mapper.empty.addAll l) width len dofs =
      ∑ e ∈ (Mapper.empty.addAll l).edges.toFinset with e.1 ≠ e.2 ∧ e.1 ∈ dofs ∧ e.2 ∈ dofs, width e.1 e.2 * len e.1 e.2 / 2 := by
  set m := Mapper.empty.addAll l with hm
  have hn : ∀ e ∈ m.edges, e.1 ≤ e.2 := by
    intro e he
    rw [hm, (addAll_mem l Mapper.empty e 0).1] at he
    rcases he with h | ⟨x, _, rfl⟩
    · simp [Mapper.empty] at h
    · simp only [mkEdge]; omega
  have hv : ∀ v w, m.isEdge v w = true → m.isVertex v = true := by
    intro v w h
    rw [hm, (C135_marked l v w v).2]
    rw [hm, (C135_marked l v w v).1] at h
    exact ⟨w, h⟩
  have h1 : ∀ v, fractureVolume m width len dofs v = ∑ w ∈ dofs.toFinset, if v = w ∨ m.isEdge v w = false then 0 else width v w / 2 * (len v w / 2) := by
    intro v
    unfold fractureVolume
    rw [List.sum_toFinset _ hd]
    split_ifs with h
    · symm
      apply List.sum_eq_zero
      intro x hx
      simp only [List.mem_map] at hx
      obtain ⟨w, _, rfl⟩ := hx
      rw [if_pos]
      right
      by_contra hc
      have := hv v w (by simpa using hc)
      rw [h] at this
      exact absurd this (by decide)
    · rw [foldl_sum, zero_add]
  unfold elementVolume
  rw [← List.sum_toFinset _ hd]
  simp only [h1]
  set S := dofs.toFinset with hS
  set f : ℕ → ℕ → K := fun v w => width v w / 2 * (len v w / 2) with hf
  have hfs : ∀ v w, f v w = f w v := fun v w => by simp only [hf]; rw [hw v w, hl v w]
  have hes : ∀ v w, m.isEdge v w = m.isEdge w v := by
    intro v w
    unfold Mapper.isEdge mkEdge
    rw [min_comm, max_comm]
  -- both orders
  have h2 : ∑ v ∈ S, ∑ w ∈ S, (if v = w ∨ m.isEdge v w = false then 0 else f v w) =
      ∑ p ∈ S ×ˢ S, ((if p.1 < p.2 ∧ m.isEdge p.1 p.2 = true then f p.1 p.2 else 0) + (if p.2 < p.1 ∧ m.isEdge p.2 p.1 = true then f p.2 p.1 else 0)) := by
    rw [Finset.sum_product]
    refine Finset.sum_congr rfl fun v _ => Finset.sum_congr rfl fun w _ => ?_
    simp only
    rw [hes w v, hfs w v]
    rcases lt_trichotomy v w with h | h | h
    · cases he : m.isEdge v w <;> simp [h, h.ne, h.not_gt]
    · subst h; simp
    · cases he : m.isEdge v w <;> simp [h, h.ne', h.not_gt]
  rw [h2, Finset.sum_add_distrib]
  have h3 : ∑ p ∈ S ×ˢ S, (if p.2 < p.1 ∧ m.isEdge p.2 p.1 = true then f p.2 p.1 else 0) =
      ∑ p ∈ S ×ˢ S, (if p.1 < p.2 ∧ m.isEdge p.1 p.2 = true then f p.1 p.2 else 0) := by
    rw [Finset.sum_product, Finset.sum_product_right]
  rw [h3, ← Finset.sum_filter, ← two_mul, Finset.mul_sum]
  refine Finset.sum_congr ?_ ?_
  · ext ⟨a, b⟩
    simp only [Finset.mem_filter, Finset.mem_product, hS, List.mem_toFinset, isEdge_iff]
    constructor
    · rintro ⟨⟨ha, hb⟩, hlt, he⟩
      have : mkEdge a b = (a, b) := by simp only [mkEdge, Prod.mk.injEq]; omega
      rw [this] at he
      exact ⟨he, hlt.ne, ha, hb⟩
    · rintro ⟨he, hne, ha, hb⟩
      have hle := hn _ he
      simp only at hle
      have : mkEdge a b = (a, b) := by simp only [mkEdge, Prod.mk.injEq]; omega
      rw [this]
      exact ⟨⟨ha, hb⟩, lt_of_le_of_ne hle hne, he⟩
  · rintro ⟨a, b⟩ _
    simp only [hf]; ring

/-- **C135** On every grid, a fracture has the volume of its edge times its width, split among the elements on both sides: each element
with the edge counts half of it. -/
theorem C135_volume (l : List (ℕ × ℕ)) (width len : ℕ → ℕ → K) (hw : ∀ a b, width a b = width b a) (hl : ∀ a b, len a b = len b a)
    (elements : List (List ℕ)) (hd : ∀ e ∈ elements, e.Nodup) :
    (elements.map fun e => elementVolume (Mapper.empty.addAll l) width len e).sum =
      ∑ e ∈ (Mapper.empty.addAll l).edges.toFinset with e.1 ≠ e.2,
        width e.1 e.2 * len e.1 e.2 * ((elements.countP fun d => e.1 ∈ d ∧ e.2 ∈ d : ℕ) : K) / 2 := by
  induction elements with
  | nil => simp
  | cons d rest ih =>
    rw [List.map_cons, List.sum_cons, ih (fun e he => hd e (by simp [he])), element_volume l width len hw hl d (hd d (by simp))]
    rw [← Finset.filter_filter, Finset.sum_filter, ← Finset.sum_add_distrib]
    refine Finset.sum_congr rfl fun e _ => ?_
    rw [List.countP_cons]
    by_cases h : e.1 ∈ d ∧ e.2 ∈ d
    · simp [h]; ring
    · simp [h]

/-- **C135** If every fracture is within the domain, it is counted completely, … -/
theorem C135_volume_partial (l : List (ℕ × ℕ)) (width len : ℕ → ℕ → K) (hw : ∀ a b, width a b = width b a) (hl : ∀ a b, len a b = len b a)
    (elements : List (List ℕ)) (hd : ∀ e ∈ elements, e.Nodup)
    (h2 : ∀ e ∈ l, elements.countP (fun d => e.1 ∈ d ∧ e.2 ∈ d) = 2) :
    (elements.map fun e => elementVolume (Mapper.empty.addAll l) width len e).sum =
      ∑ e ∈ (Mapper.empty.addAll l).edges.toFinset with e.1 ≠ e.2, width e.1 e.2 * len e.1 e.2 := by
  rw [C135_volume l width len hw hl elements hd]
  refine Finset.sum_congr rfl fun e he => ?_
  simp only [Finset.mem_filter, List.mem_toFinset] at he
  obtain ⟨he, _⟩ := he
  rw [(addAll_mem l Mapper.empty e 0).1] at he
  have hc : elements.countP (fun d => e.1 ∈ d ∧ e.2 ∈ d) = 2 := by
    rcases he with h | ⟨x, hx, rfl⟩
    · simp [Mapper.empty] at h
    · rw [← h2 x hx]
      congr 1
      funext d
      rcases le_total x.1 x.2 with h | h
      · simp [mkEdge, h]
      · simp [mkEdge, h, and_comm]
  rw [hc]
  push_cast
  have : (2 : K) ≠ 0 := two_ne_zero
  field_simp

/-- Two triangles with a common edge. -/
def triangles : List (List ℕ) := [[0, 1, 2], [1, 3, 2]]

example : (triangles.map fun e => elementVolume (Mapper.empty.addAll [(2, 1)]) (fun _ _ => 1/10) (fun _ _ => (5 : ℚ)) e).sum = 1/2 ∧
    triangles.countP (fun d => decide (2 ∈ d ∧ 1 ∈ d)) = 2 := by decide +kernel

/-- **C135** (violated) … but one on the boundary of the domain has only half of its volume. -/
theorem C135_boundary_violated :
    (triangles.map fun e => elementVolume (Mapper.empty.addAll [(0, 1)]) (fun _ _ => 1/10) (fun _ _ => (5 : ℚ)) e).sum = 1/4 := by
  decide +kernel

/-! ### storage -/

/-- **C135** A sub-control volume contains what is in the matrix outside of the fractures and what is in the fractures. -/
theorem C135_storage (phi s rho phiF sF rhoF vF v : K) (hv : v ≠ 0) :
    v * phaseStorage true phi s rho phiF sF rhoF vF v = (v - vF) * (phi * s * rho) + vF * (phiF * sF * rhoF) := by
  simp only [phaseStorage, Bool.true_eq_false, if_false]
  field_simp

/-- **C135** Fractures with the properties of the matrix make no difference, nor do those without volume. -/
theorem C135_storage_same (isVertex : Bool) (phi s rho vF v : K) :
    phaseStorage isVertex phi s rho phi s rho vF v = phi * s * rho ∧
    phaseStorage isVertex phi s rho phi s rho 0 v = phi * s * rho := by
  cases isVertex
  · simp [phaseStorage]
  · simp only [phaseStorage, Bool.true_eq_false, if_false]
    constructor
    · ring
    · simp

example : phaseStorage true (1/5) (1/2) 1000 1 (9/10) 1000 (1/100) (1/4) = (132 : ℚ) := by decide +kernel

/-- **C135** In a rectangle with sides `a` and `b`, the widths which pass the check of builds with assertions (less than the faces they
cross) leave a part of the sub-control volume to the matrix, even if both edges at the vertex are fractures; … -/
theorem C135_room_partial (a b wa wb : K) (ha : 0 < a) (hb : 0 < b) (hwa : 0 ≤ wa ∧ wa < b / 2) (hwb : 0 ≤ wb ∧ wb < a / 2) :
    0 < 1 - (wa / 2 * (a / 2) + wb / 2 * (b / 2)) / (a * b / 4) := by
  have h : 0 < a * b / 4 := by positivity
  rw [sub_pos, div_lt_one h]
  nlinarith [mul_lt_mul_of_pos_right hwa.2 ha, mul_lt_mul_of_pos_right hwb.2 hb]

/-- **C135** (violated) … builds without assertions accept wider fractures, and the storage of the matrix becomes negative. -/
theorem C135_room_violated (phi s rho vF v : K) (hs : 0 < phi * s * rho) (hv : 0 < v) (hf : v < vF) :
    phaseStorage true phi s rho 0 0 0 vF v < 0 := by
  simp only [phaseStorage, Bool.true_eq_false, if_false, mul_zero, zero_mul, zero_div, add_zero]
  have : 1 < vF / v := (one_lt_div hv).2 hf
  exact mul_neg_of_pos_of_neg hs (by linarith)

/-! ### saturations -/

/-- **C135** Saturations sum to one in matrix and fracture; the non-wetting saturation of the matrix and the wetting one of the fracture are
not negative; the pressures are those of the primary variables and the capillary pressure of the matrix, for every state. -/
theorem C135_saturations (matrix fracture : Law K) (p0 sw : K) :
    let s := update matrix fracture p0 sw
    s.matrixSw + s.matrixSn = 1 ∧ s.fractureSw + s.fractureSn = 1 ∧ 0 ≤ s.matrixSn ∧ 0 ≤ s.fractureSw ∧
    s.pw = p0 ∧ s.pn - s.pw = matrix.pc sw ∧ (0 ≤ fracture.sw (s.pn - s.pw) → s.fractureSw = fracture.sw (s.pn - s.pw)) := by
  simp only [update]
  refine ⟨by ring, by ring, sub_nonneg.2 (min_le_left _ _), le_max_left _ _, trivial, by ring, ?_⟩
  intro h
  exact max_eq_right h

/-- Linear capillary pressures. -/
def linear (p : ℚ) : Law ℚ := ⟨fun s => p * (1 - s), fun c => 1 - c / p⟩

/-- **C135** (violated) A slightly negative saturation of the matrix is kept, and too much wetting fluid, as Newton iterations may give,
makes the non-wetting saturation of the fracture negative. -/
theorem C135_saturations_violated :
    (update (linear 10) (linear 1) 100 (-1/10)).matrixSw < 0 ∧ (update (linear 10) (linear 1) 100 (101/100)).fractureSn < 0 := by
  constructor <;> · simp [update, linear]; norm_num

/-- **C135** Primary variables which are set from the state in a fracture represent this state, if the law of the matrix is used: pressures
and saturations of the fracture are those given. -/
theorem C135_assign (matrix fracture : Law K) (pw pn : K) (hm : matrix.pc (matrix.sw (pn - pw)) = pn - pw)
    (hf : 0 ≤ fracture.sw (pn - pw)) :
    let v := assignFromFracture matrix pw pn
    let s := update matrix fracture v.1 v.2
    s.pw = pw ∧ s.pn = pn ∧ s.fractureSw = fracture.sw (pn - pw) := by
  simp only [assignFromFracture, update, hm]
  refine ⟨trivial, by ring, ?_⟩
  rw [show pw + (pn - pw - 0) - pw = pn - pw by ring, max_eq_right hf]

example : (linear 10).pc ((linear 10).sw (1/2)) = 1/2 ∧ 0 ≤ (linear 1).sw (1/2) := by simp [linear]; norm_num

/-- **C135** (violated) The documentation asks for the parameters which apply to the fracture; with these the state is another one. -/
theorem C135_assign_violated :
    let v := assignFromFracture (linear 1) 100 (201/2)
    let s := update (linear 10) (linear 1) v.1 v.2
    (linear 1).sw (1/2) = 1/2 ∧ s.pn = 105 ∧ s.fractureSw = 0 := by
  simp [assignFromFracture, update, linear]; norm_num

/-! ### fluxes -/

/-- **C135** The flux over a face is the one through the matrix beside the fracture and the one along the fracture, each with its
width. -/
theorem C135_flux (k : Fin 2 → Fin 2 → K) (matrix : K) (grad dir : V2 K) (mobility rho width area : K) (ha : area ≠ 0) :
    area * massFlux true matrix (fractureFlux k grad dir mobility width area) rho width area =
      (area - width / 2) * (matrix * rho) + width / 2 * (matrixFlux k grad dir mobility * rho) := by
  have : (2 : K) ≠ 0 := two_ne_zero
  simp only [massFlux, Bool.true_eq_false, if_false, fractureFlux, matrixFlux, dot]
  field_simp

/-- **C135** Fractures with the properties of the matrix, which are perpendicular to their faces, make no difference. -/
theorem C135_flux_same (k : Fin 2 → Fin 2 → K) (grad normal : V2 K) (mobility rho width area : K) (ha : area ≠ 0) :
    massFlux true (matrixFlux k grad normal mobility) (fractureFlux k grad normal mobility width area) rho width area =
      massFlux false (matrixFlux k grad normal mobility) 0 rho width area := by
  have h := C135_flux k (matrixFlux k grad normal mobility) grad normal mobility rho width area ha
  have e : massFlux false (matrixFlux k grad normal mobility) 0 rho width area = matrixFlux k grad normal mobility * rho := by
    simp [massFlux]
  rw [e]
  apply mul_left_cancel₀ ha
  rw [h]; ring

/-- **C135** Seen from the other vertex, the flux along the fracture is opposite. -/
theorem C135_opposite (k : Fin 2 → Fin 2 → K) (x y : V2 K) (len psiX psiY mobility width area : K) :
    fractureFlux k (twoPointGrad y x len psiY psiX) (direction y x len) mobility width area =
      - fractureFlux k (twoPointGrad x y len psiX psiY) (direction x y len) mobility width area := by
  simp only [fractureFlux, twoPointGrad, direction, dot, mulVec]
  ring

/-- What a permeability tensor has to satisfy: there is no flow uphill. -/
def Dissipative (k : Fin 2 → Fin 2 → K) : Prop := ∀ x, 0 ≤ dot (mulVec k x) x

/-- **C135** With two-point gradients, the fluid in the fracture flows from the higher to the lower potential. -/
theorem C135_down (k : Fin 2 → Fin 2 → K) (hk : Dissipative k) (x y : V2 K) (len psiX psiY mobility width area : K) (hl : 0 < len)
    (hm : 0 ≤ mobility) (hw : 0 ≤ width) (ha : 0 < area) :
    fractureFlux k (twoPointGrad x y len psiX psiY) (direction x y len) mobility width area * (psiY - psiX) ≤ 0 := by
  have e : fractureFlux k (twoPointGrad x y len psiX psiY) (direction x y len) mobility width area * (psiY - psiX) =
      - (dot (mulVec k (fun i => y i - x i)) (fun i => y i - x i) * (mobility * (psiY - psiX) ^ 2 * (width / 2) / (len ^ 3 * area))) := by
    simp only [fractureFlux, twoPointGrad, direction, dot, mulVec]
    field_simp
    ring
  rw [e, neg_nonpos]
  exact mul_nonneg (hk _) (by positivity)

/-- **C135** … and its properties are those of the vertex it comes from, if the normal of the face points to the exterior vertex. -/
theorem C135_upstream_partial (x y normal : V2 K) (len psiX psiY : K) (hl : 0 < len) (hn : 0 < dot (direction x y len) normal) :
    exteriorUp (twoPointGrad x y len psiX psiY) normal = decide (psiX < psiY) := by
  have e : dot (twoPointGrad x y len psiX psiY) normal = (psiY - psiX) / len * dot (direction x y len) normal := by
    simp only [twoPointGrad, direction, dot]
    field_simp
  unfold exteriorUp
  rw [e]
  congr 1
  rw [eq_iff_iff, mul_pos_iff_of_pos_right hn, div_pos_iff_of_pos_right hl, sub_pos]

/-- **C135** (violated) With the gradients of finite elements (the property which should prevent this is never read), the fluid may flow
along the fracture from the interior vertex, with the mobility of the exterior one. -/
theorem C135_upstream_violated : ∃ (k : Fin 2 → Fin 2 → ℚ) (grad dir normal : V2 ℚ), Dissipative k ∧ 0 < dot dir normal ∧
    exteriorUp grad normal = true ∧ 0 < fractureFlux k grad dir 1 (1/10) 1 := by
  refine ⟨fun i j => if i = j then 1 else 0, ![-1, 4], ![1, 0], ![4/5, 3/5], ?_, by decide +kernel, by decide +kernel, by decide +kernel⟩
  intro x
  simp only [dot, mulVec]
  simp
  nlinarith [mul_self_nonneg (x 0), mul_self_nonneg (x 1)]

theorem harmonic_bounds (x y : K) (hx : 0 < x) (hy : 0 < y) : min x y ≤ harmonic x y ∧ harmonic x y ≤ max x y := by
  have hp := mul_pos hx hy
  have hs : 0 < x + y := by linarith
  unfold harmonic
  rw [if_neg (not_le.2 hp)]
  rcases le_total x y with h | h
  · rw [min_eq_left h, max_eq_right h]
    constructor
    · rw [le_div_iff₀ hs]; nlinarith
    · rw [div_le_iff₀ hs]; nlinarith
  · rw [min_eq_right h, max_eq_left h]
    constructor
    · rw [le_div_iff₀ hs]; nlinarith
    · rw [div_le_iff₀ hs]; nlinarith

/-- **C135** The permeability at a face does not depend on the side from which it is seen, and its diagonal lies between those of both
vertices; for diagonal tensors, there is no flow uphill, … -/
theorem C135_permeability_partial (k1 k2 : Fin 2 → Fin 2 → K) :
    facePerm k1 k2 = facePerm k2 k1 ∧
    (∀ i, 0 < k1 i i → 0 < k2 i i → min (k1 i i) (k2 i i) ≤ facePerm k1 k2 i i ∧ facePerm k1 k2 i i ≤ max (k1 i i) (k2 i i)) ∧
    ((∀ i j, i ≠ j → k1 i j = 0) → (∀ i, 0 ≤ k1 i i) → (∀ i, 0 ≤ k2 i i) → Dissipative (facePerm k1 k2)) := by
  refine ⟨?_, fun i h1 h2 => harmonic_bounds _ _ h1 h2, ?_⟩
  · funext i j
    unfold facePerm harmonic
    rw [mul_comm (k1 i j), add_comm (k1 i j)]
    congr 2
    ring
  · intro h0 h1 h2 x
    have hd : ∀ i, 0 ≤ facePerm k1 k2 i i := by
      intro i
      unfold facePerm harmonic
      split_ifs
      · exact le_rfl
      · exact div_nonneg (by have := mul_nonneg (h1 i) (h2 i); nlinarith) (add_nonneg (h1 i) (h2 i))
    have ho : facePerm k1 k2 0 1 = 0 ∧ facePerm k1 k2 1 0 = 0 := by
      unfold facePerm harmonic
      rw [h0 0 1 (by decide), h0 1 0 (by decide)]
      simp
    simp only [dot, mulVec, ho.1, ho.2]
    nlinarith [mul_nonneg (hd 0) (mul_self_nonneg (x 0)), mul_nonneg (hd 1) (mul_self_nonneg (x 1))]

/-- Permeabilities with principal directions which are not those of the coordinates. -/
def tilted1 : Fin 2 → Fin 2 → ℚ := fun i j => if i = j then 1 else 9/10

@[inherit_doc tilted1]
def tilted2 : Fin 2 → Fin 2 → ℚ := fun i j => if i = j then (if i = 0 then 100 else 1/100) else 9/10

/-- **C135** (violated) … but the mean of tensors with other principal directions may let the fluid flow uphill. -/
theorem C135_permeability_violated : Dissipative tilted1 ∧ Dissipative tilted2 ∧ ¬ Dissipative (facePerm tilted1 tilted2) := by
  refine ⟨?_, ?_, ?_⟩
  · intro x
    simp [dot, mulVec, tilted1]
    nlinarith [sq_nonneg (x 0 + 9/10 * x 1), sq_nonneg (x 1)]
  · intro x
    simp [dot, mulVec, tilted2]
    nlinarith [sq_nonneg (x 0 + 9/1000 * x 1), sq_nonneg (x 1)]
  · intro h
    have := h ![1, -3]
    revert this
    decide +kernel

/-! ### storage cache -/

/-- **C135** If the storage term depends on the vertex only, an unchanged state has no storage rate with the cache of storage terms, … -/
theorem C135_cache_partial (dt : K) (scvs : List (Scv K)) (content : ℕ → K) (h : ∀ s ∈ scvs, s.old = content s.vertex ∧ s.new = s.old) (v : ℕ) :
    residualCached dt scvs v = 0 := by
  have hc : ∀ (l : List (Scv K)) (c : ℕ → K), (∀ s ∈ l, s.old = content s.vertex) →
      (l.foldl (fun c s => Function.update c s.vertex s.old) c) v = if ∃ s ∈ l, s.vertex = v then content v else c v := by
    intro l
    induction l with
    | nil => intro c _; simp
    | cons s l ih =>
      intro c hl
      rw [List.foldl_cons, ih _ (fun t ht => hl t (by simp [ht]))]
      by_cases h1 : ∃ t ∈ l, t.vertex = v
      · rw [if_pos h1, if_pos]
        obtain ⟨t, ht, e⟩ := h1
        exact ⟨t, by simp [ht], e⟩
      · rw [if_neg h1]
        by_cases h2 : s.vertex = v
        · rw [if_pos ⟨s, by simp, h2⟩, ← h2, Function.update_self, hl s (by simp)]
        · rw [Function.update_of_ne (Ne.symm h2), if_neg]
          rintro ⟨t, ht, e⟩
          rcases List.mem_cons.1 ht with rfl | ht
          · exact h2 e
          · exact h1 ⟨t, ht, e⟩
  unfold residualCached
  apply List.sum_eq_zero
  intro x hx
  simp only [List.mem_map, List.mem_filter, decide_eq_true_eq] at hx
  obtain ⟨s, ⟨hs, hv⟩, rfl⟩ := hx
  have e : cached scvs v = content v := by
    unfold cached
    rw [hc scvs _ (fun s hs => (h s hs).1), if_pos ⟨s, hs, hv⟩]
  rw [e, (h s hs).2, (h s hs).1, hv, sub_self, zero_mul, zero_div]

/-- **C135** (violated) … but with fractures the terms of the elements around a vertex differ.  The constructor of the model only forbids the
cache of intensive quantities: with the one of storage terms, an unchanged state has a storage rate. -/
theorem C135_cache_violated : ∃ scvs : List (Scv ℚ), (∀ s ∈ scvs, s.new = s.old) ∧
    scvs = [⟨0, 1, phaseStorage true (1/5) 1 1000 1 1 1000 (1/10) 1, phaseStorage true (1/5) 1 1000 1 1 1000 (1/10) 1⟩,
      ⟨0, 1, phaseStorage true (1/5) 1 1000 1 1 1000 0 1, phaseStorage true (1/5) 1 1000 1 1 1000 0 1⟩] ∧
    residualCached 1 scvs 0 = 80 :=
  ⟨_, by simp, rfl, by decide +kernel⟩

end Verif.Fracture
