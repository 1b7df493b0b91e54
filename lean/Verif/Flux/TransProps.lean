import Verif.Flux.Trans
import Verif.Flux.DarcyProps
import Mathlib.Tactic.Ring
import Mathlib.Tactic.Linarith
import Mathlib.Tactic.FieldSimp
import Mathlib.Tactic.Positivity
import Mathlib.Algebra.Order.Group.Abs

set_option autoImplicit false
set_option linter.unusedSectionVars false
/-
C82-C84 for the transmissibility based flux modules and C90.
-/
namespace Verif.Flux

variable {K : Type} [Field K] [LinearOrder K] [IsStrictOrderedRing K] {dim : ℕ}

theorem pressureDifference_swap (g : K) (a b : Cell K) : pressureDifference g b a = - pressureDifference g a b := by
  unfold pressureDifference; ring

/-- Whether the exterior cell is upstream is decided by the pressure difference, if there is one. -/
theorem exteriorUpstream_pos {g : K} {a b : Cell K} (h : 0 < pressureDifference g a b) : exteriorUpstream g a b = true := by
  simp [exteriorUpstream, h]

theorem exteriorUpstream_neg {g : K} {a b : Cell K} (h : pressureDifference g a b < 0) : exteriorUpstream g a b = false := by
  simp [exteriorUpstream, h, not_lt.2 h.le]

/-! ### C82 -/

/-- **C82** Both cells agree which of them is the upstream one. -/
theorem C82_upstream_agreed (g : K) (a b : Cell K) (h : a.index ≠ b.index) :
    exteriorUpstream g b a = !exteriorUpstream g a b := by
  rcases lt_trichotomy (pressureDifference g a b) 0 with hlt | heq | hgt
  · rw [exteriorUpstream_neg hlt, exteriorUpstream_pos (by rw [pressureDifference_swap]; linarith)]; rfl
  · have h' : pressureDifference g b a = 0 := by rw [pressureDifference_swap, heq, neg_zero]
    simp only [exteriorUpstream, heq, h', lt_irrefl, if_false]
    rcases lt_trichotomy a.volume b.volume with v | v | v
    · simp [v, not_lt.2 v.le]
    · simp only [v, lt_irrefl, if_false]
      rcases lt_or_gt_of_ne h with i | i
      · simp [i, not_lt.2 i.le]
      · simp [i, not_lt.2 i.le]
    · simp [v, not_lt.2 v.le]
  · rw [exteriorUpstream_pos hgt, exteriorUpstream_neg (by rw [pressureDifference_swap]; linarith)]; rfl

/-- **C82** What leaves one cell over a face enters the other. -/
theorem C82_transmissibility (g trans : K) (a b : Cell K) (contentA contentB : K) (h : a.index ≠ b.index) :
    transContentFlux g trans b a contentB contentA = - transContentFlux g trans a b contentA contentB := by
  unfold transContentFlux transFlux
  by_cases hm : a.mobility ≤ 0 ∧ b.mobility ≤ 0
  · rw [if_pos hm, if_pos hm.symm]; simp
  · rw [if_neg hm, if_neg (fun h => hm h.symm)]
    simp only [C82_upstream_agreed g a b h, pressureDifference_swap g a b]
    cases exteriorUpstream g a b <;> simp only [Bool.not_false, Bool.not_true, Bool.false_eq_true, if_true, if_false] <;> ring

/-- **C82** The same for the two-point flux linearizer. -/
theorem C82_tpfa (g trans faceArea multA multB : K) (a b : Cell K) (contentA contentB : K) (h : a.index ≠ b.index) :
    tpfaContentFlux g trans faceArea multB multA b a contentB contentA =
      - tpfaContentFlux g trans faceArea multA multB a b contentA contentB := by
  unfold tpfaContentFlux
  simp only [C82_upstream_agreed g a b h, pressureDifference_swap g a b]
  cases exteriorUpstream g a b <;> simp only [Bool.not_false, Bool.not_true, Bool.false_eq_true, if_true, if_false] <;> ring

/-! ### C83 -/

/-- **C83** Nothing flows if the pressures differ by the weight of the fluid between the cells. -/
theorem C83_transmissibility (g trans : K) (a b : Cell K) (contentA contentB : K)
    (h : b.pressure - a.pressure = (a.density + b.density) / 2 * (g * (b.z - a.z))) :
    transContentFlux g trans a b contentA contentB = 0 := by
  have hz : pressureDifference g a b = 0 := by
    have : b.pressure = a.pressure + (a.density + b.density) / 2 * (g * (b.z - a.z)) := by linarith
    unfold pressureDifference; rw [this]; ring
  unfold transContentFlux transFlux
  by_cases hm : a.mobility ≤ 0 ∧ b.mobility ≤ 0
  · rw [if_pos hm]; simp
  · rw [if_neg hm]; simp [hz]

/-- **C83** The same for the two-point flux linearizer. -/
theorem C83_tpfa (g trans faceArea multA multB : K) (a b : Cell K) (contentA contentB : K)
    (h : b.pressure - a.pressure = (a.density + b.density) / 2 * (g * (b.z - a.z))) :
    tpfaContentFlux g trans faceArea multA multB a b contentA contentB = 0 := by
  have hz : pressureDifference g a b = 0 := by
    have : b.pressure = a.pressure + (a.density + b.density) / 2 * (g * (b.z - a.z)) := by linarith
    unfold pressureDifference; rw [this]; ring
  unfold tpfaContentFlux
  simp [hz]

-- water of density 1000 at rest in two cells which are 2 m apart
example : (980:ℚ) + 19620 - 980 = (1000 + 1000) / 2 * (-(981/100) * (3 - 5)) := by norm_num

/-! ### C84 -/

/-- **C84** The flow goes down the potential, proportionally to its drop, to the transmissibility and to the mobility of
the cell it comes from, and it carries the content of that cell. -/
theorem C84_transmissibility (g trans : K) (a b : Cell K) (contentA contentB : K) (ha : 0 ≤ a.mobility) (hb : 0 ≤ b.mobility) :
    (pressureDifference g a b < 0 → transContentFlux g trans a b contentA contentB =
      contentA * (a.mobility * trans * (- pressureDifference g a b))) ∧
    (0 < pressureDifference g a b → transContentFlux g trans a b contentA contentB =
      contentB * (b.mobility * trans * (- pressureDifference g a b))) := by
  unfold transContentFlux transFlux
  by_cases hm : a.mobility ≤ 0 ∧ b.mobility ≤ 0
  · rw [if_pos hm]
    have e1 : a.mobility = 0 := le_antisymm hm.1 ha
    have e2 : b.mobility = 0 := le_antisymm hm.2 hb
    constructor <;> intro <;> simp [e1, e2]
  · rw [if_neg hm]
    constructor
    · intro h; rw [exteriorUpstream_neg h]; simp only [Bool.false_eq_true, if_false]; ring
    · intro h; rw [exteriorUpstream_pos h]; simp only [if_true]; ring

/-- **C84** If something flows out of the interior cell, its content is that of the interior cell; if something flows in, it
is that of the exterior one. -/
theorem C84_transmissibility_upstream (g trans : K) (a b : Cell K) (contentA contentB : K) (ha : 0 ≤ a.mobility)
    (hb : 0 ≤ b.mobility) (ht : 0 ≤ trans) :
    (0 < (transFlux g trans a b).2 → transContentFlux g trans a b contentA contentB = (transFlux g trans a b).2 * contentA) ∧
    ((transFlux g trans a b).2 < 0 → transContentFlux g trans a b contentA contentB = (transFlux g trans a b).2 * contentB) := by
  unfold transContentFlux transFlux
  by_cases hm : a.mobility ≤ 0 ∧ b.mobility ≤ 0
  · rw [if_pos hm]; simp
  · rw [if_neg hm]
    rcases lt_trichotomy (pressureDifference g a b) 0 with hlt | heq | hgt
    · rw [exteriorUpstream_neg hlt]
      simp only [Bool.false_eq_true, if_false]
      refine ⟨fun _ => trivial, fun h => absurd h (not_lt.2 ?_)⟩
      have := mul_nonneg (mul_nonneg (neg_nonneg.2 hlt.le) ha) ht
      linarith
    · simp [heq]
    · rw [exteriorUpstream_pos hgt]
      simp only [if_true]
      refine ⟨fun h => absurd h (not_lt.2 ?_), fun _ => trivial⟩
      have := mul_nonneg (mul_nonneg hgt.le hb) ht
      linarith

example : (transFlux (-10) 2 (⟨1, 0, 0, 100, 1, 3⟩ : Cell ℚ) ⟨1, 1, 1, 95, 1, 7⟩) = (true, -70) := by decide +kernel
example : (transFlux (-10) 2 (⟨1, 0, 0, 110, 1, 3⟩ : Cell ℚ) ⟨1, 1, 1, 95, 1, 7⟩) = (false, 30) := by decide +kernel

/-! ### C90: transmissibilities -/

/-- The same face, seen from the other side. -/
def Face.flip (f : Face K dim) : Face K dim := ⟨f.pos, fun k => - f.normal k, f.exterior, f.interior⟩

theorem foldl_main (normal : Vec K (dim + 1)) (l : List (Fin (dim + 1))) (s : Fin (dim + 1) × K)
    (hs : s.2 ≤ |normal s.1|) :
    let r := l.foldl (fun (s : Fin (dim + 1) × K) i => if s.2 < |normal i| then (i, |normal i|) else s) s
    r.2 ≤ |normal r.1| ∧ s.2 ≤ r.2 ∧ ∀ i ∈ l, |normal i| ≤ r.2 := by
  induction l generalizing s with
  | nil => exact ⟨hs, le_refl _, fun _ h => absurd h (List.not_mem_nil)⟩
  | cons i l ih =>
    simp only [List.foldl_cons]
    by_cases h : s.2 < |normal i|
    · rw [if_pos h]
      obtain ⟨h1, h2, h3⟩ := ih (i, |normal i|) (le_refl _)
      refine ⟨h1, h.le.trans h2, fun j hj => ?_⟩
      rcases List.mem_cons.1 hj with rfl | hj
      · exact h2
      · exact h3 j hj
    · rw [if_neg h]
      obtain ⟨h1, h2, h3⟩ := ih s hs
      refine ⟨h1, h2, fun j hj => ?_⟩
      rcases List.mem_cons.1 hj with rfl | hj
      · exact (not_lt.1 h).trans h2
      · exact h3 j hj

/-- **C90** The permeability which counts is the one in the direction in which the face is looking. -/
theorem C90_main_direction (normal : Vec K (dim + 1)) (i : Fin (dim + 1)) : |normal i| ≤ |normal (mainDirection normal)| := by
  have := foldl_main normal (List.finRange (dim + 1)) (0, 0) (abs_nonneg _)
  exact (this.2.2 i (List.mem_finRange i)).trans this.1

theorem mainDirection_flip (normal : Vec K (dim + 1)) : mainDirection (fun k => - normal k) = mainDirection normal := by
  unfold mainDirection
  simp only [abs_neg]

theorem halfTrans_flip (perm : Fin (dim + 1) → Vec K (dim + 1)) (f : Face K dim) (c : Vec K (dim + 1)) :
    halfTrans perm f.flip c = halfTrans perm f c := by
  unfold halfTrans Face.flip
  simp only [mainDirection_flip, dot_neg_left, abs_neg]

/-- **C90** The transmissibility of a face is the same from both sides. -/
theorem C90_symmetric (perm0 perm1 : Fin (dim + 1) → Vec K (dim + 1)) (f : Face K dim) (c0 c1 : Vec K (dim + 1)) :
    transmissibility perm1 perm0 f.flip c1 c0 = transmissibility perm0 perm1 f c0 c1 := by
  unfold transmissibility
  simp only [halfTrans_flip]
  rw [mul_comm, add_comm]

/-- **C90** It is positive, and the resistances of the two half cells add up, if the permeabilities are positive and the
face is not seen edge-on from one of the centres. -/
theorem C90_series (perm0 perm1 : Fin (dim + 1) → Vec K (dim + 1)) (f : Face K dim) (c0 c1 : Vec K (dim + 1))
    (h0 : ∀ i, 0 < perm0 i i) (h1 : ∀ i, 0 < perm1 i i)
    (n0 : dot f.normal (fun k => f.pos k - c0 k) ≠ 0) (n1 : dot f.normal (fun k => f.pos k - c1 k) ≠ 0) :
    0 < transmissibility perm0 perm1 f c0 c1 ∧
    (transmissibility perm0 perm1 f c0 c1)⁻¹ = (halfTrans perm0 f c0)⁻¹ + (halfTrans perm1 f c1)⁻¹ := by
  have pos : ∀ (perm : Fin (dim + 1) → Vec K (dim + 1)) (c : Vec K (dim + 1)), (∀ i, 0 < perm i i) →
      dot f.normal (fun k => f.pos k - c k) ≠ 0 → 0 < halfTrans perm f c := by
    intro perm c hp hn
    unfold halfTrans
    have hd : 0 < dot (fun k => f.pos k - c k) (fun k => f.pos k - c k) := by
      refine dot_self_pos (v := f.normal) fun h => hn ?_
      rw [← h]; unfold dot; exact Finset.sum_congr rfl fun k _ => mul_comm _ _
    exact div_pos (mul_pos (hp _) (abs_pos.2 hn)) hd
  have p0 := pos perm0 c0 h0 n0
  have p1 := pos perm1 c1 h1 n1
  unfold transmissibility
  dsimp only
  refine ⟨by positivity, ?_⟩
  field_simp
  ring

/-- The half transmissibility of the boundary face `bfIdx` of a stencil. -/
def BoundaryTrans (st : Stencil K dim) (perm : ℕ → Fin (dim + 1) → Vec K (dim + 1)) (bfIdx : ℕ) (t : K) : Prop :=
  ∃ f, st.boundaryFaces[bfIdx]? = some f ∧ t = halfTrans (perm f.interior) f (st.center f.interior)

/-- The left cell of a row of two, of size 2: the only interior face is on the right, the boundary on the left, and the
right cell is twice as far away. -/
def leftCell : Stencil ℚ 0 :=
  ⟨[⟨fun _ => 2, fun _ => 1, 0, 1⟩], [⟨fun _ => 0, fun _ => -1, 0, 0⟩, ⟨fun _ => 0, fun _ => -1, 0, 0⟩],
    fun i => if i = 0 then fun _ => 1/2 else fun _ => 4⟩

/-- "The transmissibility of a boundary face is that of the boundary face" is FALSE: the face is looked up among the
interior faces.  For the first boundary face the result is the one for another face, for the second one memory beyond the
interior faces is read. -/
theorem C90_boundary_violated :
    ∃ (st : Stencil ℚ 0) (perm : ℕ → Fin 1 → Vec ℚ 1) (t0 t1 : ℚ),
      BoundaryTrans st perm 0 t0 ∧ BoundaryTrans st perm 1 t1 ∧
      transmissibilityBoundary st perm 0 ≠ some t0 ∧ transmissibilityBoundary st perm 1 = none := by
  refine ⟨leftCell, fun _ _ _ => 1, 2, 2, ⟨_, rfl, ?_⟩, ⟨_, rfl, ?_⟩, ?_, ?_⟩ <;> decide +kernel

/-- **C90** The boundary transmissibility is right if the interior face with the same index is the boundary face and its
normal points outwards.  Missing for the full property: everything else, see `C90_boundary_violated`. -/
theorem C90_boundary_partial (st : Stencil K dim) (perm : ℕ → Fin (dim + 1) → Vec K (dim + 1)) (bfIdx : ℕ) (f : Face K dim)
    (hb : st.boundaryFaces[bfIdx]? = some f) (hi : st.interiorFaces[bfIdx]? = some f)
    (hn : 0 ≤ dot f.normal (fun k => f.pos k - st.center f.interior k)) :
    ∃ t, transmissibilityBoundary st perm bfIdx = some t ∧ BoundaryTrans st perm bfIdx t := by
  refine ⟨_, by rw [transmissibilityBoundary, hi]; rfl, f, hb, ?_⟩
  unfold halfTrans
  simp only [abs_of_nonneg hn]

end Verif.Flux
