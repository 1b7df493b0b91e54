import Verif.Flux.Darcy
import Mathlib.Algebra.Order.BigOperators.Ring.Finset
import Mathlib.Tactic.Ring
import Mathlib.Tactic.Linarith
import Mathlib.Tactic.FieldSimp
import Mathlib.Tactic.NormNum
import Mathlib.Tactic.FinCases

set_option autoImplicit false
set_option linter.unusedSectionVars false
/-
C82-C85, C87 for the Darcy flux module.
-/
namespace Verif.Flux

variable {K : Type} [Field K] [LinearOrder K] {dim : ℕ}

/-! ### Specification -/

/-- The vector from one volume to the other. -/
def distance (a b : Side K dim) : Vec K dim := fun k => b.pos k - a.pos k

/-- The difference of the pressures of the exterior and the interior volume which is not balanced by the weight of the
fluid between them: from the interior volume to the face it has the density of the interior volume, from there on that of
the exterior one. -/
def potentialDifference (facePos : Vec K dim) (a b : Side K dim) : K :=
  b.pressure - a.pressure
    - (a.density * dot a.gravity (fun k => facePos k - a.pos k) + b.density * dot b.gravity (fun k => b.pos k - facePos k))

/-- The fluid is at rest between the volumes: constant density and gravity, hydrostatic pressure. -/
structure AtRest (a b : Side K dim) : Prop where
  density : b.density = a.density
  gravity : b.gravity = a.gravity
  pressure : b.pressure - a.pressure = a.density * dot a.gravity (distance a b)

/-! ### Lemmas -/

theorem dot_smul_left (c : K) (u v : Vec K dim) : dot (fun k => c * u k) v = c * dot u v := by
  unfold dot; rw [Finset.mul_sum]; exact Finset.sum_congr rfl fun k _ => by ring

theorem dot_smul_right (c : K) (u v : Vec K dim) : dot u (fun k => c * v k) = c * dot u v := by
  unfold dot; rw [Finset.mul_sum]; exact Finset.sum_congr rfl fun k _ => by ring

theorem dot_neg_right (u v : Vec K dim) : dot u (fun k => - v k) = - dot u v := by
  unfold dot; rw [← Finset.sum_neg_distrib]; exact Finset.sum_congr rfl fun k _ => by ring

theorem dot_neg_left (u v : Vec K dim) : dot (fun k => - u k) v = - dot u v := by
  unfold dot; rw [← Finset.sum_neg_distrib]; exact Finset.sum_congr rfl fun k _ => by ring

theorem dot_sub_right (u v w : Vec K dim) : dot u (fun k => v k - w k) = dot u v - dot u w := by
  unfold dot; rw [← Finset.sum_sub_distrib]; exact Finset.sum_congr rfl fun k _ => by ring

theorem dot_swap (u v : Vec K dim) :
    dot (fun k => u k - v k) (fun k => u k - v k) = dot (fun k => v k - u k) (fun k => v k - u k) := by
  unfold dot; exact Finset.sum_congr rfl fun k _ => by ring

/-- The potential gradient points along the line between the volumes. -/
theorem potentialGrad_gravity (facePos : Vec K dim) (a b : Side K dim) :
    potentialGrad true facePos a b = fun k => potentialDifference facePos a b / dot (distance a b) (distance a b) * distance a b k := by
  funext k
  have hdist : distance a b = fun k => b.pos k - a.pos k := rfl
  simp only [potentialGrad, gradient, potentialDifference, hdist, if_true]
  have e1 : dot a.gravity (fun k => facePos k - a.pos k) = - dot a.gravity (fun k => a.pos k - facePos k) := by
    rw [← dot_neg_right]; congr 1; funext k; ring
  rw [e1]
  ring

theorem potentialGrad_plain (facePos : Vec K dim) (a b : Side K dim) :
    potentialGrad false facePos a b = fun k => (b.pressure - a.pressure) / dot (distance a b) (distance a b) * distance a b k := by
  funext k
  have hdist : distance a b = fun k => b.pos k - a.pos k := rfl
  simp only [potentialGrad, gradient, hdist, Bool.false_eq_true, if_false]
  ring

/-- The difference of the potentials which drives the flow. -/
def driving (enableGravity : Bool) (facePos : Vec K dim) (a b : Side K dim) : K :=
  if enableGravity then potentialDifference facePos a b else b.pressure - a.pressure

theorem potentialGrad_eq (g : Bool) (facePos : Vec K dim) (a b : Side K dim) :
    potentialGrad g facePos a b = fun k => driving g facePos a b / dot (distance a b) (distance a b) * distance a b k := by
  cases g
  · exact potentialGrad_plain facePos a b
  · exact potentialGrad_gravity facePos a b

theorem fluxOf_smul (perm : Fin dim → Vec K dim) (c : K) (v normal : Vec K dim) (mob : K) :
    fluxOf perm (fun k => c * v k) normal mob = - mob * c * dot (mulVec perm v) normal := by
  unfold fluxOf
  have : (fun i => mulVec perm (fun k => c * v k) i * (- mob)) = fun i => (- mob * c) * mulVec perm v i := by
    funext i
    simp only [mulVec]
    rw [dot_smul_right]
    ring
  rw [this, dot_smul_left]

theorem driving_swap (g : Bool) (facePos : Vec K dim) (a b : Side K dim) :
    driving g facePos b a = - driving g facePos a b := by
  cases g
  · simp [driving]
  · simp only [driving, potentialDifference, if_true]
    have e1 : dot b.gravity (fun k => facePos k - b.pos k) = - dot b.gravity (fun k => b.pos k - facePos k) := by
      rw [← dot_neg_right]; congr 1; funext k; ring
    have e2 : dot a.gravity (fun k => a.pos k - facePos k) = - dot a.gravity (fun k => facePos k - a.pos k) := by
      rw [← dot_neg_right]; congr 1; funext k; ring
    rw [e1, e2]; ring

theorem harmonicMean_comm (x y : K) : harmonicMean x y = harmonicMean y x := by
  unfold harmonicMean; rw [mul_comm x y, add_comm x y, mul_right_comm]

theorem facePermeability_comm (k1 k2 : Fin dim → Vec K dim) : facePermeability k1 k2 = facePermeability k2 k1 := by
  funext i j; exact harmonicMean_comm _ _

variable [IsStrictOrderedRing K]

theorem dot_self_nonneg (u : Vec K dim) : 0 ≤ dot u u := Finset.sum_nonneg fun _ _ => mul_self_nonneg _

theorem dot_self_pos {u v : Vec K dim} (h : dot u v ≠ 0) : 0 < dot u u := by
  refine lt_of_le_of_ne (dot_self_nonneg u) fun h0 => h ?_
  have hz : ∀ k ∈ Finset.univ, u k * u k = 0 := (Finset.sum_eq_zero_iff_of_nonneg fun k _ => mul_self_nonneg (u k)).1 h0.symm
  unfold dot
  refine Finset.sum_eq_zero fun k hk => ?_
  have := mul_self_eq_zero.1 (hz k hk)
  rw [this, zero_mul]

/-- For a face whose normal points from the interior to the exterior volume, the exterior volume is the upstream one
exactly if the potential is higher there. -/
theorem upstream_iff (g : Bool) (facePos normal : Vec K dim) (a b : Side K dim) (h : 0 < dot (distance a b) normal) :
    exteriorIsUpstream (potentialGrad g facePos a b) normal = decide (0 < driving g facePos a b) := by
  unfold exteriorIsUpstream
  rw [potentialGrad_eq, dot_smul_left]
  have hd := dot_self_pos h.ne'
  congr 1
  rw [div_mul_eq_mul_div, div_pos_iff_of_pos_right hd, mul_pos_iff_of_pos_right h]

/-! ### C84: the flow is driven by potential differences and takes what is upstream -/

/-- **C84** The volume flux from the interior to the exterior volume is the upstream mobility, times the drop of the
potential, times what the permeability and the geometry of the face give: upstream is where the potential is higher. -/
theorem C84_darcy_law (g : Bool) (facePos normal : Vec K dim) (perm : Fin dim → Vec K dim) (a b : Side K dim)
    (h : 0 < dot (distance a b) normal) :
    volumeFlux g facePos normal perm a b =
      (if 0 < driving g facePos a b then b.mobility else a.mobility) * (- driving g facePos a b)
        * (dot (mulVec perm (distance a b)) normal / dot (distance a b) (distance a b)) := by
  unfold volumeFlux
  simp only [upstream_iff g facePos normal a b h, decide_eq_true_eq]
  rw [potentialGrad_eq, fluxOf_smul]
  ring

/-- **C84** If the permeability turns the direction between the volumes by less than a right angle away from the normal,
then what flows out of the interior volume is the fluid of the interior volume, and what flows into it is that of the
exterior one.  Missing for the full property: other permeabilities, see `C84_darcy_anisotropic_violated`. -/
theorem C84_darcy_upstream_partial (g : Bool) (facePos normal : Vec K dim) (perm : Fin dim → Vec K dim) (a b : Side K dim)
    (contentA contentB : K) (ha : 0 ≤ a.mobility) (hb : 0 ≤ b.mobility)
    (h : 0 < dot (distance a b) normal) (hk : 0 ≤ dot (mulVec perm (distance a b)) normal) :
    (0 < volumeFlux g facePos normal perm a b →
      advectiveFlux g facePos normal perm a b contentA contentB = volumeFlux g facePos normal perm a b * contentA) ∧
    (volumeFlux g facePos normal perm a b < 0 →
      advectiveFlux g facePos normal perm a b contentA contentB = volumeFlux g facePos normal perm a b * contentB) := by
  have hd := dot_self_pos h.ne'
  have hq : 0 ≤ dot (mulVec perm (distance a b)) normal / dot (distance a b) (distance a b) := div_nonneg hk hd.le
  unfold advectiveFlux
  simp only [upstream_iff g facePos normal a b h, decide_eq_true_eq]
  rw [C84_darcy_law g facePos normal perm a b h]
  constructor
  · intro hp
    by_cases hdr : 0 < driving g facePos a b
    · rw [if_pos hdr] at hp
      exact absurd hp (not_lt.2 (mul_nonpos_of_nonpos_of_nonneg (mul_nonpos_of_nonneg_of_nonpos hb (by linarith)) hq))
    · simp only [if_neg hdr]
  · intro hp
    by_cases hdr : 0 < driving g facePos a b
    · simp only [if_pos hdr]
    · rw [if_neg hdr] at hp
      exact absurd hp (not_lt.2 (mul_nonneg (mul_nonneg ha (by linarith [not_lt.1 hdr])) hq))

/-- Two volumes at distance (1,1). -/
def lower : Side ℚ 2 := ⟨fun _ => 0, fun _ => 0, 1, 1, 1⟩
def upper : Side ℚ 2 := ⟨fun _ => 1, fun _ => 0, 0, 1, 1⟩
/-- A permeability which is a hundred times larger in the second direction. -/
def layered : Fin 2 → Vec ℚ 2 := fun i j => if i = j then (if i = 0 then 1 else 100) else 0

/-- "What flows out of a volume is its own fluid" is FALSE if the permeability is anisotropic and the grid is not aligned
with it: the flow goes into the interior volume, but the upstream volume is decided without the permeability, so that the
fluid which flows in is the one which is there already. -/
theorem C84_darcy_anisotropic_violated :
    ∃ (a b : Side ℚ 2) (normal : Vec ℚ 2) (perm : Fin 2 → Vec ℚ 2), (∀ i, 0 < perm i i) ∧ 0 < dot (distance a b) normal ∧
      volumeFlux true (fun _ => 1/2) normal perm a b < 0 ∧
      ∀ contentA contentB, advectiveFlux true (fun _ => 1/2) normal perm a b contentA contentB =
        volumeFlux true (fun _ => 1/2) normal perm a b * contentA := by
  refine ⟨lower, upper, fun i => if i = 0 then 1 else -1/2, layered, by decide, by decide +kernel, by decide +kernel, ?_⟩
  intro ca cb
  have : exteriorIsUpstream (potentialGrad true (fun _ => (1:ℚ)/2) lower upper) (fun i => if i = 0 then 1 else -1/2) = false := by
    decide +kernel
  simp only [advectiveFlux, this, Bool.false_eq_true, if_false]

/-! ### C82: what leaves one volume enters the other -/

/-- **C82** The flux computed for the exterior volume is the opposite of the one computed for the interior volume, unless
the line between the volumes lies in the plane of the face.  Missing for the full property: those faces, see
`C82_darcy_violated`. -/
theorem C82_darcy_partial (g : Bool) (facePos normal : Vec K dim) (k1 k2 : Fin dim → Vec K dim) (a b : Side K dim)
    (contentA contentB : K) (h : dot (distance a b) normal ≠ 0) :
    advectiveFlux g facePos (fun k => - normal k) (facePermeability k2 k1) b a contentB contentA =
      - advectiveFlux g facePos normal (facePermeability k1 k2) a b contentA contentB := by
  have hd := dot_self_pos h
  have hrev : distance b a = fun k => - distance a b k := by funext k; simp only [distance]; ring
  have hdd : dot (distance b a) (distance b a) = dot (distance a b) (distance a b) := by
    rw [hrev, dot_neg_left, dot_neg_right, neg_neg]
  have hg : potentialGrad g facePos b a = potentialGrad g facePos a b := by
    rw [potentialGrad_eq, potentialGrad_eq, driving_swap, hdd, hrev]
    funext k; ring
  unfold advectiveFlux volumeFlux
  simp only [hg, facePermeability_comm k2 k1]
  have hflux : ∀ (gr : Vec K dim) (m : K), fluxOf (facePermeability k1 k2) gr (fun k => - normal k) m =
      - fluxOf (facePermeability k1 k2) gr normal m := by
    intro gr m; unfold fluxOf; rw [dot_neg_right]
  simp only [hflux]
  have hup : ∀ gr : Vec K dim, dot gr (fun k => - normal k) = - dot gr normal := fun gr => dot_neg_right gr normal
  rcases lt_trichotomy (dot (potentialGrad g facePos a b) normal) 0 with hlt | heq | hgt
  · have e1 : exteriorIsUpstream (potentialGrad g facePos a b) (fun k => - normal k) = true := by
      unfold exteriorIsUpstream; rw [hup]; simpa using hlt
    have e2 : exteriorIsUpstream (potentialGrad g facePos a b) normal = false := by
      unfold exteriorIsUpstream; simpa using hlt.le
    simp [e1, e2]
  · have hz : driving g facePos a b / dot (distance a b) (distance a b) = 0 := by
      rw [potentialGrad_eq, dot_smul_left] at heq
      exact (mul_eq_zero.1 heq).resolve_right h
    have hgz : potentialGrad g facePos a b = fun k => 0 * distance a b k := by rw [potentialGrad_eq, hz]
    rw [hgz, fluxOf_smul, fluxOf_smul]
    ring
  · have e1 : exteriorIsUpstream (potentialGrad g facePos a b) (fun k => - normal k) = false := by
      unfold exteriorIsUpstream; rw [hup]; simpa using hgt.le
    have e2 : exteriorIsUpstream (potentialGrad g facePos a b) normal = true := by
      unfold exteriorIsUpstream; simpa using hgt
    simp [e1, e2]

-- an oblique face between two volumes with different fluids and permeabilities
example : dot (distance lower upper) (fun i => if i = 0 then 1 else -1/2 : Vec ℚ 2) ≠ 0 := by decide +kernel

/-- A full permeability tensor. -/
def tensor : Fin 2 → Vec ℚ 2 := fun i j => if i = j then 2 else 1
def left : Side ℚ 2 := ⟨fun _ => 0, fun _ => 0, 1, 1, 1⟩
def right : Side ℚ 2 := ⟨fun i => if i = 0 then 1 else 0, fun _ => 0, 0, 1, 3⟩

/-- "What leaves one volume enters the other" is FALSE if the line between the volumes lies in the plane of the face: each
of the volumes regards itself as the upstream one, so that mass is created. -/
theorem C82_darcy_violated :
    ∃ (a b : Side ℚ 2) (normal : Vec ℚ 2) (k : Fin 2 → Vec ℚ 2),
      advectiveFlux true (fun _ => 0) (fun i => - normal i) (facePermeability k k) b a b.density a.density
        + advectiveFlux true (fun _ => 0) normal (facePermeability k k) a b a.density b.density ≠ 0 :=
  ⟨left, right, fun i => if i = 0 then 0 else 1, tensor, by decide +kernel⟩

/-! ### C83: fluids at rest -/

/-- **C83** Nothing flows over the face if the difference of the pressures is the weight of the fluid in between, whatever
the densities and gravities of the two volumes are. -/
theorem C83_darcy (facePos normal : Vec K dim) (perm : Fin dim → Vec K dim) (a b : Side K dim) (contentA contentB : K)
    (h : b.pressure - a.pressure =
      a.density * dot a.gravity (fun k => facePos k - a.pos k) + b.density * dot b.gravity (fun k => b.pos k - facePos k)) :
    advectiveFlux true facePos normal perm a b contentA contentB = 0 := by
  have hz : driving true facePos a b = 0 := by
    simp only [driving, potentialDifference, if_true]; rw [h]; ring
  unfold advectiveFlux volumeFlux
  dsimp only
  rw [potentialGrad_eq, hz, fluxOf_smul]
  ring

/-- **C83** In particular for a fluid at rest in a hydrostatic pressure field, wherever the face is. -/
theorem C83_darcy_hydrostatic (facePos normal : Vec K dim) (perm : Fin dim → Vec K dim) (a b : Side K dim)
    (contentA contentB : K) (h : AtRest a b) : advectiveFlux true facePos normal perm a b contentA contentB = 0 := by
  refine C83_darcy facePos normal perm a b contentA contentB ?_
  rw [h.pressure, h.density, h.gravity, ← mul_add]
  congr 1
  have hdist : distance a b = fun k => b.pos k - a.pos k := rfl
  simp only [hdist, dot_sub_right]
  ring

example : AtRest (⟨fun _ => 0, fun i => if i = 1 then -10 else 0, 100, 3, 1⟩ : Side ℚ 2)
    ⟨fun _ => 2, fun i => if i = 1 then -10 else 0, 40, 3, 5⟩ := ⟨rfl, rfl, by decide +kernel⟩

/-- **C83** At the boundary nothing flows either, if the pressure is prescribed such that it is in equilibrium with the one
in the volume and if the volume is a cell.  Missing for the full property: volumes around vertices, see
`C83_vertex_boundary_violated`. -/
theorem C83_boundary_partial (facePos normal : Vec K dim) (perm : Fin dim → Vec K dim) (a : Side K dim) (o : Outside K)
    (contentIn contentOut : K)
    (h : o.pressure - a.pressure = a.density * dot a.gravity (fun k => facePos k - a.pos k)) :
    freeFlow true facePos a.pos normal perm a o contentIn contentOut = 0 := by
  have hz : boundaryPotentialGrad true facePos a.pos a o = fun k => (0 : K) * (facePos k - a.pos k) := by
    funext k
    simp only [boundaryPotentialGrad, gradient, if_true, h]
    have e1 : dot a.gravity (fun k => facePos k - a.pos k) = - dot a.gravity (fun k => a.pos k - facePos k) := by
      rw [← dot_neg_right]; congr 1; funext k; ring
    rw [e1, dot_swap facePos a.pos]
    ring
  unfold freeFlow boundaryVolumeFlux
  dsimp only
  rw [hz, fluxOf_smul]
  ring

/-- The lower left corner of a grid of unit squares: the vertex is at the origin, the volume is a square of half the size. -/
def corner : Side ℚ 2 := ⟨fun _ => 0, fun i => if i = 1 then -1 else 0, 1, 1, 1⟩

/-- "Fluids at rest stay at rest" is FALSE at boundaries of volumes around vertices: the pressure gradient is computed with
the centre of the volume, but with the pressure at the vertex. -/
theorem C83_vertex_boundary_violated :
    ∃ (facePos center normal : Vec ℚ 2) (o : Outside ℚ),
      (∀ i, center i = 1/4) ∧ facePos 0 = 0 ∧ facePos 1 = 1/4 ∧ normal 0 = -1 ∧ normal 1 = 0 ∧
      o.pressure - corner.pressure = corner.density * dot corner.gravity (fun k => facePos k - corner.pos k) ∧
      freeFlow true facePos center normal (fun i j => if i = j then 1 else 0) corner o corner.density o.density ≠ 0 :=
  ⟨fun i => if i = 1 then 1/4 else 0, fun _ => 1/4, fun i => if i = 0 then -1 else 0, ⟨3/4, 1, 1⟩,
    fun _ => rfl, rfl, rfl, rfl, rfl, by decide +kernel, by decide +kernel⟩

/-! ### C85: what comes in over a free-flow boundary is the prescribed fluid -/

/-- **C85** Without gravity, what flows out is the fluid of the volume and what flows in is the prescribed one.  Missing for
the full property: gravity, see `C85_gravity_violated`. -/
theorem C85_free_flow_partial (facePos normal : Vec K dim) (perm : Fin dim → Vec K dim) (a : Side K dim) (o : Outside K)
    (contentIn contentOut : K) (ha : 0 ≤ a.mobility) (ho : 0 ≤ o.mobility)
    (h : 0 < dot (fun k => facePos k - a.pos k) normal) (hk : 0 ≤ dot (mulVec perm fun k => facePos k - a.pos k) normal) :
    (0 < boundaryVolumeFlux false facePos a.pos normal perm a o →
      freeFlow false facePos a.pos normal perm a o contentIn contentOut =
        boundaryVolumeFlux false facePos a.pos normal perm a o * contentIn) ∧
    (boundaryVolumeFlux false facePos a.pos normal perm a o < 0 →
      freeFlow false facePos a.pos normal perm a o contentIn contentOut =
        boundaryVolumeFlux false facePos a.pos normal perm a o * contentOut) := by
  have hd := dot_self_pos h.ne'
  have hgr : boundaryPotentialGrad false facePos a.pos a o =
      fun k => (o.pressure - a.pressure) / dot (fun k => facePos k - a.pos k) (fun k => facePos k - a.pos k) * (facePos k - a.pos k) := by
    funext k
    simp only [boundaryPotentialGrad, gradient, Bool.false_eq_true, if_false]
    ring
  have hq : 0 ≤ dot (mulVec perm fun k => facePos k - a.pos k) normal /
      dot (fun k => facePos k - a.pos k) (fun k => facePos k - a.pos k) := div_nonneg hk hd.le
  have hup : exteriorIsUpstream (boundaryPotentialGrad false facePos a.pos a o) normal = decide (a.pressure < o.pressure) := by
    unfold exteriorIsUpstream
    rw [hgr, dot_smul_left]
    congr 1
    rw [div_mul_eq_mul_div, div_pos_iff_of_pos_right hd, mul_pos_iff_of_pos_right h, sub_pos]
  have hv : boundaryVolumeFlux false facePos a.pos normal perm a o =
      (if a.pressure < o.pressure then o.mobility else a.mobility) * (a.pressure - o.pressure) *
        (dot (mulVec perm fun k => facePos k - a.pos k) normal / dot (fun k => facePos k - a.pos k) (fun k => facePos k - a.pos k)) := by
    unfold boundaryVolumeFlux
    simp only [hup, decide_eq_true_eq]
    rw [hgr, fluxOf_smul]
    ring
  unfold freeFlow
  rw [hv]
  constructor
  · intro hp
    by_cases hc : a.pressure < o.pressure
    · rw [if_pos hc] at hp
      exact absurd hp (not_lt.2 (mul_nonpos_of_nonpos_of_nonneg (mul_nonpos_of_nonneg_of_nonpos ho (by linarith)) hq))
    · simp only [if_neg hc]
  · intro hp
    by_cases hc : a.pressure < o.pressure
    · simp only [if_pos hc]
    · rw [if_neg hc] at hp
      exact absurd hp (not_lt.2 (mul_nonneg (mul_nonneg ha (by linarith [not_lt.1 hc])) hq))

/-- "What comes in is the prescribed fluid" is FALSE with gravity: the fluid enters at the top of the domain although the
pressure is lower there, and its content is taken from the volume. -/
theorem C85_gravity_violated :
    ∃ (a : Side ℚ 1) (o : Outside ℚ), boundaryVolumeFlux true (fun _ => 1) a.pos (fun _ => 1) (fun _ _ => 1) a o < 0 ∧
      ∀ contentIn contentOut, freeFlow true (fun _ => 1) a.pos (fun _ => 1) (fun _ _ => 1) a o contentIn contentOut =
        boundaryVolumeFlux true (fun _ => 1) a.pos (fun _ => 1) (fun _ _ => 1) a o * contentIn := by
  refine ⟨⟨fun _ => 0, fun _ => -1, 10, 1, 1⟩, ⟨19/2, 1, 1⟩, by decide +kernel, fun ci co => ?_⟩
  unfold freeFlow
  rw [if_neg (by decide +kernel)]

/-! ### C87: one-way boundaries -/

/-- The rate of one equation at a free-flow boundary: all phases, `contentIn p` and `contentOut p` are the amounts of the
conserved quantity per volume of phase `p` in the volume and in the prescribed fluid. -/
def freeFlowRate {ι : Type} [Fintype ι] (g : Bool) (facePos center normal : Vec K dim) (perm : Fin dim → Vec K dim)
    (a : ι → Side K dim) (o : ι → Outside K) (contentIn contentOut : ι → K) : K :=
  ∑ p, freeFlow g facePos center normal perm (a p) (o p) (contentIn p) (contentOut p)

/-- **C87** Nothing leaves the domain over an inflow boundary and nothing enters it over an outflow boundary, in any of the
equations. -/
theorem C87_one_way {ι : Type} (free : ι → K) (eq : ι) : inFlow free eq ≤ 0 ∧ 0 ≤ outFlow free eq :=
  ⟨min_le_left _ _, le_max_left _ _⟩

/-- **C87** If all phases flow in the permitted direction and the amounts per volume are not negative, then the rates are
those of a free-flow boundary; if all flow in the other direction, they are zero.  Missing for the full property: negative
amounts per volume (enthalpies), see `C87_energy_violated`, and phases which flow in opposite directions, see
`C87_countercurrent_violated`. -/
theorem C87_permitted_partial {ι E : Type} [Fintype ι] (g : Bool) (facePos center normal : Vec K dim) (perm : Fin dim → Vec K dim)
    (a : ι → Side K dim) (o : ι → Outside K) (contentIn contentOut : E → ι → K)
    (hci : ∀ e p, 0 ≤ contentIn e p) (hco : ∀ e p, 0 ≤ contentOut e p) (e : E) :
    ((∀ p, boundaryVolumeFlux g facePos center normal perm (a p) (o p) ≤ 0) →
      inFlow (fun e => freeFlowRate g facePos center normal perm a o (contentIn e) (contentOut e)) e
        = freeFlowRate g facePos center normal perm a o (contentIn e) (contentOut e) ∧
      outFlow (fun e => freeFlowRate g facePos center normal perm a o (contentIn e) (contentOut e)) e = 0) ∧
    ((∀ p, 0 ≤ boundaryVolumeFlux g facePos center normal perm (a p) (o p)) →
      outFlow (fun e => freeFlowRate g facePos center normal perm a o (contentIn e) (contentOut e)) e
        = freeFlowRate g facePos center normal perm a o (contentIn e) (contentOut e) ∧
      inFlow (fun e => freeFlowRate g facePos center normal perm a o (contentIn e) (contentOut e)) e = 0) := by
  have hc : ∀ p, 0 ≤ (if (a p).pressure < (o p).pressure then contentOut e p else contentIn e p) := by
    intro p; split_ifs
    · exact hco e p
    · exact hci e p
  constructor
  · intro h
    have : freeFlowRate g facePos center normal perm a o (contentIn e) (contentOut e) ≤ 0 :=
      Finset.sum_nonpos fun p _ => mul_nonpos_of_nonpos_of_nonneg (h p) (hc p)
    exact ⟨min_eq_right this, max_eq_left this⟩
  · intro h
    have : 0 ≤ freeFlowRate g facePos center normal perm a o (contentIn e) (contentOut e) :=
      Finset.sum_nonneg fun p _ => mul_nonneg (h p) (hc p)
    exact ⟨max_eq_right this, min_eq_left this⟩

/-- "Over an inflow boundary, what flows in is what flows in over a free-flow boundary" is FALSE for energy: fluid with a
negative enthalpy (which depends on the reference chosen) brings its mass but not its energy. -/
theorem C87_energy_violated :
    ∃ (a : Side ℚ 1) (o : Outside ℚ), boundaryVolumeFlux false (fun _ => 1) a.pos (fun _ => 1) (fun _ _ => 1) a o < 0 ∧
      freeFlowRate (ι := Unit) false (fun _ => 1) a.pos (fun _ => 1) (fun _ _ => 1) (fun _ => a) (fun _ => o) (fun _ => -5) (fun _ => -5) ≠
      inFlow (fun _ : Unit => freeFlowRate (ι := Unit) false (fun _ => 1) a.pos (fun _ => 1) (fun _ _ => 1) (fun _ => a) (fun _ => o) (fun _ => -5) (fun _ => -5)) () :=
  ⟨⟨fun _ => 0, fun _ => 0, 1, 1, 1⟩, ⟨2, 1, 1⟩, by decide +kernel, by decide +kernel⟩

/-- "Over an inflow boundary, what flows in is what flows in over a free-flow boundary" is FALSE if a component is in two
phases which flow in opposite directions: the inflow of one is reduced by the outflow of the other. -/
theorem C87_countercurrent_violated :
    ∃ (a : Bool → Side ℚ 1) (o : Bool → Outside ℚ),
      freeFlow false (fun _ => 1) (a false).pos (fun _ => 1) (fun _ _ => 1) (a false) (o false) 1 1 < 0 ∧
      (0:ℚ) = inFlow (fun _ : Unit => freeFlowRate false (fun _ => 1) (a false).pos (fun _ => 1) (fun _ _ => 1) a o (fun _ => 1) (fun _ => 1)) () :=
  ⟨fun _ => ⟨fun _ => 0, fun _ => 0, 10, 1, 1⟩, fun p => if p then ⟨8, 1, 1⟩ else ⟨11, 1, 1⟩, by decide +kernel, by decide +kernel⟩

end Verif.Flux
