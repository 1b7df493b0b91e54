import Verif.Deriv.Props
import Verif.Flux.Darcy
import Mathlib.Tactic.Ring

set_option autoImplicit false
set_option linter.unusedSimpArgs false

/-
**C136** The values of the fluxes are those of the model of C82–C85.
-/
namespace Verif.Deriv

variable {P C : Type} {dim : ℕ}

/-- A phase in a volume, without derivatives. -/
noncomputable def side (pos gravity : Fin dim → ℝ) (p : P) (a : Cell P C) : Flux.Side ℝ dim where
  pos := pos
  gravity := gravity
  pressure := (a.pressure p).val
  density := (a.density p).val
  mobility := (a.mobility p).val

theorem side_mobility (pos gravity : Fin dim → ℝ) (p : P) (a : Cell P C) : (side pos gravity p a).mobility = (a.mobility p).val := rfl

theorem potential_same (g : Geom dim) (f : Focus) (p : P) (a b : Cell P C) (k : Fin dim) :
    (potentialGrad g f p a b k).val = Flux.potentialGrad g.gravity g.posFace (side g.posIn g.gIn p a) (side g.posEx g.gEx p b) k := by
  unfold potentialGrad Flux.potentialGrad
  cases g.gravity
  · simp only [Bool.false_eq_true, if_false]
    simp only [gradient, deltay_eq, Ev.mul_val, Ev.sub_val, keep_val, Ev.const_val, Flux.gradient, side, Flux.dot, Geom.dist,
      Geom.distSquared]
  · simp only [if_true]
    simp only [gradient, deltay_eq, Ev.mul_val, Ev.add_val, Ev.sub_val, Ev.neg_val, keep_val, Ev.const_val, Flux.gradient, side, Flux.dot,
      Geom.dist, Geom.distSquared, pStatEx, pStatIn]
    ring

theorem normal_same (g : Geom dim) (f : Focus) (p : P) (a b : Cell P C) :
    (normalPart g (potentialGrad g f p a b)).val =
      Flux.dot (Flux.potentialGrad g.gravity g.posFace (side g.posIn g.gIn p a) (side g.posEx g.gEx p b)) g.normal := by
  simp only [normalPart, Ev.sum_val, Ev.mul_val, Ev.const_val, potential_same, Flux.dot]

theorem up_same (g : Geom dim) (f : Focus) (p : P) (a b : Cell P C) :
    exteriorUp g f p a b =
      Flux.exteriorIsUpstream (Flux.potentialGrad g.gravity g.posFace (side g.posIn g.gIn p a) (side g.posEx g.gEx p b)) g.normal := by
  unfold exteriorUp Flux.exteriorIsUpstream
  rw [normal_same]

theorem volume_same (g : Geom dim) (f : Focus) (p : P) (a b : Cell P C) :
    (volumeFluxUp g f p (exteriorUp g f p a b) a b).val =
      Flux.volumeFlux g.gravity g.posFace g.normal g.perm (side g.posIn g.gIn p a) (side g.posEx g.gEx p b) := by
  unfold Flux.volumeFlux Flux.fluxOf
  simp only [up_same]
  generalize Flux.exteriorIsUpstream (K := ℝ) _ _ = up
  simp only [volumeFluxUp, Ev.sum_val, Ev.mul_val, Ev.neg_val, keep_val, Ev.const_val, potential_same, Flux.mulVec, Flux.dot]
  refine Finset.sum_congr rfl fun i _ => ?_
  cases up <;> simp only [upstream, side_mobility, Bool.false_eq_true, if_true, if_false] <;> ring

/-- **C136** What C82–C84 say of fluxes between volumes holds of the values of these fluxes. -/
theorem C136_same [Fintype P] (g : Geom dim) (f : Focus) (p : P) (c : C) (a b : Cell P C) :
    (massFlux g f p a b).val = Flux.advectiveFlux g.gravity g.posFace g.normal g.perm (side g.posIn g.gIn p a) (side g.posEx g.gEx p b)
      (a.density p).val (b.density p).val ∧
    (componentFlux g f c a b).val = ∑ q, Flux.advectiveFlux g.gravity g.posFace g.normal g.perm (side g.posIn g.gIn q a)
      (side g.posEx g.gEx q b) ((a.molarDensity q).val * (a.fraction q c).val) ((b.molarDensity q).val * (b.fraction q c).val) ∧
    (energyFlux g f a b).val = ∑ q, Flux.advectiveFlux g.gravity g.posFace g.normal g.perm (side g.posIn g.gIn q a)
      (side g.posEx g.gEx q b) ((a.density q).val * (a.enthalpy q).val) ((b.density q).val * (b.enthalpy q).val) := by
  refine ⟨?_, ?_, ?_⟩
  · unfold Flux.advectiveFlux massFlux massFluxUp
    simp only [Ev.mul_val, keep_val, volume_same]
    rw [up_same]
    generalize Flux.exteriorIsUpstream (K := ℝ) _ _ = up
    cases up <;> simp [upstream]
  · unfold componentFlux
    rw [Ev.sum_val]
    refine Finset.sum_congr rfl fun q _ => ?_
    unfold Flux.advectiveFlux componentFluxUp
    simp only [Ev.mul_val, keep_val, volume_same]
    rw [up_same]
    generalize Flux.exteriorIsUpstream (K := ℝ) _ _ = up
    cases up <;> simp [upstream] <;> ring
  · unfold energyFlux
    rw [Ev.sum_val]
    refine Finset.sum_congr rfl fun q _ => ?_
    unfold Flux.advectiveFlux energyFluxUp
    simp only [Ev.mul_val, keep_val, volume_same]
    rw [up_same]
    generalize Flux.exteriorIsUpstream (K := ℝ) _ _ = up
    cases up <;> simp [upstream] <;> ring

/-- What is prescribed outside, without derivatives. -/
noncomputable def outside (p : P) (o : Outside P) : Flux.Outside ℝ where
  pressure := (o.pressure p).val
  density := (o.density p).val
  mobility := (o.mobility p).val

theorem outside_mobility (p : P) (o : Outside P) : (outside p o).mobility = (o.mobility p).val := rfl

theorem boundary_potential_same (g : Geom dim) (inFocus : Bool) (p : P) (a : Cell P C) (o : Outside P) (k : Fin dim) :
    (boundaryGrad g inFocus p a o k).val =
      Flux.boundaryPotentialGrad g.gravity g.posFace g.posIn (side g.posIn g.gIn p a) (outside p o) k := by
  have hd : ∑ k, (g.posIn k - g.posFace k) * (g.posIn k - g.posFace k) = ∑ k, (g.posFace k - g.posIn k) * (g.posFace k - g.posIn k) :=
    Finset.sum_congr rfl fun k _ => by ring
  unfold boundaryGrad Flux.boundaryPotentialGrad
  cases g.gravity
  · simp only [Bool.false_eq_true, if_false]
    simp only [Ev.mul_val, Ev.sub_val, keep_val, Ev.const_val, Flux.gradient, side, outside, Flux.dot]
  · simp only [if_true]
    simp only [Ev.mul_val, Ev.add_val, Ev.sub_val, Ev.neg_val, keep_val, Ev.const_val, Flux.gradient, side, outside, Flux.dot, neg_sub, hd]
    ring

/-- **C136** The same at free-flow boundaries (C83, C85). -/
theorem C136_same_boundary (g : Geom dim) (inFocus : Bool) (p : P) (a : Cell P C) (o : Outside P) :
    (freeFlow g inFocus p a o).val = Flux.freeFlow g.gravity g.posFace g.posIn g.normal g.perm (side g.posIn g.gIn p a) (outside p o)
      (a.density p).val (o.density p).val := by
  have hup : boundaryUp g inFocus p a o = Flux.exteriorIsUpstream
      (Flux.boundaryPotentialGrad g.gravity g.posFace g.posIn (side g.posIn g.gIn p a) (outside p o)) g.normal := by
    unfold boundaryUp Flux.exteriorIsUpstream
    simp only [normalPart, Ev.sum_val, Ev.mul_val, Ev.const_val, boundary_potential_same, Flux.dot]
    congr
  unfold Flux.freeFlow Flux.boundaryVolumeFlux Flux.fluxOf freeFlow
  rw [hup]
  generalize hu : Flux.exteriorIsUpstream (K := ℝ) _ _ = up
  simp only [freeFlowUp, Ev.mul_val, Ev.sum_val, Ev.neg_val, keep_val, Ev.const_val, boundary_potential_same, Flux.mulVec, Flux.dot]
  congr 1
  · refine Finset.sum_congr rfl fun i _ => ?_
    cases up <;> simp only [hu, side_mobility, outside_mobility, Bool.false_eq_true, if_true, if_false] <;> ring
  · simp only [side, outside]
    by_cases h : (a.pressure p).val < (o.pressure p).val <;> simp [h]

end Verif.Deriv
