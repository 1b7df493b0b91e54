import Verif.Flux.Agree
import Verif.Flux.TransProps
import Verif.Flux.ContentProps
import Verif.Extend.DiffusionProps
import Verif.Extend.MixingProps

set_option autoImplicit false
set_option linter.unusedSectionVars false
/-
C173: both local residuals of the black-oil model compute the same mass fluxes over the faces, and what leaves one cell enters
the other.
-/
namespace Verif.Flux.Agree

open Verif.Extend

/-! ### Specification -/

variable {K : Type} [Field K] [LinearOrder K] [IsStrictOrderedRing K]

/-- The same face seen from the other side. -/
def Conn.reverse (f : Conn K) : Conn K := { f with dZg := - f.dZg }

/-- What the phases carry of a component over a face with the given transmissibility per area: for each phase the pressure difference corrected for
gravity, times mobility and content of the cell it comes from. -/
def carried (o : Options) (g t : K) (a b : Side K) (c : Phase) : K :=
  sumActive o fun p =>
    let d := pressureDifference g (a.flow p) (b.flow p)
    let x := if exteriorUpstream g (a.flow p) (b.flow p) then b else a
    (x.flow p).mobility * perVolume o x.ref x.fluid p c * (-(t * d))

/-! ### Lemmas -/

variable {s : Switches} {o : Options} {f : Conn K} {a b : Side K}

theorem sumActive_congr {u v : Phase → K} (h : ∀ p, u p = v p) : sumActive o u = sumActive o v := by
  rw [show u = v from funext h]

theorem sumActive_neg (u : Phase → K) : sumActive o (fun p => - u p) = - sumActive o u := by
  unfold sumActive
  simp only [Phase.all, List.map_cons, List.map_nil, List.sum_cons, List.sum_nil]
  split_ifs <;> ring

theorem sumActive_mul (x : K) (u : Phase → K) : sumActive o (fun p => x * u p) = x * sumActive o u := by
  unfold sumActive
  simp only [Phase.all, List.map_cons, List.map_nil, List.sum_cons, List.sum_nil]
  split_ifs <;> ring

theorem element_carried (hm : ∀ p, 0 ≤ (a.flow p).mobility ∧ 0 ≤ (b.flow p).mobility) (c : Phase) :
    elementFlux s o f a b c = carried o f.g f.moduleTrans a b c
      + (if s.diffusion && s.deckDiffusion then Diff.diffusiveFlux (diffOptions o) f.diffusivity f.area a.diff b.diff (toDiff c) else 0)
      + (if s.mixing then mixed f a b c else 0) := by
  unfold elementFlux carried
  simp only
  rw [C88_flux]
  congr 2
  refine sumActive_congr fun p => ?_
  unfold transFlux
  by_cases h : (a.flow p).mobility ≤ 0 ∧ (b.flow p).mobility ≤ 0
  · rw [if_pos h]
    have h1 : (a.flow p).mobility = 0 := le_antisymm h.1 (hm p).1
    have h2 : (b.flow p).mobility = 0 := le_antisymm h.2 (hm p).2
    split_ifs <;> simp [h1, h2]
  · rw [if_neg h]
    simp only
    cases exteriorUpstream f.g (a.flow p) (b.flow p) <;> simp only [Bool.false_eq_true, if_true, if_false] <;> ring

theorem tpfa_carried (c : Phase) :
    tpfaFlux s o f a b c = (a.mult + b.mult) / 2 * carried o f.g (f.trans / f.area) a b c
      + (if s.mixing then mixed f a b c else 0)
      + (if s.diffusion then Diff.diffusiveFlux (diffOptions o) f.diffusivity f.area a.diff b.diff (toDiff c) else 0)
      + (if s.dispersion then Diff.dispersiveFlux (diffOptions o) f.dispersivity f.area a.diff b.diff (toDiff c) else 0) := by
  unfold tpfaFlux carried
  simp only
  rw [C88_flux, ← sumActive_mul]
  congr 3
  refine sumActive_congr fun p => ?_
  ring

theorem carried_swap (g t : K) (hi : ∀ p, (a.flow p).index ≠ (b.flow p).index) (c : Phase) :
    carried o g t b a c = - carried o g t a b c := by
  unfold carried
  rw [← sumActive_neg]
  refine sumActive_congr fun p => ?_
  simp only [C82_upstream_agreed g _ _ (hi p), pressureDifference_swap g (a.flow p) (b.flow p)]
  cases exteriorUpstream g (a.flow p) (b.flow p) <;> simp only [Bool.not_false, Bool.not_true, Bool.false_eq_true, if_true, if_false] <;> ring

theorem mixed_swap (c : Phase) : mixed f.reverse b a c = - mixed f a b c := by
  unfold mixed Conn.reverse
  split_ifs
  · rw [Mix.C129_opposite]
  · simp

/-! ### C173 -/

/-- **C173** Both residuals compute the same flux of every component over a face.  `_partial`: if the multiplier of the transmissibility is one, the deck
asks for the diffusion which is compiled in, and dispersion is not compiled in (see the theorems below).  The transmissibility of the problem is the one of
the flux module times the area. -/
theorem C173_same_partial (ha : f.area ≠ 0) (ht : f.trans = f.area * f.moduleTrans)
    (hm : ∀ p, 0 ≤ (a.flow p).mobility ∧ 0 ≤ (b.flow p).mobility)
    (h1 : a.mult + b.mult = 2) (h2 : s.diffusion = true → s.deckDiffusion = true) (h3 : s.dispersion = false) (c : Phase) :
    tpfaFlux s o f a b c = elementFlux s o f a b c := by
  rw [tpfa_carried, element_carried hm, h1, h3, ht, mul_div_cancel_left₀ _ ha]
  cases hd : s.diffusion
  · simp
  · simp [h2 hd]; ring

/-- **C173** What leaves a cell over a face enters the other one, whichever residual computes it: with everything the face has.  `_partial`: if diffusion
uses the same conversion factors on both sides. -/
theorem C173_opposite_partial (hi : ∀ p, (a.flow p).index ≠ (b.flow p).index) (hr : a.diff.region = b.diff.region)
    (hm : ∀ p, 0 ≤ (a.flow p).mobility ∧ 0 ≤ (b.flow p).mobility) (c : Phase) :
    elementFlux s o f.reverse b a c = - elementFlux s o f a b c ∧ tpfaFlux s o f.reverse b a c = - tpfaFlux s o f a b c := by
  have hd := Diff.C128_opposite_partial (o := diffOptions o) (i := a.diff) (j := b.diff) (d := f.diffusivity) (area := f.area) hr (toDiff c)
  have he := Diff.C128_opposite_partial (o := diffOptions o) (i := a.diff) (j := b.diff) (d := f.dispersivity) (area := f.area) hr (toDiff c)
  constructor
  · rw [element_carried hm, element_carried (fun p => (hm p).symm), mixed_swap]
    have := carried_swap (o := o) f.g f.moduleTrans hi c
    simp only [Conn.reverse] at this ⊢
    rw [this, hd.1]
    split_ifs <;> ring
  · rw [tpfa_carried, tpfa_carried, mixed_swap]
    have := carried_swap (o := o) f.g (f.trans / f.area) hi c
    simp only [Conn.reverse] at this ⊢
    rw [this, hd.1, he.2]
    split_ifs <;> ring

/-- **C173** What a pressure difference moves is scaled by the mean multiplier of the transmissibility in one of the residuals only. -/
theorem C173_multiplier (ha : f.area ≠ 0) (ht : f.trans = f.area * f.moduleTrans)
    (hm : ∀ p, 0 ≤ (a.flow p).mobility ∧ 0 ≤ (b.flow p).mobility)
    (h2 : s.diffusion = false) (h3 : s.dispersion = false) (h4 : s.mixing = false) (c : Phase) :
    tpfaFlux s o f a b c = (a.mult + b.mult) / 2 * elementFlux s o f a b c := by
  rw [tpfa_carried, element_carried hm, h2, h3, h4, ht, mul_div_cancel_left₀ _ ha]
  simp

/-- **C173** Convective mixing moves gas only, in both residuals: the flux of mixing is added to the one of gas, whatever else there is. -/
theorem C173_mixing (c : Phase) :
    elementFlux { s with mixing := true } o f a b c - elementFlux { s with mixing := false } o f a b c
      = (match c with | .gas => (Mix.mixingFlux a.mix b.mix f.dZg f.trans f.area).1 | _ => 0) ∧
    tpfaFlux { s with mixing := true } o f a b c - tpfaFlux { s with mixing := false } o f a b c
      = (match c with | .gas => (Mix.mixingFlux a.mix b.mix f.dZg f.trans f.area).1 | _ => 0) := by
  unfold elementFlux tpfaFlux mixed
  constructor <;> cases c <;> simp

/-! ### Examples and differences -/

def exOptions : Options := ⟨fun _ => true, true, false, false, false, true, true⟩
def exFluid (rs : ℚ) : Fluid ℚ := ⟨fun _ => 1, fun _ => 1, rs, 0, 0, 0⟩
def exMix : Mix.Cell ℚ := ⟨⟨false, 0, 0⟩, 1, fun _ => 1, fun _ => 1, 1, 1, 1, 1, 1, 1, 0, 0, 1⟩
def exDiff (rs x : ℚ) : Diff.Cell ℚ := ⟨fun _ => 1, fun _ => 1, rs, 0, 0, 0, fun _ _ => x, fun _ => 1, ⟨1, 1⟩⟩
/-- A cell of volume 1 with index `n`, pressure `p`, multiplier `m`, content of gas `rs` and diffusion coefficients `x`. -/
def exSide (n : ℕ) (p m rs x : ℚ) : Side ℚ := ⟨fun _ => ⟨1, n, 0, p, 1, 1⟩, exFluid rs, fun _ => 1, m, exDiff rs x, exMix⟩
def exConn : Conn ℚ := ⟨10, 2, 6, 3, 2, 2, 0⟩

/-- Three phases flow and gas diffuses in oil: the hypotheses of `C173_same_partial` and `C173_opposite_partial` are met, and the fluxes are not zero. -/
example : exConn.trans = exConn.area * exConn.moduleTrans ∧ (exSide 0 5 1 2 1).mult + (exSide 1 3 1 0 1).mult = 2 ∧
    tpfaFlux ⟨true, false, true, true⟩ exOptions exConn (exSide 0 5 1 2 1) (exSide 1 3 1 0 1) .gas = 19 ∧
    elementFlux ⟨true, false, true, true⟩ exOptions exConn (exSide 0 5 1 2 1) (exSide 1 3 1 0 1) .gas = 19 ∧
    elementFlux ⟨true, false, true, true⟩ exOptions exConn (exSide 0 5 1 2 1) (exSide 1 3 1 0 1) .oil = 5 := by decide +kernel

/-- **C173** The multiplier makes a difference. -/
theorem C173_multiplier_violated : ∃ (a b : Side ℚ) (f : Conn ℚ) (c : Phase), f.trans = f.area * f.moduleTrans ∧ f.area ≠ 0 ∧
    tpfaFlux ⟨false, false, false, false⟩ exOptions f a b c ≠ elementFlux ⟨false, false, false, false⟩ exOptions f a b c :=
  ⟨exSide 0 5 (1/2) 0 1, exSide 1 3 (1/2) 0 1, exConn, .oil, by decide +kernel⟩

/-- **C173** Dispersion is missing from one of the residuals, although it is compiled in. -/
theorem C173_dispersion_violated : ∃ (a b : Side ℚ) (f : Conn ℚ) (c : Phase), f.trans = f.area * f.moduleTrans ∧ f.area ≠ 0 ∧
    a.mult + b.mult = 2 ∧
    tpfaFlux ⟨false, true, false, false⟩ exOptions f a b c ≠ elementFlux ⟨false, true, false, false⟩ exOptions f a b c :=
  ⟨exSide 0 5 1 2 1, exSide 1 3 1 0 1, exConn, .gas, by decide +kernel⟩

/-- **C173** If diffusion is compiled in but the deck does not ask for it, then the diffusion coefficients of the cells are never set
(opm/models/blackoil/blackoildiffusionmodule.hh lines 408-410), yet the residual of the two-point flux linearizer uses them: they can be such that the flux
differs from the right one by anything. -/
theorem C173_deck_violated : ∃ (sides : ℚ → Side ℚ × Side ℚ) (f : Conn ℚ),
    (∀ x y, (sides x).1.flow = (sides y).1.flow ∧ (sides x).1.fluid = (sides y).1.fluid ∧ (sides x).2.flow = (sides y).2.flow ∧
      (sides x).2.fluid = (sides y).2.fluid) ∧
    ∀ x, tpfaFlux ⟨true, false, false, false⟩ exOptions f (sides x).1 (sides x).2 .gas
      = elementFlux ⟨true, false, false, false⟩ exOptions f (sides x).1 (sides x).2 .gas + x := by
  refine ⟨fun x => (exSide 0 5 1 2 x, exSide 1 3 1 0 x), exConn, fun x y => ⟨rfl, rfl, rfl, rfl⟩, fun x => ?_⟩
  have hm : ∀ p, 0 ≤ ((exSide 0 5 1 2 x).flow p).mobility ∧ 0 ≤ ((exSide 1 3 1 0 x).flow p).mobility := by
    intro p; simp [exSide]
  rw [tpfa_carried, element_carried hm]
  have h1 : ((exSide 0 5 1 2 x).mult + (exSide 1 3 1 0 x).mult) / 2 = 1 := by norm_num [exSide]
  have h2 : exConn.trans / exConn.area = exConn.moduleTrans := by norm_num [exConn]
  have h3 : Diff.diffusiveFlux (diffOptions exOptions) exConn.diffusivity exConn.area (exSide 0 5 1 2 x).diff (exSide 1 3 1 0 x).diff
      (toDiff .gas) = x := by
    simp only [Diff.diffusiveFlux, Diff.phaseFlux, Diff.skipped, Diff.bSAvg, Diff.convDiff, Diff.meanCoefficient, Diff.solute, diffOptions, exOptions,
      exSide, exDiff, exConn, toDiff, ofDiff]
    norm_num [(by decide : Diff.Phase.oil ≠ Diff.Phase.water), (by decide : Diff.Phase.gas ≠ Diff.Phase.oil),
      (by decide : Diff.Phase.gas ≠ Diff.Phase.water)]
    ring
  rw [h1, h2, h3]
  simp

/-! ### Boundaries -/

/-- **C173** Nothing flows through a boundary without conditions and no mass through one for heat only; a prescribed rate is the one which enters the equations;
prescribed fluids are treated alike whether the boundary is called free or Dirichlet; all other types stop the computation. -/
theorem C173_boundary (t : BC) (ref rateRef massRate v pIn pOut : Phase → K) (inside outside : Fluid K) :
    (boundaryFlux t o ref rateRef massRate v pIn pOut inside outside = none ↔ t = .other) ∧
    ∀ r, boundaryFlux t o ref rateRef massRate v pIn pOut inside outside = some r → ∀ c,
      (t = .none ∨ t = .thermal → r c = 0) ∧
      (t = .rate → rateRef c ≠ 0 → r c * (if o.conserveSurfaceVolume then rateRef c else 1) = massRate c) ∧
      (t = .free ∨ t = .dirichlet → o.conserveSurfaceVolume = true → o.active c = true →
        (∀ p, 0 < v p → pOut p < pIn p) → (∀ p, v p < 0 → pIn p < pOut p) → r c = expectedRate o ref v inside outside c) := by
  refine ⟨by cases t <;> simp [boundaryFlux], fun r hr c => ?_⟩
  cases t <;> simp only [boundaryFlux, Option.some.injEq, reduceCtorEq] at hr <;> subst hr
  · simp
  · refine ⟨by simp, fun _ h => ?_, by simp⟩
    unfold boSetMassRate
    cases o.conserveSurfaceVolume <;> simp [h]
  · exact ⟨by simp, by simp, fun _ h1 h2 h3 h4 => C86_boundary_partial o h1 ref v pIn pOut inside outside c h2 h3 h4⟩
  · exact ⟨by simp, by simp, fun _ h1 h2 h3 h4 => C86_boundary_partial o h1 ref v pIn pOut inside outside c h2 h3 h4⟩
  · simp

end Verif.Flux.Agree
