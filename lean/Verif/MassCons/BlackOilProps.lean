import Verif.BlackOil.AssignProps

/-
C187: `assignMassConservative` of the black-oil model.
-/

set_option autoImplicit false
set_option linter.unusedSectionVars false

namespace Verif.MassCons

open Verif.BlackOil

variable {K : Type} [Field K] [LinearOrder K] [IsStrictOrderedRing K]

/-! ### Specification -/

/-- The volumes at the surface which a volume of water, oil or gas in the reservoir gives (inverse formation volume factors): functions of
temperature, pressure and what is dissolved in the phase -/
structure Volumes (K : Type) where
  bw : K → K → K → K
  bo : K → K → K → K
  bg : K → K → K → K → K

/-- The amounts of water, oil and gas per volume of pores, as volumes at the surface: free, and dissolved in or vaporized into other phases -/
def contents (b : Volumes K) (fs : FluidState K) : K × K × K :=
  (fs.sw * b.bw fs.temperature fs.pw fs.rsw + fs.sg * b.bg fs.temperature fs.pg fs.rv fs.rvw * fs.rvw,
    fs.so * b.bo fs.temperature fs.po fs.rs + fs.sg * b.bg fs.temperature fs.pg fs.rv fs.rvw * fs.rv,
    fs.sg * b.bg fs.temperature fs.pg fs.rv fs.rvw + fs.so * b.bo fs.temperature fs.po fs.rs * fs.rs +
      fs.sw * b.bw fs.temperature fs.pw fs.rsw * fs.rsw)

/-! ### Model -/

/-- `globalMolarities` (opm/models/blackoil/blackoilprimaryvariables.hh lines 374-387): phases which are not active are left out.
Simplified: volumes at the surface instead of moles (moles are fixed multiples of them, C89), and densities are given by `b`. -/
def blackOilAmounts (f : Fluid K) (b : Volumes K) (fs : FluidState K) : K × K × K :=
  let water := if f.waterActive then fs.sw * b.bw fs.temperature fs.pw fs.rsw else 0
  let oil := if f.oilActive then fs.so * b.bo fs.temperature fs.po fs.rs else 0
  let gas := if f.gasActive then fs.sg * b.bg fs.temperature fs.pg fs.rv fs.rvw else 0
  (water + gas * fs.rvw, oil + gas * fs.rv, gas + oil * fs.rs + water * fs.rsw)

/-- `assignMassConservative` (opm/models/blackoil/blackoilprimaryvariables.hh lines 319-395): `flash` is the solver; `none` stands for an
exception -/
def blackOilAssign (L : Layout) (f : Fluid K) (b : Volumes K) (flash : FluidState K → K × K × K → Option (FluidState K))
    (isInEquilibrium : Bool) (fs : FluidState K) (v : PriVars K) : Option (PriVars K) :=
  if isInEquilibrium then some (assignNaive L f fs v)
  else (flash fs (blackOilAmounts f b fs)).map fun fs' => assignNaive L f fs' v

/-! ### Lemmas -/

theorem contents_congr {f : Fluid K} (b : Volumes K) {x y : FluidState K} (h : SameState f x y) (ht : x.temperature = y.temperature)
    (hw : 0 ≤ y.sw) (ho : 0 ≤ y.so) (hg : 0 ≤ y.sg) (nw : f.waterActive = false → y.sw = 0) (no : f.oilActive = false → y.so = 0)
    (ng : f.gasActive = false → y.sg = 0) : contents b x = contents b y := by
  obtain ⟨e1, e2, e3, p1, p2, p3, r1, r2, r3, r4⟩ := h
  rw [e1] at r4
  rw [e2] at r1
  rw [e3] at r2 r3
  have w : y.sw = 0 ∨ (x.pw = y.pw ∧ x.rsw = y.rsw) := by
    rcases eq_or_lt_of_le hw with h0 | h0
    · exact .inl h0.symm
    · refine .inr ⟨p1 ?_, r4 h0⟩
      by_contra hc
      exact h0.ne' (nw (by simpa using hc))
  have o : y.so = 0 ∨ (x.po = y.po ∧ x.rs = y.rs) := by
    rcases eq_or_lt_of_le ho with h0 | h0
    · exact .inl h0.symm
    · refine .inr ⟨p2 ?_, r1 h0⟩
      by_contra hc
      exact h0.ne' (no (by simpa using hc))
  have g : y.sg = 0 ∨ (x.pg = y.pg ∧ x.rv = y.rv ∧ x.rvw = y.rvw) := by
    rcases eq_or_lt_of_le hg with h0 | h0
    · exact .inl h0.symm
    · refine .inr ⟨p3 ?_, r2 h0, r3 h0⟩
      by_contra hc
      exact h0.ne' (ng (by simpa using hc))
  unfold contents
  rw [e1, e2, e3, ht]
  rcases w with w | ⟨w1, w2⟩ <;> rcases o with o | ⟨o1, o2⟩ <;> rcases g with g | ⟨g1, g2, g3⟩ <;> simp only [*, zero_mul, zero_add, add_zero]

theorem blackOilAmounts_eq {f : Fluid K} (b : Volumes K) {fs : FluidState K} (nw : f.waterActive = false → fs.sw = 0)
    (no : f.oilActive = false → fs.so = 0) (ng : f.gasActive = false → fs.sg = 0) : blackOilAmounts f b fs = contents b fs := by
  unfold blackOilAmounts contents
  have w : (if f.waterActive then fs.sw * b.bw fs.temperature fs.pw fs.rsw else 0) = fs.sw * b.bw fs.temperature fs.pw fs.rsw := by
    cases h : f.waterActive
    · rw [nw h]; simp
    · simp
  have o : (if f.oilActive then fs.so * b.bo fs.temperature fs.po fs.rs else 0) = fs.so * b.bo fs.temperature fs.po fs.rs := by
    cases h : f.oilActive
    · rw [no h]; simp
    · simp
  have g : (if f.gasActive then fs.sg * b.bg fs.temperature fs.pg fs.rv fs.rvw else 0) = fs.sg * b.bg fs.temperature fs.pg fs.rv fs.rvw := by
    cases h : f.gasActive
    · rw [ng h]; simp
    · simp
  dsimp only
  rw [w, o, g]

/-! ### C187 -/

/-- **C187** The black-oil model: a state which is said to be in equilibrium and is, is stored such that the cell contains its amounts of
water, oil and gas. -/
theorem C187_blackoil_equilibrium {L : Layout} {f : Fluid K} (hM : PlainModel L f) (hd : f.dissolvedGasInWater → f.oilActive = false)
    (b : Volumes K) (flash : FluidState K → K × K × K → Option (FluidState K)) (v : PriVars K) (fs : FluidState K)
    (hP : Physical f (saltOf L v) fs) (hT : L.temperatureIdx < 0 → fs.temperature = f.temperature) :
    ∃ v', blackOilAssign L f b flash true fs v = some v' ∧ contents b (read L f v') = contents b fs := by
  obtain ⟨h1, h2⟩ := C78_assign_read_partial hM hd hP hT
  exact ⟨_, rfl, contents_congr b h1 h2 hP.sw hP.so hP.sg hP.noWater hP.noOil hP.noGas⟩

/-- **C187** The black-oil model: if the flash calculation does not fail, the cell contains the amounts of water, oil and gas of the given
state, which need not be in equilibrium.  The flash solver finds a state in equilibrium with the given temperature and amounts.  Missing: models with
oil in which gas dissolves in water (C78), solvents, the extended black-oil module, brine, and states with a temperature other than the one of the problem
if there is no energy equation. -/
theorem C187_blackoil_partial {L : Layout} {f : Fluid K} (hM : PlainModel L f) (hd : f.dissolvedGasInWater → f.oilActive = false)
    (hb : L.saltConcentrationIdx < 0) (b : Volumes K) (flash : FluidState K → K × K × K → Option (FluidState K))
    (hf : ∀ fs g fs', flash fs g = some fs' → Physical f 0 fs' ∧ fs'.temperature = fs.temperature ∧ contents b fs' = g)
    (v v' : PriVars K) (fs : FluidState K) (nw : f.waterActive = false → fs.sw = 0) (no : f.oilActive = false → fs.so = 0)
    (ng : f.gasActive = false → fs.sg = 0) (hT : L.temperatureIdx < 0 → fs.temperature = f.temperature)
    (hv : blackOilAssign L f b flash false fs v = some v') : contents b (read L f v') = contents b fs := by
  have hv2 : (flash fs (blackOilAmounts f b fs)).map (fun fs' => assignNaive L f fs' v) = some v' := hv
  obtain ⟨fs', h1, rfl⟩ := Option.map_eq_some_iff.1 hv2
  obtain ⟨hP, ht, hc⟩ := hf _ _ _ h1
  have hs : saltOf L v = 0 := if_neg (not_le.2 hb)
  rw [← hs] at hP
  obtain ⟨h2, h3⟩ := C78_assign_read_partial hM hd hP fun h => ht.trans (hT h)
  rw [contents_congr b h2 h3 hP.sw hP.so hP.sg hP.noWater hP.noOil hP.noGas, hc, blackOilAmounts_eq b nw no ng]

/-! ### Examples and limits -/

/-- Water does not shrink; oil swells with dissolved gas; gas expands. -/
def simpleVolumes : Volumes ℚ := ⟨fun _ _ _ => 1, fun _ _ rs => 1 / (1 + rs), fun _ p _ _ => p⟩

/-- A flash solver which knows one state -/
def knowsOil (s : FluidState ℚ) (fs : FluidState ℚ) (g : ℚ × ℚ × ℚ) : Option (FluidState ℚ) :=
  if fs.temperature = s.temperature ∧ contents simpleVolumes s = g then some s else none

example : PlainModel threeLayout richFluid ∧ threeLayout.saltConcentrationIdx < 0 ∧
    (∀ fs g fs', knowsOil richState fs g = some fs' →
      Physical richFluid 0 fs' ∧ fs'.temperature = fs.temperature ∧ contents simpleVolumes fs' = g) ∧
    (∃ v', blackOilAssign threeLayout richFluid simpleVolumes (knowsOil richState) false richState plainCell = some v') := by
  refine ⟨rich_plain, by decide, fun fs g fs' h => ?_, ?_⟩
  · unfold knowsOil at h
    split at h
    · next hc =>
      obtain rfl : richState = fs' := by simpa using h
      refine ⟨?_, hc.1.symm, hc.2⟩
      constructor <;> decide +kernel
    · cases h
  · unfold blackOilAssign knowsOil
    rw [if_neg (by decide), if_pos ⟨rfl, by decide +kernel⟩]
    exact ⟨_, rfl⟩

/-- **C187** fails for oil and water without gas, if gas dissolves in water: the oil is lost, even if the state is in equilibrium. -/
theorem C187_blackoil_violated (flash : FluidState ℚ → ℚ × ℚ × ℚ → Option (FluidState ℚ)) :
    PlainModel threeLayout wetFluid ∧ Physical wetFluid (saltOf threeLayout plainCell) wetState ∧
    ∃ v', blackOilAssign threeLayout wetFluid simpleVolumes flash true wetState plainCell = some v' ∧
      (contents simpleVolumes (read threeLayout wetFluid v')).2.1 = 0 ∧ (contents simpleVolumes wetState).2.1 = 1 / 2 :=
  ⟨C78_assign_read_violated.1, C78_assign_read_violated.2.1, _, rfl, by decide +kernel, by decide +kernel⟩

end Verif.MassCons
