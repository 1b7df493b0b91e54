import Verif.Deriv.Lemmas
import Mathlib.Tactic.Ring
import Mathlib.Tactic.Linarith
import Mathlib.Tactic.NormNum

set_option autoImplicit false
set_option linter.unusedSimpArgs false

/-
**C136** With automatic differentiation, the derivatives of the fluxes are those of the fluxes.
-/
namespace Verif.Deriv

open Filter Topology

variable {P C : Type} {dim : ℕ}

/-- The quantities of a degree of freedom carry the derivatives with respect to its primary variable. -/
structure Smooth (c : ℝ → Cell P C) (x : ℝ) : Prop where
  pressure : ∀ p, Tracks (fun y => (c y).pressure p) x
  density : ∀ p, Tracks (fun y => (c y).density p) x
  mobility : ∀ p, Tracks (fun y => (c y).mobility p) x
  enthalpy : ∀ p, Tracks (fun y => (c y).enthalpy p) x
  molarDensity : ∀ p, Tracks (fun y => (c y).molarDensity p) x
  fraction : ∀ p c', Tracks (fun y => (c y).fraction p c') x
  diffusion : ∀ p c', Tracks (fun y => (c y).diffusion p c') x
  temperature : Tracks (fun y => (c y).temperature) x
  conductivity : Tracks (fun y => (c y).conductivity) x

/-- The primary variable `y` of the degree of freedom in focus is varied around `x`, those of all others stay the same (but their quantities
carry the derivatives with respect to their own primary variables). -/
def Varies (f : Focus) (a b : ℝ → Cell P C) (x : ℝ) : Prop :=
  match f with
  | .interior => Smooth a x ∧ ∀ y, b y = b x
  | .exterior => Smooth b x ∧ ∀ y, a y = a x
  | .other => (∀ y, a y = a x) ∧ ∀ y, b y = b x

/-- There is flow: the upstream side does not change nearby. -/
def NoTie (g : Geom dim) (f : Focus) (p : P) (a b : Cell P C) : Prop := (normalPart g (potentialGrad g f p a b)).val ≠ 0

theorem deltay_eq (f : Focus) (qi qj : Ev) :
    deltay f qi qj = keep (decide (f = .exterior)) qj - keep (decide (f = .interior)) qi := by cases f <;> rfl

theorem keepIn {f : Focus} {a b : ℝ → Cell P C} {x : ℝ} (hv : Varies f a b x) (q : Cell P C → Ev)
    (hq : ∀ c, Smooth c x → Tracks (fun y => q (c y)) x) : Tracks (fun y => keep (decide (f = .interior)) (q (a y))) x := by
  cases f
  · exact hq a hv.1
  · simp only [Varies] at hv
    have : (fun y => keep (decide (Focus.exterior = .interior)) (q (a y))) = fun _ => (q (a x)).value := by
      funext y; rw [hv.2 y]; rfl
    rw [this]; exact Tracks.value _
  · have : (fun y => keep (decide (Focus.other = .interior)) (q (a y))) = fun _ => (q (a x)).value := by
      funext y; rw [hv.1 y]; rfl
    rw [this]; exact Tracks.value _

theorem keepEx {f : Focus} {a b : ℝ → Cell P C} {x : ℝ} (hv : Varies f a b x) (q : Cell P C → Ev)
    (hq : ∀ c, Smooth c x → Tracks (fun y => q (c y)) x) : Tracks (fun y => keep (decide (f = .exterior)) (q (b y))) x := by
  cases f
  · have : (fun y => keep (decide (Focus.interior = .exterior)) (q (b y))) = fun _ => (q (b x)).value := by
      funext y; rw [hv.2 y]; rfl
    rw [this]; exact Tracks.value _
  · exact hq b hv.1
  · have : (fun y => keep (decide (Focus.other = .exterior)) (q (b y))) = fun _ => (q (b x)).value := by
      funext y; rw [hv.2 y]; rfl
    rw [this]; exact Tracks.value _

theorem keepUp {f : Focus} {a b : ℝ → Cell P C} {x : ℝ} (hv : Varies f a b x) (up : Bool) (q : Cell P C → Ev)
    (hq : ∀ c, Smooth c x → Tracks (fun y => q (c y)) x) : Tracks (fun y => keep (upFocus up f) (q (upstream up (a y) (b y)))) x := by
  cases up
  · exact keepIn hv q hq
  · exact keepEx hv q hq

theorem tracks_gradient {f : Focus} {a b : ℝ → Cell P C} {x : ℝ} (hv : Varies f a b x) (g : Geom dim) (q : Cell P C → Ev)
    (hq : ∀ c, Smooth c x → Tracks (fun y => q (c y)) x) (k : Fin dim) : Tracks (fun y => gradient g f (q (a y)) (q (b y)) k) x := by
  simp only [gradient, deltay_eq]
  exact ((keepEx hv q hq).sub (keepIn hv q hq)).mul (Tracks.const _)

theorem tracks_potential {f : Focus} {a b : ℝ → Cell P C} {x : ℝ} (hv : Varies f a b x) (g : Geom dim) (p : P) (k : Fin dim) :
    Tracks (fun y => potentialGrad g f p (a y) (b y) k) x := by
  unfold potentialGrad
  cases g.gravity
  · exact tracks_gradient hv g (fun c => c.pressure p) (fun c hc => hc.pressure p) k
  · refine (tracks_gradient hv g (fun c => c.pressure p) (fun c hc => hc.pressure p) k).add ?_
    refine (Tracks.const _).mul (Tracks.mul (Tracks.sub ?_ ?_) (Tracks.const _))
    · exact ((keepEx hv (fun c => c.density p) (fun c hc => hc.density p)).neg).mul (Tracks.const _)
    · exact ((keepIn hv (fun c => c.density p) (fun c hc => hc.density p)).neg).mul (Tracks.const _)

theorem tracks_normal {v : ℝ → Fin dim → Ev} {x : ℝ} (g : Geom dim) (h : ∀ k, Tracks (fun y => v y k) x) :
    Tracks (fun y => normalPart g (v y)) x := Tracks.sum fun k => (h k).mul (Tracks.const _)

theorem tracks_volume {f : Focus} {a b : ℝ → Cell P C} {x : ℝ} (hv : Varies f a b x) (g : Geom dim) (p : P) (up : Bool) :
    Tracks (fun y => volumeFluxUp g f p up (a y) (b y)) x :=
  Tracks.sum fun i => (((keepUp hv up (fun c => c.mobility p) (fun c hc => hc.mobility p)).mul
    (Tracks.sum fun k => (Tracks.const _).mul (tracks_potential hv g p k))).neg).mul (Tracks.const _)

theorem up_fixed {f : Focus} {a b : ℝ → Cell P C} {x : ℝ} (hv : Varies f a b x) (g : Geom dim) (p : P) (hn : NoTie g f p (a x) (b x)) :
    ∀ᶠ y in 𝓝 x, exteriorUp g f p (a y) (b y) = exteriorUp g f p (a x) (b x) := by
  filter_upwards [Tracks.sign (tracks_normal g fun k => tracks_potential hv g p k) hn] with y hy
  unfold exteriorUp
  rw [decide_eq_decide]
  exact hy

/-- **C136** Mass fluxes of the immiscible model: for every degree of freedom in focus, wherever there is flow, the derivative which the flux
carries is that of the flux with respect to the primary variable of the degree of freedom in focus. -/
theorem C136_mass {f : Focus} {a b : ℝ → Cell P C} {x : ℝ} (hv : Varies f a b x) (g : Geom dim) (p : P) (hn : NoTie g f p (a x) (b x)) :
    Tracks (fun y => massFlux g f p (a y) (b y)) x := by
  have h : Tracks (fun y => massFluxUp g f p (exteriorUp g f p (a x) (b x)) (a y) (b y)) x :=
    (tracks_volume hv g p _).mul (keepUp hv _ (fun c => c.density p) (fun c hc => hc.density p))
  refine h.congr ?_
  filter_upwards [up_fixed hv g p hn] with y hy
  unfold massFlux
  rw [hy]

/-- **C136** … and so for the fluxes of components in the compositional models. -/
theorem C136_component [Fintype P] {f : Focus} {a b : ℝ → Cell P C} {x : ℝ} (hv : Varies f a b x) (g : Geom dim) (c : C)
    (hn : ∀ p, NoTie g f p (a x) (b x)) : Tracks (fun y => componentFlux g f c (a y) (b y)) x := by
  refine Tracks.sum fun p => ?_
  have h : Tracks (fun y => componentFluxUp g f p c (exteriorUp g f p (a x) (b x)) (a y) (b y)) x :=
    ((keepUp hv _ (fun c => c.molarDensity p) (fun c hc => hc.molarDensity p)).mul (tracks_volume hv g p _)).mul
      (keepUp hv _ (fun c' => c'.fraction p c) (fun c' hc => hc.fraction p c))
  refine h.congr ?_
  filter_upwards [up_fixed hv g p (hn p)] with y hy
  rw [hy]

/-- **C136** Values at faces. -/
theorem C136_face_value {f : Focus} {a b : ℝ → Cell P C} {x : ℝ} (hv : Varies f a b x) (q : Cell P C → Ev)
    (hq : ∀ c, Smooth c x → Tracks (fun y => q (c y)) x) (dIn dEx : ℝ) : Tracks (fun y => faceValue dIn dEx f (q (a y)) (q (b y))) x :=
  (((keepIn hv q hq).mul (Tracks.const _)).add ((keepEx hv q hq).mul (Tracks.const _))).mul (Tracks.const _)

/-- A degree of freedom beyond the face has no influence: the derivative is zero. -/
theorem C136_other (a b : Cell P C) (g : Geom dim) (p : P) (hn : NoTie g .other p a b) : (massFlux g .other p a b).der = 0 := by
  have h := C136_mass (f := .other) (a := fun _ => a) (b := fun _ => b) (x := 0) ⟨fun _ => rfl, fun _ => rfl⟩ g p hn
  exact HasDerivAt.unique h (hasDerivAt_const (0 : ℝ) _)

/-! ### values -/

/-- The numbers without derivatives, which finite differences use. -/
def Cell.strip (c : Cell P C) : Cell P C where
  pressure p := (c.pressure p).value
  density p := (c.density p).value
  mobility p := (c.mobility p).value
  enthalpy p := (c.enthalpy p).value
  molarDensity p := (c.molarDensity p).value
  fraction p c' := (c.fraction p c').value
  diffusion p c' := (c.diffusion p c').value
  temperature := c.temperature.value
  conductivity := c.conductivity.value

theorem gradient_val (g : Geom dim) (f : Focus) (qi qj : Ev) (k : Fin dim) :
    (gradient g f qi qj k).val = (gradient g .other qi.value qj.value k).val := by
  simp [gradient, deltay_eq]

theorem potential_val (g : Geom dim) (f : Focus) (p : P) (a b : Cell P C) (k : Fin dim) :
    (potentialGrad g f p a b k).val = (potentialGrad g .other p a.strip b.strip k).val := by
  unfold potentialGrad
  cases g.gravity
  · exact gradient_val g f _ _ k
  · simp only [if_true, Ev.add_val]
    rw [gradient_val g f]
    simp [pStatIn, pStatEx, Cell.strip]

theorem up_val (g : Geom dim) (f : Focus) (p : P) (a b : Cell P C) : exteriorUp g f p a b = exteriorUp g .other p a.strip b.strip := by
  unfold exteriorUp normalPart
  simp only [Ev.sum_val, Ev.mul_val, potential_val g f]

theorem upstream_strip (up : Bool) (a b : Cell P C) : upstream up a.strip b.strip = (upstream up a b).strip := by cases up <;> rfl

theorem volume_val (g : Geom dim) (f : Focus) (p : P) (up : Bool) (a b : Cell P C) :
    (volumeFluxUp g f p up a b).val = (volumeFluxUp g .other p up a.strip b.strip).val := by
  simp only [volumeFluxUp, Ev.sum_val, Ev.mul_val, Ev.neg_val, keep_val, potential_val g f p a b, upstream_strip]
  simp [Cell.strip]

/-- **C136** The values of all fluxes are those computed without derivatives, whichever degree of freedom is in focus: residuals are not
affected by wrong derivatives. -/
theorem C136_values [Fintype P] (g : Geom dim) (f : Focus) (p : P) (c : C) (a b : Cell P C) :
    (massFlux g f p a b).val = (massFlux g .other p a.strip b.strip).val ∧
    (componentFlux g f c a b).val = (componentFlux g .other c a.strip b.strip).val ∧
    (energyFlux g f a b).val = (energyFlux g .other a.strip b.strip).val ∧
    (conduction g f a b).val = (conduction g .other a.strip b.strip).val ∧
    (diffusionFlux g f c a b).val = (diffusionFlux g .other c a.strip b.strip).val := by
  refine ⟨?_, ?_, ?_, ?_, ?_⟩
  · simp only [massFlux, massFluxUp, Ev.mul_val, keep_val, up_val g f p a b, upstream_strip]
    rw [volume_val g f]
    simp [Cell.strip]
  · simp only [componentFlux, componentFluxUp, Ev.sum_val, Ev.mul_val, keep_val, up_val g f _ a b, upstream_strip]
    refine Finset.sum_congr rfl fun q _ => ?_
    rw [volume_val g f]
    simp [Cell.strip]
  · simp only [energyFlux, energyFluxUp, Ev.sum_val, Ev.mul_val, up_val g f _ a b, upstream_strip]
    refine Finset.sum_congr rfl fun q _ => ?_
    rw [volume_val g f]
    simp [Cell.strip]
  · simp only [conduction, normalPart, Ev.sum_val, Ev.mul_val, Ev.neg_val, gradient_val g f]
    simp [Cell.strip, gradient, deltay_eq]
  · simp only [diffusionFlux, normalPart, Ev.sum_val, Ev.mul_val, Ev.neg_val, gradient_val g f]
    simp [Cell.strip, gradient, deltay_eq]

/-! ### energy and diffusion -/

/-- **C136** Advective energy fluxes carry the right derivatives if for every phase the upstream degree of freedom is in focus, or density and
enthalpy do not depend on its primary variable; … -/
theorem C136_energy_partial [Fintype P] {f : Focus} {a b : ℝ → Cell P C} {x : ℝ} (hv : Varies f a b x) (g : Geom dim)
    (hn : ∀ p, NoTie g f p (a x) (b x))
    (hu : ∀ p, upFocus (exteriorUp g f p (a x) (b x)) f = true ∨
      ∀ c, c = a x ∨ c = b x → (c.enthalpy p).der = 0 ∧ (c.density p).der = 0) :
    Tracks (fun y => energyFlux g f (a y) (b y)) x := by
  refine Tracks.sum fun p => ?_
  have key : ∀ q : Cell P C → Ev, (∀ c, Smooth c x → Tracks (fun y => q (c y)) x) →
      (upFocus (exteriorUp g f p (a x) (b x)) f = true ∨ ∀ c, c = a x ∨ c = b x → (q c).der = 0) →
      Tracks (fun y => q (upstream (exteriorUp g f p (a x) (b x)) (a y) (b y))) x := by
    intro q hq h
    have hk := keepUp hv (exteriorUp g f p (a x) (b x)) q hq
    rcases h with h | h
    · rw [h] at hk
      exact hk
    · unfold Tracks at hk ⊢
      simp only [keep_val] at hk
      have e : (q (upstream (exteriorUp g f p (a x) (b x)) (a x) (b x))).der = 0 := by
        apply h
        cases exteriorUp g f p (a x) (b x)
        · exact Or.inl rfl
        · exact Or.inr rfl
      have e2 : (keep (upFocus (exteriorUp g f p (a x) (b x)) f) (q (upstream (exteriorUp g f p (a x) (b x)) (a x) (b x)))).der = 0 := by
        cases upFocus (exteriorUp g f p (a x) (b x)) f
        · rfl
        · exact e
      rw [e]
      rw [e2] at hk
      exact hk
  have h : Tracks (fun y => energyFluxUp g f p (exteriorUp g f p (a x) (b x)) (a y) (b y)) x :=
    ((tracks_volume hv g p _).mul (key (fun c => c.enthalpy p) (fun c hc => hc.enthalpy p) ((hu p).imp id fun h c hc => (h c hc).1))).mul
      (key (fun c => c.density p) (fun c hc => hc.density p) ((hu p).imp id fun h c hc => (h c hc).2))
  refine h.congr ?_
  filter_upwards [up_fixed hv g p (hn p)] with y hy
  rw [hy]

/-- A face between two cells on a line. -/
noncomputable def line : Geom 1 where
  posIn _ := 0
  posEx _ := 1
  posFace _ := 1 / 2
  normal _ := 1
  perm _ _ := 1
  gravity := false
  gIn _ := 0
  gEx _ := 0

/-- A cell with one phase and one component, whose quantities all equal one and do not depend on primary variables. -/
noncomputable def unit : Cell Unit Unit where
  pressure _ := ⟨1, 0⟩
  density _ := ⟨1, 0⟩
  mobility _ := ⟨1, 0⟩
  enthalpy _ := ⟨1, 0⟩
  molarDensity _ := ⟨1, 0⟩
  fraction _ _ := ⟨1, 0⟩
  diffusion _ _ := ⟨1, 0⟩
  temperature := ⟨1, 0⟩
  conductivity := ⟨1, 0⟩

/-- The cell at which pressure, temperature and mole fraction are lower. -/
noncomputable def low : Cell Unit Unit := { unit with pressure := fun _ => ⟨0, 0⟩, temperature := ⟨0, 0⟩, fraction := fun _ _ => ⟨0, 0⟩ }

theorem smooth_const (c : Cell Unit Unit) (h : c = low ∨ c = unit) (x : ℝ) : Smooth (fun _ => c) x := by
  rcases h with rfl | rfl <;>
    exact ⟨fun _ => Tracks.fixed _ rfl, fun _ => Tracks.fixed _ rfl, fun _ => Tracks.fixed _ rfl, fun _ => Tracks.fixed _ rfl,
      fun _ => Tracks.fixed _ rfl, fun _ _ => Tracks.fixed _ rfl, fun _ _ => Tracks.fixed _ rfl, Tracks.fixed _ rfl, Tracks.fixed _ rfl⟩

theorem normal_line (b : Cell Unit Unit) (hb : b.pressure = unit.pressure) (f : Focus) :
    (normalPart line (potentialGrad line f () low b)).val = 1 := by
  simp [normalPart, potentialGrad, gradient, deltay_eq, line, Geom.dist, Geom.distSquared, low, hb, unit]

theorem up_line (b : Cell Unit Unit) (hb : b.pressure = unit.pressure) (f : Focus) : exteriorUp line f () low b = true := by
  unfold exteriorUp
  rw [normal_line b hb f]
  simp

/-- The theorems above have a case: pressure varies in the cell in focus. -/
example : Varies .interior (fun y => { low with pressure := fun _ => ⟨y, 1⟩ }) (fun _ => unit) 0 ∧ NoTie line .interior () low unit := by
  refine ⟨⟨?_, fun _ => rfl⟩, ?_⟩
  · have h := smooth_const low (Or.inl rfl) 0
    exact ⟨fun _ => hasDerivAt_id (0 : ℝ), h.density, h.mobility, h.enthalpy, h.molarDensity, h.fraction, h.diffusion, h.temperature,
      h.conductivity⟩
  · unfold NoTie
    rw [normal_line unit rfl]
    norm_num

/-- The cell upstream, whose enthalpy, conductivity and diffusion coefficients depend on its own primary variable. -/
noncomputable def warm : Cell Unit Unit :=
  { unit with enthalpy := fun _ => ⟨1, 1⟩, conductivity := ⟨1, 1⟩, diffusion := fun _ _ => ⟨1, 1⟩, molarDensity := fun _ => ⟨1, 1⟩ }

/-- **C136** (violated) … but otherwise the derivative of the upstream enthalpy with respect to the primary variable of its own cell is taken
for one with respect to that of the cell in focus, in cell-centred grids (where the interior cell is in focus), too: nothing depends on the
primary variable of the interior cell here, but the flux carries a derivative. -/
theorem C136_energy_violated :
    Varies .interior (fun _ => low) (fun _ => warm) 0 ∧ NoTie line .interior () low warm ∧
    (energyFlux line .interior low warm).der = -1 ∧ ¬ Tracks (fun _ => energyFlux line .interior low warm) 0 := by
  have hd : (energyFlux line .interior low warm).der = -1 := by
    simp only [energyFlux, up_line warm rfl]
    simp [energyFluxUp, volumeFluxUp, upstream, upFocus, potentialGrad, gradient, deltay_eq, line, Geom.dist, Geom.distSquared, low, warm, unit]
  refine ⟨⟨smooth_const low (Or.inl rfl) 0, fun _ => rfl⟩, ?_, hd, ?_⟩
  · unfold NoTie
    rw [normal_line warm rfl]
    norm_num
  · intro h
    have := HasDerivAt.unique h (hasDerivAt_const (0 : ℝ) _)
    rw [hd] at this
    norm_num at this

/-- **C136** Conduction: right if the conductivity of a cell which is not in focus does not depend on its primary variable, … -/
theorem C136_conduction_partial {f : Focus} {a b : ℝ → Cell P C} {x : ℝ} (hv : Varies f a b x) (g : Geom dim)
    (ha : f ≠ .interior → (a x).conductivity.der = 0) (hb : f ≠ .exterior → (b x).conductivity.der = 0) :
    Tracks (fun y => conduction g f (a y) (b y)) x := by
  have h1 : Tracks (fun y => (a y).conductivity) x := by
    have hk := keepIn hv (fun c => c.conductivity) (fun c hc => hc.conductivity)
    by_cases hf : f = .interior
    · simpa [hf] using hk
    · unfold Tracks at hk ⊢
      simp only [keep_val, hf, decide_false, keep_false, Ev.value_der] at hk
      rw [ha hf]; exact hk
  have h2 : Tracks (fun y => (b y).conductivity) x := by
    have hk := keepEx hv (fun c => c.conductivity) (fun c hc => hc.conductivity)
    by_cases hf : f = .exterior
    · simpa [hf] using hk
    · unfold Tracks at hk ⊢
      simp only [keep_val, hf, decide_false, keep_false, Ev.value_der] at hk
      rw [hb hf]; exact hk
  exact ((tracks_normal g fun k => tracks_gradient hv g (fun c => c.temperature) (fun c hc => hc.temperature) k).neg).mul
    ((Tracks.const _).mul (h1.add h2))

/-- **C136** (violated) … wrong if it does, as it usually does by saturations. -/
theorem C136_conduction_violated :
    Varies .interior (fun _ => low) (fun _ => warm) 0 ∧ (conduction line .interior low warm).der = -1/2 := by
  refine ⟨⟨smooth_const low (Or.inl rfl) 0, fun _ => rfl⟩, ?_⟩
  simp [conduction, normalPart, gradient, deltay_eq, line, Geom.dist, Geom.distSquared, low, warm, unit]
  norm_num

/-- **C136** Diffusion: right for the interior cell in focus, if the diffusion coefficients of the exterior cell do not depend on its primary
variable, … -/
theorem C136_diffusion_partial [Fintype P] {a b : ℝ → Cell P C} {x : ℝ} (hv : Varies .interior a b x) (g : Geom dim) (c : C)
    (hd : ∀ p, ((b x).diffusion p c).der = 0) : Tracks (fun y => diffusionFlux g .interior c (a y) (b y)) x := by
  have hb : ∀ y, b y = b x := hv.2
  simp only [diffusionFlux, hb]
  refine Tracks.sum fun p => ?_
  refine Tracks.mul (Tracks.mul (Tracks.neg (Tracks.mul (Tracks.add (hv.1.molarDensity p) (Tracks.value _)) (Tracks.const _))) ?_) ?_
  · have := tracks_normal g fun k => tracks_gradient hv g (fun c' => c'.fraction p c) (fun c' hc => hc.fraction p c) k
    simpa only [hb] using this
  · exact Tracks.mul (Tracks.add (hv.1.diffusion p c) (Tracks.fixed _ (hd p))) (Tracks.const _)

/-- **C136** (violated) … wrong otherwise; and for vertex-centred grids, where the exterior vertex can be in focus, the derivative of its
molar density is missing. -/
theorem C136_diffusion_violated :
    Varies .interior (fun _ => low) (fun _ => warm) 0 ∧ (diffusionFlux line .interior () low warm).der = -1/2 ∧
    (∀ y : ℝ, (diffusionFlux line .exterior () low { unit with molarDensity := fun _ => ⟨y, 1⟩ }).val = -(1 + y) / 2 ∧
      (diffusionFlux line .exterior () low { unit with molarDensity := fun _ => ⟨y, 1⟩ }).der = 0) := by
  refine ⟨⟨smooth_const low (Or.inl rfl) 0, fun _ => rfl⟩, ?_, fun y => ⟨?_, ?_⟩⟩
  · simp [diffusionFlux, normalPart, gradient, deltay_eq, line, Geom.dist, Geom.distSquared, low, warm, unit]
    norm_num
  · simp [diffusionFlux, normalPart, gradient, deltay_eq, line, Geom.dist, Geom.distSquared, low, unit]
    ring
  · simp [diffusionFlux, normalPart, gradient, deltay_eq, line, Geom.dist, Geom.distSquared, low, unit]

/-! ### boundary -/

theorem tracks_boundaryGrad {a : ℝ → Cell P C} {o : ℝ → Outside P} {x : ℝ} (g : Geom dim) (p : P) (ha : Smooth a x)
    (ho : Tracks (fun y => (o y).pressure p) x) (k : Fin dim) : Tracks (fun y => boundaryGrad g true p (a y) (o y) k) x := by
  unfold boundaryGrad
  cases g.gravity
  · exact (ho.sub (ha.pressure p)).mul (Tracks.const _)
  · exact ((ho.sub (ha.pressure p)).mul (Tracks.const _)).add ((Tracks.const _).mul (((Tracks.const _).neg.mul (ha.density p)).mul (Tracks.const _)))

/-- **C136** Fluxes over the boundary carry the right derivatives if the interior degree of freedom is in focus, as always for cell-centred
grids. -/
theorem C136_boundary_partial {a : ℝ → Cell P C} {o : ℝ → Outside P} {x : ℝ} (g : Geom dim) (p : P) (ha : Smooth a x)
    (hp : Tracks (fun y => (o y).pressure p) x) (hr : Tracks (fun y => (o y).density p) x) (hm : Tracks (fun y => (o y).mobility p) x)
    (hn : (normalPart g (boundaryGrad g true p (a x) (o x))).val ≠ 0) (hne : ((a x).pressure p).val ≠ ((o x).pressure p).val) :
    Tracks (fun y => freeFlow g true p (a y) (o y)) x := by
  classical
  have h : ∀ up upRho, Tracks (fun y => freeFlowUp g true p up upRho (a y) (o y)) x := by
    intro up upRho
    refine Tracks.mul (Tracks.sum fun i => Tracks.mul (Tracks.neg (Tracks.mul ?_ (Tracks.sum fun k => (Tracks.const _).mul
      (tracks_boundaryGrad g p ha hp k)))) (Tracks.const _)) ?_
    · cases up
      · exact ha.mobility p
      · exact hm
    · cases upRho
      · exact ha.density p
      · exact hr
  have hs1 := Tracks.sign (tracks_normal g fun k => tracks_boundaryGrad g p ha hp k) hn
  have hs2 := Tracks.sign (hp.sub (ha.pressure p)) (by simpa [sub_eq_zero] using hne.symm)
  refine (h (boundaryUp g true p (a x) (o x)) (decide (((a x).pressure p).val < ((o x).pressure p).val))).congr ?_
  filter_upwards [hs1, hs2] with y h1 h2
  simp only [Ev.sub_val, sub_pos] at h2
  unfold freeFlow
  have e1 : boundaryUp g true p (a y) (o y) = boundaryUp g true p (a x) (o x) := by
    unfold boundaryUp
    rw [decide_eq_decide]
    exact h1
  rw [e1]
  congr 1
  rw [decide_eq_decide]
  exact h2

/-- **C136** Without gravity, or if the density of the interior does not depend on the primary variables, a flux over the boundary has no
derivatives when another degree of freedom is in focus. -/
theorem C136_boundary_noFocus_partial (g : Geom dim) (p : P) (a : Cell P C) (o : Outside P)
    (h : g.gravity = false ∨ (a.density p).der = 0) : (freeFlow g false p a o).der = 0 := by
  have hg : ∀ k, (boundaryGrad g false p a o k).der = 0 := by
    intro k
    unfold boundaryGrad
    rcases h with h | h
    · simp [h]
    · cases hgr : g.gravity <;> simp [h]
  simp [freeFlow, freeFlowUp, hg]

/-- **C136** (violated) With vertex-centred grids and gravity, fluxes over the boundary at one vertex carry derivatives when another vertex is in
focus, and so does conduction. -/
theorem C136_boundary_violated :
    (freeFlow { line with gravity := true, posFace := fun _ => 1, gIn := fun _ => -10 } false ()
      { low with density := fun _ => ⟨1, 1⟩ } ⟨fun _ => ⟨1, 0⟩, fun _ => ⟨1, 0⟩, fun _ => ⟨1, 0⟩⟩).der = -10 ∧
    (boundaryConduction 1 (Ev.const 1) { low with temperature := ⟨0, 1⟩ }).der = 1 := by
  constructor
  · have hn : (normalPart { line with gravity := true, posFace := fun _ => 1, gIn := fun _ => -10 }
        (boundaryGrad { line with gravity := true, posFace := fun _ => 1, gIn := fun _ => -10 } false ()
          ({ low with density := fun _ => ⟨1, 1⟩ } : Cell Unit Unit) ⟨fun _ => ⟨1, 0⟩, fun _ => ⟨1, 0⟩, fun _ => ⟨1, 0⟩⟩)).val = 11 := by
      simp [normalPart, boundaryGrad, line, low, unit]
      norm_num
    unfold freeFlow boundaryUp
    rw [hn]
    simp [freeFlowUp, boundaryGrad, line, low, unit]
  · simp [boundaryConduction, low, unit]

end Verif.Deriv
