import Verif.BlackOil.ScaleLemmas
import Verif.BlackOil.UpdateProps

/-
C178: scaling the pressure variable does not change a simulation.
-/

set_option autoImplicit false

namespace Verif.BlackOil

variable {K : Type} [Field K] [LinearOrder K] [IsStrictOrderedRing K]
variable {L : Layout} {f : Fluid K} {s : K}

/-- **C178** What is read from the variables does not depend on the scale. -/
theorem C178_read (hL : L.primaryVars.Nodup) (h0 : 0 ≤ L.pressureSwitchIdx) (h1 : f.scale = 1) (hs : s ≠ 0) (v : PriVars K) :
    read L (f.withScale s) (v.stored L s) = read L f v :=
  Scale.read_stored (Scale.own hL h0) h1 hs

/-- **C178** Nor do the fluid states which are stored in the variables. -/
theorem C178_assign (hL : L.primaryVars.Nodup) (h0 : 0 ≤ L.pressureSwitchIdx) (h1 : f.scale = 1) (fs : FluidState K) (v : PriVars K) :
    assignNaive L (f.withScale s) fs (v.stored L s) = (assignNaive L f fs v).stored L s :=
  Scale.assign_stored (Scale.own hL h0) h1 fs

/-- **C178** Nor do the decisions about the meaning of variables and the new values, if solvent does not dissolve in water. -/
theorem C178_switch_partial (hL : L.primaryVars.Nodup) (h0 : 0 ≤ L.pressureSwitchIdx) (h1 : f.scale = 1) (hs : s ≠ 0)
    (hv : ¬(0 ≤ L.solventSaturationIdx ∧ f.solventInWater)) (swMax threshold eps : K) (v : PriVars K) :
    adapt L (f.withScale s) swMax threshold eps (v.stored L s) =
      ((adapt L f swMax threshold eps v).1.stored L s, (adapt L f swMax threshold eps v).2) :=
  Scale.adapt_stored (Scale.own hL h0) h1 hs hv swMax threshold eps

variable {C E : Type} [Fintype C] [DecidableEq C]

/-- **C178** A Newton iteration with scaled pressures finds, with the same residuals, the same new states as one without, if solvent does
not dissolve in water and the limits of pressures do not matter.  Missing: `C178_solvent_violated` and `C178_limits_violated`. -/
theorem C178_iteration_partial (q : Equations K C E) (l : Limits K) (sp : SwitchParams K)
    (hL : L.primaryVars.Nodup) (h0 : 0 ≤ L.pressureSwitchIdx) (h1 : f.scale = 1) (hs : 0 < s) (hd : 0 ≤ l.dpMaxRel)
    (hv : ¬(0 ≤ L.solventSaturationIdx ∧ f.solventInWater)) (st : C → PriVars K × Bool)
    (hi : ∀ c, InLimits l s ((st c).1.val L.pressureSwitchIdx)) :
    (∀ e, q.residual (fun c => seen L (f.withScale s) ((st c).1.stored L s)) e = q.residual (fun c => seen L f (st c).1) e) ∧
    ∀ new, (∃ y, NewtonStep L (f.withScale s) l sp q (fun c => ((st c).1.stored L s, (st c).2)) new y) ↔
      ∃ st', new = (fun c => ((st' c).1.stored L s, (st' c).2)) ∧ ∃ x, NewtonStep L f l sp q st st' x := by
  refine ⟨fun e => ?_, fun new => ⟨?_, ?_⟩⟩
  · simp only [Scale.seen_stored h1 hs.ne']
  · rintro ⟨y, hy⟩
    choose st1 h2 using fun c => Scale.stored_surjective (L := L) hs.ne' (new c).1
    choose x hx using fun c => Scale.scaleDown_surjective (L := L) hs.ne' (y c)
    have hnew : new = fun c => ((st1 c).stored L s, (new c).2) := funext fun c => Prod.ext (h2 c).symm rfl
    refine ⟨fun c => (st1 c, (new c).2), hnew, x, ?_⟩
    rw [← Scale.step_stored (Scale.own hL h0) h1 hs hd hv hi]
    have hy' : y = fun c => scaleDown L s (x c) := funext fun c => (hx c).symm
    rw [hnew, hy'] at hy
    exact hy
  · rintro ⟨st', rfl, x, hx⟩
    exact ⟨_, (Scale.step_stored (Scale.own hL h0) h1 hs hd hv hi).mpr hx⟩

/-- **C178** So are the states after any number of iterations. -/
theorem C178_iterations_partial (q : Equations K C E) (l : Limits K) (sp : SwitchParams K)
    (hL : L.primaryVars.Nodup) (h0 : 0 ≤ L.pressureSwitchIdx) (h1 : f.scale = 1) (hs : 0 < s) (hd : 0 ≤ l.dpMaxRel)
    (hv : ¬(0 ≤ L.solventSaturationIdx ∧ f.solventInWater)) (n : ℕ) (st : ℕ → C → PriVars K × Bool)
    (hi : ∀ k < n, ∀ c, InLimits l s ((st k c).1.val L.pressureSwitchIdx)) :
    (∀ k < n, ∃ y, NewtonStep L (f.withScale s) l sp q (fun c => ((st k c).1.stored L s, (st k c).2))
      (fun c => ((st (k + 1) c).1.stored L s, (st (k + 1) c).2)) y) ↔
    ∀ k < n, ∃ x, NewtonStep L f l sp q (st k) (st (k + 1)) x := by
  refine forall₂_congr fun k hk => ?_
  rw [(C178_iteration_partial q l sp hL h0 h1 hs hd hv (st k) (hi k hk)).2]
  constructor
  · rintro ⟨st', h2, hx⟩
    have : st (k + 1) = st' := funext fun c =>
      Prod.ext (Scale.stored_injective (L := L) hs.ne' (congrArg Prod.fst (congrFun h2 c))) (congrArg Prod.snd (congrFun h2 c) :)
    rw [this]
    exact hx
  · intro hx
    exact ⟨_, rfl, hx⟩

/-! ### What depends on the scale -/

/-- **C178** … is violated by limits of pressures: they are applied to the scaled variable.  If pressures shall be at least 1 (and are
100), the pressure becomes 1000 with the scale 1000, although nothing is to be changed. -/
theorem C178_limits_violated :
    let L := threePhase ⟨0, 0, 0, 0, false, false, 0, 0⟩
    let l : Limits ℚ := { demoLimits with pressMin := 1 }
    ((updatePrimaryVariables L gasFluid l demoSwitch false plainCell fun _ => 0).map fun x => (read L gasFluid x.1).po) = some 100 ∧
    ((updatePrimaryVariables L (gasFluid.withScale 1000) l demoSwitch false (plainCell.stored L 1000) fun _ => 0).map
      fun x => (read L (gasFluid.withScale 1000) x.1).po) = some 1000 := by
  decide +kernel

/-- Solvent dissolves in water, the more the higher the pressure. -/
def solubleFluid : Fluid ℚ := { demoFluid with solventInWater := true, solubilityLimit := fun _ p _ => p / 1000 }

/-- A cell with 1/20 of solvent dissolved in water at the pressure 100, that is half of what can be dissolved -/
def scaledCell : PriVars ℚ :=
  ⟨fun i => if i = 0 then 1 / 5 else if i = 1 then 100 else if i = 2 then 1 / 5 else if i = 3 then 1 / 20 else 0, .Sw, .Po, .Sg, .Disabled, .Rsolw⟩

/-- **C178** … is violated if solvent dissolves in water: its solubility is evaluated at the scaled pressure. -/
theorem C178_solvent_violated :
    let L := threePhase ⟨1, 0, 0, 0, false, false, 0, 0⟩
    (adapt L solubleFluid 1 1 0 scaledCell).1.solvent = .Rsolw ∧
    (adapt L (solubleFluid.withScale 10) 1 1 0 (scaledCell.stored L 10)).1.solvent = .Ss := by
  decide +kernel

/-! ### The hypotheses can be met -/

example : InLimits demoLimits 10 100 ∧ gasFluid.scale = 1 ∧ (0 : ℚ) ≤ demoLimits.dpMaxRel := by
  refine ⟨⟨?_, ?_, ?_, ?_, ?_⟩, ?_, ?_⟩ <;> decide +kernel

/-- One cell whose pressure shall be 150 and whose saturations shall stay: with and without scaling the pressure gets 130, the limit
of the relative change. -/
def demoEquations : Equations ℚ Unit (Fin 3) where
  residual st e := if e = 0 then (st ()).val 1 - 150 else 0
  partialDeriv _ e _ i := if i = (if e = 0 then 1 else if e = 1 then 0 else 2) then 1 else 0

example : ∃ st' x, NewtonStep (threePhase ⟨0, 0, 0, 0, false, false, 0, 0⟩) gasFluid demoLimits demoSwitch demoEquations
    (fun _ => (plainCell, false)) st' x ∧ ((st' ()).1.val 1 = 130) := by
  refine ⟨fun _ => ((updatePrimaryVariables (threePhase ⟨0, 0, 0, 0, false, false, 0, 0⟩) gasFluid demoLimits demoSwitch false plainCell
    fun i => if i = 1 then -50 else 0).getD (plainCell, false)), fun _ i => if i = 1 then -50 else 0, ⟨?_, fun _ => ?_⟩, ?_⟩
  · decide +kernel
  · have : (updatePrimaryVariables (threePhase ⟨0, 0, 0, 0, false, false, 0, 0⟩) gasFluid demoLimits demoSwitch false plainCell
      fun i => if i = 1 then -50 else 0).isSome = true := by decide +kernel
    obtain ⟨a, ha⟩ := Option.isSome_iff_exists.mp this
    rw [ha]
    rfl
  · decide +kernel

end Verif.BlackOil
