import Verif.Exchange.Model
import Verif.Deriv.Props
import Mathlib.Algebra.BigOperators.Field
import Mathlib.Tactic.Ring
import Mathlib.Tactic.Linarith
import Mathlib.Tactic.Positivity
import Mathlib.Tactic.FieldSimp
import Mathlib.Tactic.NormNum

set_option autoImplicit false
set_option linter.unusedSimpArgs false

/-
**C137** Heat and diffusing components are exchanged between volumes, not created.
-/
namespace Verif.Exchange

open Verif.Deriv

variable {P C : Type} {dim : ℕ}

theorem distSquared_swap (g : Geom dim) : (swap g).distSquared = g.distSquared := by
  simp only [Geom.distSquared, Geom.dist, swap]
  exact Finset.sum_congr rfl fun k _ => by ring

theorem gradient_swap (g : Geom dim) (f f' : Focus) (qi qj : Ev) (k : Fin dim) :
    (gradient (swap g) f' qj qi k).val = (gradient g f qi qj k).val := by
  simp only [gradient, deltay_eq, Ev.mul_val, Ev.sub_val, keep_val, Ev.const_val, distSquared_swap]
  simp only [Geom.dist, swap]
  ring

theorem normal_swap (g : Geom dim) (v w : Fin dim → Ev) (h : ∀ k, (v k).val = (w k).val) :
    (normalPart (swap g) v).val = - (normalPart g w).val := by
  simp only [normalPart, Ev.sum_val, Ev.mul_val, Ev.const_val, swap, h, mul_neg, Finset.sum_neg_distrib]

theorem potential_swap (g : Geom dim) (f f' : Focus) (p : P) (a b : Cell P C) (k : Fin dim) :
    (potentialGrad (swap g) f' p b a k).val = (potentialGrad g f p a b k).val := by
  unfold potentialGrad
  have hg : (swap g).gravity = g.gravity := rfl
  rw [hg]
  cases g.gravity
  · exact gradient_swap g f f' _ _ k
  · simp only [if_true, Ev.add_val, gradient_swap g f f', Ev.mul_val, Ev.const_val, Ev.sub_val, distSquared_swap]
    simp only [pStatIn, pStatEx, Ev.mul_val, Ev.neg_val, keep_val, Ev.const_val, Geom.dist, swap]
    ring

theorem volume_swap (g : Geom dim) (f f' : Focus) (p : P) (up : Bool) (a b : Cell P C) :
    (volumeFluxUp (swap g) f' p (!up) b a).val = - (volumeFluxUp g f p up a b).val := by
  have hu : upstream (!up) b a = upstream up a b := by cases up <;> rfl
  simp only [volumeFluxUp, Ev.sum_val, Ev.mul_val, Ev.neg_val, keep_val, Ev.const_val, potential_swap g f f', hu]
  simp only [swap, mul_neg, Finset.sum_neg_distrib]

theorem up_swap (g : Geom dim) (f f' : Focus) (p : P) (a b : Cell P C) (hn : NoTie g f p a b) :
    exteriorUp (swap g) f' p b a = !exteriorUp g f p a b := by
  classical
  unfold exteriorUp
  rw [normal_swap g _ (potentialGrad g f p a b) fun k => potential_swap g f f' p a b k]
  unfold NoTie at hn
  rcases lt_or_gt_of_ne hn with h | h
  · rw [decide_eq_true (by linarith), decide_eq_false (by linarith)]; rfl
  · rw [decide_eq_false (by linarith), decide_eq_true h]; rfl

/-- **C137** What leaves one volume by conduction, diffusion or with the flow enters the other. -/
theorem C137_opposite [Fintype P] (g : Geom dim) (f f' : Focus) (c : C) (a b : Cell P C) (hn : ∀ p, NoTie g f p a b) :
    (conduction (swap g) f' b a).val = - (conduction g f a b).val ∧
    (diffusionFlux (swap g) f' c b a).val = - (diffusionFlux g f c a b).val ∧
    (energyFlux (swap g) f' b a).val = - (energyFlux g f a b).val ∧
    (componentFlux (swap g) f' c b a).val = - (componentFlux g f c a b).val := by
  have hu : ∀ p, upstream (!exteriorUp g f p a b) b a = upstream (exteriorUp g f p a b) a b := by
    intro p; cases exteriorUp g f p a b <;> rfl
  refine ⟨?_, ?_, ?_, ?_⟩
  · simp only [conduction, Ev.mul_val, Ev.neg_val, Ev.const_val, Ev.add_val]
    rw [normal_swap g _ (gradient g f a.temperature b.temperature) fun k => gradient_swap g f f' _ _ k]
    ring
  · simp only [diffusionFlux, Ev.sum_val, ← Finset.sum_neg_distrib]
    refine Finset.sum_congr rfl fun p _ => ?_
    simp only [Ev.mul_val, Ev.neg_val, Ev.const_val, Ev.add_val, Ev.value_val]
    rw [normal_swap g _ (gradient g f (a.fraction p c) (b.fraction p c)) fun k => gradient_swap g f f' _ _ k]
    ring
  · simp only [energyFlux, Ev.sum_val, ← Finset.sum_neg_distrib]
    refine Finset.sum_congr rfl fun p _ => ?_
    rw [up_swap g f f' p a b (hn p)]
    simp only [energyFluxUp, Ev.mul_val, volume_swap g f f', hu]
    ring
  · simp only [componentFlux, Ev.sum_val, ← Finset.sum_neg_distrib]
    refine Finset.sum_congr rfl fun p _ => ?_
    rw [up_swap g f f' p a b (hn p)]
    simp only [componentFluxUp, Ev.mul_val, keep_val, volume_swap g f f', hu]
    ring

example : ∀ p, NoTie line .interior p low unit := by
  intro p
  unfold NoTie
  rw [normal_line unit rfl]
  norm_num

theorem gradient_normal (g : Geom dim) (f : Focus) (qi qj : Ev) :
    (normalPart g (gradient g f qi qj)).val = (qj.val - qi.val) * ((∑ k, g.dist k * g.normal k) / g.distSquared) := by
  simp only [normalPart, gradient, deltay_eq, Ev.sum_val, Ev.mul_val, Ev.sub_val, keep_val, Ev.const_val]
  rw [Finset.sum_div, Finset.mul_sum]
  exact Finset.sum_congr rfl fun k _ => by ring

/-- A face whose normal points from the interior to the exterior position. -/
def Outward (g : Geom dim) : Prop := 0 < ∑ k, g.dist k * g.normal k

theorem distSquared_nonneg (g : Geom dim) : 0 ≤ g.distSquared := Finset.sum_nonneg fun _ _ => mul_self_nonneg _

/-- **C137** Heat is conducted from warm to cold, and none between equal temperatures. -/
theorem C137_warm_to_cold (g : Geom dim) (hg : Outward g) (f : Focus) (a b : Cell P C) (ha : 0 ≤ a.conductivity.val)
    (hb : 0 ≤ b.conductivity.val) : (conduction g f a b).val * (b.temperature.val - a.temperature.val) ≤ 0 := by
  simp only [conduction, Ev.mul_val, Ev.neg_val, Ev.const_val, Ev.add_val, gradient_normal]
  have h : 0 ≤ (∑ k, g.dist k * g.normal k) / g.distSquared := div_nonneg hg.le (distSquared_nonneg g)
  have h2 := mul_nonneg (mul_nonneg (sq_nonneg (b.temperature.val - a.temperature.val)) h) (add_nonneg ha hb)
  nlinarith

/-- **C137** A component whose mole fractions are nowhere higher outside does not diffuse in; with one phase, it diffuses out if its fraction
is lower outside. -/
theorem C137_dilute [Fintype P] (g : Geom dim) (hg : Outward g) (f : Focus) (c : C) (a b : Cell P C)
    (hr : ∀ p, 0 ≤ (a.molarDensity p).val + (b.molarDensity p).val) (hd : ∀ p, 0 ≤ (a.diffusion p c).val + (b.diffusion p c).val)
    (hx : ∀ p, (b.fraction p c).val ≤ (a.fraction p c).val) :
    0 ≤ (diffusionFlux g f c a b).val ∧
    ((∃ p, 0 < (a.molarDensity p).val + (b.molarDensity p).val ∧ 0 < (a.diffusion p c).val + (b.diffusion p c).val ∧
      (b.fraction p c).val < (a.fraction p c).val) → 0 < g.distSquared → 0 < (diffusionFlux g f c a b).val) := by
  simp only [diffusionFlux, Ev.sum_val, Ev.mul_val, Ev.neg_val, Ev.const_val, Ev.add_val, Ev.value_val, gradient_normal]
  have h : 0 ≤ (∑ k, g.dist k * g.normal k) / g.distSquared := div_nonneg hg.le (distSquared_nonneg g)
  have e : ∀ p, -(((a.molarDensity p).val + (b.molarDensity p).val) * (1 / 2)) *
        (((b.fraction p c).val - (a.fraction p c).val) * ((∑ k, g.dist k * g.normal k) / g.distSquared)) *
        (((a.diffusion p c).val + (b.diffusion p c).val) * (1 / 2)) =
      1 / 4 * (((a.molarDensity p).val + (b.molarDensity p).val) * ((a.diffusion p c).val + (b.diffusion p c).val) *
        ((a.fraction p c).val - (b.fraction p c).val) * ((∑ k, g.dist k * g.normal k) / g.distSquared)) := by
    intro p; ring
  simp only [e]
  have hnn : ∀ p, 0 ≤ 1 / 4 * (((a.molarDensity p).val + (b.molarDensity p).val) * ((a.diffusion p c).val + (b.diffusion p c).val) *
        ((a.fraction p c).val - (b.fraction p c).val) * ((∑ k, g.dist k * g.normal k) / g.distSquared)) := fun p =>
    mul_nonneg (by norm_num) (mul_nonneg (mul_nonneg (mul_nonneg (hr p) (hd p)) (sub_nonneg.2 (hx p))) h)
  refine ⟨Finset.sum_nonneg fun p _ => hnn p, ?_⟩
  rintro ⟨p, h1, h2, h3⟩ h4
  exact Finset.sum_pos' (fun p _ => hnn p) ⟨p, Finset.mem_univ p,
    mul_pos (by norm_num) (mul_pos (mul_pos (mul_pos h1 h2) (sub_pos.2 h3)) (div_pos hg h4))⟩

example : Outward line ∧ 0 < line.distSquared := by
  simp [Outward, line, Geom.dist, Geom.distSquared]

/-- **C137** If all components of a phase diffuse alike, they replace one another: no net amount of substance is moved. -/
theorem C137_replace_partial [Fintype P] [Fintype C] (g : Geom dim) (f : Focus) (a b : Cell P C)
    (ha : ∀ p, ∑ c, (a.fraction p c).val = 1) (hb : ∀ p, ∑ c, (b.fraction p c).val = 1)
    (hd : ∀ p c c', ((a.diffusion p c).val + (b.diffusion p c).val) = ((a.diffusion p c').val + (b.diffusion p c').val)) :
    ∑ c, (diffusionFlux g f c a b).val = 0 := by
  simp only [diffusionFlux, Ev.sum_val, Ev.mul_val, Ev.neg_val, Ev.const_val, Ev.add_val, Ev.value_val, gradient_normal]
  rw [Finset.sum_comm]
  refine Finset.sum_eq_zero fun p _ => ?_
  rcases isEmpty_or_nonempty C with h | ⟨⟨c0⟩⟩
  · simp
  · have e : ∀ c, -(((a.molarDensity p).val + (b.molarDensity p).val) * (1 / 2)) *
        (((b.fraction p c).val - (a.fraction p c).val) * ((∑ k, g.dist k * g.normal k) / g.distSquared)) *
        (((a.diffusion p c).val + (b.diffusion p c).val) * (1 / 2)) =
        (-(((a.molarDensity p).val + (b.molarDensity p).val) * (1 / 2)) * ((∑ k, g.dist k * g.normal k) / g.distSquared) *
          (((a.diffusion p c0).val + (b.diffusion p c0).val) * (1 / 2))) * ((b.fraction p c).val - (a.fraction p c).val) := by
      intro c
      rw [hd p c c0]
      ring
    simp only [e]
    rw [← Finset.mul_sum, Finset.sum_sub_distrib, ha p, hb p, sub_self, mul_zero]

/-- Two components, the second of which diffuses faster. -/
noncomputable def mixture (x : ℝ) : Cell Unit Bool where
  pressure _ := ⟨1, 0⟩
  density _ := ⟨1, 0⟩
  mobility _ := ⟨1, 0⟩
  enthalpy _ := ⟨1, 0⟩
  molarDensity _ := ⟨1, 0⟩
  fraction _ c := ⟨if c then x else 1 - x, 0⟩
  diffusion _ c := ⟨if c then 2 else 1, 0⟩
  temperature := ⟨1, 0⟩
  conductivity := ⟨1, 0⟩

/-- **C137** (violated) If they do not diffuse alike, diffusion moves a net amount. -/
theorem C137_replace_violated :
    (∑ c, ((mixture 0).fraction () c).val = 1) ∧ (∑ c, ((mixture 1).fraction () c).val = 1) ∧
    ∑ c, (diffusionFlux line .interior c (mixture 0) (mixture 1)).val = -1 := by
  refine ⟨by simp [mixture], by simp [mixture], ?_⟩
  simp only [Fintype.sum_bool, diffusionFlux, Ev.sum_val, Ev.mul_val, Ev.neg_val, Ev.const_val, Ev.add_val, Ev.value_val, gradient_normal]
  simp [mixture, line, Geom.dist, Geom.distSquared]
  norm_num

/-! ### tortuosity -/

/-- **C137** The more of a phase there is, the better components diffuse in it, and never better than in the pure phase, if the porosity is at
least 0.0001. -/
theorem C137_tortuosity (phi s s' : ℝ) (hphi : 1 / 10000 ≤ phi) (h1 : phi ≤ 1) (hs : s ≤ s') (hs' : s' ≤ 1) :
    0 < tortuosity phi s ∧ tortuosity phi s ≤ tortuosity phi s' ∧ tortuosity phi s' ≤ 1 := by
  have hp : 0 < phi := by linarith
  have hm : ∀ t : ℝ, (0 : ℝ) < max (1 / 10000) (phi * t) := fun t => lt_of_lt_of_le (by norm_num) (le_max_left _ _)
  refine ⟨?_, ?_, ?_⟩
  · unfold tortuosity
    exact mul_pos (by positivity) (Real.rpow_pos_of_pos (hm s) _)
  · unfold tortuosity
    refine mul_le_mul_of_nonneg_left ?_ (by positivity)
    exact Real.rpow_le_rpow (hm s).le (max_le_max le_rfl (mul_le_mul_of_nonneg_left hs hp.le)) (by norm_num)
  · have hle : max (1 / 10000) (phi * s') ≤ phi := max_le hphi (by nlinarith)
    have h2 : max (1 / 10000) (phi * s') ^ (10 / 3 : ℝ) ≤ phi ^ (10 / 3 : ℝ) := Real.rpow_le_rpow (hm s').le hle (by norm_num)
    have h3 : phi ^ (10 / 3 : ℝ) ≤ phi ^ (2 : ℝ) := Real.rpow_le_rpow_of_exponent_ge hp h1 (by norm_num)
    have h4 : phi ^ (2 : ℝ) = phi * phi := by
      rw [show (2 : ℝ) = ((2 : ℕ) : ℝ) by norm_num, Real.rpow_natCast]; ring
    unfold tortuosity
    rw [one_div, inv_mul_le_iff₀ (by positivity), mul_one]
    exact h2.trans (h3.trans h4.le)

/-- **C137** (violated) Components diffuse through phases which are not there. -/
theorem C137_absent_violated (phi d : ℝ) (hphi : 0 < phi) (hd : 0 < d) : 0 < effective phi 0 d := by
  unfold effective tortuosity
  refine mul_pos (mul_pos (by positivity) ?_) hd
  exact Real.rpow_pos_of_pos (lt_of_lt_of_le (by norm_num) (le_max_left _ _)) _

/-- **C137** (violated) Where no fluid flows over a free-flow boundary, nothing diffuses over it, whatever is prescribed outside. -/
theorem C137_boundary_violated [Fintype P] (pressureOut pressureIn molarityOut molarityIn : P → ℝ) :
    freeFlowRate (fun _ => 0) pressureOut pressureIn molarityOut molarityIn = 0 := by
  simp [freeFlowRate]

/-- **C137** What flows over a free-flow boundary has, in each phase, the prescribed amounts per volume if the pressure of the phase is larger
outside, and those of the volume otherwise.  (The pressures need not tell the direction of the flow, see C85.) -/
theorem C137_boundary_flow [Fintype P] (volumeFlux pressureOut pressureIn molarityOut molarityIn molarity : P → ℝ)
    (hout : ∀ p, pressureIn p < pressureOut p → molarity p = molarityOut p)
    (hin : ∀ p, pressureOut p ≤ pressureIn p → molarity p = molarityIn p) :
    freeFlowRate volumeFlux pressureOut pressureIn molarityOut molarityIn = ∑ p, volumeFlux p * molarity p := by
  refine Finset.sum_congr rfl fun p _ => ?_
  by_cases h : pressureIn p < pressureOut p
  · rw [if_pos h, hout p h]
  · rw [if_neg h, hin p (not_lt.1 h)]

/-- Two phases: one flows in with the prescribed amount 5, the other one out with the amount 7 of the volume. -/
example : freeFlowRate (P := Fin 2) ![-2, 3] ![4, 1] ![1, 4] ![5, 6] ![8, 7] = 11 := by
  rw [C137_boundary_flow _ _ _ _ _ ![5, 7] (by intro p; fin_cases p <;> norm_num) (by intro p; fin_cases p <;> norm_num)]
  norm_num [Fin.sum_univ_two]

/-! ### energy -/

/-- **C137** Boundaries conduct heat towards the colder side. -/
theorem C137_boundary_conduction (dist : ℝ) (hd : 0 < dist) (tOut : Ev) (a : Cell P C) (ha : 0 ≤ a.conductivity.val) :
    (boundaryConduction dist tOut a).val * (tOut.val - a.temperature.val) ≤ 0 := by
  simp only [boundaryConduction, Ev.mul_val, Ev.neg_val, Ev.sub_val, Ev.const_val]
  have := mul_nonneg (mul_nonneg (sq_nonneg (tOut.val - a.temperature.val)) (one_div_pos.2 hd).le) ha
  nlinarith

end Verif.Exchange
