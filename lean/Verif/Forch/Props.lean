import Verif.Forch.Lemmas
import Mathlib.LinearAlgebra.Matrix.NonsingularInverse
import Mathlib.Algebra.Order.Ring.Rat

set_option autoImplicit false
set_option linter.unusedSectionVars false
/-
C131: the Forchheimer velocity.
-/
namespace Verif.Forch

variable {n : ℕ}

/-! ### Specification -/

/-- The velocity of Darcy's law for a rock whose permeability is diagonal. -/
def darcy {K : Type} [Field K] (f : Face K n) : Vec K n := fun i => - (f.mobility * f.perm i * f.grad i)

/-- The Forchheimer equation, multiplied by mobility and permeability: `v + c |v| √K v` is the velocity of Darcy's law. -/
def Forchheimer (f : Face ℝ n) (v : Vec ℝ n) : Prop :=
  ∀ i, v i + f.density * f.ratio * f.ergun * len v * f.sqrtPerm i * v i = darcy f i

/-- Densities, viscosities, … are not negative. -/
structure Face.Sound (f : Face ℝ n) : Prop where
  coefficient : 0 ≤ f.density * f.ratio * f.ergun
  root : ∀ i, 0 ≤ f.sqrtPerm i

/-- What is assumed of `FieldMatrix::solve`: what it returns is a solution, and it returns one if the matrix is regular. -/
structure Solver (solve : (Fin n → Fin n → ℝ) → Vec ℝ n → Option (Vec ℝ n)) : Prop where
  solves : ∀ A b x, solve A b = some x → ∀ i, ∑ j, A i j * x j = b i
  regular : ∀ A : Fin n → Fin n → ℝ, (Matrix.of A).det ≠ 0 → ∀ b, (solve A b).isSome

/-- There is such a solver. -/
noncomputable def inverseSolve (A : Fin n → Fin n → ℝ) (b : Vec ℝ n) : Option (Vec ℝ n) :=
  open Classical in if (Matrix.of A).det = 0 then none else some ((Matrix.of A)⁻¹.mulVec b)

example : Solver (inverseSolve (n := n)) := by
  classical
  refine ⟨fun A b x h i => ?_, fun A h b => by simp [inverseSolve, h]⟩
  unfold inverseSolve at h
  split_ifs at h with hd
  have hx := Option.some.inj h
  have : (Matrix.of A).mulVec x = b := by
    rw [← hx, Matrix.mulVec_mulVec, Matrix.mul_nonsing_inv _ (isUnit_iff_ne_zero.2 hd), Matrix.one_mulVec]
  rw [← this]; rfl

variable {solve : (Fin n → Fin n → ℝ) → Vec ℝ n → Option (Vec ℝ n)}

theorem forchheimer_iff (f : Face ℝ n) (v : Vec ℝ n) : Forchheimer f v ↔ resid Real.sqrt f v = 0 := by
  unfold Forchheimer darcy
  constructor
  · intro h; funext i; rw [resid_real]; have := h i; simp only [Pi.zero_apply]; linarith
  · intro h i; have := congrFun h i; rw [resid_real] at this; simp only [Pi.zero_apply] at this; linarith

/-! ### The equation -/

theorem forchheimer_form (f : Face ℝ n) (hf : f.Sound) (v : Vec ℝ n) (h : Forchheimer f v) (i : Fin n) :
    v i = darcy f i / (1 + f.sqrtPerm i * (f.density * f.ratio * f.ergun) * len v) := by
  have hp : 0 < 1 + f.sqrtPerm i * (f.density * f.ratio * f.ergun) * len v := by
    have := mul_nonneg (mul_nonneg (hf.root i) hf.coefficient) (len_nonneg v)
    linarith
  rw [eq_div_iff hp.ne', ← h i]; ring

theorem len_mono {v w : Vec ℝ n} (h : ∀ i, |v i| ≤ |w i|) : len v ≤ len w := by
  unfold len
  apply Real.sqrt_le_sqrt
  exact Finset.sum_le_sum fun i _ => by rw [← sq_abs (v i), ← sq_abs (w i)]; exact pow_le_pow_left₀ (abs_nonneg _) (h i) 2

/-- **C131** For every gradient, rock and fluid the Forchheimer equation has exactly one solution. -/
theorem C131_solution (f : Face ℝ n) (hf : f.Sound) : ∃! v, Forchheimer f v := by
  obtain ⟨ha, hs⟩ := hf
  have hpos : ∀ (i : Fin n) {t : ℝ}, 0 ≤ t → 0 < 1 + f.sqrtPerm i * (f.density * f.ratio * f.ergun) * t := fun i t ht => by
    have := mul_nonneg (mul_nonneg (hs i) ha) ht; linarith
  let w : ℝ → Vec ℝ n := fun t i => darcy f i / (1 + f.sqrtPerm i * (f.density * f.ratio * f.ergun) * t)
  have hmono : ∀ t t' : ℝ, 0 ≤ t → t ≤ t' → len (w t') ≤ len (w t) := by
    intro t t' ht htt
    apply len_mono
    intro i
    simp only [w, abs_div, abs_of_pos (hpos i ht), abs_of_pos (hpos i (ht.trans htt))]
    apply div_le_div_of_nonneg_left (abs_nonneg _) (hpos i ht)
    have := mul_le_mul_of_nonneg_left htt (mul_nonneg (hs i) ha)
    linarith
  have hw0 : w 0 = darcy f := by funext i; simp [w]
  have hcont : ContinuousOn (fun t => t - len (w t)) (Set.Icc 0 (len (darcy f))) := by
    apply ContinuousOn.sub continuousOn_id
    unfold len
    apply Real.continuous_sqrt.comp_continuousOn
    apply continuousOn_finset_sum
    intro i _
    apply ContinuousOn.pow
    apply ContinuousOn.div continuousOn_const
    · fun_prop
    · intro t ht; exact (hpos i ht.1).ne'
  have hivt := intermediate_value_Icc (len_nonneg (darcy f)) hcont
  have hmem : (0 : ℝ) ∈ Set.Icc (0 - len (w 0)) (len (darcy f) - len (w (len (darcy f)))) := by
    constructor
    · have := len_nonneg (w 0); linarith
    · have := hmono 0 (len (darcy f)) le_rfl (len_nonneg _)
      rw [hw0] at this
      linarith
  obtain ⟨t, ht, h0⟩ := hivt hmem
  simp only [] at h0
  have hl : len (w t) = t := by linarith
  refine ⟨w t, fun i => ?_, fun v hv => ?_⟩
  · rw [hl]
    have hq := (hpos i ht.1).ne'
    calc w t i + f.density * f.ratio * f.ergun * t * f.sqrtPerm i * w t i
        = w t i * (1 + f.sqrtPerm i * (f.density * f.ratio * f.ergun) * t) := by ring
      _ = darcy f i := div_mul_cancel₀ _ hq
  · have hvw : v = w (len v) := by
      funext i; exact forchheimer_form f ⟨ha, hs⟩ v hv i
    have hlen : len v = t := by
      rcases le_total (len v) t with h | h
      · have h2 := hmono _ _ (len_nonneg v) h
        rw [← hvw, hl] at h2; exact le_antisymm h h2
      · have h2 := hmono _ _ ht.1 h
        rw [← hvw, hl] at h2; exact le_antisymm h2 h
    rw [hvw, hlen]

/-- **C131** The solution has the direction Darcy's law gives to each component, and turbulence only slows it down. -/
theorem C131_slower (f : Face ℝ n) (hf : f.Sound) (v : Vec ℝ n) (hv : Forchheimer f v) (i : Fin n) :
    0 ≤ v i * darcy f i ∧ |v i| ≤ |darcy f i| ∧ (f.density * f.ratio * f.ergun = 0 → v i = darcy f i) := by
  have hp : 1 ≤ 1 + f.sqrtPerm i * (f.density * f.ratio * f.ergun) * len v := by
    have := mul_nonneg (mul_nonneg (hf.root i) hf.coefficient) (len_nonneg v); linarith
  rw [forchheimer_form f hf v hv i]
  refine ⟨?_, ?_, fun h => by simp [h]⟩
  · rw [div_mul_eq_mul_div]; exact div_nonneg (mul_self_nonneg _) (by linarith)
  · rw [abs_div, abs_of_pos (by linarith : 0 < 1 + f.sqrtPerm i * (f.density * f.ratio * f.ergun) * len v)]
    exact div_le_self (abs_nonneg _) hp

/-! ### What is computed -/

/-- **C131** Whenever a velocity is computed, it solves the equation up to the tolerance: it is within 1e-11 of a velocity whose
residual is at most 1e-11 times a bound of the derivatives. -/
theorem C131_equation (f : Face ℝ n) (hf : f.Sound) (hsol : Solver solve) {S : ℝ} (hS : ∀ i, f.sqrtPerm i ≤ S) (v : Vec ℝ n)
    (h : velocity Real.sqrt solve f = some v) :
    ∃ w, (∑ i, |w i - v i|) ≤ 1 / 100000000000 ∧ ∀ i,
      |w i + f.density * f.ratio * f.ergun * len w * f.sqrtPerm i * w i - darcy f i|
        ≤ 1 / 100000000000 * (1 + S * (f.density * f.ratio * f.ergun) * (4 * len w + 1 / 100000000000)) := by
  obtain ⟨w, d, hd, hn, hv⟩ := newton_spec 50 _ v h
  refine ⟨w, ?_, fun i => ?_⟩
  · rw [hv]; simpa [oneNorm] using hn
  · have e := hsol.solves _ _ _ hd i
    have e2 : w i + f.density * f.ratio * f.ergun * len w * f.sqrtPerm i * w i - darcy f i = resid Real.sqrt f w i := by
      rw [resid_real]; unfold darcy; ring
    rw [e2, ← e]
    have hb := gradResid_le f hf.coefficient hf.root hS w i
    have hB : 0 ≤ 1 + S * (f.density * f.ratio * f.ergun) * (4 * len w + 1 / 100000000000) := le_trans (abs_nonneg _) (hb i)
    calc |∑ j, gradResid Real.sqrt f w i j * d j| ≤ ∑ j, |gradResid Real.sqrt f w i j * d j| := Finset.abs_sum_le_sum_abs _ _
      _ ≤ ∑ j, (1 + S * (f.density * f.ratio * f.ergun) * (4 * len w + 1 / 100000000000)) * |d j| :=
          Finset.sum_le_sum fun j _ => by rw [abs_mul]; exact mul_le_mul_of_nonneg_right (hb j) (abs_nonneg _)
      _ = (1 + S * (f.density * f.ratio * f.ergun) * (4 * len w + 1 / 100000000000)) * oneNorm d := by rw [← Finset.mul_sum]; rfl
      _ ≤ (1 + S * (f.density * f.ratio * f.ergun) * (4 * len w + 1 / 100000000000)) * (1 / 100000000000) := mul_le_mul_of_nonneg_left hn hB
      _ = _ := by ring

/-- **C131** In an isotropic rock it is close to the solution. -/
theorem C131_close_partial (f : Face ℝ n) (hf : f.Sound) (hsol : Solver solve) {s : ℝ} (hs : 0 ≤ s) (hi : ∀ i, f.sqrtPerm i = s) (v u : Vec ℝ n)
    (h : velocity Real.sqrt solve f = some v) (hu : Forchheimer f u) :
    len (v - u) ≤ 1 / 100000000000 * (1 + n * (1 + s * (f.density * f.ratio * f.ergun) * (4 * len v + 5 / 100000000000))) := by
  obtain ⟨w, hw, hr⟩ := C131_equation f hf hsol (fun i => (hi i).le) v h
  have h1 := distance_le_resid f hf.coefficient hs hi w u ((forchheimer_iff f u).1 hu)
  have h2 : len (v - w) ≤ 1 / 100000000000 := by
    refine le_trans (len_le_oneNorm _) (le_trans (le_of_eq ?_) hw)
    unfold oneNorm
    exact Finset.sum_congr rfl fun i _ => by rw [Pi.sub_apply, abs_sub_comm]
  have h3 : len (v - u) ≤ len (v - w) + len (w - u) := by
    have := len_add (v - w) (w - u); rwa [sub_add_sub_cancel] at this
  have hlw : len w ≤ len v + 1 / 100000000000 := by
    have := len_add v (-(v - w))
    rw [len_neg] at this
    have e : v + -(v - w) = w := by abel
    rw [e] at this; linarith
  have hc : 0 ≤ s * (f.density * f.ratio * f.ergun) := mul_nonneg hs hf.coefficient
  have h4 : len (resid Real.sqrt f w) ≤ n * (1 / 100000000000 * (1 + s * (f.density * f.ratio * f.ergun) * (4 * len v + 5 / 100000000000))) := by
    refine le_trans (len_le_oneNorm _) ?_
    unfold oneNorm
    calc (∑ i, |resid Real.sqrt f w i|)
        ≤ ∑ _i : Fin n, 1 / 100000000000 * (1 + s * (f.density * f.ratio * f.ergun) * (4 * len v + 5 / 100000000000)) := by
          apply Finset.sum_le_sum
          intro i _
          have e2 : resid Real.sqrt f w i = w i + f.density * f.ratio * f.ergun * len w * f.sqrtPerm i * w i - darcy f i := by
            rw [resid_real]; unfold darcy; ring
          rw [e2]
          refine le_trans (hr i) ?_
          have := mul_le_mul_of_nonneg_left (by linarith : 4 * len w + 1 / 100000000000 ≤ 4 * len v + 5 / 100000000000) hc
          linarith
      _ = _ := by simp
  calc len (v - u) ≤ 1 / 100000000000 + n * (1 / 100000000000 * (1 + s * (f.density * f.ratio * f.ergun) * (4 * len v + 5 / 100000000000))) := by linarith
    _ = _ := by ring

theorem diagonal_det {A : Fin n → Fin n → ℝ} {d : Fin n → ℝ} (hA : ∀ i j, A i j = if i = j then d i else 0) (hd : ∀ i, d i ≠ 0) :
    (Matrix.of A).det ≠ 0 := by
  have : Matrix.of A = Matrix.diagonal d := by
    ext i j; simp only [Matrix.of_apply, hA, Matrix.diagonal_apply]
  rw [this, Matrix.det_diagonal]
  exact Finset.prod_ne_zero_iff.2 fun i _ => hd i

theorem diagonal_solve (hsol : Solver solve) {A : Fin n → Fin n → ℝ} {d : Fin n → ℝ} (hA : ∀ i j, A i j = if i = j then d i else 0)
    (hd : ∀ i, d i ≠ 0) (b : Vec ℝ n) : solve A b = some fun i => b i / d i := by
  obtain ⟨x, hx⟩ := Option.isSome_iff_exists.1 (hsol.regular A (diagonal_det hA hd) b)
  rw [hx]
  congr 1
  funext i
  have := hsol.solves A b x hx i
  rw [Finset.sum_eq_single i] at this
  · rw [hA i i, if_pos rfl] at this
    rw [eq_div_iff (hd i), mul_comm]; exact this
  · intro j _ hj; rw [hA i j, if_neg (Ne.symm hj)]; simp
  · simp

/-- **C131** Without a gradient nothing flows. -/
theorem C131_still (f : Face ℝ n) (hf : f.Sound) (hsol : Solver solve) (h0 : ∀ i, f.grad i = 0) :
    velocity Real.sqrt solve f = some 0 := by
  have hr : resid Real.sqrt f (fun _ => 0) = 0 := by funext i; rw [resid_real, h0 i]; simp
  have hA : ∀ i j, gradResid Real.sqrt f (fun _ => 0) i j
      = if i = j then 1 + f.sqrtPerm i * (f.density * f.ratio * f.ergun) * coordEps 0 else 0 := by
    intro i j
    have hp := coordEps_pos 0
    unfold gradResid
    have e : Function.update (fun _ : Fin n => (0 : ℝ)) i ((0 : ℝ) + coordEps 0) = Function.update (0 : Vec ℝ n) i (coordEps 0) := by
      rw [zero_add]; rfl
    rw [e, hr, resid_real, h0 j, len_single, abs_of_pos hp]
    by_cases hij : i = j
    · subst hij
      rw [if_pos rfl, Function.update_self]
      simp only [Pi.zero_apply]
      field_simp
      ring
    · rw [if_neg hij, Function.update_of_ne (Ne.symm hij)]; simp
  have hd : ∀ i, 1 + f.sqrtPerm i * (f.density * f.ratio * f.ergun) * coordEps 0 ≠ 0 := fun i => by
    have := mul_nonneg (mul_nonneg (hf.root i) hf.coefficient) (coordEps_pos 0).le
    linarith
  unfold velocity newton
  rw [diagonal_solve hsol hA hd, hr]
  simp only [Pi.zero_apply, zero_div, oneNorm, abs_zero, Finset.sum_const_zero, sub_zero]
  rw [if_neg (by norm_num)]
  rfl

/-- **C131** Without turbulence the velocity is the one of Darcy's law. -/
theorem C131_darcy (f : Face ℝ n) (hsol : Solver solve) (h0 : f.density * f.ratio * f.ergun = 0) :
    velocity Real.sqrt solve f = some (darcy f) := by
  have hr : ∀ v i, resid Real.sqrt f v i = v i - darcy f i := fun v i => by
    rw [resid_real, h0]; unfold darcy; ring
  have hA : ∀ v i j, gradResid Real.sqrt f v i j = if i = j then 1 else 0 := by
    intro v i j
    have hp := coordEps_pos (v i)
    unfold gradResid
    rw [hr, hr]
    by_cases hij : i = j
    · subst hij
      rw [if_pos rfl, Function.update_self]
      field_simp
      ring
    · rw [if_neg hij, Function.update_of_ne (Ne.symm hij)]; simp
  have hs : ∀ v b, solve (gradResid Real.sqrt f v) b = some b := fun v b => by
    rw [diagonal_solve hsol (d := fun _ => 1) (hA v) (fun _ => one_ne_zero)]; simp
  have e1 : (fun i => (0 : ℝ) - resid Real.sqrt f (fun _ => 0) i) = darcy f := by funext i; rw [hr]; ring
  have e2 : resid Real.sqrt f (darcy f) = 0 := by funext i; rw [hr]; simp
  unfold velocity newton
  rw [hs]
  simp only [e1]
  split_ifs with hc
  · unfold newton
    rw [hs, e2]
    simp only [Pi.zero_apply, oneNorm, abs_zero, Finset.sum_const_zero, sub_zero]
    rw [if_neg (by norm_num)]
  · rfl

/-- Darcy's law for a tensor. -/
def darcyTensor {K : Type} [Field K] (T : Fin n → Fin n → K) (s : Side K) (grad : Vec K n) : Vec K n := fun i => - (s.mobility * ∑ j, T i j * grad j)

/-- **C131** This holds for diagonal permeability tensors, in every build; … -/
theorem C131_tensor_partial (hsol : Solver solve) (debug : Bool) (T : Fin n → Fin n → ℝ) (hT : ∀ i j, i ≠ j → T i j = 0) (s : Side ℝ)
    (h0 : s.density * s.ratio * s.ergun = 0) (grad : Vec ℝ n) :
    ∃ f, tensorFace debug Real.sqrt T s grad = some f ∧ velocity Real.sqrt solve f = some (darcyTensor T s grad) := by
  have hd : isDiagonal T = true := by
    unfold isDiagonal
    rw [decide_eq_true_iff]
    intro i j hij
    rw [hT i j hij, abs_zero]
    norm_num
  refine ⟨_, by unfold tensorFace; rw [hd]; simp; rfl, ?_⟩
  rw [C131_darcy _ hsol h0]
  congr 1
  funext i
  unfold darcy darcyTensor
  simp only []
  rw [Finset.sum_eq_single i (fun j _ hj => by rw [hT i j (Ne.symm hj), zero_mul]) (by simp)]
  ring

/-- **C131** (violated) … of other tensors, builds without assertions silently ignore what is not on the diagonal. -/
theorem C131_tensor_violated {solve : (Fin 2 → Fin 2 → ℝ) → Vec ℝ 2 → Option (Vec ℝ 2)} (hsol : Solver solve) :
    ∃ (T : Fin 2 → Fin 2 → ℝ) (s : Side ℝ) (grad : Vec ℝ 2) (f : Face ℝ 2) (v : Vec ℝ 2), s.ergun = 0 ∧
      tensorFace false Real.sqrt T s grad = some f ∧ velocity Real.sqrt solve f = some v ∧ v ≠ darcyTensor T s grad := by
  refine ⟨fun i j => if i = j then 2 else 1, ⟨1, 1, 1, 0⟩, fun _ => -1, _, _, rfl, rfl, C131_darcy _ hsol (by simp), fun h => ?_⟩
  have := congrFun h 0
  simp [darcy, darcyTensor, Fin.sum_univ_two] at this

/-! ### The flux over a face -/

/-- **C131** Fluid flows out of the cell, in the direction of the normal, if the potential falls in this direction, and into the cell if it
rises. -/
theorem C131_downhill (f : Face ℝ n) (hf : f.Sound) (hm : 0 ≤ f.mobility) (hp : ∀ i, 0 ≤ f.perm i) (v normal : Vec ℝ n) (hv : Forchheimer f v)
    (g : ℝ) (hg : ∀ i, f.grad i = g * normal i) : (g ≤ 0 → 0 ≤ volumeFlux v normal) ∧ (0 ≤ g → volumeFlux v normal ≤ 0) := by
  have hpos : ∀ i, 0 < 1 + f.sqrtPerm i * (f.density * f.ratio * f.ergun) * len v := fun i => by
    have := mul_nonneg (mul_nonneg (hf.root i) hf.coefficient) (len_nonneg v); linarith
  have hterm : ∀ i, v i * normal i
      = -g * (f.mobility * f.perm i * (normal i * normal i) / (1 + f.sqrtPerm i * (f.density * f.ratio * f.ergun) * len v)) := by
    intro i
    rw [forchheimer_form f hf v hv i]
    unfold darcy
    rw [hg i]
    ring
  have hnn : ∀ i, 0 ≤ f.mobility * f.perm i * (normal i * normal i) / (1 + f.sqrtPerm i * (f.density * f.ratio * f.ergun) * len v) := fun i =>
    div_nonneg (mul_nonneg (mul_nonneg hm (hp i)) (mul_self_nonneg _)) (hpos i).le
  unfold volumeFlux
  refine ⟨fun h => Finset.sum_nonneg fun i _ => ?_, fun h => Finset.sum_nonpos fun i _ => ?_⟩
  · rw [hterm i]; exact mul_nonneg (by linarith) (hnn i)
  · rw [hterm i]; exact mul_nonpos_of_nonpos_of_nonneg (by linarith) (hnn i)

/-- **C131** Without turbulence the computed flux is the one of Darcy's law. -/
theorem C131_flux (f : Face ℝ n) (hsol : Solver solve) (h0 : f.density * f.ratio * f.ergun = 0) (normal : Vec ℝ n) :
    ∃ v, velocity Real.sqrt solve f = some v ∧ volumeFlux v normal = - (f.mobility * ∑ i, f.perm i * f.grad i * normal i) := by
  refine ⟨_, C131_darcy f hsol h0, ?_⟩
  unfold volumeFlux darcy
  rw [Finset.mul_sum, ← Finset.sum_neg_distrib]
  exact Finset.sum_congr rfl fun i _ => by ring

/-! ### Both sides of a face -/

variable {K : Type} [Field K] [LinearOrder K] [IsStrictOrderedRing K]

/-- **C131** What leaves one cell enters the other, unless the gradient is parallel to the face. -/
theorem C131_opposite (root : K → K) (sv : (Fin n → Fin n → K) → Vec K n → Option (Vec K n)) (a b : Side K) (perm grad normal : Vec K n)
    (h : (∑ i, grad i * normal i) ≠ 0) :
    velocity root sv (innerFace root b a perm grad (-normal)) = velocity root sv (innerFace root a b perm grad normal) ∧
    ∀ v : Vec K n, volumeFlux v (-normal) = - volumeFlux v normal := by
  refine ⟨?_, fun v => by simp [volumeFlux]⟩
  congr 1
  unfold innerFace exteriorIsUpstream
  have e : (∑ i, grad i * (-normal) i) = - ∑ i, grad i * normal i := by simp
  rw [e, add_comm b.ergun]
  rcases lt_or_gt_of_ne h with h | h
  · rw [decide_eq_true (by linarith : 0 < - ∑ i, grad i * normal i), decide_eq_false (not_lt.2 h.le)]; rfl
  · rw [decide_eq_false (not_lt.2 (by linarith : - ∑ i, grad i * normal i ≤ 0)), decide_eq_true h]; rfl

/-- **C131** Fluid which leaves over a boundary has the properties of the cell; … -/
theorem C131_boundary_partial (root : K → K) (a o : Side K) (perm grad normal : Vec K n) (h : ¬ 0 < ∑ i, grad i * normal i) :
    let f := boundaryFace root a o perm grad normal
    f.mobility = a.mobility ∧ f.density = a.density ∧ f.ratio = a.ratio ∧ f.ergun = a.ergun := by
  simp [boundaryFace, exteriorIsUpstream, h]

/-- **C131** Between two cells, mobility, density and the ratio are those of the cell the fluid comes from (the one with the larger
potential), and the coefficient is the mean of both cells. -/
theorem C131_upstream (root : K → K) (a b : Side K) (perm grad normal : Vec K n) :
    let f := innerFace root a b perm grad normal
    (0 < (∑ i, grad i * normal i) → f.mobility = b.mobility ∧ f.density = b.density ∧ f.ratio = b.ratio) ∧
    ((∑ i, grad i * normal i) < 0 → f.mobility = a.mobility ∧ f.density = a.density ∧ f.ratio = a.ratio) ∧
    2 * f.ergun = a.ergun + b.ergun ∧ f.perm = perm ∧ f.sqrtPerm = (fun i => root (perm i)) ∧ f.grad = grad := by
  refine ⟨fun h => ?_, fun h => ?_, ?_, rfl, rfl, rfl⟩
  · simp [innerFace, exteriorIsUpstream, h]
  · simp [innerFace, exteriorIsUpstream, not_lt.2 h.le]
  · show 2 * ((a.ergun + b.ergun) / 2) = _
    ring

/-- **C131** (violated) … but fluid which enters has the mobility of the outside and the density and viscosity of the inside. -/
theorem C131_boundary_violated (root : K → K) (a o : Side K) (perm grad normal : Vec K n) (h : 0 < ∑ i, grad i * normal i) :
    let f := boundaryFace root a o perm grad normal
    f.mobility = o.mobility ∧ f.density = a.density ∧ f.ratio = a.ratio := by
  simp [boundaryFace, exteriorIsUpstream, h]

/-! ### Mirrored problems -/

/-- One dimension: a step in terms of the velocity alone, with Darcy velocity `d` and turbulence `c`. -/
def residOne (d c v : K) : K := v - d + c * |v| * v

/-- The loop in one dimension. -/
def newtonOne (d c : K) : ℕ → K → Option K
  | 0, _ => none
  | k + 1, v =>
    let h := coordEps v
    let g := (residOne d c (v + h) - residOne d c v) / h
    if g = 0 then none
    else
      let x := residOne d c v / g
      if 1 / 100000000000 < |x| then newtonOne d c k (v - x) else some (v - x)

/-- `FieldMatrix<K, 1, 1>::solve`. -/
def solveOne (A : Fin 1 → Fin 1 → K) (b : Vec K 1) : Option (Vec K 1) := if A 0 0 = 0 then none else some fun _ => b 0 / A 0 0

theorem residOne_eq {root : K → K} (hroot : ∀ x, root (x * x) = |x|) (f : Face K 1) (v : Vec K 1) :
    resid root f v 0 = residOne (darcy f 0) (f.sqrtPerm 0 * (f.density * f.ratio * f.ergun)) (v 0) := by
  have e : absVel root v = |v 0| := by
    unfold absVel
    simp only [Finset.univ_unique, Fin.default_eq_zero, Finset.sum_singleton, hroot]
    split_ifs with h
    · have : v 0 * v 0 = 0 := le_antisymm h (mul_self_nonneg _)
      rw [mul_self_eq_zero.1 this, abs_zero]
    · rfl
  unfold resid residOne darcy
  rw [e]; ring

theorem newtonOne_eq {root : K → K} (hroot : ∀ x, root (x * x) = |x|) (f : Face K 1) (k : ℕ) : ∀ v : Vec K 1,
    newton root solveOne f k v = (newtonOne (darcy f 0) (f.sqrtPerm 0 * (f.density * f.ratio * f.ergun)) k (v 0)).map fun x _ => x := by
  induction k with
  | zero => intro v; rfl
  | succ k ih =>
    intro v
    have hg : gradResid root f v 0 0 = (residOne (darcy f 0) (f.sqrtPerm 0 * (f.density * f.ratio * f.ergun)) (v 0 + coordEps (v 0))
        - residOne (darcy f 0) (f.sqrtPerm 0 * (f.density * f.ratio * f.ergun)) (v 0)) / coordEps (v 0) := by
      unfold gradResid
      rw [residOne_eq hroot, residOne_eq hroot, Function.update_self]
    simp only [newton, newtonOne, solveOne, hg, residOne_eq hroot]
    generalize residOne (darcy f 0) (f.sqrtPerm 0 * (f.density * f.ratio * f.ergun)) (v 0) = r
    split_ifs with h0 h1
    · rfl
    · simp only [oneNorm, Finset.univ_unique, Fin.default_eq_zero, Finset.sum_singleton] at h1 ⊢
      simp only [ih]
      rw [if_pos h1]
    · simp only [oneNorm, Finset.univ_unique, Fin.default_eq_zero, Finset.sum_singleton] at h1 ⊢
      rw [if_neg h1]
      simp only [Option.map_some]
      congr 1
      funext i
      rw [Subsingleton.elim i 0]

theorem mirror_darcy (f : Face ℝ n) : darcy { f with grad := -f.grad } = - darcy f := by
  funext i; simp [darcy]

theorem mirror_solution (f : Face ℝ n) (u : Vec ℝ n) (h : Forchheimer f u) : Forchheimer { f with grad := -f.grad } (-u) := by
  intro i
  have := h i
  rw [mirror_darcy, len_neg]
  simp only [Pi.neg_apply, mul_neg]
  linarith

/-- **C131** In an isotropic rock, flow in opposite directions has nearly opposite velocities, … -/
theorem C131_mirror_partial (f : Face ℝ n) (hf : f.Sound) (hsol : Solver solve) {s : ℝ} (hs : 0 ≤ s) (hi : ∀ i, f.sqrtPerm i = s) (v v' : Vec ℝ n)
    (h : velocity Real.sqrt solve f = some v) (h' : velocity Real.sqrt solve { f with grad := -f.grad } = some v') :
    len (v + v') ≤ 1 / 100000000000 * (1 + n * (1 + s * (f.density * f.ratio * f.ergun) * (4 * len v + 5 / 100000000000)))
      + 1 / 100000000000 * (1 + n * (1 + s * (f.density * f.ratio * f.ergun) * (4 * len v' + 5 / 100000000000))) := by
  obtain ⟨u, hu, -⟩ := C131_solution f hf
  have h1 := C131_close_partial f hf hsol hs hi v u h hu
  have h2 := C131_close_partial { f with grad := -f.grad } ⟨hf.coefficient, hf.root⟩ hsol hs hi v' (-u) h' (mirror_solution f u hu)
  have h3 := len_add (v - u) (v' - -u)
  have e : v - u + (v' - -u) = v + v' := by abel
  rw [e] at h3
  linarith

/-- A root for squares of rational numbers. -/
noncomputable def ratRoot (x : ℚ) : ℚ := open Classical in if h : ∃ y, y * y = x then |h.choose| else 0

theorem ratRoot_sq (x : ℚ) : ratRoot (x * x) = |x| := by
  classical
  have h : ∃ y, y * y = x * x := ⟨x, rfl⟩
  unfold ratRoot
  rw [dif_pos h, abs_eq_abs]
  exact mul_self_eq_mul_self_iff.1 h.choose_spec

/-- A face with Darcy velocity 1 and little turbulence. -/
def faceOne : Face ℚ 1 := ⟨1, 1, 1, 1 / 1000000, fun _ => 1, fun _ => 1, fun _ => -1⟩

def velocityOne (d : ℚ) : Option ℚ := newtonOne d (1 / 1000000) 50 0

/-- **C131** (violated) … but not exactly: the step of the difference quotient depends on the sign of the velocity, so that a problem and
its mirror image have different solutions. -/
theorem C131_mirror_violated : ∃ v v' : Vec ℚ 1, velocity ratRoot solveOne faceOne = some v ∧
    velocity ratRoot solveOne { faceOne with grad := -faceOne.grad } = some v' ∧ v' ≠ -v := by
  have e1 : darcy faceOne 0 = 1 := by norm_num [darcy, faceOne]
  have e2 : darcy { faceOne with grad := -faceOne.grad } 0 = -1 := by norm_num [darcy, faceOne]
  have e3 : faceOne.sqrtPerm 0 * (faceOne.density * faceOne.ratio * faceOne.ergun) = 1 / 1000000 := by norm_num [faceOne]
  have h1 : ∃ x, velocityOne 1 = some x ∧ ∃ y, velocityOne (-1) = some y ∧ y ≠ -x := by
    refine ⟨(velocityOne 1).get (by decide +kernel), by simp, (velocityOne (-1)).get (by decide +kernel), by simp, by decide +kernel⟩
  obtain ⟨x, hx, y, hy, hne⟩ := h1
  refine ⟨fun _ => x, fun _ => y, ?_, ?_, fun h => hne (congrFun h 0)⟩
  · unfold velocity
    rw [newtonOne_eq ratRoot_sq, e1, e3]
    have : newtonOne (1 : ℚ) (1 / 1000000) 50 0 = some x := hx
    rw [this]; rfl
  · unfold velocity
    rw [newtonOne_eq ratRoot_sq, e2]
    have : newtonOne (-1 : ℚ) (1 / 1000000) 50 0 = some y := hy
    rw [show ({ faceOne with grad := -faceOne.grad } : Face ℚ 1).sqrtPerm 0 * (({ faceOne with grad := -faceOne.grad } : Face ℚ 1).density
      * ({ faceOne with grad := -faceOne.grad } : Face ℚ 1).ratio * ({ faceOne with grad := -faceOne.grad } : Face ℚ 1).ergun) = 1 / 1000000 from e3]
    rw [this]; rfl

/-- A real face in two dimensions which meets the hypotheses. -/
noncomputable def faceTwo : Face ℝ 2 := ⟨2, 1, 1, 1, fun _ => 4, fun _ => 2, fun i => if i = 0 then -1 else 3⟩
example : faceTwo.Sound ∧ (∀ i, faceTwo.sqrtPerm i = 2) ∧ darcy faceTwo 0 = 8 := by
  refine ⟨⟨by norm_num [faceTwo], fun i => by norm_num [faceTwo]⟩, fun _ => rfl, by norm_num [darcy, faceTwo]⟩

end Verif.Forch
