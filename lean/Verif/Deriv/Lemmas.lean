import Verif.Deriv.Model
import Mathlib.Analysis.Calculus.Deriv.Mul
import Mathlib.Analysis.Calculus.Deriv.Add

set_option autoImplicit false
set_option linter.unusedSimpArgs false

/-
Evaluations which carry the derivative of their value.
-/
namespace Verif.Deriv

open Filter Topology

/-- The derivative which an evaluation carries is that of its value. -/
def Tracks (f : ℝ → Ev) (x : ℝ) : Prop := HasDerivAt (fun y => (f y).val) (f x).der x

namespace Ev

@[simp] theorem add_val (a b : Ev) : (a + b).val = a.val + b.val := rfl
@[simp] theorem add_der (a b : Ev) : (a + b).der = a.der + b.der := rfl
@[simp] theorem sub_val (a b : Ev) : (a - b).val = a.val - b.val := rfl
@[simp] theorem sub_der (a b : Ev) : (a - b).der = a.der - b.der := rfl
@[simp] theorem neg_val (a : Ev) : (-a).val = -a.val := rfl
@[simp] theorem neg_der (a : Ev) : (-a).der = -a.der := rfl
@[simp] theorem mul_val (a b : Ev) : (a * b).val = a.val * b.val := rfl
@[simp] theorem mul_der (a b : Ev) : (a * b).der = a.der * b.val + a.val * b.der := rfl
@[simp] theorem const_val (c : ℝ) : (const c).val = c := rfl
@[simp] theorem const_der (c : ℝ) : (const c).der = 0 := rfl
@[simp] theorem value_val (a : Ev) : (value a).val = a.val := rfl
@[simp] theorem value_der (a : Ev) : (value a).der = 0 := rfl
@[simp] theorem sum_val {ι : Type} [Fintype ι] (f : ι → Ev) : (sum f).val = ∑ i, (f i).val := rfl
@[simp] theorem sum_der {ι : Type} [Fintype ι] (f : ι → Ev) : (sum f).der = ∑ i, (f i).der := rfl

end Ev

@[simp] theorem keep_val (b : Bool) (e : Ev) : (keep b e).val = e.val := by cases b <;> rfl
@[simp] theorem keep_true (e : Ev) : keep true e = e := rfl
@[simp] theorem keep_false (e : Ev) : keep false e = e.value := rfl

namespace Tracks

variable {f h : ℝ → Ev} {x : ℝ}

theorem add (hf : Tracks f x) (hh : Tracks h x) : Tracks (fun y => f y + h y) x := HasDerivAt.add hf hh

theorem sub (hf : Tracks f x) (hh : Tracks h x) : Tracks (fun y => f y - h y) x := HasDerivAt.sub hf hh

theorem neg (hf : Tracks f x) : Tracks (fun y => - f y) x := HasDerivAt.neg hf

theorem mul (hf : Tracks f x) (hh : Tracks h x) : Tracks (fun y => f y * h y) x := HasDerivAt.mul hf hh

/-- What does not change has derivative zero. -/
theorem fixed (e : Ev) (he : e.der = 0) : Tracks (fun _ => e) x := by
  unfold Tracks
  rw [he]
  exact hasDerivAt_const x e.val

theorem const (c : ℝ) : Tracks (fun _ => Ev.const c) x := fixed _ rfl

theorem value (e : Ev) : Tracks (fun _ => e.value) x := fixed _ rfl

theorem sum {ι : Type} [Fintype ι] {f : ι → ℝ → Ev} (hf : ∀ i, Tracks (f i) x) : Tracks (fun y => Ev.sum fun i => f i y) x := by
  unfold Tracks
  simp only [Ev.sum_val, Ev.sum_der]
  exact HasDerivAt.fun_sum fun i _ => hf i

/-- Evaluations which agree nearby. -/
theorem congr (hf : Tracks f x) (he : ∀ᶠ y in 𝓝 x, h y = f y) : Tracks h x := by
  unfold Tracks
  have hx : h x = f x := he.self_of_nhds
  rw [hx]
  exact HasDerivAt.congr_of_eventuallyEq hf (he.mono fun y hy => by simp only [hy])

/-- The sign of a value does not change nearby. -/
theorem sign (hf : Tracks f x) (h0 : (f x).val ≠ 0) : ∀ᶠ y in 𝓝 x, (0 < (f y).val ↔ 0 < (f x).val) := by
  have hc : ContinuousAt (fun y => (f y).val) x := HasDerivAt.continuousAt hf
  rcases lt_or_gt_of_ne h0 with hl | hg
  · filter_upwards [hc.eventually_lt_const hl] with y hy
    exact ⟨fun h => absurd h (not_lt.2 hy.le), fun h => absurd h (not_lt.2 hl.le)⟩
  · filter_upwards [hc.eventually_const_lt hg] with y hy
    exact ⟨fun _ => hg, fun _ => hy⟩

end Tracks

end Verif.Deriv
