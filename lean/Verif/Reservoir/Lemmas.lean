import Verif.Reservoir.Spec
import Verif.Hybrid.Props
import Mathlib.Tactic.Ring
import Mathlib.Tactic.FieldSimp

/-
Values of the fluxes, and what they depend on.
-/

set_option autoImplicit false
set_option linter.unusedSectionVars false

namespace Verif.Reservoir

open Verif.Flux (Phase Options)
open Verif.ParSolve.Block
open TrivSqZeroExt

variable {E : ℕ} {G K V X : Type} [Field K] [LinearOrder K]

theorem fst_const (x : K) : (const x : Ev E K).fst = x := rfl
theorem fst_decay (x : Ev E K) : (decay x).fst = x.fst := rfl

theorem fst_upstream (ex : Bool) (a b : Ev E K) : (upstream ex a b).fst = if ex then b.fst else a.fst := by
  cases ex <;> rfl

theorem fst_evalPhaseFluxes (o : Options) (ref : Phase → K) (a : Iq (Ev E K)) (s rs rsw rv rvw : Ev E K) (h1 : rs.fst = a.rs.fst)
    (h2 : rsw.fst = a.rsw.fst) (h3 : rv.fst = a.rv.fst) (h4 : rvw.fst = a.rvw.fst) (flux : Phase → Ev E K) (p c : Phase) :
    (evalPhaseFluxes o ref s rs rsw rv rvw flux p c).fst = (flux c).fst + s.fst * share o ref a p c := by
  cases p <;> cases c <;> simp only [evalPhaseFluxes, share, ← h1, ← h2, ← h3, ← h4] <;> split_ifs <;>
    simp_all [fst_const] <;> ring

/-- Sums over the active phases -/
def sumActive (o : Options) (t : Phase → K) : K := ((Phase.all.filter fun p => o.active p).map t).sum

theorem fst_fold (o : Options) (f : (Phase → Ev E K) → Phase → Phase → Ev E K) (t : Phase → K) (c : Phase)
    (h : ∀ flux p, (f flux p c).fst = (flux c).fst + t p) :
    (Phase.all.foldl (fun flux p => if o.active p = false then flux else f flux p) (fun _ => 0) c).fst = sumActive o t := by
  have key : ∀ (l : List Phase) (z : Phase → Ev E K),
      (l.foldl (fun flux p => if o.active p = false then flux else f flux p) z c).fst = (z c).fst + ((l.filter fun p => o.active p).map t).sum := by
    intro l
    induction l with
    | nil => intro z; simp
    | cons p l ih =>
      intro z
      rw [List.foldl_cons, ih]
      cases hp : o.active p
      · rw [if_pos rfl, List.filter_cons_of_neg (by simp [hp])]
      · rw [if_neg (by simp), List.filter_cons_of_pos (by simp [hp]), List.map_cons, List.sum_cons, h]
        ring
  rw [key, fst_zero, zero_add]
  rfl

theorem fst_fold' (o : Options) (f : Ev E K → Phase → Ev E K) (t : Phase → K) (h : ∀ flux p, (f flux p).fst = flux.fst + t p) :
    (Phase.all.foldl (fun flux p => if o.active p = false then flux else f flux p) 0).fst = sumActive o t := by
  have key : ∀ (l : List Phase) (z : Ev E K),
      (l.foldl (fun flux p => if o.active p = false then flux else f flux p) z).fst = z.fst + ((l.filter fun p => o.active p).map t).sum := by
    intro l
    induction l with
    | nil => intro z; simp
    | cons p l ih =>
      intro z
      rw [List.foldl_cons, ih]
      cases hp : o.active p
      · rw [if_pos rfl, List.filter_cons_of_neg (by simp [hp])]
      · rw [if_neg (by simp), List.filter_cons_of_pos (by simp [hp]), List.map_cons, List.sum_cons, h]
        ring
  rw [key, fst_zero, zero_add]
  rfl

theorem sumActive_congr {o : Options} {s t : Phase → K} (h : ∀ p, s p = t p) : sumActive o s = sumActive o t := by
  rw [show s = t from funext h]

theorem sumActive_mul (o : Options) (t : Phase → K) (x : K) : sumActive o (fun p => t p * x) = sumActive o t * x := by
  unfold sumActive
  rw [List.sum_map_mul_right]

theorem fst_pressureDifference (k : Nb K) (a b : Iq (Ev E K)) (p : Phase) : (pressureDifference k a b p).fst = excess k a b p := by
  simp only [pressureDifference, excess, fst_sub, fst_add, fst_mul, fst_const, fst_decay]
  ring

theorem fst_darcyFlux (k : Nb K) (ex : Bool) (a b : Iq (Ev E K)) (p : Phase) :
    (darcyFlux k ex a b p).fst = volumeFlux k a b p (if ex then (b.mobility p).fst else (a.mobility p).fst) := by
  simp only [darcyFlux, volumeFlux, fst_mul, fst_pressureDifference, fst_upstream, fst_add, fst_const, fst_decay]
  ring

theorem exteriorUpstream_eq (k : Nb K) (u w : K) (before : Bool) (a b : Iq (Ev E K)) (p : Phase) (h : excess k a b p ≠ 0) :
    exteriorUpstream k u w before a b p = decide (0 < excess k a b p) := by
  unfold exteriorUpstream
  simp only [fst_pressureDifference]
  rcases lt_or_gt_of_ne h with h | h
  · rw [if_neg (not_lt.2 h.le), if_pos h, decide_eq_false (not_lt.2 h.le)]
  · rw [if_pos h, decide_eq_true h]

theorem volumeFlux_zero (k : Nb K) (a b : Iq (Ev E K)) (p : Phase) (m : K) (h : excess k a b p = 0) : volumeFlux k a b p m = 0 := by
  simp [volumeFlux, h]

/-- Whichever cell is taken for the upstream one if there is no difference of pressures: nothing flows. -/
theorem carried_eq (k : Nb K) (u w : K) (before : Bool) (a b : Iq (Ev E K)) (p : Phase) (x y : K) :
    (if exteriorUpstream k u w before a b p then y else x) *
        volumeFlux k a b p (if exteriorUpstream k u w before a b p then (b.mobility p).fst else (a.mobility p).fst) =
      if 0 < excess k a b p then y * volumeFlux k a b p (b.mobility p).fst else x * volumeFlux k a b p (a.mobility p).fst := by
  by_cases h : excess k a b p = 0
  · simp only [volumeFlux_zero k a b p _ h, mul_zero, ite_self]
  · rw [exteriorUpstream_eq k u w before a b p h]
    by_cases h' : 0 < excess k a b p <;> simp [h']

theorem fst_componentFlux (o : Options) (k : Nb K) (u w : K) (before : Bool) (ri re : Phase → K) (a b : Iq (Ev E K)) (q : Phase) :
    (componentFlux o k u w before ri re a b q).fst = sumActive o fun p =>
      if 0 < excess k a b p then ((b.invB p).fst * share o re b p q) * volumeFlux k a b p (b.mobility p).fst
      else ((a.invB p).fst * share o ri a p q) * volumeFlux k a b p (a.mobility p).fst := by
  unfold componentFlux
  refine fst_fold o (fun flux p => evalPhaseFluxes o (if exteriorUpstream k u w before a b p then re else ri)
    (upstream (exteriorUpstream k u w before a b p) (a.invB p) (b.invB p) * darcyFlux k (exteriorUpstream k u w before a b p) a b p)
    (upstream (exteriorUpstream k u w before a b p) a.rs b.rs) (upstream (exteriorUpstream k u w before a b p) a.rsw b.rsw)
    (upstream (exteriorUpstream k u w before a b p) a.rv b.rv) (upstream (exteriorUpstream k u w before a b p) a.rvw b.rvw) flux p) _ q
    fun flux p => ?_
  rw [← carried_eq k u w before a b p]
  generalize exteriorUpstream k u w before a b p = ex
  cases ex
  · refine (fst_evalPhaseFluxes o ri a _ _ _ _ _ rfl rfl rfl rfl flux p q).trans ?_
    rw [fst_mul, fst_darcyFlux, fst_upstream]
    simp only [Bool.false_eq_true, if_false]
    ring
  · refine (fst_evalPhaseFluxes o re b (upstream true (a.invB p) (b.invB p) * darcyFlux k true a b p) (decay b.rs) (decay b.rsw)
      (decay b.rv) (decay b.rvw) rfl rfl rfl rfl flux p q).trans ?_
    rw [fst_mul, fst_darcyFlux, fst_upstream]
    simp only [if_true]
    ring

theorem fst_heatFlux (k : Nb K) (a b : Iq (Ev E K)) : (heatFlux k a b).fst = conducted k a b := by
  unfold heatFlux conducted
  by_cases h : 0 < (a.conductivity * const k.inAlpha).fst ∧ 0 < (decay b.conductivity * const k.outAlpha).fst
  · have h' : 0 < a.conductivity.fst * k.inAlpha ∧ 0 < b.conductivity.fst * k.outAlpha := h
    simp only [if_pos h, if_pos h']
    simp only [fst_mul, fst_sub, fst_decay, fst_const, fst_neg, fst_inv, fst_add, one_div]
    ring
  · have h' : ¬ (0 < a.conductivity.fst * k.inAlpha ∧ 0 < b.conductivity.fst * k.outAlpha) := h
    simp only [if_neg h, if_neg h']
    simp only [fst_mul, fst_sub, fst_decay, fst_const, fst_neg, fst_zero]
    ring

theorem fst_energyFlux (o : Options) (scale : K) (k : Nb K) (u w : K) (before : Bool) (a b : Iq (Ev E K)) :
    (energyFlux o scale k u w before a b).fst = (sumActive o fun p =>
      if 0 < excess k a b p then ((b.enthalpy p).fst * (b.density p).fst * scale) * volumeFlux k a b p (b.mobility p).fst
      else ((a.enthalpy p).fst * (a.density p).fst * scale) * volumeFlux k a b p (a.mobility p).fst) + conducted k a b * scale := by
  unfold energyFlux
  rw [fst_mul, fst_add, fst_const, fst_heatFlux, add_mul]
  congr 1
  rw [fst_fold' o (fun flux p => flux + upstream (exteriorUpstream k u w before a b p) (a.enthalpy p) (b.enthalpy p)
    * upstream (exteriorUpstream k u w before a b p) (a.density p) (b.density p) * darcyFlux k (exteriorUpstream k u w before a b p) a b p)
    (fun p => if 0 < excess k a b p then ((b.enthalpy p).fst * (b.density p).fst) * volumeFlux k a b p (b.mobility p).fst
      else ((a.enthalpy p).fst * (a.density p).fst) * volumeFlux k a b p (a.mobility p).fst), ← sumActive_mul]
  · refine sumActive_congr fun p => ?_
    split_ifs <;> ring
  · intro flux p
    rw [← carried_eq k u w before a b p]
    generalize exteriorUpstream k u w before a b p = ex
    simp only [fst_add, fst_mul, fst_darcyFlux, fst_upstream]
    cases ex <;> simp

theorem flux_value (r : Model G E K V X) (index : G → ℕ) (own : X) (dt : K) (c c' : G) (k : Nb K) (v v' : V) (e : Fin E) :
    ((r.flow index).flux own dt c c' k v v').1 e = flowing r own e c c' k v v' := by
  simp only [Model.flow, parts, flowing, contained]
  cases r.equation e with
  | some q =>
    simp only [fst_componentFlux, reduceCtorEq, if_false, add_zero]
    rfl
  | none =>
    simp only [fst_energyFlux, if_true]
    rfl

theorem storage_value [DecidableEq G] {r : Model G E K V X} {cells : Set G} (hs : Sound r cells) (index : G → ℕ) (own : X) (c : G) (v : V) (e : Fin E) :
    ((r.flow index).storage own c v).1 e = content r own e c v := by
  simp only [Model.flow, parts, content]
  cases he : r.equation e with
  | some q =>
    have hq := hs.active e q he
    simp only [storedComponents, hq, and_true]
    set a := r.quantities own c v
    have key : (Phase.all.foldl (fun st p => if r.options.active p = false then st
        else evalPhaseFluxes { r.options with conserveSurfaceVolume := true } (r.ref c) (a.saturation p * a.invB p * a.porosity) a.rs a.rsw a.rv
          a.rvw st p) (fun _ => 0) q).fst =
        sumActive r.options fun p => (a.saturation p).fst * (a.invB p).fst * a.porosity.fst *
          share { r.options with conserveSurfaceVolume := true } (r.ref c) a p q :=
      fst_fold r.options _ _ q fun flux p => by
        rw [fst_evalPhaseFluxes _ _ a _ _ _ _ _ rfl rfl rfl rfl, fst_mul, fst_mul]
    have hsum : a.porosity.fst * sumActive r.options (fun p => (a.saturation p).fst * ((a.invB p).fst * share r.options (r.ref c) a p q)) =
        sumActive r.options fun p => (a.saturation p).fst * (a.invB p).fst * a.porosity.fst * share r.options (r.ref c) a p q := by
      rw [mul_comm, ← sumActive_mul]
      exact sumActive_congr fun p => by ring
    rw [show ((Phase.all.filter fun p => r.options.active p).map fun p =>
      (a.saturation p).fst * ((a.invB p).fst * share r.options (r.ref c) a p q)).sum = sumActive r.options _ from rfl, hsum]
    by_cases hc : r.options.conserveSurfaceVolume = false
    · rw [if_pos hc, fst_mul, key, fst_const, ← sumActive_mul]
      refine sumActive_congr fun p => ?_
      simp only [share, hc, if_true, Bool.false_eq_true, if_false]
      ring
    · rw [if_neg hc, key]
      rw [Bool.not_eq_false] at hc
      refine sumActive_congr fun p => ?_
      simp only [share, hc, if_true]
  | none =>
    set a := r.quantities own c v
    simp only [storedEnergy, fst_mul, fst_add, fst_const]
    rw [fst_fold' r.options (fun st p => st + a.porosity * a.saturation p * a.internalEnergy p * a.density p)
      (fun p => (a.saturation p).fst * ((a.density p).fst * (a.internalEnergy p).fst) * a.porosity.fst), sumActive_mul]
    · rw [mul_comm (sumActive _ _)]
      rfl
    · intro flux p
      simp only [fst_add, fst_mul]
      ring

theorem excess_reverse (k : Nb K) (a b : Iq (Ev E K)) (p : Phase) : excess k.reverse b a p = -excess k a b p := by
  simp only [excess, Nb.reverse]
  ring

theorem volumeFlux_reverse (k : Nb K) (a b : Iq (Ev E K)) (p : Phase) (m : K) : volumeFlux k.reverse b a p m = -volumeFlux k a b p m := by
  simp only [volumeFlux, excess_reverse]
  simp only [Nb.reverse]
  ring

theorem conducted_reverse (k : Nb K) (a b : Iq (Ev E K)) : conducted k.reverse b a = -conducted k a b := by
  have e : conducted k.reverse b a = (b.temperature.fst - a.temperature.fst) *
      (if 0 < b.conductivity.fst * k.outAlpha ∧ 0 < a.conductivity.fst * k.inAlpha then
        1 / (1 / (b.conductivity.fst * k.outAlpha) + 1 / (a.conductivity.fst * k.inAlpha)) else 0) / k.faceArea := rfl
  rw [e]
  unfold conducted
  dsimp only
  by_cases h : 0 < a.conductivity.fst * k.inAlpha ∧ 0 < b.conductivity.fst * k.outAlpha
  · rw [if_pos h, if_pos h.symm, add_comm (1 / (b.conductivity.fst * k.outAlpha))]
    ring
  · rw [if_neg h, if_neg fun h' => h h'.symm]
    ring

theorem sum_map_neg {α : Type} (l : List α) (t : α → K) : (l.map fun p => -t p).sum = -(l.map t).sum := by
  induction l with
  | nil => simp
  | cons p l ih => rw [List.map_cons, List.sum_cons, ih, List.map_cons, List.sum_cons, neg_add]

variable [IsStrictOrderedRing K]

theorem flowing_reverse (r : Model G E K V X) (own : X) (e : Fin E) (c c' : G) (k : Nb K) (v v' : V) :
    flowing r own e c' c k.reverse v' v = -flowing r own e c c' k v v' := by
  simp only [flowing, excess_reverse, volumeFlux_reverse, conducted_reverse]
  rw [neg_add, ← sum_map_neg]
  congr 1
  · congr 1
    apply List.map_congr_left
    intro p _
    rcases lt_trichotomy (excess k (r.quantities own c v) (r.quantities own c' v') p) 0 with h | h | h
    · rw [if_pos (by linarith), if_neg (not_lt.2 h.le)]; ring
    · simp only [volumeFlux_zero _ _ _ _ _ h]; simp
    · rw [if_neg (by linarith), if_pos h]; ring
  · split_ifs <;> simp

theorem componentFlux_congr (o : Options) (k : Nb K) (u w : K) (x y : Bool) (ri re : Phase → K) (a b : Iq (Ev E K))
    (h : ∀ p, o.active p = true → exteriorUpstream k u w x a b p = exteriorUpstream k u w y a b p) :
    componentFlux o k u w x ri re a b = componentFlux o k u w y ri re a b := by
  unfold componentFlux
  congr 1
  funext flux p
  by_cases hp : o.active p = true
  · simp only [h p hp]
  · rw [if_pos (by simpa using hp), if_pos (by simpa using hp)]

theorem energyFlux_congr (o : Options) (scale : K) (k : Nb K) (u w : K) (x y : Bool) (a b : Iq (Ev E K))
    (h : ∀ p, o.active p = true → exteriorUpstream k u w x a b p = exteriorUpstream k u w y a b p) :
    energyFlux o scale k u w x a b = energyFlux o scale k u w y a b := by
  unfold energyFlux
  congr 3
  funext flux p
  by_cases hp : o.active p = true
  · simp only [h p hp]
  · rw [if_pos (by simpa using hp), if_pos (by simpa using hp)]

/-- The flux, with derivatives, depends on the numbering of the cells only where pressures and volumes are equal. -/
theorem flux_congr (r : Model G E K V X) {i j : G → ℕ} (own : X) (dt : K) (c c' : G) (k : Nb K) (v v' : V)
    (h : r.volume c = r.volume c' → ∀ p, r.options.active p = true → excess k (r.quantities own c v) (r.quantities own c' v') p = 0 →
      (i c < i c' ↔ j c < j c')) :
    (r.flow i).flux own dt c c' k v v' = (r.flow j).flux own dt c c' k v v' := by
  have hu : ∀ p, r.options.active p = true →
      exteriorUpstream k (r.volume c) (r.volume c') (decide (i c < i c')) (r.quantities own c v) (r.quantities own c' v') p =
        exteriorUpstream k (r.volume c) (r.volume c') (decide (j c < j c')) (r.quantities own c v) (r.quantities own c' v') p := by
    intro p hp
    by_cases h0 : excess k (r.quantities own c v) (r.quantities own c' v') p = 0
    · rcases lt_trichotomy (r.volume c) (r.volume c') with hv | hv | hv
      · simp only [exteriorUpstream, hv, not_lt.2 hv.le, if_true, if_false]
      · rw [decide_eq_decide.2 (h hv p hp h0)]
      · simp only [exteriorUpstream, hv, if_true]
    · rw [exteriorUpstream_eq _ _ _ _ _ _ _ h0, exteriorUpstream_eq _ _ _ _ _ _ _ h0]
  have e1 := componentFlux_congr r.options k (r.volume c) (r.volume c') _ _ (r.ref c) (r.ref c') _ _ hu
  have e2 := energyFlux_congr r.options r.scale k (r.volume c) (r.volume c') _ _ _ _ hu
  simp only [Model.flow, e1, e2]

end Verif.Reservoir
