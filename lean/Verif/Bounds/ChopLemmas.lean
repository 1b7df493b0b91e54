import Verif.BlackOil.UpdateProps

/-
Projected saturations are not negative.
-/

set_option autoImplicit false
namespace Verif.BlackOil
variable {K : Type} [Field K] [LinearOrder K] [IsStrictOrderedRing K]

theorem chop_nonneg {L : Layout} {f : Fluid K} {v v' : PriVars K} {b : Bool} (h : Fits L f v) (hc : chopAndNormalize L v = some (v', b)) :
    SatNonneg (saturations L f v') := by
  have hsol : ¬(0 ≤ L.solventSaturationIdx) := not_le.2 h.solvent.1
  by_cases hd : v.water = .Disabled ∧ v.gas = .Disabled
  · unfold chopAndNormalize at hc
    rw [if_pos hd] at hc
    cases hc
    obtain ⟨h1, h2⟩ := hd
    have a := h.noWater h1
    have a2 := h.noGas h2
    have a3 := h.some
    unfold SatNonneg saturations
    simp only [h1, h2, hsol, false_and, if_false, sub_zero]
    cases ho : f.oilActive <;> cases hg : f.gasActive <;> cases hw : f.waterActive <;> simp_all
  · obtain ⟨v'', b'', e, ha, hm, -⟩ := C53_admissible h.nodup (v := v)
      ⟨fun hx => (h.water hx).1, fun hx => (h.gas hx).1, fun hx => absurd h.solvent.2 hx⟩ hd
    rw [e] at hc
    obtain ⟨rfl, -⟩ := Prod.mk.inj (Option.some.inj hc)
    simp only [Prod.mk.injEq] at hm
    obtain ⟨m1, -, m3, -, m5⟩ := hm
    have h' : Fits L f v'' := h.congr m1 m3 m5
    obtain ⟨a1, a2, a3, a4⟩ := ha
    have hss : explicitSs L v'' = 0 := by unfold explicitSs; rw [h'.solvent.2]; simp
    rw [hss] at a4
    have hw := h'.water
    have hnw := h'.noWater
    have hg := h'.gas
    have hng := h'.noGas
    have hgw := h'.gasInWater
    have hrsw := h'.rsw
    have hsm := h'.some
    unfold explicitSw at a1 a4
    unfold explicitSg at a2 a4
    unfold SatNonneg saturations
    simp only [hsol, false_and, if_false, sub_zero]
    clear h h' hss a3 m1 m3 m5 e hd hsol hc
    cases h1 : v''.water <;> cases h2 : v''.gas <;> cases ho : f.oilActive <;> cases hga : f.gasActive <;> cases hwa : f.waterActive
    all_goals
      simp [h1, h2, hga, hwa, ho] at hw hnw hg hng hgw hrsw hsm a1 a2 a4 ⊢
    all_goals first
      | contradiction
      | exact absurd (hgw.symm.trans hrsw) (by decide)
      | (refine ⟨?_, ?_, ?_⟩ <;> linarith)
      | (refine ⟨?_, ?_⟩ <;> linarith)
end Verif.BlackOil
