import Verif.BlackOil.Lemmas

/-
C53: chopping and normalising saturations.
-/

set_option autoImplicit false
set_option linter.unusedSectionVars false

namespace Verif.BlackOil

variable {K : Type} [Field K] [LinearOrder K] [IsStrictOrderedRing K]

/-- The saturations which are primary variables; one which is not is zero -/
def explicitSw (L : Layout) (v : PriVars K) : K := if v.water = .Sw then v.val L.waterSwitchIdx else 0
def explicitSg (L : Layout) (v : PriVars K) : K := if v.gas = .Sg then v.val L.compositionSwitchIdx else 0
def explicitSs (L : Layout) (v : PriVars K) : K := if v.solvent = .Ss then v.val L.solventSaturationIdx else 0

/-- The saturations are not negative, and neither is the one of the remaining phase, which is what lacks to one (so that none is
above one either). -/
structure Admissible (L : Layout) (v : PriVars K) : Prop where
  water : 0 ≤ explicitSw L v
  gas : 0 ≤ explicitSg L v
  solvent : 0 ≤ explicitSs L v
  remaining : 0 ≤ 1 - explicitSw L v - explicitSg L v - explicitSs L v

/-- Variables which are saturations exist. -/
structure MeaningsExist (L : Layout) (v : PriVars K) : Prop where
  water : v.water ≠ .Disabled → 0 ≤ L.waterSwitchIdx
  gas : v.gas ≠ .Disabled → 0 ≤ L.compositionSwitchIdx
  solvent : v.solvent ≠ .Disabled → 0 ≤ L.solventSaturationIdx

theorem clamp01_nonneg (x : K) : 0 ≤ clamp01 x := le_min (le_max_right _ _) zero_le_one

theorem clamp01_le (x : K) : clamp01 x ≤ 1 := min_le_right _ _

theorem clamp01_of {x : K} (h0 : 0 ≤ x) (h1 : x ≤ 1) : clamp01 x = x := by
  unfold clamp01
  rw [max_eq_left h0, min_eq_left h1]

theorem clamp01_ge {x : K} (h1 : x < 1) : x ≤ clamp01 x := le_min (le_max_left _ _) h1.le

theorem clamp01_one {x : K} (h1 : 1 ≤ x) : clamp01 x = 1 := by
  unfold clamp01
  rw [max_eq_left (zero_le_one.trans h1), min_eq_right h1]

theorem clamp01_sum {a b c d : K} (h : a + b + c + d = 1) : 1 ≤ clamp01 a + clamp01 b + clamp01 c + clamp01 d := by
  have ha := clamp01_nonneg a
  have hb := clamp01_nonneg b
  have hc := clamp01_nonneg c
  have hd := clamp01_nonneg d
  rcases le_or_gt 1 a with h1 | h1
  · have := clamp01_one h1; linarith
  rcases le_or_gt 1 b with h2 | h2
  · have := clamp01_one h2; linarith
  rcases le_or_gt 1 c with h3 | h3
  · have := clamp01_one h3; linarith
  rcases le_or_gt 1 d with h4 | h4
  · have := clamp01_one h4; linarith
  have := clamp01_ge h1
  have := clamp01_ge h2
  have := clamp01_ge h3
  have := clamp01_ge h4
  linarith

/-- The sum of the chopped saturations -/
def chopSum (L : Layout) (v : PriVars K) : K :=
  clamp01 (explicitSw L v) + clamp01 (1 - explicitSw L v - explicitSg L v - explicitSs L v) + clamp01 (explicitSg L v) +
    clamp01 (explicitSs L v)

theorem chopSum_ge (L : Layout) (v : PriVars K) : 1 ≤ chopSum L v := clamp01_sum (by ring)

/-- What chopping and normalising gives -/
theorem chop_eq {L : Layout} (hL : L.primaryVars.Nodup) {v : PriVars K} (he : MeaningsExist L v)
    (hd : ¬(v.water = .Disabled ∧ v.gas = .Disabled)) :
    ∃ v' b, chopAndNormalize L v = some (v', b) ∧ v'.water = v.water ∧ v'.gas = v.gas ∧ v'.solvent = v.solvent ∧
      v'.brine = v.brine ∧ v'.pressure = v.pressure ∧
      explicitSw L v' = clamp01 (explicitSw L v) / chopSum L v ∧ explicitSg L v' = clamp01 (explicitSg L v) / chopSum L v ∧
      explicitSs L v' = clamp01 (explicitSs L v) / chopSum L v ∧
      ∀ i, (v.water = .Sw → i ≠ L.waterSwitchIdx) → (v.gas = .Sg → i ≠ L.compositionSwitchIdx) →
        (v.solvent = .Ss → i ≠ L.solventSaturationIdx) → v'.val i = v.val i := by
  have hs := Layout.sep hL
  have hst : (chopSum L v) ≠ 0 := by
    have := chopSum_ge L v
    intro h
    rw [h] at this
    exact absurd this (not_le.2 zero_lt_one)
  unfold chopAndNormalize
  rw [if_neg hd]
  dsimp only
  rw [if_neg (by exact hst)]
  refine ⟨_, _, rfl, ?_⟩
  change _ ∧ _ ∧ _ ∧ _ ∧ _ ∧ _ = _ / _ ∧ _ = _ / _ ∧ _ = _ / _ ∧ _
  have e : clamp01 (if v.water = .Sw then v.val L.waterSwitchIdx else 0) +
      clamp01 (1 - (if v.water = .Sw then v.val L.waterSwitchIdx else 0) - (if v.gas = .Sg then v.val L.compositionSwitchIdx else 0)
        - (if v.solvent = .Ss then v.val L.solventSaturationIdx else 0)) +
      clamp01 (if v.gas = .Sg then v.val L.compositionSwitchIdx else 0) +
      clamp01 (if v.solvent = .Ss then v.val L.solventSaturationIdx else 0) = chopSum L v := rfl
  rw [e]
  clear e
  generalize chopSum L v = st at hst
  by_cases hw : v.water = .Sw <;> by_cases hg : v.gas = .Sg <;> by_cases hso : v.solvent = .Ss
  all_goals
    have w0 : v.water = .Sw → 0 ≤ L.waterSwitchIdx := fun h => he.water (by rw [h]; decide)
    have g0 : v.gas = .Sg → 0 ≤ L.compositionSwitchIdx := fun h => he.gas (by rw [h]; decide)
    have s0 : v.solvent = .Ss → 0 ≤ L.solventSaturationIdx := fun h => he.solvent (by rw [h]; decide)
    simp only [hw, hg, hso, forall_true_left] at w0 g0 s0
    try have wc := hs.wc w0
    try have cw := hs.cw g0
    try have sw := hs.sw s0
    try have sc := hs.sc s0
    try have sw' := (hs.sw s0).symm
    try have sc' := (hs.sc s0).symm
    simp only [PriVars.set, explicitSw, explicitSg, explicitSs, hw, hg, hso, if_true, if_false]
    try simp_all [Function.update_apply, clamp01]

/-- **C53** Chopping and normalising never divides by zero; afterwards no saturation is negative, and they sum to one together with
that of the remaining phase; meanings and all other variables stay. -/
theorem C53_admissible {L : Layout} (hL : L.primaryVars.Nodup) {v : PriVars K} (he : MeaningsExist L v)
    (hd : ¬(v.water = .Disabled ∧ v.gas = .Disabled)) :
    ∃ v' b, chopAndNormalize L v = some (v', b) ∧ Admissible L v' ∧
      (v'.water, v'.pressure, v'.gas, v'.brine, v'.solvent) = (v.water, v.pressure, v.gas, v.brine, v.solvent) ∧
      ∀ i, i ≠ L.waterSwitchIdx → i ≠ L.compositionSwitchIdx → i ≠ L.solventSaturationIdx → v'.val i = v.val i := by
  obtain ⟨v', b, h, hw, hg, hs, hb, hp, e1, e2, e3, e4⟩ := chop_eq hL he hd
  have hst := chopSum_ge L v
  have hpos : 0 < chopSum L v := lt_of_lt_of_le zero_lt_one hst
  refine ⟨v', b, h, ?_, by rw [hw, hg, hs, hb, hp], fun i h1 h2 h3 => e4 i (fun _ => h1) (fun _ => h2) (fun _ => h3)⟩
  constructor
  · rw [e1]; exact div_nonneg (clamp01_nonneg _) hpos.le
  · rw [e2]; exact div_nonneg (clamp01_nonneg _) hpos.le
  · rw [e3]; exact div_nonneg (clamp01_nonneg _) hpos.le
  · rw [e1, e2, e3, sub_sub, sub_sub, ← add_div, ← add_div, sub_nonneg, div_le_one hpos]
    have := clamp01_nonneg (1 - explicitSw L v - explicitSg L v - explicitSs L v)
    unfold chopSum
    linarith

/-- **C53** Admissible saturations are not changed. -/
theorem C53_unchanged {L : Layout} (hL : L.primaryVars.Nodup) {v : PriVars K} (he : MeaningsExist L v)
    (hd : ¬(v.water = .Disabled ∧ v.gas = .Disabled)) (ha : Admissible L v) : chopAndNormalize L v = some (v, false) := by
  obtain ⟨v', b, h, hw, hg, hs, hb, hp, e1, e2, e3, e4⟩ := chop_eq hL he hd
  obtain ⟨a1, a2, a3, a4⟩ := ha
  have c1 : clamp01 (explicitSw L v) = explicitSw L v := clamp01_of a1 (by linarith)
  have c2 : clamp01 (explicitSg L v) = explicitSg L v := clamp01_of a2 (by linarith)
  have c3 : clamp01 (explicitSs L v) = explicitSs L v := clamp01_of a3 (by linarith)
  have c4 := clamp01_of a4 (by linarith)
  have hst : chopSum L v = 1 := by unfold chopSum; rw [c1, c2, c3, c4]; ring
  rw [hst, div_one] at e1 e2 e3
  rw [c1] at e1
  rw [c2] at e2
  rw [c3] at e3
  have hv : v' = v := by
    ext i
    · by_cases i1 : v.water = .Sw ∧ i = L.waterSwitchIdx
      · rw [i1.2]
        simpa only [explicitSw, hw, i1.1, if_true] using e1
      by_cases i2 : v.gas = .Sg ∧ i = L.compositionSwitchIdx
      · rw [i2.2]
        simpa only [explicitSg, hg, i2.1, if_true] using e2
      by_cases i3 : v.solvent = .Ss ∧ i = L.solventSaturationIdx
      · rw [i3.2]
        simpa only [explicitSs, hs, i3.1, if_true] using e3
      exact e4 i (fun a b => i1 ⟨a, b⟩) (fun a b => i2 ⟨a, b⟩) (fun a b => i3 ⟨a, b⟩)
    all_goals assumption
  subst hv
  rw [h]
  have hst' : b = decide (chopSum L v' ≠ 1) := by
    unfold chopAndNormalize at h
    rw [if_neg hd] at h
    dsimp only at h
    rw [if_neg] at h
    · exact ((Prod.mk.inj (Option.some.inj h)).2).symm
    · change ¬chopSum L v' = 0
      rw [hst]
      exact one_ne_zero
  rw [hst', hst]
  simp

/-- **C53** Doing it again changes nothing. -/
theorem C53_idempotent {L : Layout} (hL : L.primaryVars.Nodup) {v v' : PriVars K} {b : Bool} (he : MeaningsExist L v)
    (hd : ¬(v.water = .Disabled ∧ v.gas = .Disabled)) (h : chopAndNormalize L v = some (v', b)) :
    chopAndNormalize L v' = some (v', false) := by
  obtain ⟨v'', b', h', ha, hm, -⟩ := C53_admissible hL he hd
  rw [h] at h'
  obtain ⟨rfl, rfl⟩ := Prod.mk.inj (Option.some.inj h')
  simp only [Prod.mk.injEq] at hm
  obtain ⟨m1, -, m3, -, m5⟩ := hm
  exact C53_unchanged hL ⟨by rw [m1]; exact he.water, by rw [m3]; exact he.gas, by rw [m5]; exact he.solvent⟩
    (by rw [m1, m3]; exact hd) ha

/-- The layout of three phases with a solvent, and variables which are far off: water 1.5, gas −0.25 and solvent 0.25 become 4/5, 0 and
1/5 … -/
example : (chopAndNormalize (threePhase ⟨1, 0, 0, 0, false, false, 0, 0⟩)
    (⟨fun i => if i = 0 then 3 / 2 else if i = 1 then 100 else if i = 2 then -1 / 4 else 1 / 4, .Sw, .Po, .Sg, .Disabled, .Ss⟩ :
      PriVars ℚ)).map (fun x => (x.1.val 0, x.1.val 2, x.1.val 3)) = some (4 / 5, 0, 1 / 5) := by
  decide +kernel

/-- … and the hypotheses are met by them. -/
example : (threePhase ⟨1, 0, 0, 0, false, false, 0, 0⟩).primaryVars.Nodup ∧ MeaningsExist (threePhase ⟨1, 0, 0, 0, false, false, 0, 0⟩)
    (⟨fun i => if i = 0 then 3 / 2 else if i = 1 then 100 else if i = 2 then -1 / 4 else 1 / 4, .Sw, .Po, .Sg, .Disabled, .Ss⟩ :
      PriVars ℚ) :=
  ⟨by decide, by decide, by decide, by decide⟩

end Verif.BlackOil
