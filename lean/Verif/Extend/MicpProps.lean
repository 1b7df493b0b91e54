import Verif.Extend.Micp
import Mathlib.Tactic.Ring
import Mathlib.Tactic.Linarith
import Mathlib.Tactic.NormNum
import Mathlib.Tactic.FieldSimp
import Mathlib.Tactic.Positivity

set_option autoImplicit false
/-
C126: the reactions of microbially induced calcite precipitation keep their balances and do not make anything negative.
-/
namespace Verif.Extend.Micp

/-! ### Specification -/

/-- Reasonable parameters. -/
structure Par.Sound (p : Par) : Prop where
  attachment : 0 ≤ p.attachment
  death : 0 ≤ p.death
  rhoBiofilm : 0 < p.rhoBiofilm
  rhoCalcite : 0 < p.rhoCalcite
  detachment : 0 ≤ p.detachmentRate
  halfOxygen : 0 < p.halfOxygen
  halfUrea : 0 < p.halfUrea
  growth : 0 ≤ p.growth
  utilization : 0 ≤ p.ureaUtilization
  yield : 0 ≤ p.yield
  oxygenFactor : 0 ≤ p.oxygenFactor

/-- Nothing is negative, and there is room for water. -/
structure Cell.Sound (c : Cell) : Prop where
  microbes : 0 ≤ c.microbes
  oxygen : 0 ≤ c.oxygen
  urea : 0 ≤ c.urea
  biofilm : 0 ≤ c.biofilm
  calcite : 0 ≤ c.calcite
  porosity : 0 < c.porosity

/-- The mass of microbes, suspended and in the biofilm, per volume of rock. -/
def biomass (p : Par) (c : Cell) : ℝ := c.porosity * c.microbes + p.rhoBiofilm * c.biofilm

/-- Monod's law. -/
noncomputable def monod (rate half x : ℝ) : ℝ := rate * (x / (half + x))

/-- The mass of urea which is converted per volume and time, urea measured in its usual unit. -/
noncomputable def ureaUse (p : Par) (c : Cell) : ℝ := p.rhoBiofilm * c.biofilm * monod p.ureaUtilization p.halfUrea (10 * c.urea)

variable {p : Par} {c : Cell} {dpW : ℝ} {s : Src}

/-! ### The pressure gradient -/

theorem foldl_max (perm : ℝ) (l : List (ℝ × ℝ)) : ∀ m : ℝ,
    m ≤ l.foldl (fun m f => max m |f.1 / (perm * f.2)|) m ∧
    (∀ f ∈ l, |f.1 / (perm * f.2)| ≤ l.foldl (fun m f => max m |f.1 / (perm * f.2)|) m) ∧
    (l.foldl (fun m f => max m |f.1 / (perm * f.2)|) m = m ∨
      ∃ f ∈ l, l.foldl (fun m f => max m |f.1 / (perm * f.2)|) m = |f.1 / (perm * f.2)|) := by
  induction l with
  | nil => intro m; exact ⟨le_rfl, by simp, Or.inl rfl⟩
  | cons g l ih =>
    intro m
    simp only [List.foldl_cons]
    obtain ⟨h1, h2, h3⟩ := ih (max m |g.1 / (perm * g.2)|)
    refine ⟨le_trans (le_max_left _ _) h1, ?_, ?_⟩
    · intro f hf
      rcases List.mem_cons.1 hf with rfl | hf
      · exact le_trans (le_max_right _ _) h1
      · exact h2 f hf
    · rcases h3 with h3 | ⟨f, hf, h3⟩
      · rcases max_choice m |g.1 / (perm * g.2)| with h | h
        · exact Or.inl (h3.trans h)
        · exact Or.inr ⟨g, by simp, h3.trans h⟩
      · exact Or.inr ⟨f, by simp [hf], h3⟩

/-- **C126** The pressure gradient of a cell is the largest one of its faces, whatever their order. -/
theorem C126_gradient (perm : ℝ) (faces : List (ℝ × ℝ)) (h : faces ≠ []) :
    IsGreatest {x | ∃ f ∈ faces, x = |f.1 / (perm * f.2)|} (pressureGradient perm faces) := by
  obtain ⟨h1, h2, h3⟩ := foldl_max perm faces 0
  refine ⟨?_, ?_⟩
  · rcases h3 with h3 | ⟨f, hf, h3⟩
    · obtain ⟨f, hf⟩ := List.exists_mem_of_ne_nil _ h
      exact ⟨f, hf, le_antisymm (by unfold pressureGradient; rw [h3]; exact abs_nonneg _) (h2 f hf)⟩
    · exact ⟨f, hf, h3⟩
  · rintro x ⟨f, hf, rfl⟩
    exact h2 f hf

example : pressureGradient 1 [(1, 1), (-3, 1), (2, 1)] = 3 := by norm_num [pressureGradient]

theorem gradient_nonneg (perm : ℝ) (faces : List (ℝ × ℝ)) : 0 ≤ pressureGradient perm faces := (foldl_max perm faces 0).1

/-! ### Balances -/

theorem powC_of_nonneg {x y : ℝ} (h : 0 ≤ x) : powC x y = some (x ^ y) := by unfold powC; rw [if_pos (Or.inl h)]

/-- **C126** Sources are defined in every cell with room for water. -/
theorem C126_defined (h : c.Sound) (perm : ℝ) (faces : List (ℝ × ℝ)) :
    (addSource p c (pressureGradient perm faces)).isSome := by
  unfold addSource
  rw [powC_of_nonneg (mul_nonneg h.porosity.le (gradient_nonneg perm faces))]
  rfl

/-- **C126** Attachment and detachment only move biomass; it changes by growth, death and by what calcite buries, where the calcite
takes the place of biofilm and water alike. -/
theorem C126_biomass (hp : p.Sound) (h : c.Sound) (hs : addSource p c dpW = some s) :
    s.microbes + p.rhoBiofilm * s.biofilm
      = biomass p c * (p.yield * monod p.growth p.halfOxygen c.oxygen - p.death)
        - p.rhoBiofilm * s.calcite * (c.biofilm / (c.porosity + c.biofilm)) := by
  obtain ⟨x, -, rfl⟩ := Option.map_eq_some_iff.1 hs
  have h1 := hp.rhoBiofilm.ne'
  have h2 := hp.rhoCalcite.ne'
  have h3 : p.halfOxygen + c.oxygen ≠ 0 := by have := hp.halfOxygen; have := h.oxygen; positivity
  have h4 : p.halfUrea / 10 + c.urea ≠ 0 := by have := hp.halfUrea; have := h.urea; positivity
  have h5 : c.porosity + c.biofilm ≠ 0 := by have := h.porosity; have := h.biofilm; positivity
  unfold biomass monod
  simp only
  field_simp
  ring

/-- **C126** Oxygen is used in proportion to growth. -/
theorem C126_oxygen (hs : addSource p c dpW = some s) :
    s.oxygen = - (p.oxygenFactor * (biomass p c * monod p.growth p.halfOxygen c.oxygen)) := by
  obtain ⟨x, -, rfl⟩ := Option.map_eq_some_iff.1 hs
  unfold biomass monod
  simp only
  ring

/-- **C126** Each unit of urea used gives 1.67 units of calcite, whatever the unit in which the urea is stored. -/
theorem C126_calcite (hp : p.Sound) (h : c.Sound) (hs : addSource p c dpW = some s) :
    10 * s.urea = - ureaUse p c ∧ p.rhoCalcite * s.calcite = 167 / 100 * ureaUse p c := by
  obtain ⟨x, -, rfl⟩ := Option.map_eq_some_iff.1 hs
  have h2 := hp.rhoCalcite.ne'
  have h4 : p.halfUrea / 10 + c.urea ≠ 0 := by have := hp.halfUrea; have := h.urea; positivity
  have h5 : p.halfUrea + 10 * c.urea ≠ 0 := by have := hp.halfUrea; have := h.urea; positivity
  have e : c.urea / (p.halfUrea / 10 + c.urea) = 10 * c.urea / (p.halfUrea + 10 * c.urea) := by
    rw [div_eq_div_iff h4 h5]; ring
  unfold ureaUse monod yieldCalcite
  simp only
  refine ⟨?_, ?_⟩
  · rw [mul_div_assoc, e]; ring
  · rw [mul_div_assoc _ c.urea, e]; field_simp

/-- **C126** No reaction takes what is not there, and calcite never dissolves. -/
theorem C126_not_negative (hp : p.Sound) (h : c.Sound) (hd : 0 ≤ dpW) (hs : addSource p c dpW = some s) :
    (c.microbes = 0 → 0 ≤ s.microbes) ∧ (c.oxygen = 0 → s.oxygen = 0) ∧ (c.urea = 0 → s.urea = 0) ∧
    (c.biofilm = 0 → 0 ≤ s.biofilm) ∧ 0 ≤ s.calcite ∧ s.oxygen ≤ 0 ∧ s.urea ≤ 0 := by
  obtain ⟨x, hx, rfl⟩ := Option.map_eq_some_iff.1 hs
  have hx0 : 0 ≤ x := by
    rw [powC_of_nonneg (mul_nonneg h.porosity.le hd)] at hx
    obtain rfl := Option.some.inj hx
    exact Real.rpow_nonneg (mul_nonneg h.porosity.le hd) _
  have h1 := hp.rhoBiofilm
  have h2 := hp.rhoCalcite
  have h3 := hp.halfOxygen
  have h4 := hp.halfUrea
  have h5 := hp.growth
  have h6 := hp.utilization
  have h7 := hp.oxygenFactor
  have h8 := hp.attachment
  have h9 := hp.detachment
  have c1 := h.microbes
  have c2 := h.oxygen
  have c3 := h.urea
  have c4 := h.biofilm
  have c5 := h.porosity
  simp only
  refine ⟨fun e => ?_, fun e => ?_, fun e => ?_, fun e => ?_, ?_, ?_, ?_⟩
  · rw [e]; simp only [zero_mul, zero_add]; positivity
  · rw [e]; simp
  · rw [e]; simp
  · rw [e]; simp only [zero_mul, zero_add]; positivity
  · unfold yieldCalcite; positivity
  · rw [neg_nonpos]; positivity
  · rw [neg_nonpos]; positivity

/-- Concrete parameters and a concrete cell. -/
noncomputable def par1 : Par := ⟨1, 1, 2, 3, 1, 1, 10, 4, 20, 1, 1, 1/10, 3, 1/4, 1, 10, 1/100⟩
@[inherit_doc par1]
noncomputable def cell1 : Cell := ⟨1, 1, 1, 1/10, 0, 1/5⟩

theorem par1_sound : par1.Sound := by constructor <;> norm_num [par1]
theorem cell1_sound : cell1.Sound := by constructor <;> norm_num [cell1]

example : ∃ s, addSource par1 cell1 0 = some s ∧ s.calcite = 167 / 150 ∧ s.urea = -(1 / 5) := by
  refine ⟨_, by unfold addSource; rw [powC_of_nonneg (by norm_num [cell1])]; rfl, ?_, ?_⟩ <;>
    norm_num [par1, cell1, yieldCalcite]

/-! ### Permeability -/

/-- **C126** Between the critical and the initial porosity, the permeability lies between the minimum and the initial one, and … -/
theorem C126_permeability_partial {perm reference phi : ℝ} (hk : 0 ≤ p.kMin) (hle : p.kMin ≤ perm) (hperm : 0 < perm)
    (hf : 0 < p.fitting) (hc : p.critical < reference) (h0 : p.critical ≤ phi) (h1 : phi ≤ reference) :
    ∃ f, mobilityFactor p perm reference phi = some f ∧ p.kMin ≤ f * perm ∧ f ≤ 1 ∧
      (phi = p.critical → f * perm = p.kMin) ∧ (phi = reference → f = 1) := by
  have hd : 0 < reference - p.critical := by linarith
  have ha : 0 ≤ (phi - p.critical) / (reference - p.critical) := div_nonneg (by linarith) hd.le
  have hb : (phi - p.critical) / (reference - p.critical) ≤ 1 := (div_le_one hd).2 (by linarith)
  have hq : 0 ≤ p.kMin / perm := div_nonneg hk hperm.le
  have hq1 : p.kMin / perm ≤ 1 := (div_le_one hperm).2 hle
  have hkk : p.kMin / perm * perm = p.kMin := div_mul_cancel₀ _ hperm.ne'
  have hx1 : ((phi - p.critical) / (reference - p.critical)) ^ p.fitting ≤ 1 := Real.rpow_le_one ha hb hf.le
  refine ⟨_, by unfold mobilityFactor; rw [powC_of_nonneg ha]; rfl, ?_, ?_, ?_, ?_⟩
  · calc p.kMin = p.kMin / perm * perm := hkk.symm
      _ ≤ _ := mul_le_mul_of_nonneg_right (le_max_right _ _) hperm.le
  · exact max_le ((div_le_one (by linarith)).2 (by linarith)) hq1
  · intro e
    rw [e, sub_self, zero_div, Real.zero_rpow hf.ne']
    simp only []
    rw [zero_add, max_eq_right, hkk]
    exact div_le_self hq (by linarith)
  · intro e
    rw [e, div_self hd.ne', Real.one_rpow]
    simp only []
    rw [div_self (by linarith : (1 : ℝ) + p.kMin / perm ≠ 0)]
    exact max_eq_left hq1

/-- **C126** … it grows with the porosity. -/
theorem C126_monotone_partial {perm reference phi phi' f f' : ℝ} (hk : 0 ≤ p.kMin) (hperm : 0 < perm)
    (hf : 0 < p.fitting) (hc : p.critical < reference) (h0 : p.critical ≤ phi) (h1 : phi ≤ phi')
    (e : mobilityFactor p perm reference phi = some f) (e' : mobilityFactor p perm reference phi' = some f') : f ≤ f' := by
  have hd : 0 < reference - p.critical := by linarith
  have ha : 0 ≤ (phi - p.critical) / (reference - p.critical) := div_nonneg (by linarith) hd.le
  have ha' : (phi - p.critical) / (reference - p.critical) ≤ (phi' - p.critical) / (reference - p.critical) :=
    div_le_div_of_nonneg_right (by linarith) hd.le
  unfold mobilityFactor at e e'
  rw [powC_of_nonneg ha] at e
  rw [powC_of_nonneg (le_trans ha ha')] at e'
  obtain rfl := Option.some.inj e
  obtain rfl := Option.some.inj e'
  have hq : 0 ≤ p.kMin / perm := div_nonneg hk hperm.le
  refine max_le_max ?_ le_rfl
  exact div_le_div_of_nonneg_right (by linarith [Real.rpow_le_rpow ha ha' hf.le]) (by linarith)

example : ∃ f, mobilityFactor par1 1 (1/5) (3/20) = some f ∧ f = 3 / 10 := by
  refine ⟨_, by unfold mobilityFactor; rw [powC_of_nonneg (by norm_num [par1])]; rfl, ?_⟩
  have : ((3 / 20 - par1.critical) / (1 / 5 - par1.critical)) ^ par1.fitting = 1 / 8 := by
    norm_num [par1]
  rw [this]
  norm_num [par1]

/-- **C126** (violated) Below the critical porosity, where the permeability should be the minimum one, it grows again if the fitting
exponent is even, … -/
theorem C126_permeability_violated : ∃ (p : Par) (perm reference phi f : ℝ), p.Sound ∧ 0 < phi ∧ phi < p.critical ∧
    p.critical < reference ∧ mobilityFactor p perm reference phi = some f ∧ f = 1 ∧ p.kMin < f * perm := by
  refine ⟨{ par1 with fitting := 2, critical := 2 / 10 }, 1, 3 / 10, 1 / 10, 1, by constructor <;> norm_num [par1], by norm_num,
    by norm_num, by norm_num, ?_, rfl, by norm_num [par1]⟩
  unfold mobilityFactor powC
  rw [if_pos (Or.inr ⟨2, by norm_num⟩)]
  simp only [Option.map_some]
  norm_num [par1]

/-- **C126** (violated) … and is not a number if the exponent is not an integer. -/
theorem C126_exponent_violated : ∃ (p : Par) (perm reference phi : ℝ), p.Sound ∧ 0 < phi ∧ phi < p.critical ∧
    p.critical < reference ∧ mobilityFactor p perm reference phi = none := by
  refine ⟨{ par1 with fitting := 5 / 2, critical := 2 / 10 }, 1, 3 / 10, 1 / 10, by constructor <;> norm_num [par1], by norm_num,
    by norm_num, by norm_num, ?_⟩
  unfold mobilityFactor powC
  rw [if_neg]
  · rfl
  · rintro (h | ⟨n, h⟩)
    · norm_num at h
    · have h2 : (5 : ℝ) = 2 * n := by linarith
      have h3 : (5 : ℤ) = 2 * n := by exact_mod_cast h2
      omega

/-! ### Newton's method and clogging -/

/-- **C126** After an update every concentration is within its range. -/
theorem C126_limits {phi : ℝ} {c' : Cell} (h : limit p phi c = some c') :
    (0 ≤ c'.microbes ∧ c'.microbes ≤ p.rhoBiofilm) ∧ (0 ≤ c'.oxygen ∧ c'.oxygen ≤ p.maxOxygen) ∧
    (0 ≤ c'.urea ∧ 10 * c'.urea ≤ p.maxUrea) ∧ (0 ≤ c'.biofilm ∧ c'.biofilm ≤ phi - p.tolerance) ∧
    (0 ≤ c'.calcite ∧ c'.calcite ≤ phi - p.tolerance) := by
  have hcl : ∀ {x lo hi y : ℝ}, clamp x lo hi = some y → lo ≤ y ∧ y ≤ hi := by
    intro x lo hi y hy
    unfold clamp at hy
    split at hy
    · cases hy
    · obtain rfl := Option.some.inj hy
      exact ⟨le_min (le_max_right _ _) (not_lt.1 ‹_›), min_le_right _ _⟩
  unfold limit at h
  simp only [Option.bind_eq_bind, Option.bind_eq_some_iff, Option.pure_def, Option.some.injEq] at h
  obtain ⟨m, hm, o, ho, u, hu, b, hb, k, hk, rfl⟩ := h
  refine ⟨hcl hm, hcl ho, ⟨(hcl hu).1, by linarith [(hcl hu).2]⟩, hcl hb, hcl hk⟩

/-- **C126** A cell which the check for clogging accepts has room for water, if the pressure is not below the reference pressure. -/
theorem C126_room_partial {phi x mult : ℝ} (h : checkClogging p phi c = true) (hp : 0 ≤ phi) (hx : 0 ≤ x) (hm : 1 ≤ mult) :
    p.tolerance ≤ porosity phi x mult c := by
  have h1 : p.tolerance ≤ phi - c.biofilm - c.calcite := by
    unfold checkClogging at h
    simpa using h
  have h2 : phi ≤ phi * (1 + x + 1 / 2 * x * x) := le_mul_of_one_le_right hp (by nlinarith)
  have h3 : phi * (1 + x + 1 / 2 * x * x) ≤ phi * (1 + x + 1 / 2 * x * x) * mult :=
    le_mul_of_one_le_right (le_trans hp h2) hm
  unfold porosity
  linarith

example : checkClogging par1 (1/5) cell1 = true ∧ porosity (1/5) 0 1 cell1 = 1 / 10 := by
  constructor
  · norm_num [checkClogging, par1, cell1]
  · norm_num [porosity, cell1]

/-- **C126** (violated) Biofilm and calcite are limited one by one: after an update which respects all limits, the porosity can be
negative, and the source terms are not numbers. -/
theorem C126_porosity_violated : ∃ (p : Par) (phi : ℝ) (c c' : Cell), p.Sound ∧ limit p phi c = some c' ∧
    porosity phi 0 1 c' < 0 ∧ addSource p { c' with porosity := porosity phi 0 1 c' } 1 = none := by
  have e : porosity (1/5) 0 1 ⟨0, 0, 0, 19/100, 19/100, 0⟩ = - (9 / 50) := by norm_num [porosity]
  refine ⟨par1, 1/5, ⟨0, 0, 0, 1, 1, 0⟩, ⟨0, 0, 0, 19/100, 19/100, 0⟩, par1_sound, ?_, ?_, ?_⟩
  · norm_num [limit, clamp, par1]
  · rw [e]; norm_num
  · rw [e]
    unfold addSource powC
    rw [if_neg]
    · rfl
    · rintro (h | ⟨n, h⟩)
      · norm_num at h
      · have h2 : (58 : ℝ) = 100 * n := by linarith
        have h3 : (58 : ℤ) = 100 * n := by exact_mod_cast h2
        omega

end Verif.Extend.Micp
