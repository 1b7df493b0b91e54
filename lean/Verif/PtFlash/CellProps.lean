import Verif.PtFlash.Cell
import Mathlib.Tactic.FieldSimp
import Mathlib.Tactic.Linarith

/-!
# C170: what is stored in cells of the model based on PT-flash calculations
-/

set_option autoImplicit false
set_option linter.unusedSectionVars false

namespace Verif.PtFlash

variable {K : Type*} [Field K] [LinearOrder K] [IsStrictOrderedRing K]

/-! ## Specification -/

/-- Mole fractions of a mixture. -/
def Composition (comps : ℕ) (fr : ℕ → K) : Prop :=
  (∀ i < comps, 0 ≤ fr i) ∧ ∑ i ∈ Finset.range comps, fr i = 1

/-- The equation of state is meaningful: molar masses and volumes are positive, and the density of a mixture is its molar mass divided
by its molar volume. -/
structure Fluids.Lawful (f : Fluids K) (comps : ℕ) : Prop where
  mass_pos : ∀ i < comps, 0 < f.molarMass i
  gas_pos : 0 < f.gasConstant
  volume_pos : ∀ phase T p fr, 0 < T → 0 < p → Composition comps fr → 0 < f.molarVolume phase T p fr
  density_eq : ∀ phase T p fr, 0 < T → 0 < p → Composition comps fr →
    f.density phase T p fr = (∑ i ∈ Finset.range comps, fr i * f.molarMass i) / f.molarVolume phase T p fr

/-- The result of the flash solver divides the mixture: liquid and vapour are mixtures, and the liquid, which is a certain part of the
whole, and the vapour contain together what the whole does. -/
structure Divides (comps : ℕ) (z : ℕ → K) (r : Split K) : Prop where
  liquid : Composition comps r.x
  vapour : Composition comps r.y
  nonneg : 0 ≤ r.start.liquid
  le_one : r.start.liquid ≤ 1
  balance : ∀ i < comps, r.start.liquid * r.x i + (1 - r.start.liquid) * r.y i = z i

/-- The flash solver divides any mixture at any temperature and pressure, whatever it starts with. -/
def Correct (comps : ℕ) (solve : (ℕ → K) → K → K → Start K → Split K) : Prop :=
  ∀ z T p start, 0 < T → 0 < p → Composition comps z → Divides comps z (solve z T p start)

/-- The moles of a component in a unit of volume of the cell, according to the storage term (which is a mass). -/
def moles (s : Sizes) (f : Fluids K) (c : Cell K) (i : ℕ) : K := computeStorage s f c i / f.molarMass i

/-! ## Proofs -/

theorem composition_readZ (s : Sizes) (hs : 0 < s.comps) (pv : ℕ → K) : Composition s.comps (readZ s pv) :=
  ⟨fun i _ => ((C97_compositions s hs pv).1 i).le, (C97_compositions s hs pv).2.1⟩

theorem meanMass_pos {comps : ℕ} {f : Fluids K} (hf : f.Lawful comps) {fr : ℕ → K} (h : Composition comps fr) :
    0 < ∑ i ∈ Finset.range comps, fr i * f.molarMass i := by
  refine lt_of_le_of_ne (Finset.sum_nonneg fun i hi =>
    mul_nonneg (h.1 i (Finset.mem_range.1 hi)) (hf.mass_pos i (Finset.mem_range.1 hi)).le) fun h0 => ?_
  have hz : ∀ i ∈ Finset.range comps, fr i * f.molarMass i = 0 :=
    (Finset.sum_eq_zero_iff_of_nonneg fun i hi =>
      mul_nonneg (h.1 i (Finset.mem_range.1 hi)) (hf.mass_pos i (Finset.mem_range.1 hi)).le).1 h0.symm
  have : ∑ i ∈ Finset.range comps, fr i = 0 := Finset.sum_eq_zero fun i hi =>
    (mul_eq_zero.1 (hz i hi)).resolve_right (hf.mass_pos i (Finset.mem_range.1 hi)).ne'
  rw [h.2] at this
  exact one_ne_zero this

section

variable {s : Sizes} {f : Fluids K} {solve : (ℕ → K) → K → K → Start K → Split K} {hint : ℕ → Option (Start K)} {timeIdx : ℕ}
  {T φ : K} {pv : ℕ → K}

/-- Everything about the cell which the theorems need. -/
theorem update_facts (hs : 0 < s.comps) (hf : f.Lawful s.comps) (hsolve : Correct s.comps solve) (hT : 0 < T)
    (hp : 0 < pv s.pres0) :
    ∃ r : Split K, ∃ vL vV : K, Divides s.comps (readZ s pv) r ∧ 0 < vL ∧ 0 < vV ∧
      (update s f solve hint timeIdx T φ pv).start = r.start ∧
      (update s f solve hint timeIdx T φ pv).fraction 0 = r.x ∧ (update s f solve hint timeIdx T φ pv).fraction 1 = r.y ∧
      (update s f solve hint timeIdx T φ pv).density 0 / (update s f solve hint timeIdx T φ pv).meanMass s f 0 = 1 / vL ∧
      (update s f solve hint timeIdx T φ pv).density 1 / (update s f solve hint timeIdx T φ pv).meanMass s f 1 = 1 / vV ∧
      f.molarVolume 0 T (pv s.pres0) r.x = vL ∧ f.molarVolume 1 T (pv s.pres0) r.y = vV ∧
      (update s f solve hint timeIdx T φ pv).compressFactor 0 = vL * pv s.pres0 / (f.gasConstant * T) ∧
      (update s f solve hint timeIdx T φ pv).compressFactor 1 = vV * pv s.pres0 / (f.gasConstant * T) ∧
      (update s f solve hint timeIdx T φ pv).saturation 0 =
        r.start.liquid * vL / (r.start.liquid * vL + (1 - r.start.liquid) * vV) ∧
      (update s f solve hint timeIdx T φ pv).saturation 1 =
        (1 - r.start.liquid) * vV / (r.start.liquid * vL + (1 - r.start.liquid) * vV) ∧
      0 < r.start.liquid * vL + (1 - r.start.liquid) * vV := by
  let r := solve (readZ s pv) T (pv s.pres0) (startValues f T (pv s.pres0) hint timeIdx)
  have hr : Divides s.comps (readZ s pv) r := hsolve _ _ _ _ hT hp (composition_readZ s hs pv)
  have hvL := hf.volume_pos 0 T (pv s.pres0) r.x hT hp hr.liquid
  have hvV := hf.volume_pos 1 T (pv s.pres0) r.y hT hp hr.vapour
  have hRT : 0 < f.gasConstant * T := mul_pos hf.gas_pos hT
  have hzL : 0 < f.molarVolume 0 T (pv s.pres0) r.x * pv s.pres0 / (f.gasConstant * T) := div_pos (mul_pos hvL hp) hRT
  have hzV : 0 < f.molarVolume 1 T (pv s.pres0) r.y * pv s.pres0 / (f.gasConstant * T) := div_pos (mul_pos hvV hp) hRT
  obtain ⟨-, -, -, hS⟩ := C97_saturations r.start.liquid (f.molarVolume 0 T (pv s.pres0) r.x * pv s.pres0 / (f.gasConstant * T))
    (f.molarVolume 1 T (pv s.pres0) r.y * pv s.pres0 / (f.gasConstant * T))
  obtain ⟨hS1, hS2⟩ := hS hr.nonneg hr.le_one hzL hzV
  have hD : 0 < r.start.liquid * f.molarVolume 0 T (pv s.pres0) r.x + (1 - r.start.liquid) * f.molarVolume 1 T (pv s.pres0) r.y := by
    rcases hr.nonneg.lt_or_eq with h0 | h0
    · exact add_pos_of_pos_of_nonneg (mul_pos h0 hvL) (mul_nonneg (by linarith [hr.le_one]) hvV.le)
    · rw [← h0]; simpa using hvV
  have hD' : 0 < r.start.liquid * (f.molarVolume 0 T (pv s.pres0) r.x * pv s.pres0 / (f.gasConstant * T)) +
      (1 - r.start.liquid) * (f.molarVolume 1 T (pv s.pres0) r.y * pv s.pres0 / (f.gasConstant * T)) := by
    have : r.start.liquid * (f.molarVolume 0 T (pv s.pres0) r.x * pv s.pres0 / (f.gasConstant * T)) +
        (1 - r.start.liquid) * (f.molarVolume 1 T (pv s.pres0) r.y * pv s.pres0 / (f.gasConstant * T)) =
        (r.start.liquid * f.molarVolume 0 T (pv s.pres0) r.x + (1 - r.start.liquid) * f.molarVolume 1 T (pv s.pres0) r.y) *
          (pv s.pres0 / (f.gasConstant * T)) := by ring
    rw [this]
    exact mul_pos hD (div_pos hp hRT)
  have hm0 := meanMass_pos hf hr.liquid
  have hm1 := meanMass_pos hf hr.vapour
  refine ⟨r, _, _, hr, hvL, hvV, rfl, rfl, rfl, ?_, ?_, rfl, rfl, rfl, rfl, ?_, ?_, hD⟩
  · change f.density 0 T (pv s.pres0) r.x / (∑ i ∈ Finset.range s.comps, r.x i * f.molarMass i) = _
    rw [hf.density_eq 0 T _ _ hT hp hr.liquid]
    field_simp
  · change f.density 1 T (pv s.pres0) r.y / (∑ i ∈ Finset.range s.comps, r.y i * f.molarMass i) = _
    rw [hf.density_eq 1 T _ _ hT hp hr.vapour]
    field_simp
  · refine Eq.trans hS1 ?_
    rw [div_eq_div_iff hD'.ne' hD.ne']
    ring
  · refine Eq.trans hS2 ?_
    rw [div_eq_div_iff hD'.ne' hD.ne']
    ring

theorem moles_eq (hf : f.Lawful s.comps) (c : Cell K) {i : ℕ} (hi : i < s.comps) :
    moles s f c i = (c.fraction 0 i * (c.density 0 / c.meanMass s f 0) * c.saturation 0 +
      c.fraction 1 i * (c.density 1 / c.meanMass s f 1) * c.saturation 1) * c.porosity := by
  have h := (hf.mass_pos i hi).ne'
  unfold moles
  rw [div_eq_iff h]
  simp only [computeStorage, List.range_succ, List.range_zero, List.nil_append, List.cons_append, List.foldl_cons, List.foldl_nil,
    addPhaseStorage, Cell.massFraction]
  ring

/-- **C170** What is stored in a cell.  Whatever the flash solver starts with, the moles of the components in a cell are in proportion to
the mole fractions of the primary variables.  Their total is what the equation of state gives for the pore volume (pressure times
volume is moles times gas constant times temperature times the mean compressibility factor), and the liquid is that part of it
which the flash solver has found. -/
theorem C170_stored (hs : 0 < s.comps) (hf : f.Lawful s.comps) (hsolve : Correct s.comps solve) (hT : 0 < T) (hp : 0 < pv s.pres0) :
    let c := update s f solve hint timeIdx T φ pv
    let total := ∑ i ∈ Finset.range s.comps, moles s f c i
    (∀ i < s.comps, moles s f c i = total * readZ s pv i) ∧
    pv s.pres0 * φ =
      total * f.gasConstant * T * (c.start.liquid * c.compressFactor 0 + (1 - c.start.liquid) * c.compressFactor 1) ∧
    ∑ i ∈ Finset.range s.comps, (c.fluidState s f).molarity 0 i * c.saturation 0 * φ = c.start.liquid * total := by
  intro c total
  obtain ⟨r, vL, vV, hr, hvL, hvV, hst, hx, hy, hd0, hd1, -, -, hc0, hc1, hs0, hs1, hD⟩ :=
    update_facts (s := s) (f := f) (solve := solve) (hint := hint) (timeIdx := timeIdx) (T := T) (φ := φ) (pv := pv) hs hf hsolve hT hp
  have hm : ∀ i < s.comps, moles s f c i = φ / (r.start.liquid * vL + (1 - r.start.liquid) * vV) * readZ s pv i := by
    intro i hi
    rw [moles_eq hf c hi]
    change ((update s f solve hint timeIdx T φ pv).fraction 0 i * _ * _ + (update s f solve hint timeIdx T φ pv).fraction 1 i * _ * _) * φ = _
    rw [hx, hy, hd0, hd1, hs0, hs1, ← hr.balance i hi]
    have := hD.ne'
    field_simp
  have htot : total = φ / (r.start.liquid * vL + (1 - r.start.liquid) * vV) := by
    change ∑ i ∈ Finset.range s.comps, moles s f c i = _
    rw [Finset.sum_congr rfl fun i hi => hm i (Finset.mem_range.1 hi), ← Finset.mul_sum, (C97_compositions s hs pv).2.1, mul_one]
  have hRT : f.gasConstant * T ≠ 0 := (mul_pos hf.gas_pos hT).ne'
  refine ⟨fun i hi => by rw [htot]; exact hm i hi, ?_, ?_⟩
  · change pv s.pres0 * φ = total * f.gasConstant * T * ((update s f solve hint timeIdx T φ pv).start.liquid * _ +
      (1 - (update s f solve hint timeIdx T φ pv).start.liquid) * _)
    rw [hst, hc0, hc1, htot]
    have h1 := hf.gas_pos.ne'
    have h2 := hT.ne'
    have h3 := hD.ne'
    field_simp
  · change ∑ i ∈ Finset.range s.comps, (update s f solve hint timeIdx T φ pv).fraction 0 i * _ * _ * φ =
      (update s f solve hint timeIdx T φ pv).start.liquid * total
    rw [hx, hd0, hs0, hst, htot, ← Finset.sum_mul, ← Finset.sum_mul, ← Finset.sum_mul, hr.liquid.2]
    have := hD.ne'
    field_simp

/-- **C170** What flows.  The moles of a component which flow over a face are those in the volumes of liquid and vapour which flow. -/
theorem C170_flux (hs : 0 < s.comps) (hf : f.Lawful s.comps) (hsolve : Correct s.comps solve)
    (temp por : ℕ → K) (vars : ℕ → ℕ → K) (hints : ℕ → ℕ → Option (Start K)) (hT : ∀ n, 0 < temp n) (hp : ∀ n, 0 < vars n s.pres0)
    (upstream : ℕ → ℕ) (volumeFlux : ℕ → K) (i : ℕ) (hi : i < s.comps) :
    let cell := fun n => update s f solve (hints n) timeIdx (temp n) (por n) (vars n)
    addAdvectiveFlux s f (fun phase => cell (upstream phase)) volumeFlux i / f.molarMass i =
      ∑ phase ∈ Finset.range 2,
        volumeFlux phase / f.molarVolume phase (temp (upstream phase)) (vars (upstream phase) s.pres0)
          ((cell (upstream phase)).fraction phase) * (cell (upstream phase)).fraction phase i := by
  intro cell
  obtain ⟨r, vL, vV, -, hvL, -, -, hx, -, hd0, -, he, -⟩ :=
    update_facts (s := s) (f := f) (solve := solve) (hint := hints (upstream 0)) (timeIdx := timeIdx) (T := temp (upstream 0))
      (φ := por (upstream 0)) (pv := vars (upstream 0)) hs hf hsolve (hT _) (hp _)
  obtain ⟨r', wL, wV, -, -, hwV, -, -, hy, -, hd1, -, he', -⟩ :=
    update_facts (s := s) (f := f) (solve := solve) (hint := hints (upstream 1)) (timeIdx := timeIdx) (T := temp (upstream 1))
      (φ := por (upstream 1)) (pv := vars (upstream 1)) hs hf hsolve (hT _) (hp _)
  rw [← hx] at he
  rw [← hy] at he'
  rw [Finset.sum_range_succ, Finset.sum_range_one]
  change _ = _ / f.molarVolume 0 _ _ ((update s f solve (hints (upstream 0)) timeIdx (temp (upstream 0)) (por (upstream 0))
    (vars (upstream 0))).fraction 0) * _ + _ / f.molarVolume 1 _ _ ((update s f solve (hints (upstream 1)) timeIdx (temp (upstream 1))
    (por (upstream 1)) (vars (upstream 1))).fraction 1) * _
  rw [he, he']
  have h := (hf.mass_pos i hi).ne'
  rw [div_eq_iff h]
  have e0 : ∀ c : Cell K, c.density 0 * volumeFlux 0 * c.massFraction s f 0 i =
      c.fraction 0 i * f.molarMass i * volumeFlux 0 * (c.density 0 / c.meanMass s f 0) := by
    intro c; unfold Cell.massFraction; ring
  have e1 : ∀ c : Cell K, c.density 1 * volumeFlux 1 * c.massFraction s f 1 i =
      c.fraction 1 i * f.molarMass i * volumeFlux 1 * (c.density 1 / c.meanMass s f 1) := by
    intro c; unfold Cell.massFraction; ring
  simp only [addAdvectiveFlux, List.range_succ, List.range_zero, List.nil_append, List.cons_append, List.foldl_cons, List.foldl_nil]
  rw [e0, e1]
  change 0 + _ * (_ / Cell.meanMass (update s f solve (hints (upstream 0)) timeIdx (temp (upstream 0)) (por (upstream 0))
    (vars (upstream 0))) s f 0) + _ * (_ / Cell.meanMass (update s f solve (hints (upstream 1)) timeIdx (temp (upstream 1))
    (por (upstream 1)) (vars (upstream 1))) s f 1) = _
  rw [hd0, hd1]
  ring

/-- **C170** There and back.  If the mole fractions of the primary variables are not too small and every component is in liquid and
vapour, the primary variables which are made of the fluid state of the cell are the ones of the cell. -/
theorem C170_round_trip_partial (hs : 0 < s.comps) (hf : f.Lawful s.comps) (hsolve : Correct s.comps solve) (hT : 0 < T)
    (hp : 0 < pv s.pres0) (hz : ∀ i < s.comps, 1 / 100000000 ≤ moleFraction s pv i)
    (hpresent : ∀ phase < 2, ∀ i < s.comps, 1 / 100000000 ≤
      ((update s f solve hint timeIdx T φ pv).fluidState s f).molarity phase i *
        ((update s f solve hint timeIdx T φ pv).fluidState s f).sat phase) :
    let pv' := assignNaive s 2 ((update s f solve hint timeIdx T φ pv).fluidState s f)
    pv' s.pres0 = pv s.pres0 ∧ ∀ i < s.comps, moleFraction s pv' i = moleFraction s pv i := by
  intro pv'
  obtain ⟨r, vL, vV, hr, hvL, hvV, hst, hx, hy, hd0, hd1, -, -, hc0, hc1, hs0, hs1, hD⟩ :=
    update_facts (s := s) (f := f) (solve := solve) (hint := hint) (timeIdx := timeIdx) (T := T) (φ := φ) (pv := pv) hs hf hsolve hT hp
  have ha : ∀ i < s.comps, amount 2 ((update s f solve hint timeIdx T φ pv).fluidState s f) i =
      1 / (r.start.liquid * vL + (1 - r.start.liquid) * vV) * readZ s pv i := by
    intro i hi
    unfold amount
    rw [Finset.sum_range_succ, Finset.sum_range_one]
    change (update s f solve hint timeIdx T φ pv).fraction 0 i * _ * (update s f solve hint timeIdx T φ pv).saturation 0 +
      (update s f solve hint timeIdx T φ pv).fraction 1 i * _ * (update s f solve hint timeIdx T φ pv).saturation 1 = _
    rw [hx, hy, hd0, hd1, hs0, hs1, ← hr.balance i hi]
    have := hD.ne'
    field_simp
  have ht : total 2 s.comps ((update s f solve hint timeIdx T φ pv).fluidState s f) =
      1 / (r.start.liquid * vL + (1 - r.start.liquid) * vV) := by
    unfold total
    rw [Finset.sum_congr rfl fun i hi => ha i (Finset.mem_range.1 hi), ← Finset.mul_sum, (C97_compositions s hs pv).2.1, mul_one]
  have hpos : (0 : K) < 1 / (r.start.liquid * vL + (1 - r.start.liquid) * vV) := div_pos one_pos hD
  obtain ⟨h1, -, h3⟩ := C98_stored_partial s 2 ((update s f solve hint timeIdx T φ pv).fluidState s f) (by rw [ht]; exact hpos)
    fun phase hph i hi => le_trans (by norm_num) (hpresent phase hph i hi)
  refine ⟨h1, fun i hi => ?_⟩
  rw [h3 hpresent i hi, ha i hi, ht, mul_div_cancel_left₀ _ hpos.ne']
  exact (C97_compositions s hs pv).2.2 hz i hi

/-- **C170** Once more.  If the flash solver leaves a result which it has found before as it is, then updating a cell with the hint of
its own quantities, or those of the previous time level with the same primary variables, changes nothing. -/
theorem C170_again (hfix : ∀ z T p start, solve z T p (solve z T p start).start = solve z T p start)
    (hint' : ℕ → Option (Start K)) (timeIdx' : ℕ)
    (h : hint' timeIdx' = some (update s f solve hint timeIdx T φ pv).start ∨
      (timeIdx' = 0 ∧ hint' 0 = none ∧ hint' 1 = some (update s f solve hint timeIdx T φ pv).start)) :
    update s f solve hint' timeIdx' T φ pv = update s f solve hint timeIdx T φ pv := by
  have hs : startValues f T (pv s.pres0) hint' timeIdx' = (update s f solve hint timeIdx T φ pv).start := by
    unfold startValues
    rcases h with h | ⟨rfl, h0, h1⟩
    · rw [h]
    · rw [h0, if_pos rfl, h1]
  have hr : solve (readZ s pv) T (pv s.pres0) (startValues f T (pv s.pres0) hint' timeIdx') =
      solve (readZ s pv) T (pv s.pres0) (startValues f T (pv s.pres0) hint timeIdx) := by
    rw [hs]
    exact hfix _ _ _ _
  simp only [update]
  rw [hr]

/-- **C170** Without hints the solver starts with Wilson's ratios, and hints of older time levels are not used for older time levels. -/
theorem C170_first (h : hint timeIdx = none) (h1 : timeIdx = 0 → hint 1 = none) :
    update s f solve hint timeIdx T φ pv = update s f (fun z T p _ => solve z T p ⟨f.wilson T p, -1⟩) hint timeIdx T φ pv := by
  have hs : startValues f T (pv s.pres0) hint timeIdx = ⟨f.wilson T (pv s.pres0), -1⟩ := by
    unfold startValues
    rw [h]
    by_cases h0 : timeIdx = 0
    · rw [if_pos h0, h1 h0]
    · rw [if_neg h0]
  simp only [update]
  rw [hs]

end

/-! ## Example -/

/-- Ideal gas, and a liquid with half its volume; components have molar masses one, two, three, … -/
def idealFluids : Fluids ℚ where
  molarMass i := i + 1
  molarVolume phase T p _ := (if phase = 0 then 1 / 2 else 1) * T / p
  density phase T p fr := (∑ i ∈ Finset.range 2, fr i * (i + 1)) / ((if phase = 0 then 1 / 2 else 1) * T / p)
  wilson _ _ _ := 1
  gasConstant := 1

theorem idealFluids_lawful : idealFluids.Lawful 2 where
  mass_pos i _ := by
    show (0 : ℚ) < i + 1
    positivity
  gas_pos := one_pos
  volume_pos phase T p fr hT hp _ := by
    show (0 : ℚ) < (if phase = 0 then 1 / 2 else 1) * T / p
    have : (0 : ℚ) < if phase = 0 then 1 / 2 else 1 := by split <;> norm_num
    positivity
  density_eq phase T p fr _ _ _ := rfl

/-- Half of the mixture becomes liquid, with the same mole fractions. -/
def halve (z : ℕ → ℚ) (_ _ : ℚ) (_ : Start ℚ) : Split ℚ := ⟨z, z, fun _ => 1, 1 / 2⟩

theorem halve_correct : Correct 2 halve := fun z _ _ _ _ _ hz =>
  ⟨hz, hz, by norm_num [halve], by norm_num [halve], fun i _ => by simp only [halve]; ring⟩

/-- A cell with one quarter of the first component: two thirds of the volume are gas. -/
example :
    let c := update ⟨0, 2⟩ idealFluids halve (fun _ => none) 0 300 (1 / 5) fun k => if k = 0 then 100 else 1 / 4
    (∀ i < 2, moles ⟨0, 2⟩ idealFluids c i = (∑ j ∈ Finset.range 2, moles ⟨0, 2⟩ idealFluids c j) *
      readZ ⟨0, 2⟩ (fun k => if k = 0 then 100 else 1 / 4) i) ∧ c.saturation 1 = 2 / 3 := by
  refine ⟨(C170_stored (s := ⟨0, 2⟩) (f := idealFluids) (solve := halve) (by norm_num) idealFluids_lawful halve_correct (by norm_num)
    (by norm_num [Sizes.pres0])).1, ?_⟩
  norm_num [update, saturations, compressibility, idealFluids, halve, Sizes.pres0]

example :
    moleFraction ⟨0, 2⟩ (assignNaive ⟨0, 2⟩ 2 ((update ⟨0, 2⟩ idealFluids halve (fun _ => none) 0 300 (1 / 5) fun k =>
      if k = 0 then 100 else 1 / 4).fluidState ⟨0, 2⟩ idealFluids)) 0 = 1 / 4 := by
  decide +kernel

end Verif.PtFlash
