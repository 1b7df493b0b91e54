import Verif.Vtk.Switches
import Mathlib.Data.List.Nodup
import Mathlib.Algebra.Order.Ring.Rat
import Mathlib.Algebra.Order.Field.Rat
import Mathlib.Tactic.Common
set_option autoImplicit false
set_option linter.unusedSectionVars false
set_option linter.unusedSimpArgs false

/-!
# C145: the fields of the black-oil models in the visualisation files
-/

namespace Verif.Vtk.Switches

variable {K : Type} [Field K] [LinearOrder K]

/-- The specification: the fields of the black-oil models by the name they have in the file, the
parameter which the help text says to include the field, what has to be compiled in, the phases
which must be active for the field to make sense, and the quantity which has to be shown. -/
structure Described (K : Type) where
  name : String
  parameter : Param
  compiledIn : Setup → Bool
  needs : List Phase
  quantity : Cell K → K

/-- The fields a user expects.  (Both saturated factors are for the largest saturation of oil which
the cell has had; the concentration of urea is stored in units of ten.) -/
def described : List (Described K) :=
  [⟨"R_s", .gasDissolutionFactor, fun _ => true, [.oil, .gas], (·.Rs)⟩,
   ⟨"R_v", .oilVaporizationFactor, fun _ => true, [.oil, .gas], (·.Rv)⟩,
   ⟨"B_o", .oilFormationVolumeFactor, fun _ => true, [.oil],
     fun c => (c.inverseFormationVolumeFactor .oil)⁻¹⟩,
   ⟨"B_g", .gasFormationVolumeFactor, fun _ => true, [.gas],
     fun c => (c.inverseFormationVolumeFactor .gas)⁻¹⟩,
   ⟨"B_w", .waterFormationVolumeFactor, fun _ => true, [.water],
     fun c => (c.inverseFormationVolumeFactor .water)⁻¹⟩,
   ⟨"p_o,sat", .oilSaturationPressure, fun _ => true, [.oil, .gas], (·.oilSaturationPressure)⟩,
   ⟨"p_g,sat", .gasSaturationPressure, fun _ => true, [.oil, .gas], (·.gasSaturationPressure)⟩,
   ⟨"R_s,sat", .saturatedOilGasDissolutionFactor, fun _ => true, [.oil, .gas],
     fun c => c.saturatedRs (max c.oilSaturation c.maxOilSaturation)⟩,
   ⟨"R_v,sat", .saturatedGasOilVaporizationFactor, fun _ => true, [.oil, .gas],
     fun c => c.saturatedRv (max c.oilSaturation c.maxOilSaturation)⟩,
   ⟨"primary vars meaning water", .primaryVarsMeaning, fun _ => true, [], (·.meaningWater)⟩,
   ⟨"primary vars meaning gas", .primaryVarsMeaning, fun _ => true, [], (·.meaningGas)⟩,
   ⟨"primary vars meaning pressure", .primaryVarsMeaning, fun _ => true, [], (·.meaningPressure)⟩,
   ⟨"volumetric internal energy rock", .rockInternalEnergy, (·.energy), [],
     (·.rockInternalEnergy)⟩,
   ⟨"total thermal conductivity", .totalThermalConductivity, (·.energy), [],
     (·.totalThermalConductivity)⟩,
   ⟨"internal energy_water", .fluidInternalEnergies, (·.energy), [.water],
     (·.internalEnergy .water)⟩,
   ⟨"internal energy_oil", .fluidInternalEnergies, (·.energy), [.oil], (·.internalEnergy .oil)⟩,
   ⟨"internal energy_gas", .fluidInternalEnergies, (·.energy), [.gas], (·.internalEnergy .gas)⟩,
   ⟨"enthalpy_water", .fluidEnthalpies, (·.energy), [.water], (·.enthalpy .water)⟩,
   ⟨"enthalpy_oil", .fluidEnthalpies, (·.energy), [.oil], (·.enthalpy .oil)⟩,
   ⟨"enthalpy_gas", .fluidEnthalpies, (·.energy), [.gas], (·.enthalpy .gas)⟩,
   ⟨"polymer concentration", .polymerConcentration, (·.polymer), [], (·.polymerConcentration)⟩,
   ⟨"dead pore volume fraction", .polymerDeadPoreVolume, (·.polymer), [],
     (·.polymerDeadPoreVolume)⟩,
   ⟨"polymer rock density", .polymerRockDensity, (·.polymer), [], (·.polymerRockDensity)⟩,
   ⟨"polymer adsorption", .polymerAdsorption, (·.polymer), [], (·.polymerAdsorption)⟩,
   ⟨"polymer viscosity correction", .polymerViscosityCorrection, (·.polymer), [],
     (·.polymerViscosityCorrection)⟩,
   ⟨"water viscosity correction", .waterViscosityCorrection, (·.polymer), [],
     (·.waterViscosityCorrection)⟩,
   ⟨"saturation_solvent", .solventSaturation, (·.solvent), [], (·.solventSaturation)⟩,
   ⟨"dissolved_solvent", .solventRsw, (·.solvent), [], (·.rsSolw)⟩,
   ⟨"density_solvent", .solventDensity, (·.solvent), [], (·.solventDensity)⟩,
   ⟨"viscosity_solvent", .solventViscosity, (·.solvent), [], (·.solventViscosity)⟩,
   ⟨"mobility_solvent", .solventMobility, (·.solvent), [], (·.solventMobility)⟩,
   ⟨"microbial concentration", .microbialConcentration, (·.micp), [],
     (·.microbialConcentration)⟩,
   ⟨"oxygen concentration", .oxygenConcentration, (·.micp), [], (·.oxygenConcentration)⟩,
   ⟨"urea concentration", .ureaConcentration, (·.micp), [], fun c => 10 * c.ureaConcentration⟩,
   ⟨"biofilm fraction", .biofilmConcentration, (·.micp), [], (·.biofilmConcentration)⟩,
   ⟨"calcite fraction", .calciteConcentration, (·.micp), [], (·.calciteConcentration)⟩]

/-- The saturation ratios. -/
def describedRatios : List (Described K) :=
  [⟨"saturation ratio_oil", .saturationRatios, fun _ => true, [.oil, .gas], fun c =>
     let x := c.RsToMoleFraction (c.saturatedRs (max c.oilSaturation c.maxOilSaturation))
     if 0 < x then c.moleFractionOilGas / x else 1⟩,
   ⟨"saturation ratio_gas", .saturationRatios, fun _ => true, [.oil, .gas], fun c =>
     let x := c.RvToMoleFraction (c.saturatedRv (max c.oilSaturation c.maxOilSaturation))
     if 0 < x then c.moleFractionGasOil / x else 1⟩]

theorem mem_buffers (b : Buffer) : b ∈ buffers := by
  cases b <;> (try rename_i p; cases p) <;> decide

set_option maxRecDepth 100000 in
theorem name_nodup : (buffers.map name).Nodup := by decide +kernel

theorem name_inj {a b : Buffer} (h : name a = name b) : a = b :=
  List.inj_on_of_nodup_map name_nodup (mem_buffers a) (mem_buffers b) h

/-- Wanted buffers. -/
def wanted (s : Setup) (on : Param → Bool) (b : Buffer) : Prop :=
  (compiled s b && on (switch b)) = true

/-- What a buffer holds for a cell after a visit. -/
def final (s : Setup) (state : ℕ → Cell K) (b : Buffer) (i : ℕ) : K :=
  (put s (state i) b).getD 0

theorem process_spec (s : Setup) (on : Param → Bool) (state : ℕ → Cell K) (n : ℕ)
    (order : List ℕ) (hord : ∀ i ∈ order, i < n) (store : Store K)
    (hst : ∀ b, wanted s on b → ∃ l, store b = some l ∧ l.length = n) :
    ∃ after, process s on state order store = some after ∧
      ∀ b, wanted s on b → ∃ l l', store b = some l ∧ after b = some l' ∧ l'.length = n ∧
        ∀ i, l'[i]? = if i ∈ order ∧ (put s (state i) b).isSome then put s (state i) b
          else l[i]? := by
  induction order generalizing store with
  | nil =>
    refine ⟨store, rfl, fun b hb => ?_⟩
    obtain ⟨l, h1, h2⟩ := hst b hb
    exact ⟨l, l, h1, h1, h2, fun i => by simp⟩
  | cons j rest ih =>
    have hj : j < n := hord j (by simp)
    unfold process processDof
    rw [if_neg]
    swap
    · rintro ⟨b, -, hb, -, hl⟩
      obtain ⟨l, h1, h2⟩ := hst b hb
      have := hl l h1
      omega
    set next : Store K := fun b =>
      if compiled s b && on (switch b) then
        match put s (state j) b with
        | some v => (store b).map (·.set j v)
        | none => store b
      else store b with hnext
    have hn : ∀ b, wanted s on b → ∃ l, store b = some l ∧ l.length = n ∧
        next b = some (match put s (state j) b with | some v => l.set j v | none => l) := by
      intro b hb
      obtain ⟨l, h1, h2⟩ := hst b hb
      refine ⟨l, h1, h2, ?_⟩
      rw [hnext]
      unfold wanted at hb
      simp only [hb, if_true]
      cases hp : put s (state j) b <;> simp [h1]
    obtain ⟨after, ha, hall⟩ := ih (fun i hi => hord i (by simp [hi])) next (by
      intro b hb
      obtain ⟨l, h1, h2, h3⟩ := hn b hb
      refine ⟨_, h3, ?_⟩
      cases put s (state j) b <;> simp [h2])
    refine ⟨after, ha, fun b hb => ?_⟩
    obtain ⟨l, h1, h2, h3⟩ := hn b hb
    obtain ⟨l1, l', h4, h5, h6, h7⟩ := hall b hb
    refine ⟨l, l', h1, h5, h6, fun i => ?_⟩
    rw [h7 i]
    have hl1 : l1 = (match put s (state j) b with | some v => l.set j v | none => l) := by
      rw [h3] at h4; exact (Option.some.inj h4).symm
    rw [hl1]
    by_cases hi : i ∈ rest
    · simp only [hi, List.mem_cons, or_true, true_and]
      by_cases hp : (put s (state i) b).isSome = true
      · rw [if_pos hp, if_pos hp]
      · rw [if_neg hp, if_neg hp]
        by_cases hij : i = j
        · subst hij
          cases h : put s (state i) b with
          | none => rfl
          | some v => simp [h] at hp
        · cases put s (state j) b with
          | none => rfl
          | some v => simp [List.getElem?_set, Ne.symm hij]
    · by_cases hij : i = j
      · subst hij
        simp only [hi, List.mem_cons, or_false, true_and, false_and, if_false]
        cases h : put s (state i) b with
        | none => simp
        | some v =>
          simp [List.getElem?_set, h2, hj]
      · simp only [hi, List.mem_cons, hij, or_false, false_and, if_false]
        cases put s (state j) b with
        | none => rfl
        | some v => simp [List.getElem?_set, Ne.symm hij]

/-- The general form: the file and its fields. -/
theorem write_spec (s : Setup) (on : Param → Bool) (n : ℕ) (state : ℕ → Cell K)
    (order : List ℕ) (hord : ∀ i, i ∈ order ↔ i < n) (old : Store K) :
    ∃ file, write s on n state order old = some file ∧
      ∀ b d, (name b, d) ∈ file ↔
        wanted s on b ∧ d.length = n ∧ ∀ i, i < n → d[i]? = some (final s state b i) := by
  obtain ⟨after, h1, h2⟩ := process_spec s on state n order (fun i hi => (hord i).1 hi)
    (alloc s on n old) (by
      intro b hb
      refine ⟨List.replicate n 0, ?_, by simp⟩
      unfold wanted at hb
      simp [alloc, hb])
  refine ⟨commit s on after, by simp [write, h1], fun b d => ?_⟩
  have key : wanted s on b → ∃ l', after b = some l' ∧ l'.length = n ∧
      ∀ i, i < n → l'[i]? = some (final s state b i) := by
    intro hb
    obtain ⟨l, l', h3, h4, h5, h6⟩ := h2 b hb
    refine ⟨l', h4, h5, fun i hi => ?_⟩
    rw [h6 i]
    have hl : l = List.replicate n 0 := by
      unfold wanted at hb
      simp [alloc, hb] at h3
      exact h3.symm
    simp only [(hord i).2 hi, true_and, final]
    cases hp : put s (state i) b with
    | none => simp [hl, hi]
    | some v => simp
  simp only [commit, List.mem_map, List.mem_filter, Prod.mk.injEq]
  constructor
  · rintro ⟨b', ⟨-, hb'⟩, hn, hd⟩
    have := name_inj hn
    subst this
    obtain ⟨l', h4, h5, h6⟩ := key hb'
    rw [h4] at hd
    simp only [Option.getD_some] at hd
    subst hd
    exact ⟨hb', h5, h6⟩
  · rintro ⟨hb, hlen, hval⟩
    obtain ⟨l', h4, h5, h6⟩ := key hb
    refine ⟨b, ⟨mem_buffers b, hb⟩, rfl, ?_⟩
    rw [h4]
    simp only [Option.getD_some]
    apply List.ext_getElem?
    intro i
    by_cases hi : i < n
    · rw [h6 i hi, hval i hi]
    · rw [List.getElem?_eq_none (by omega), List.getElem?_eq_none (by omega)]

/-- The table of buffers agrees with the described fields, except for the switch of the correction
of the water viscosity. -/
theorem table (f : Described K) (hf : f ∈ described ++ describedRatios) :
    ∃ b, name b = f.name ∧ (f.parameter ≠ .waterViscosityCorrection → switch b = f.parameter) ∧
      (∀ s, compiled s b = f.compiledIn s) ∧
      ∀ s, (∀ p ∈ f.needs, s.active p = true) → ∀ c : Cell K, put s c b = some (f.quantity c) := by
  simp only [described, describedRatios, List.cons_append, List.nil_append, List.mem_cons,
    List.not_mem_nil, or_false] at hf
  rcases hf with h | h | h | h | h | h | h | h | h | h | h | h | h | h | h | h | h | h | h | h | h |
    h | h | h | h | h | h | h | h | h | h | h | h | h | h | h | h | h <;> subst h
  · exact ⟨.gasDissolutionFactor, rfl, fun _ => rfl, fun _ => rfl, fun s h c => by simp_all [put]⟩
  · exact ⟨.oilVaporizationFactor, rfl, fun _ => rfl, fun _ => rfl, fun s h c => by simp_all [put]⟩
  · exact ⟨.formationVolumeFactor .oil, rfl, fun _ => rfl, fun _ => rfl,
      fun s h c => by simp_all [put]⟩
  · exact ⟨.formationVolumeFactor .gas, rfl, fun _ => rfl, fun _ => rfl,
      fun s h c => by simp_all [put]⟩
  · exact ⟨.formationVolumeFactor .water, rfl, fun _ => rfl, fun _ => rfl,
      fun s h c => by simp_all [put]⟩
  · exact ⟨.oilSaturationPressure, rfl, fun _ => rfl, fun _ => rfl, fun s h c => by simp_all [put]⟩
  · exact ⟨.gasSaturationPressure, rfl, fun _ => rfl, fun _ => rfl, fun s h c => by simp_all [put]⟩
  · exact ⟨.saturatedOilGasDissolutionFactor, rfl, fun _ => rfl, fun _ => rfl,
      fun s h c => by simp_all [put, soMax]⟩
  · exact ⟨.saturatedGasOilVaporizationFactor, rfl, fun _ => rfl, fun _ => rfl,
      fun s h c => by simp_all [put, soMax]⟩
  · exact ⟨.meaningWater, rfl, fun _ => rfl, fun _ => rfl, fun s h c => by simp_all [put]⟩
  · exact ⟨.meaningGas, rfl, fun _ => rfl, fun _ => rfl, fun s h c => by simp_all [put]⟩
  · exact ⟨.meaningPressure, rfl, fun _ => rfl, fun _ => rfl, fun s h c => by simp_all [put]⟩
  · exact ⟨.rockInternalEnergy, rfl, fun _ => rfl, fun _ => rfl, fun s h c => by simp_all [put]⟩
  · exact ⟨.totalThermalConductivity, rfl, fun _ => rfl, fun _ => rfl,
      fun s h c => by simp_all [put]⟩
  · exact ⟨.fluidInternalEnergy .water, show _ = "internal energy_water" by decide, fun _ => rfl, fun _ => rfl,
      fun s h c => by simp_all [put]⟩
  · exact ⟨.fluidInternalEnergy .oil, show _ = "internal energy_oil" by decide, fun _ => rfl, fun _ => rfl,
      fun s h c => by simp_all [put]⟩
  · exact ⟨.fluidInternalEnergy .gas, show _ = "internal energy_gas" by decide, fun _ => rfl, fun _ => rfl,
      fun s h c => by simp_all [put]⟩
  · exact ⟨.fluidEnthalpy .water, show _ = "enthalpy_water" by decide, fun _ => rfl, fun _ => rfl,
      fun s h c => by simp_all [put]⟩
  · exact ⟨.fluidEnthalpy .oil, show _ = "enthalpy_oil" by decide, fun _ => rfl, fun _ => rfl,
      fun s h c => by simp_all [put]⟩
  · exact ⟨.fluidEnthalpy .gas, show _ = "enthalpy_gas" by decide, fun _ => rfl, fun _ => rfl,
      fun s h c => by simp_all [put]⟩
  · exact ⟨.polymerConcentration, rfl, fun _ => rfl, fun _ => rfl, fun s h c => by simp_all [put]⟩
  · exact ⟨.polymerDeadPoreVolume, rfl, fun _ => rfl, fun _ => rfl, fun s h c => by simp_all [put]⟩
  · exact ⟨.polymerRockDensity, rfl, fun _ => rfl, fun _ => rfl, fun s h c => by simp_all [put]⟩
  · exact ⟨.polymerAdsorption, rfl, fun _ => rfl, fun _ => rfl, fun s h c => by simp_all [put]⟩
  · exact ⟨.polymerViscosityCorrection, rfl, fun _ => rfl, fun _ => rfl,
      fun s h c => by simp_all [put]⟩
  · exact ⟨.waterViscosityCorrection, rfl, fun h => absurd rfl h, fun _ => rfl,
      fun s h c => by simp_all [put]⟩
  · exact ⟨.solventSaturation, rfl, fun _ => rfl, fun _ => rfl, fun s h c => by simp_all [put]⟩
  · exact ⟨.solventRsw, rfl, fun _ => rfl, fun _ => rfl, fun s h c => by simp_all [put]⟩
  · exact ⟨.solventDensity, rfl, fun _ => rfl, fun _ => rfl, fun s h c => by simp_all [put]⟩
  · exact ⟨.solventViscosity, rfl, fun _ => rfl, fun _ => rfl, fun s h c => by simp_all [put]⟩
  · exact ⟨.solventMobility, rfl, fun _ => rfl, fun _ => rfl, fun s h c => by simp_all [put]⟩
  · exact ⟨.microbialConcentration, rfl, fun _ => rfl, fun _ => rfl, fun s h c => by simp_all [put]⟩
  · exact ⟨.oxygenConcentration, rfl, fun _ => rfl, fun _ => rfl, fun s h c => by simp_all [put]⟩
  · exact ⟨.ureaConcentration, rfl, fun _ => rfl, fun _ => rfl, fun s h c => by simp_all [put]⟩
  · exact ⟨.biofilmConcentration, rfl, fun _ => rfl, fun _ => rfl, fun s h c => by simp_all [put]⟩
  · exact ⟨.calciteConcentration, rfl, fun _ => rfl, fun _ => rfl, fun s h c => by simp_all [put]⟩
  · refine ⟨.oilSaturationRatio, rfl, fun _ => rfl, fun _ => rfl, fun s h c => ?_⟩
    have ho : s.active .oil = true := h _ (by simp)
    have hg : s.active .gas = true := h _ (by simp)
    simp only [put, ho, hg, Bool.and_self, if_true, ratio, soMax]
    congr 1
    by_cases hx : (0:K) < c.RsToMoleFraction (c.saturatedRs (max c.oilSaturation c.maxOilSaturation))
    · rw [if_neg (not_le.2 hx), if_pos hx]
    · rw [if_pos (not_lt.1 hx), if_neg hx]
  · refine ⟨.gasSaturationRatio, rfl, fun _ => rfl, fun _ => rfl, fun s h c => ?_⟩
    have ho : s.active .oil = true := h _ (by simp)
    have hg : s.active .gas = true := h _ (by simp)
    simp only [put, ho, hg, Bool.and_self, if_true, ratio, soMax]
    congr 1
    by_cases hx : (0:K) < c.RvToMoleFraction (c.saturatedRv (max c.oilSaturation c.maxOilSaturation))
    · rw [if_neg (not_le.2 hx), if_pos hx]
    · rw [if_pos (not_lt.1 hx), if_neg hx]

/-- **C145** (which fields are written).  For every choice of the parameters, of the extensions and
of the active phases, for every number of degrees of freedom, every order in which they are visited
and whatever earlier writes left in the buffers, writing the files is well defined and a described
field is in the file exactly if its extension is compiled in and its parameter asks for it.

Missing: the parameter for the correction of the water viscosity
(`C145_switch_violated`). -/
theorem C145_written_partial (s : Setup) (on : Param → Bool) (n : ℕ) (state : ℕ → Cell K)
    (order : List ℕ) (hord : ∀ i, i ∈ order ↔ i < n) (old : Store K) :
    ∃ file, write s on n state order old = some file ∧
      ∀ f ∈ described (K := K) ++ describedRatios, f.parameter ≠ .waterViscosityCorrection →
        ((∃ d, (f.name, d) ∈ file) ↔ f.compiledIn s = true ∧ on f.parameter = true) := by
  obtain ⟨file, h1, h2⟩ := write_spec s on n state order hord old
  refine ⟨file, h1, fun f hf hne => ?_⟩
  obtain ⟨b, hb1, hb2, hb3, -⟩ := table f hf
  rw [← hb1, ← hb2 hne, ← hb3 s]
  constructor
  · rintro ⟨d, hd⟩
    have := ((h2 b d).1 hd).1
    simpa [wanted] using this
  · intro h
    refine ⟨(List.range n).map (final s state b), (h2 b _).2 ⟨by simpa [wanted] using h, by simp,
      fun i hi => by simp [hi]⟩⟩

/-- **C145** (what the fields show).  A described field which is in the file and whose phases are
active has one value per degree of freedom: the quantity of the present state there, whatever
earlier writes left in the buffers. -/
theorem C145_values (s : Setup) (on : Param → Bool) (n : ℕ) (state : ℕ → Cell K)
    (order : List ℕ) (hord : ∀ i, i ∈ order ↔ i < n) (old : Store K)
    (file : List (String × List K)) (hw : write s on n state order old = some file)
    (f : Described K) (hf : f ∈ described (K := K) ++ describedRatios)
    (hact : ∀ p ∈ f.needs, s.active p = true) (d : List K) (hd : (f.name, d) ∈ file) :
    d = (List.range n).map fun i => f.quantity (state i) := by
  obtain ⟨file', h1, h2⟩ := write_spec s on n state order hord old
  rw [hw] at h1
  cases h1
  obtain ⟨b, hb1, -, -, hb4⟩ := table f hf
  rw [← hb1] at hd
  obtain ⟨-, hlen, hval⟩ := (h2 b d).1 hd
  apply List.ext_getElem?
  intro i
  by_cases hi : i < n
  · rw [hval i hi]
    simp [hi, final, hb4 s hact (state i)]
  · rw [List.getElem?_eq_none (by omega), List.getElem?_eq_none (by simp; omega)]

set_option maxRecDepth 100000 in
/-- **C145** (names).  No two fields of a file have the same name. -/
theorem C145_names (s : Setup) (on : Param → Bool) (n : ℕ) (state : ℕ → Cell K)
    (order : List ℕ) (old : Store K) (file : List (String × List K))
    (hw : write s on n state order old = some file) : (file.map Prod.fst).Nodup := by
  unfold write at hw
  rw [Option.map_eq_some_iff] at hw
  obtain ⟨st, -, rfl⟩ := hw
  have : (commit s on st).map Prod.fst =
      ((buffers.filter fun b => compiled s b && on (switch b)).map name) := by
    simp [commit, List.map_map, Function.comp_def]
  rw [this]
  exact (List.Sublist.map name List.filter_sublist).nodup name_nodup

/-- **C145** (saturation ratios).  If the mole fraction of gas in oil is between zero and its
saturated value, the ratio which is shown is between zero and one, and one if and only if the oil is
saturated. -/
theorem C145_ratio [IsStrictOrderedRing K] (x sat : K) (h0 : 0 ≤ x) (h1 : x ≤ sat) :
    0 ≤ ratio x sat ∧ ratio x sat ≤ 1 ∧ (ratio x sat = 1 ↔ x = sat) := by
  unfold ratio
  by_cases h : sat ≤ 0
  · rw [if_pos h]
    exact ⟨zero_le_one, le_rfl, fun _ => le_antisymm h1 (h.trans h0), fun _ => rfl⟩
  · rw [if_neg h]
    have hp := not_le.1 h
    refine ⟨div_nonneg h0 hp.le, (div_le_one hp).2 h1, ?_⟩
    rw [div_eq_one_iff_eq hp.ne']

/-- A cell for the examples. -/
def sample : Cell ℚ where
  oilSaturation := 1/2
  maxOilSaturation := 3/4
  moleFractionOilGas := 1/5
  moleFractionGasOil := 1/10
  Rs := 30
  Rv := 1/1000
  saturatedRs := fun so => 80 * so
  saturatedRv := fun so => so / 100
  RsToMoleFraction := fun r => r / (r + 100)
  RvToMoleFraction := fun r => r / (r + 1)
  inverseFormationVolumeFactor := fun p => match p with | .water => 1 | .oil => 4/5 | .gas => 100
  oilSaturationPressure := 1000
  gasSaturationPressure := 900
  meaningWater := 0
  meaningGas := 1
  meaningPressure := 0
  rockInternalEnergy := 7
  totalThermalConductivity := 2
  internalEnergy := fun _ => 5
  enthalpy := fun _ => 6
  polymerConcentration := 1/4
  polymerDeadPoreVolume := 1/20
  polymerRockDensity := 2000
  polymerAdsorption := 1/3
  polymerViscosityCorrection := 3/2
  waterViscosityCorrection := 6/5
  solventSaturation := 1/8
  rsSolw := 1/9
  solventDensity := 700
  solventViscosity := 1/2000
  solventMobility := 90
  microbialConcentration := 1/50
  oxygenConcentration := 1/60
  ureaConcentration := 3/10
  biofilmConcentration := 1/70
  calciteConcentration := 1/80

/-- **C145** (violation).  With the polymer extension, asking for the correction of the water
viscosity and not for that of the polymer viscosity gives a file without the field, and asking for
the latter and not for the former gives a file with it: the parameter of the field is ignored. -/
theorem C145_switch_violated :
    ∃ (s : Setup) (state : ℕ → Cell ℚ) (order : List ℕ) (without withField : List (String × List ℚ)),
      (∀ i, i ∈ order ↔ i < 2) ∧ s.polymer = true ∧
      write s (fun p => p == .waterViscosityCorrection) 2 state order (fun _ => none) =
        some without ∧ (∀ d, ("water viscosity correction", d) ∉ without) ∧
      write s (fun p => p == .polymerViscosityCorrection) 2 state order (fun _ => none) =
        some withField ∧ ∃ d, ("water viscosity correction", d) ∈ withField := by
  set s : Setup := ⟨fun _ => true, false, true, false, false⟩ with hs
  have hord : ∀ i, i ∈ [0, 1] ↔ i < 2 := by
    intro i; simp; omega
  obtain ⟨f1, h1, h2⟩ := write_spec s (fun p => p == .waterViscosityCorrection) 2
    (fun _ => sample) [0, 1] hord (fun _ => none)
  obtain ⟨f2, h3, h4⟩ := write_spec s (fun p => p == .polymerViscosityCorrection) 2
    (fun _ => sample) [0, 1] hord (fun _ => none)
  refine ⟨s, fun _ => sample, [0, 1], f1, f2, hord, rfl, h1, fun d hd => ?_, h3, ?_⟩
  · have := ((h2 .waterViscosityCorrection d).1 hd).1
    simp [wanted, switch, hs, compiled] at this
  · refine ⟨(List.range 2).map (final s (fun _ => sample) .waterViscosityCorrection),
      (h4 .waterViscosityCorrection _).2 ⟨by simp [wanted, switch, hs, compiled], by simp,
        fun i hi => by simp [hi]⟩⟩

/-- A file with three fields: `R_s`, the formation volume factor of oil and the ratios. -/
example : write ⟨fun p => p != .water, false, false, false, false⟩
    (fun p => p == .gasDissolutionFactor || p == .oilFormationVolumeFactor ||
      p == .saturationRatios || p == .ureaConcentration)
    2 (fun i => { sample with Rs := 30 + i }) [1, 0] (fun _ => some [7, 7, 7]) =
    some [("R_s", [30, 31]), ("B_o", [5/4, 5/4]),
      ("saturation ratio_oil", [8/15, 8/15]), ("saturation ratio_gas", [403/30, 403/30])] := by
  decide +kernel

end Verif.Vtk.Switches
