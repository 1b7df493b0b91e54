import Verif.MassCons.Props
import Verif.Pvs.Props
import Mathlib.Tactic.LinearCombination
import Mathlib.Tactic.FieldSimp

/-
C187: `assignMassConservative` of the model with primary variable switching.
-/

set_option autoImplicit false
set_option linter.unusedSectionVars false

namespace Verif.MassCons

variable {K : Type} [Field K] [LinearOrder K] [IsStrictOrderedRing K]

/-! ### Model -/

/-- What `assignNaive` (opm/models/pvs/pvsprimaryvariables.hh lines 278-336) uses of a fluid state -/
def forPvs (fs : State K) : Pvs.FluidState K := ⟨fs.sat, fs.frac, fs.pres⟩

/-- `assignNaive` (opm/models/pvs/pvsprimaryvariables.hh lines 278-336), without energy equation -/
def pvsAssign (y : System K) (fs : State K) (old : Pvs.PriVars K) : Option (Pvs.PriVars K) :=
  Pvs.assignNaive y.phases y.comps (forPvs fs) old

/-- The fluid state of the intensive quantities (opm/models/pvs/pvsintensivequantities.hh lines 108-214), without energy equation: `problem` is
the temperature of the problem. The solvers are of opm-material: `reference T pres phase x` are the compositions which
`ComputeFromReferencePhase` calculates for the other phases, `miscible T pres present low aux` those of all phases which
`MiscibleMultiPhaseComposition` calculates for present phases and given mole fractions of the phase `low`. -/
def pvsRead (y : System K) (reference : K → (ℕ → K) → ℕ → (ℕ → K) → ℕ → ℕ → K)
    (miscible : K → (ℕ → K) → (ℕ → Bool) → ℕ → List (ℕ × K) → ℕ → ℕ → K) (problem : K) (pv : Pvs.PriVars K) : State K :=
  let sat := Pvs.readSaturation y.phases pv
  let pres := fun i => pv.val 0 + (y.pc sat i - y.pc sat 0)
  let frac :=
    if Pvs.numNonPresent y.phases pv = y.phases - 1 then
      Function.update (reference problem pres pv.lowest (Pvs.readComposition y.comps pv)) pv.lowest (Pvs.readComposition y.comps pv)
    else miscible problem pres pv.present pv.lowest (Pvs.auxConstraints y.phases y.comps pv)
  { sat := sat
    pres := pres
    frac := frac
    molarDensity := fun i => y.density i problem (pres i) (frac i)
    temperature := problem }

/-! ### Specification -/

/-- What the solver for phases in equilibrium promises: if there are as many conditions as components, namely given mole fractions of
different components in one of the present phases and that the mole fractions of each present phase sum to one, it finds the compositions of the
present phases which meet them and for which the fugacities are the same. -/
def Solves (y : System K) (miscible : K → (ℕ → K) → (ℕ → Bool) → ℕ → List (ℕ × K) → ℕ → ℕ → K) : Prop :=
  ∀ (fs : State K) (pres : ℕ → K) (present : ℕ → Bool) (low : ℕ) (aux : List (ℕ × K)),
    (∀ i < y.phases, 0 < fs.pres i ∧ pres i = fs.pres i) →
    (∀ i < y.phases, ∀ c < y.comps, fugacity y fs i c = fugacity y fs 0 c) →
    (∀ i < y.phases, present i = true → ∑ c ∈ Finset.range y.comps, fs.frac i c = 1) →
    low < y.phases → present low = true →
    (∀ c x, (c, x) ∈ aux → 0 < c ∧ c < y.comps ∧ x = fs.frac low c) → (aux.map Prod.fst).Nodup →
    aux.length + ((Finset.range y.phases).filter fun i => present i = true).card = y.comps →
    1 < ((Finset.range y.phases).filter fun i => present i = true).card →
    ∀ i < y.phases, present i = true → ∀ c < y.comps, miscible fs.temperature pres present low aux i c = fs.frac i c

/-- A state in thermodynamic equilibrium: mechanical and chemical; saturations are not negative and the mole fractions of absent phases do not
sum to more than one. -/
structure Equilibrated (y : System K) (fs : State K) : Prop where
  mechanical : Mechanical y fs
  chemical : Chemical y fs
  nonneg : ∀ i < y.phases, 0 ≤ fs.sat i
  positive : ∀ i < y.phases, 0 < fs.pres i
  frac : ∀ i < y.phases, ∑ c ∈ Finset.range y.comps, fs.frac i c ≤ 1
  ncp : ∀ i < y.phases, fs.sat i = 0 ∨ ∑ c ∈ Finset.range y.comps, fs.frac i c = 1

/-! ### Lemmas -/

theorem Equilibrated.forPvs {y : System K} {fs : State K} (h : Equilibrated y fs) : Pvs.Equilibrium y.phases y.comps (forPvs fs) :=
  ⟨h.nonneg, h.mechanical.full, h.frac, h.ncp⟩

theorem numNonPresent_eq (n : ℕ) (pv : Pvs.PriVars K) :
    Pvs.numNonPresent n pv + ((Finset.range n).filter fun i => pv.present i = true).card = n := by
  have h1 : Pvs.numNonPresent n pv = ((Finset.range n).filter fun i => ¬ pv.present i = true).card := by
    unfold Pvs.numNonPresent
    rw [List.countP_eq_length_filter, ← List.toFinset_card_of_nodup (List.nodup_range.filter _)]
    congr 1
    ext i; simp
  rw [h1, add_comm, Finset.card_filter_add_card_filter_not, Finset.card_range]

/-- Storing and reading back a state in equilibrium -/
theorem pvs_read (y : System K) (hy : y.Local) (h15 : y.phases ≤ 15) (hM : y.phases ≤ y.comps)
    (reference : K → (ℕ → K) → ℕ → (ℕ → K) → ℕ → ℕ → K)
    (miscible : K → (ℕ → K) → (ℕ → Bool) → ℕ → List (ℕ × K) → ℕ → ℕ → K) (hm : Solves y miscible) (old : Pvs.PriVars K) {fs : State K}
    (h : Equilibrated y fs) :
    ∃ pv, pvsAssign y fs old = some pv ∧ SameContent y (pvsRead y reference miscible fs.temperature pv) fs := by
  obtain ⟨pv, hv, hsat, hp0, hpre⟩ := Pvs.C57_saturations h15 h.forPvs old
  obtain ⟨pv2, hv2, hlow, haux, hnd, hlen⟩ := Pvs.C57_compositions h15 hM h.forPvs old
  obtain rfl : pv = pv2 := by rw [hv] at hv2; simpa using hv2
  refine ⟨pv, hv, ?_⟩
  have hpc : ∀ i < y.phases, y.pc (Pvs.readSaturation y.phases pv) i = y.pc fs.sat i := hy.pc _ _ hsat
  have hpres : ∀ i < y.phases,
      pv.val 0 + (y.pc (Pvs.readSaturation y.phases pv) i - y.pc (Pvs.readSaturation y.phases pv) 0) = fs.pres i := by
    intro i hi
    rw [hp0, hpc i hi, hpc 0 hy.some]
    exact (h.mechanical.pressure i hi).symm
  have hpos : (Finset.filter (fun i => 0 < fs.sat i) (Finset.range y.phases)).Nonempty := by
    by_contra hne
    rw [Finset.not_nonempty_iff_eq_empty] at hne
    have hz : ∑ i ∈ Finset.range y.phases, fs.sat i = 0 := by
      refine Finset.sum_eq_zero fun i hi => ?_
      by_contra hn
      have : i ∈ Finset.filter (fun i => 0 < fs.sat i) (Finset.range y.phases) :=
        Finset.mem_filter.2 ⟨hi, lt_of_le_of_ne (h.nonneg i (Finset.mem_range.1 hi)) (Ne.symm hn)⟩
      rw [hne] at this
      exact absurd this (Finset.notMem_empty _)
    have := h.mechanical.full
    rw [hz] at this
    exact zero_ne_one this
  have hset : (Finset.range y.phases).filter (fun i => pv.present i = true) = Finset.filter (fun i => 0 < fs.sat i) (Finset.range y.phases) := by
    ext i
    simp only [Finset.mem_filter, Finset.mem_range]
    exact ⟨fun hi => ⟨hi.1, ((hpre i).1 hi.2).2⟩, fun hi => ⟨hi.1, (hpre i).2 hi⟩⟩
  have hcount := numNonPresent_eq y.phases pv
  rw [hset] at hcount
  have hcard := Finset.card_pos.2 hpos
  have hlowp : pv.lowest < y.phases ∧ pv.present pv.lowest = true := by
    obtain ⟨v', hv', -, l1, -, -⟩ := Pvs.assigned h15 h.forPvs old
    obtain rfl : pv = v' := by rw [hv] at hv'; simpa using hv'
    exact ⟨((hpre _).1 l1).1, l1⟩
  have hfrac : ∀ i < y.phases, 0 < fs.sat i → ∀ c < y.comps,
      (pvsRead y reference miscible fs.temperature pv).frac i c = fs.frac i c := by
    intro i hi hsi c hc
    unfold pvsRead
    dsimp only
    split
    · next h1 =>
      have hone : (Finset.filter (fun i => 0 < fs.sat i) (Finset.range y.phases)).card = 1 := by omega
      obtain ⟨j, hj⟩ := Finset.card_eq_one.1 hone
      have hij : i = j := by
        have : i ∈ ({j} : Finset ℕ) := hj ▸ Finset.mem_filter.2 ⟨Finset.mem_range.2 hi, hsi⟩
        simpa using this
      have hs1 : fs.sat i = 1 := by
        rw [← h.mechanical.full, ← Finset.add_sum_erase _ _ (Finset.mem_range.2 hi), left_eq_add]
        refine Finset.sum_eq_zero fun k hk => ?_
        rw [Finset.mem_erase] at hk
        by_contra hn
        have : k ∈ ({j} : Finset ℕ) :=
          hj ▸ Finset.mem_filter.2 ⟨hk.2, lt_of_le_of_ne (h.nonneg k (Finset.mem_range.1 hk.2)) (Ne.symm hn)⟩
        exact hk.1 ((Finset.mem_singleton.1 this).trans hij.symm)
      obtain ⟨v', hv', hl, hx⟩ := Pvs.C57_composition_single h15 hM h.forPvs old hi hs1
      obtain rfl : pv = v' := by rw [hv] at hv'; simpa using hv'
      rw [hl, Function.update_self]
      exact hx c hc
    · next h1 =>
      have h2 : 1 < (Finset.filter (fun i => 0 < fs.sat i) (Finset.range y.phases)).card := by omega
      refine hm fs _ pv.present pv.lowest _ (fun k hk => ⟨h.positive k hk, hpres k hk⟩) h.chemical (fun k hk hp => ?_) hlowp.1 hlowp.2 haux hnd
        (by rw [hset]; exact hlen) (by rw [hset]; exact h2) i hi ((hpre i).2 ⟨hi, hsi⟩) c hc
      rcases h.ncp k hk with h0 | h0
      · exact absurd h0 ((hpre k).1 hp).2.ne'
      · exact h0
  intro c hc
  refine Finset.sum_congr rfl fun i hi => ?_
  have hi' := Finset.mem_range.1 hi
  have e : (pvsRead y reference miscible fs.temperature pv).sat i = fs.sat i := hsat i hi'
  rw [e]
  rcases eq_or_lt_of_le (h.nonneg i hi') with h0 | h0
  · rw [← h0, zero_mul, zero_mul]
  · rw [hfrac i hi' h0 c hc, h.mechanical.dense i hi', ← hpres i hi']
    congr 2
    exact hy.density i hi' _ _ _ _ (hfrac i hi' h0)

/-! ### C187 -/

/-- **C187** The model with primary variable switching: the cell contains what the given state contains, if the flash calculation does not
fail, the densities of the state are those of the fluid system and its temperature is the one of the problem. -/
theorem C187_pvs_partial (y : System K) (hy : y.Local) (h15 : y.phases ≤ 15) (hM : y.phases ≤ y.comps)
    (reference : K → (ℕ → K) → ℕ → (ℕ → K) → ℕ → ℕ → K)
    (miscible : K → (ℕ → K) → (ℕ → Bool) → ℕ → List (ℕ × K) → ℕ → ℕ → K) (hm : Solves y miscible)
    (flash : State K → (ℕ → K) → Option (State K)) (hf : Flash y (Equilibrated y) flash) (old : Pvs.PriVars K) (fs : State K) (hd : Dense y fs)
    (pv : Pvs.PriVars K) (hv : assignMassConservative y flash (fun s => pvsAssign y s old) false fs = some pv) :
    SameContent y (pvsRead y reference miscible fs.temperature pv) fs := by
  obtain ⟨fs', h1, h2, h3, h4⟩ := assign_spec y hf hv
  obtain ⟨pv', h5, h6⟩ := pvs_read y hy h15 hM reference miscible hm old h1
  obtain rfl : pv = pv' := by rw [h4] at h5; simpa using h5
  rw [h2] at h6
  exact fun c hc => (h6 c hc).trans ((h3 c hc).trans (refresh_content y hd c hc))

/-- **C187** The model with primary variable switching, for states which are said to be in equilibrium. -/
theorem C187_pvs_equilibrium (y : System K) (hy : y.Local) (h15 : y.phases ≤ 15) (hM : y.phases ≤ y.comps)
    (reference : K → (ℕ → K) → ℕ → (ℕ → K) → ℕ → ℕ → K)
    (miscible : K → (ℕ → K) → (ℕ → Bool) → ℕ → List (ℕ × K) → ℕ → ℕ → K) (hm : Solves y miscible)
    (flash : State K → (ℕ → K) → Option (State K)) (old : Pvs.PriVars K) (fs : State K) (h : Equilibrated y fs) :
    ∃ pv, assignMassConservative y flash (fun s => pvsAssign y s old) true fs = some pv ∧
      SameContent y (pvsRead y reference miscible fs.temperature pv) fs :=
  pvs_read y hy h15 hM reference miscible hm old h

/-! ### Examples -/

/-- The solver for two phases and two components of `pair` -/
def solvePair (_T : ℚ) (pres : ℕ → ℚ) (_present : ℕ → Bool) (_low : ℕ) (_aux : List (ℕ × ℚ)) (i c : ℕ) : ℚ :=
  -- mole fractions of the gas are those of the water times `k`
  let k := fun c : ℕ => (if c = 0 then 1 / 4 else 4) * pres 0 / pres 1
  let x := (1 - k 1) / (k 0 - k 1)
  let liquid := if c = 0 then x else 1 - x
  if i = 0 then liquid else k c * liquid

theorem solvePair_solves : Solves pair solvePair := by
  intro fs pres present low aux hp hf hs _ _ _ _ _ h2 i hi _ c hc
  have hall : ∀ j < 2, present j = true := by
    intro j hj
    by_contra hn
    have hsub : (Finset.range pair.phases).filter (fun i => present i = true) ⊆ {1 - j} := by
      intro k hk
      rw [Finset.mem_filter, Finset.mem_range] at hk
      have hk2 : k < 2 := hk.1
      rw [Finset.mem_singleton]
      by_contra hne
      have : k = j := by omega
      exact hn (this ▸ hk.2)
    have := Finset.card_le_card hsub
    rw [Finset.card_singleton] at this
    omega
  have hi2 : i < 2 := hi
  have hc2 : c < 2 := hc
  obtain ⟨p0, e0⟩ := hp 0 (by decide)
  obtain ⟨p1, e1⟩ := hp 1 (by decide)
  have s0 := hs 0 (by decide) (hall 0 (by decide))
  have s1 := hs 1 (by decide) (hall 1 (by decide))
  have f0 := hf 1 (by decide) 0 (by decide)
  have f1 := hf 1 (by decide) 1 (by decide)
  have s0' : fs.frac 0 0 + fs.frac 0 1 = 1 := by
    have : ∑ c ∈ Finset.range 2, fs.frac 0 c = 1 := s0
    simpa [Finset.sum_range_succ] using this
  have s1' : fs.frac 1 0 + fs.frac 1 1 = 1 := by
    have : ∑ c ∈ Finset.range 2, fs.frac 1 c = 1 := s1
    simpa [Finset.sum_range_succ] using this
  have f0' : 1 * fs.frac 1 0 * fs.pres 1 = 1 / 4 * fs.frac 0 0 * fs.pres 0 := f0
  have f1' : 1 * fs.frac 1 1 * fs.pres 1 = 4 * fs.frac 0 1 * fs.pres 0 := f1
  have g0 : fs.frac 1 0 = 1 / 4 * fs.pres 0 / fs.pres 1 * fs.frac 0 0 := by field_simp; linarith
  have g1 : fs.frac 1 1 = 4 * fs.pres 0 / fs.pres 1 * fs.frac 0 1 := by field_simp; linarith
  have hx : (1 - 4 * fs.pres 0 / fs.pres 1) / (1 / 4 * fs.pres 0 / fs.pres 1 - 4 * fs.pres 0 / fs.pres 1) = fs.frac 0 0 := by
    have hne : 1 / 4 * fs.pres 0 / fs.pres 1 - 4 * fs.pres 0 / fs.pres 1 ≠ 0 := by
      have : 1 / 4 * fs.pres 0 / fs.pres 1 - 4 * fs.pres 0 / fs.pres 1 = -(15 / 4) * (fs.pres 0 / fs.pres 1) := by ring
      rw [this]
      have := div_pos p0 p1
      nlinarith
    rw [div_eq_iff hne]
    have e2 : fs.frac 0 1 = 1 - fs.frac 0 0 := by linarith
    rw [e2] at g1
    linear_combination -s1' + g0 + g1
  unfold solvePair
  dsimp only
  rw [e0, e1]
  simp only [↓reduceIte, one_ne_zero]
  rw [hx]
  have e2 : 1 - fs.frac 0 0 = fs.frac 0 1 := by linarith
  rw [e2]
  obtain rfl | rfl : i = 0 ∨ i = 1 := by omega
  all_goals obtain rfl | rfl : c = 0 ∨ c = 1 := by omega
  all_goals simp [g0, g1]

/-- Both phases are present, and both components are in both phases. -/
def mixed : State ℚ where
  sat := fun _ => 1 / 2
  pres := fun i => if i = 0 then 1 else 2
  frac := fun i c => if i = 0 then (if c = 0 then 8 / 15 else 7 / 15) else (if c = 0 then 1 / 15 else 14 / 15)
  molarDensity := fun i => if i = 0 then 10 else 2
  temperature := 1

theorem mixed_equilibrated : Equilibrated pair mixed where
  mechanical := ⟨by decide +kernel, by decide +kernel, by decide +kernel⟩
  chemical := by unfold Chemical fugacity; decide +kernel
  nonneg := by decide +kernel
  positive := by decide +kernel
  frac := by decide +kernel
  ncp := by decide +kernel

example : Solves pair solvePair ∧ Flash pair (Equilibrated pair) (knows pair mixed) ∧
    ∃ pv, assignMassConservative pair (knows pair mixed) (fun s => pvsAssign pair s ⟨fun _ => 0, 0⟩) false mixed = some pv := by
  refine ⟨solvePair_solves, knows_flash _ _ _ mixed_equilibrated, ?_⟩
  obtain ⟨pv, h, -⟩ := pvs_read pair pair_local (by decide) (by decide) (fun _ _ _ _ _ _ => 0) solvePair solvePair_solves ⟨fun _ => 0, 0⟩ mixed_equilibrated
  refine ⟨pv, ?_⟩
  unfold assignMassConservative knows
  rw [if_neg (by decide)]
  dsimp only
  rw [if_pos ⟨rfl, by decide +kernel⟩]
  exact h

/-- The fugacity coefficients of `pair` do not depend on the composition. -/
def composePair (i : ℕ) (T p : ℚ) (f : ℕ → ℚ) (c : ℕ) : ℚ := if c < 2 then f c / (pair.fugacityCoefficient i T p f c * p) else 0

example : Composes pair composePair ∧
    Flash pair (fun fs => Mechanical pair fs ∧ Chemical pair fs ∧ ∀ i < pair.phases, 0 < fs.pres i) (knows pair mixed) ∧
    ∃ pv, assignMassConservative pair (knows pair mixed) (fun s => some (ncpAssign pair s fun _ => 0)) false mixed = some pv := by
  refine ⟨⟨?_, ?_⟩, knows_flash _ _ _ ⟨mixed_equilibrated.mechanical, mixed_equilibrated.chemical, mixed_equilibrated.positive⟩,
    ncpAssign pair mixed fun _ => 0, ?_⟩
  · intro i _ T p x hp c hc
    have hc2 : c < 2 := hc
    unfold composePair
    rw [if_pos hc2, div_eq_iff]
    · simp only [pair]; ring
    · refine mul_ne_zero ?_ hp.ne'
      simp only [pair]
      split
      · split <;> norm_num
      · norm_num
  · intro i _ T p f g h
    funext c
    unfold composePair
    by_cases hc : c < 2
    · rw [if_pos hc, if_pos hc, h c hc]; rfl
    · rw [if_neg hc, if_neg hc]
  · unfold assignMassConservative knows
    rw [if_neg (by decide)]
    dsimp only
    rw [if_pos ⟨rfl, by decide +kernel⟩]
    rfl

end Verif.MassCons
