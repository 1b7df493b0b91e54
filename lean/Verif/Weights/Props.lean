import Verif.Weights.Model
import Mathlib.Tactic.Positivity
import Mathlib.Tactic.Linarith
import Mathlib.Tactic.NormNum
import Mathlib.Algebra.Order.Field.Rat

/-
C152: weights of primary variables and of equations are positive.
-/

set_option autoImplicit false
set_option linter.unusedSectionVars false

namespace Verif.Weights

variable {K : Type} [Field K] [LinearOrder K] [IsStrictOrderedRing K]

/-- Specification: the weight is there and positive. -/
def Good (w : Weight K) : Prop := ∃ x, w = some x ∧ 0 < x

theorem energyPv_cases (e : EnergyIdx) (t : K) (i : ℕ) :
    (some i = e ∧ 0 < energyPvWeight e t i) ∨ (some i ≠ e ∧ energyPvWeight e t i = -1) := by
  by_cases h : some i = e
  · refine Or.inl ⟨h, ?_⟩
    rw [energyPvWeight, if_pos h]
    exact lt_of_lt_of_le (by norm_num) (le_max_left _ _)
  · exact Or.inr ⟨h, by rw [energyPvWeight, if_neg h]⟩

theorem energyEq_cases (e : EnergyIdx) (i : ℕ) :
    (some i = e ∧ 0 < energyEqWeight K e i) ∨ (some i ≠ e ∧ energyEqWeight K e i = -1) := by
  by_cases h : some i = e
  · refine Or.inl ⟨h, ?_⟩
    rw [energyEqWeight, if_pos h]
    norm_num
  · exact Or.inr ⟨h, by rw [energyEqWeight, if_neg h]⟩

theorem not_pos_neg_one : ¬(0 : K) < -1 := by norm_num

/-! ### The models with several phases -/

/-- **C152** Immiscible model: all weights are positive if the reference pressure is. -/
theorem C152_immiscible (ref t : K) (hr : 0 < ref) (numPhases : ℕ) (e : EnergyIdx) (i : ℕ) :
    Good (immisciblePvWeight ref e t i) ∧ (i < numPhases ∨ some i = e → Good (immiscibleEqWeight (K := K) numPhases e i)) := by
  refine ⟨?_, fun hi => ?_⟩
  · rw [immisciblePvWeight, if_neg (not_not.2 hr)]
    rcases energyPv_cases e t i with ⟨-, h⟩ | ⟨-, h⟩
    · exact ⟨_, if_pos h, h⟩
    · simp only [h, if_neg (not_pos_neg_one (K := K))]
      split_ifs
      · exact ⟨_, rfl, by positivity⟩
      · exact ⟨_, rfl, one_pos⟩
  · unfold immiscibleEqWeight
    rcases energyEq_cases (K := K) e i with ⟨-, h⟩ | ⟨hne, h⟩
    · exact ⟨_, if_pos h, h⟩
    · simp only [h, if_neg (not_pos_neg_one (K := K))]
      rcases hi with hi | hi
      · rw [if_pos hi.le]
        exact ⟨_, rfl, one_pos⟩
      · exact absurd hi hne

/-- **C152** Model with switching primary variables: all weights are positive if the reference pressure and molar masses are. -/
theorem C152_pvs (ref t ws wm : K) (hr : 0 < ref) (hs : 0 < ws) (hm : 0 < wm) (numPhases numComponents : ℕ) (present : ℕ → Bool)
    (molarMass : ℕ → K) (hmm : ∀ c < numComponents, 0 < molarMass c) (e : EnergyIdx) (i : ℕ) :
    Good (pvsPvWeight ref ws wm numPhases present e t i) ∧
      (i < numComponents ∨ some i = e → Good (pvsEqWeight numComponents molarMass e i)) := by
  refine ⟨?_, fun hi => ?_⟩
  · unfold pvsPvWeight
    rcases energyPv_cases e t i with ⟨-, h⟩ | ⟨-, h⟩
    · exact ⟨_, if_pos h, h⟩
    · simp only [h, if_neg (not_pos_neg_one (K := K))]
      split_ifs
      · exact ⟨_, rfl, by positivity⟩
      · exact ⟨_, rfl, hs⟩
      · exact ⟨_, rfl, one_pos⟩
      · exact ⟨_, rfl, hm⟩
  · unfold pvsEqWeight
    rcases energyEq_cases (K := K) e i with ⟨-, h⟩ | ⟨hne, h⟩
    · exact ⟨_, if_pos h, h⟩
    · simp only [h, if_neg (not_pos_neg_one (K := K))]
      rcases hi with hi | hi
      · rw [if_pos hi]
        exact ⟨_, rfl, hmm i hi⟩
      · exact absurd hi hne

/-- **C152** Model with switching primary variables: the pressure is scaled by the reference pressure, the `numPhases - 1` variables which
change their meaning by the weight of saturations if the phase is present and not at all otherwise, all others by that of mole
fractions, the temperature by the energy module. -/
theorem C152_pvs_variables (ref t ws wm : K) (numPhases : ℕ) (present : ℕ → Bool) (e : EnergyIdx) (i : ℕ) (hi : some i ≠ e) :
    (i = 0 → pvsPvWeight ref ws wm numPhases present e t i = some (10 / ref)) ∧
    (∀ phase, phase + 1 < numPhases → i = phase + 1 →
      pvsPvWeight ref ws wm numPhases present e t i = some (if present phase = true then ws else 1)) ∧
    (i ≠ 0 → numPhases ≤ i → pvsPvWeight ref ws wm numPhases present e t i = some wm) := by
  have he : ¬0 < energyPvWeight e t i := by
    rw [energyPvWeight, if_neg hi]; exact not_pos_neg_one
  refine ⟨fun h => ?_, fun phase hp h => ?_, fun h hn => ?_⟩
  · subst h; simp [pvsPvWeight, he]
  · subst h
    simp only [pvsPvWeight, if_neg he]
    rw [if_neg (by omega), if_pos (by omega)]
    cases h : present phase <;> simp [h]
  · simp only [pvsPvWeight, if_neg he]
    rw [if_neg h, if_neg (by omega)]

example : pvsPvWeight (K := ℚ) 100000 1 (1 / 10) 2 (fun _ => true) none 300 2 = some (1 / 10) :=
  (C152_pvs_variables (100000 : ℚ) 300 1 (1 / 10) 2 (fun _ => true) none 2 (by simp)).2.2 (by decide) (by decide)

/-- The smallest activity coefficient is positive, or there is an exception; it is the smallest if all are below 10^100. -/
theorem minActivity_spec (l : List K) (m : K) (h : minActivity l = some m) : 0 < m ∧ ∀ a ∈ l, m ≤ a := by
  have key : ∀ (l : List K) (x : K), l.foldl (fun m a => if a < m then a else m) x ≤ x ∧
      ∀ a ∈ l, l.foldl (fun m a => if a < m then a else m) x ≤ a := by
    intro l
    induction l with
    | nil => intro x; simp
    | cons b l ih =>
      intro x
      rw [List.foldl_cons]
      obtain ⟨h1, h2⟩ := ih (if b < x then b else x)
      have h3 : (if b < x then b else x) ≤ x ∧ (if b < x then b else x) ≤ b := by
        split_ifs with hb
        · exact ⟨hb.le, le_rfl⟩
        · exact ⟨le_rfl, not_lt.1 hb⟩
      refine ⟨h1.trans h3.1, ?_⟩
      intro a ha
      rcases List.mem_cons.1 ha with rfl | ha
      · exact h1.trans h3.2
      · exact h2 a ha
  unfold minActivity at h
  simp only at h
  split_ifs at h with hc
  simp only [Option.some.injEq] at h
  subst h
  exact ⟨not_le.1 hc, (key l _).2⟩

/-- **C152** Model with complementarity functions: after `updatePVWeights` returned without an exception for all components, all
weights are positive if the reference pressure and molar masses are. -/
theorem C152_ncp (ref t wf wp ws : K) (hr : 0 < ref) (hf : 0 < wf) (hp : 0 < wp) (hs : 0 < ws) (numPhases numComponents : ℕ)
    (hph : 0 < numPhases) (activities : ℕ → List K) (activity : ℕ → K)
    (ha : ∀ c < numComponents, minActivity (activities c) = some (activity c)) (molarMass : ℕ → K)
    (hmm : ∀ c < numComponents, 0 < molarMass c) (e : EnergyIdx) (i : ℕ) (hi : i < numComponents + numPhases ∨ some i = e) :
    Good (ncpPvWeight ref wf wp ws numPhases numComponents activity e t i) ∧
      Good (ncpEqWeight numPhases numComponents molarMass e i) := by
  constructor
  · have key : ∀ w : Weight K, Good w → Good (match w with | none => none | some r => if 0 < r then some r else none) := by
      rintro w ⟨x, rfl, hx⟩
      exact ⟨x, by simp [hx], hx⟩
    apply key
    rcases energyPv_cases e t i with ⟨-, h⟩ | ⟨hne, h⟩
    · exact ⟨_, if_pos h, h⟩
    · simp only [h, if_neg (not_pos_neg_one (K := K))]
      have hi' : i < numComponents + numPhases := hi.resolve_right hne
      split_ifs with h1 h2 h3
      · have := (minActivity_spec _ _ (ha i h1)).1
        exact ⟨_, rfl, by positivity⟩
      · exact ⟨_, rfl, by positivity⟩
      · exact ⟨_, rfl, hs⟩
      · omega
  · unfold ncpEqWeight
    rcases energyEq_cases (K := K) e i with ⟨-, h⟩ | ⟨hne, h⟩
    · exact ⟨_, if_pos h, h⟩
    · simp only [h, if_neg (not_pos_neg_one (K := K))]
      have hi' : i < numComponents + numPhases := hi.resolve_right hne
      split_ifs with h1 h2
      · exact ⟨_, rfl, one_pos⟩
      · exact ⟨_, rfl, hmm i h2⟩
      · omega

/-- **C152** Flash model: all weights are positive if molar masses are. -/
theorem C152_flash (t : K) (numComponents : ℕ) (molarMass : ℕ → K) (hmm : ∀ c < numComponents, 0 < molarMass c) (e : EnergyIdx) (i : ℕ)
    (hi : i < numComponents ∨ some i = e) :
    Good (flashPvWeight numComponents molarMass e t i) ∧ Good (flashEqWeight numComponents molarMass e i) := by
  refine ⟨?_, (C152_pvs 1 t 1 1 one_pos one_pos one_pos 1 numComponents (fun _ => true) molarMass hmm e i).2 hi⟩
  unfold flashPvWeight
  rcases energyPv_cases e t i with ⟨-, h⟩ | ⟨hne, h⟩
  · exact ⟨_, if_pos h, h⟩
  · simp only [h, if_neg (not_pos_neg_one (K := K)), if_pos (hi.resolve_right hne)]
    have := hmm i (hi.resolve_right hne)
    exact ⟨_, rfl, by positivity⟩

/-- **C152** The default of discretizations is positive, and at most one. -/
theorem C152_default (old : K) : Good (defaultPvWeight old) ∧ ∀ w, defaultPvWeight old = some w → w ≤ 1 := by
  have h : 0 < max |old| 1 := lt_of_lt_of_le one_pos (le_max_right _ _)
  refine ⟨⟨_, rfl, by positivity⟩, ?_⟩
  rintro w hw
  simp only [defaultPvWeight, Option.some.injEq] at hw
  rw [← hw, div_le_one h]
  exact le_max_right _ _

/-- **C152** With positive weights the steps of finite differences are positive as well, with and without assertions. -/
theorem C152_epsilon (assertions : Bool) (base : K) (hb : 0 < base) (w : Weight K) (h : Good w) : Good (numericEpsilon assertions base w) := by
  obtain ⟨x, rfl, hx⟩ := h
  refine ⟨base / x, ?_, by positivity⟩
  simp [numericEpsilon, hx]

/-! ### Reference pressures -/

theorem find_range_isSome {n : ℕ} {p : ℕ → Bool} (h : ∃ i < n, p i = true) :
    ∃ i, (List.range n).find? p = some i ∧ i < n ∧ p i = true ∧ ∀ j < i, p j = false := by
  obtain ⟨i, hi, hp⟩ := h
  have : ((List.range n).find? p).isSome := by
    rw [List.find?_isSome]
    exact ⟨i, List.mem_range.2 hi, hp⟩
  obtain ⟨k, hk⟩ := Option.isSome_iff_exists.1 this
  obtain ⟨h1, h2, h3⟩ := List.find?_range_eq_some.1 hk
  exact ⟨k, hk, List.mem_range.1 h2, h1, fun j hj => by simpa using h3 j hj⟩

/-- **C152** If the process has a local degree of freedom, the reference pressure is that of the first one: it is positive if all
pressures of local degrees of freedom are. -/
theorem C152_reference_partial (numAux : ℕ) (isLocal : List Bool) (pressure : ℕ → K) (h : ∃ i : ℕ, isLocal[i]? = some true)
    (hp : ∀ i : ℕ, isLocal[i]? = some true → 0 < pressure i) :
    ∃ i : ℕ, isLocal[i]? = some true ∧ (∀ j < i, isLocal[j]? = some false) ∧ 0 < pressure i ∧
      immiscibleReference (isLocal.length + numAux) isLocal pressure = .pressure (pressure i) ∧
      gridReference isLocal pressure = .pressure (pressure i) := by
  obtain ⟨i₀, h₀⟩ := h
  have hlt : i₀ < isLocal.length := by
    by_contra hc
    rw [List.getElem?_eq_none (not_lt.1 hc)] at h₀
    cases h₀
  have get : ∀ j < isLocal.length, isLocal[j]? = some ((isLocal[j]?).getD true) := by
    intro j hj
    rw [List.getElem?_eq_getElem hj]
    rfl
  obtain ⟨i, hi, hin, hit, hij⟩ := find_range_isSome (n := isLocal.length) (p := fun i => (isLocal[i]?).getD true)
    ⟨i₀, hlt, by rw [h₀]; rfl⟩
  have hloc : isLocal[i]? = some true := by rw [get i hin, hit]
  obtain ⟨k, hk, hkn, hkt, hkj⟩ := find_range_isSome (n := isLocal.length + numAux) (p := fun i => (isLocal[i]?).getD true)
    ⟨i₀, by omega, by rw [h₀]; rfl⟩
  have hki : k = i := by
    rcases lt_trichotomy k i with hlt' | rfl | hlt'
    · rw [hij k hlt'] at hkt; cases hkt
    · rfl
    · rw [hkj i hlt'] at hit; cases hit
  subst hki
  refine ⟨k, hloc, fun j hj => ?_, hp k hloc, ?_, ?_⟩
  · rw [get j (hj.trans hin), hij j hj]
  · rw [immiscibleReference, hk]
    exact if_pos hin
  · rw [gridReference, hi]

/-- **C152** The model with switching primary variables takes the first positive pressure of a degree of freedom with a volume. -/
theorem C152_reference_pvs_partial (numAux : ℕ) (volume : List K) (pressure : ℕ → K)
    (h : ∃ (i : ℕ) (v : K), volume[i]? = some v ∧ 0 < v ∧ 0 < pressure i) :
    ∃ p, 0 < p ∧ pvsReference (volume.length + numAux) volume pressure = .pressure p := by
  obtain ⟨i, v, hv, hpos, hp⟩ := h
  have hlt : i < volume.length := by
    by_contra hc
    rw [List.getElem?_eq_none (not_lt.1 hc)] at hv
    cases hv
  have key : ∀ (l : List ℕ) (r : List ℕ) (last : Reference K), (∀ j ∈ l, j < volume.length) →
      ∃ p, 0 < p ∧ pvsLoop volume pressure (l ++ i :: r) last = .pressure p := by
    intro l r
    induction l with
    | nil =>
      intro last _
      refine ⟨pressure i, hp, ?_⟩
      rw [List.nil_append, pvsLoop, hv]
      simp [hpos, hp]
    | cons j l ih =>
      intro last hl
      have hj : j < volume.length := hl j (List.mem_cons_self ..)
      rw [List.cons_append, pvsLoop, List.getElem?_eq_getElem hj]
      simp only
      split_ifs with h1 h2
      · exact ⟨_, h2, rfl⟩
      · exact ih _ fun k hk => hl k (List.mem_cons_of_mem _ hk)
      · exact ih _ fun k hk => hl k (List.mem_cons_of_mem _ hk)
  have hr : List.range (volume.length + numAux) = List.range i ++ i :: (List.range' (i + 1) (volume.length + numAux - (i + 1))) := by
    rw [List.range_eq_range', List.range_eq_range', ← List.range'_succ]
    have := List.range'_append_1 (s := 0) (m := i) (n := volume.length + numAux - (i + 1) + 1)
    rw [Nat.zero_add] at this
    rw [this]
    congr 1
    omega
  rw [pvsReference, hr]
  exact key _ _ _ fun j hj => (List.mem_range.1 hj).trans hlt

/-- **C152, violated** A process which has no local degree of freedom: the reference pressure is not set at all, and with auxiliary
degrees of freedom the immiscible model looks beyond the end of the array. -/
theorem C152_reference_violated (isLocal : List Bool) (h : ∀ i : ℕ, isLocal[i]? ≠ some true) (pressure : ℕ → K) :
    gridReference isLocal pressure = .unchanged ∧ immiscibleReference isLocal.length isLocal pressure = .unchanged ∧
      ∀ numAux, 0 < numAux → immiscibleReference (isLocal.length + numAux) isLocal pressure = .beyond := by
  have hf : ∀ j < isLocal.length, (isLocal[j]?).getD true = false := by
    intro j hj
    have := h j
    rw [List.getElem?_eq_getElem hj] at this ⊢
    simpa using this
  have hn : (List.range isLocal.length).find? (fun i => (isLocal[i]?).getD true) = none := by
    rw [List.find?_eq_none]
    intro j hj
    simp [hf j (List.mem_range.1 hj)]
  refine ⟨by rw [gridReference, hn], by rw [immiscibleReference, hn], fun numAux ha => ?_⟩
  obtain ⟨k, hk, hkn, hkt, hkj⟩ := find_range_isSome (n := isLocal.length + numAux) (p := fun i => (isLocal[i]?).getD true)
    ⟨isLocal.length, by omega, by simp⟩
  have : isLocal.length ≤ k := by
    by_contra hc
    rw [hf k (not_le.1 hc)] at hkt
    cases hkt
  rw [immiscibleReference, hk]
  exact if_neg (not_lt.2 this)

/-- **C152, violated** Richards model: where water is held by strong capillary forces, its pressure is negative, and so are the weight
and the step of finite differences; with assertions the program ends. -/
theorem C152_richards_violated : ∃ ref : ℚ, gridReference [true] (fun _ => ref) = .pressure ref ∧
    (∃ w, richardsPvWeight ref 0 = some w ∧ w < 0) ∧ numericEpsilon true 1 (richardsPvWeight ref 0) = none ∧
    ∃ eps, numericEpsilon false 1 (richardsPvWeight ref 0) = some eps ∧ eps < 0 := by
  refine ⟨-50000, rfl, ⟨10 / -50000, rfl, by norm_num⟩, ?_, ⟨1 / (10 / -50000), ?_, by norm_num⟩⟩
  · simp only [richardsPvWeight, if_true, numericEpsilon]
    norm_num
  · simp only [richardsPvWeight, if_true, numericEpsilon]
    norm_num

/-- **C152** Richards model, as long as the pressure of water at the reference is positive -/
theorem C152_richards_partial (ref : K) (h : 0 < ref) (i : ℕ) : Good (richardsPvWeight ref i) := by
  unfold richardsPvWeight
  split_ifs
  · exact ⟨_, rfl, by positivity⟩
  · exact ⟨_, rfl, one_pos⟩

/-! ### The black-oil model -/

/-- **C152** Black-oil model: weights are positive without assertions, and with them for the variables of the model itself and of the
solvent, extended black-oil, polymer and energy modules, if the third variable is the saturation of gas or a mixing ratio. -/
theorem C152_blackoil_partial (g : GasMeaning) (v : BlackOilVar) :
    Good (blackOilPvWeight (K := K) false g v) ∧
      (g ≠ .disabled → v ∈ [.waterSwitch, .pressureSwitch, .compositionSwitch, .solvent, .zFraction, .polymer, .polymerMoleWeight,
        .temperature] → Good (blackOilPvWeight (K := K) true g v)) := by
  constructor
  · cases v <;> cases g <;> refine ⟨_, rfl, ?_⟩ <;> norm_num
  · intro hg hv
    cases g
    case disabled => exact absurd rfl hg
    all_goals
      simp only [List.mem_cons, List.not_mem_nil, or_false] at hv
      rcases hv with rfl | rfl | rfl | rfl | rfl | rfl | rfl | rfl <;> refine ⟨_, rfl, ?_⟩ <;> norm_num

/-- **C152, violated** Variables of the brine, foam and MICP modules have no weights: with assertions the program ends, without them
the weight depends on the meaning of another variable; the same happens for the third variable if its meaning is "disabled". -/
theorem C152_blackoil_violated (v : BlackOilVar) (hv : v ∈ [.salt, .foam, .microbes, .oxygen, .urea, .biofilm, .calcite]) :
    (∀ g, blackOilPvWeight (K := K) true g v = none) ∧
      blackOilPvWeight (K := K) false .rs v ≠ blackOilPvWeight (K := K) false .sg v ∧
      blackOilPvWeight (K := K) true .disabled .compositionSwitch = none := by
  have hne : (some (1 / 250 : K)) ≠ some 1 := by
    intro h
    simp only [Option.some.injEq] at h
    norm_num at h
  simp only [List.mem_cons, List.not_mem_nil, or_false] at hv
  rcases hv with rfl | rfl | rfl | rfl | rfl | rfl | rfl <;>
    exact ⟨fun g => by cases g <;> rfl, hne, rfl⟩

/-! ### Several threads -/

/-- One thread alone: the value after its accesses is the smallest activity coefficient. -/
theorem after_alone (l : List K) (m r : K) (h : minActivity l = some r) : after m (accesses l) = r := by
  have key : ∀ (l : List K) (x : K), after x (l.map Access.lower) = l.foldl (fun m a => if a < m then a else m) x := by
    intro l
    induction l with
    | nil => intro x; rfl
    | cons b l ih => intro x; rw [List.map_cons, after, ih]; rfl
  unfold minActivity at h
  simp only at h
  split_ifs at h with hc
  simp only [Option.some.injEq] at h
  rw [accesses, after, key, h]

/-- **C152, violated** Two threads with elements which share a degree of freedom: the accesses of the second thread are complete, and
it uses the value for its weights, while the first one has just begun. Whatever the activity coefficients are, there is such a
schedule in which the value is 10^100, so that the step of finite differences is larger than any pressure. -/
theorem C152_threads_violated (first second : List K) (m : K) : ∃ schedule : List (Access K),
    (∃ begun rest, accesses first = begun ++ rest ∧ schedule = accesses second ++ begun) ∧ after m schedule = 10 ^ 100 := by
  refine ⟨accesses second ++ [.set], ⟨[.set], first.map .lower, rfl, rfl⟩, ?_⟩
  have key : ∀ (l : List (Access K)) (x : K), after x (l ++ [.set]) = 10 ^ 100 := by
    intro l
    induction l with
    | nil => intro x; rfl
    | cons a l ih => intro x; cases a <;> (rw [List.cons_append, after]; exact ih _)
  exact key _ _

/-! ### Examples -/

/-- Two phases with energy, at 2 bar and 300 K -/
example : immisciblePvWeight (200000 : ℚ) (some 2) 300 0 = some (1 / 20000) ∧ immisciblePvWeight (200000 : ℚ) (some 2) 300 1 = some 1 ∧
    immisciblePvWeight (200000 : ℚ) (some 2) 300 2 = some (1 / 300) ∧ immiscibleEqWeight (K := ℚ) 2 (some 2) 2 = some (1 / 125520) := by
  decide +kernel

/-- The second degree of freedom is the first local one. -/
example : immiscibleReference 4 [false, true, true] (fun i => (i : ℚ) + 7) = .pressure 8 := by
  simp [immiscibleReference, List.range_succ, List.find?]
  norm_num

example : minActivity [(3 : ℚ), 2, 5] = some 2 := by decide +kernel

end Verif.Weights
