import Verif.Pvs.Lemmas
import Mathlib.Data.Rat.Defs
import Mathlib.Algebra.Order.Ring.Rat
import Mathlib.Tactic.NormNum

/-
C57: PVS primary variables represent the fluid state, and Newton updates are limited.
-/

set_option autoImplicit false
set_option linter.unusedSectionVars false

namespace Verif.Pvs

variable {K : Type} [Field K] [LinearOrder K] [IsStrictOrderedRing K]

/-! ### Specification -/

/-- A fluid state in thermodynamic equilibrium: saturations are not negative and sum to one, and of each phase, the mole fractions sum to
one or the saturation is zero (and the mole fractions which the phase would have do not sum to more than one). -/
structure Equilibrium (N M : ℕ) (fs : FluidState K) : Prop where
  nonneg : ∀ i < N, 0 ≤ fs.saturation i
  sum : ∑ i ∈ Finset.range N, fs.saturation i = 1
  frac : ∀ i < N, ∑ c ∈ Finset.range M, fs.moleFraction i c ≤ 1
  ncp : ∀ i < N, fs.saturation i = 0 ∨ ∑ c ∈ Finset.range M, fs.moleFraction i c = 1

/-! ### Storing and reading -/

theorem present_iff {N M : ℕ} {fs : FluidState K} (h : Equilibrium N M fs) {i : ℕ} (hi : i < N) :
    (presenceOf N M fs).testBit i = true ↔ 0 < fs.saturation i := by
  rw [presence_testBit, decide_eq_true_eq, moleDefect_eq]
  have h1 := h.nonneg i hi
  have h2 := h.frac i hi
  rcases h.ncp i hi with e | e
  · rw [e]
    constructor
    · rintro ⟨-, h⟩; linarith
    · intro h; exact absurd h (lt_irrefl _)
  · rw [e, sub_self]
    exact ⟨fun h => h.2, fun h => ⟨hi, h⟩⟩

theorem exists_present {N M : ℕ} {fs : FluidState K} (h : Equilibrium N M fs) : ∃ i < N, 0 < fs.saturation i := by
  by_contra hc
  have : ∑ i ∈ Finset.range N, fs.saturation i = 0 := Finset.sum_eq_zero fun i hi => by
    rw [Finset.mem_range] at hi
    have h1 := h.nonneg i hi
    by_contra h0
    exact hc ⟨i, hi, lt_of_le_of_ne h1 (Ne.symm h0)⟩
  rw [h.sum] at this
  exact one_ne_zero this

/-- What is present after storing a fluid state in equilibrium -/
theorem assigned {N M : ℕ} (hN : N ≤ 15) {fs : FluidState K} (h : Equilibrium N M fs) (v : PriVars K) :
    ∃ v', assignNaive N M fs v = some v' ∧ (∀ i, v'.present i = true ↔ i < N ∧ 0 < fs.saturation i) ∧
      v'.present v'.lowest = true ∧ v'.lowest < N ∧ ∀ i, v'.present i = true → v'.lowest ≤ i := by
  obtain ⟨i, hi, hs⟩ := exists_present h
  have hb := (present_iff h hi).2 hs
  have hne : presenceOf N M fs ≠ 0 := by
    intro e
    rw [e, Nat.zero_testBit] at hb
    cases hb
  have hv : ∃ v', assignNaive N M fs v = some v' := by
    unfold assignNaive
    dsimp only
    rw [if_neg hne]
    exact ⟨_, rfl⟩
  obtain ⟨v', hv'⟩ := hv
  have hp := (assignNaive_spec hv').1
  have hpre (j : ℕ) : v'.present j = true ↔ j < N ∧ 0 < fs.saturation j := by
    unfold PriVars.present
    rw [hp]
    by_cases hj : j < N
    · rw [present_iff h hj]
      exact ⟨fun h => ⟨hj, h⟩, fun h => h.2⟩
    · rw [presence_testBit]
      simp [hj]
  obtain ⟨l1, l2, l3⟩ := lowestBit_spec (mask := v'.presence) (i := i) (by omega) (by rw [hp]; exact hb)
  refine ⟨v', hv', hpre, l1, ((hpre _).1 l1).1, fun j hj => ?_⟩
  by_contra hlt
  have := l3 j (by unfold PriVars.lowest at hlt; omega)
  unfold PriVars.present at hj
  rw [hj] at this
  cases this

/-- **C57** Reading the saturations and the pressure of the first phase back gives those of the state, and the phases which are present are
those with a positive saturation. -/
theorem C57_saturations {N M : ℕ} (hN : N ≤ 15) {fs : FluidState K} (h : Equilibrium N M fs) (v : PriVars K) :
    ∃ v', assignNaive N M fs v = some v' ∧ (∀ i < N, readSaturation N v' i = fs.saturation i) ∧ v'.val 0 = fs.pressure 0 ∧
      ∀ i, v'.present i = true ↔ i < N ∧ 0 < fs.saturation i := by
  obtain ⟨v', hv, hpre, l1, l2, l3⟩ := assigned hN h v
  obtain ⟨-, hp0, hsw, -⟩ := assignNaive_spec hv
  have hex (i : ℕ) (hi : i < N) (hne : i ≠ v'.lowest) : explicitSaturation v' i = fs.saturation i := by
    unfold explicitSaturation
    by_cases hpi : v'.present i = true
    · rw [if_neg (by simp [hpi, hne])]
      have hlt := l3 i hpi
      have e : switchPhase v'.lowest (i - 1) = i := by
        unfold switchPhase
        rw [if_pos (by omega)]
        omega
      have := hsw (i - 1) (by omega)
      rw [e, if_pos hpi] at this
      rw [← this]
      congr 1
      omega
    · rw [if_pos (Or.inl (by simpa using hpi))]
      have h1 := h.nonneg i hi
      have h2 := (hpre i).not.1 hpi
      have h3 : ¬ 0 < fs.saturation i := fun hs => h2 ⟨hi, hs⟩
      linarith
  have hlow : explicitSaturation v' v'.lowest = 0 := by
    unfold explicitSaturation
    rw [if_pos (Or.inr rfl)]
  refine ⟨v', hv, fun i hi => ?_, hp0, hpre⟩
  rw [readSaturation_eq]
  by_cases hne : i = v'.lowest
  · rw [if_pos hne]
    have : ∑ j ∈ Finset.range N, explicitSaturation v' j + fs.saturation i = 1 := by
      rw [← h.sum, ← Finset.add_sum_erase _ _ (Finset.mem_range.2 hi), ← Finset.add_sum_erase _ fs.saturation (Finset.mem_range.2 hi)]
      rw [hne, hlow, zero_add, add_comm]
      congr 1
      refine Finset.sum_congr rfl fun j hj => ?_
      rw [Finset.mem_erase, Finset.mem_range] at hj
      exact hex j hj.2 hj.1
    linarith
  · rw [if_neg hne]
    exact hex i hi hne

/-- Skipping the phase with the lowest index does not change how many phases are not present. -/
theorem countP_switchPhase (p : ℕ → Bool) {low n : ℕ} (h : low < n) :
    (List.range n).countP p = (List.range (n - 1)).countP (fun j => p (switchPhase low j)) + (if p low then 1 else 0) := by
  induction n with
  | zero => omega
  | succ n ih =>
    rw [List.range_succ, List.countP_append, Nat.add_sub_cancel]
    by_cases e : low = n
    · subst e
      congr 1
      · refine List.countP_congr fun j hj => ?_
        rw [List.mem_range] at hj
        unfold switchPhase
        rw [if_neg (by omega)]
      · simp
    · rw [ih (by omega)]
      obtain ⟨m, rfl⟩ : ∃ m, n = m + 1 := ⟨n - 1, by omega⟩
      rw [Nat.add_sub_cancel, List.range_succ, List.countP_append]
      have : switchPhase low m = m + 1 := by
        unfold switchPhase
        rw [if_pos (by omega)]
      simp [this]
      omega

/-- The first constraints -/
theorem foldl_collect {l : List ℕ} {p : ℕ → Bool} {g : ℕ → ℕ × K} (acc : List (ℕ × K)) :
    l.foldl (fun a j => if p j then a else a ++ [g j]) acc = acc ++ (l.filter fun j => !p j).map g := by
  induction l generalizing acc with
  | nil => simp
  | cons b l ih =>
    rw [List.foldl_cons, ih]
    by_cases h : p b = true <;> simp [h]

/-- **C57** If several phases are present, the composition is fixed by the phase equilibria and by the mole fractions of the state in the
present phase with the lowest index: there is a constraint for as many components as needed, none of them twice. -/
theorem C57_compositions {N M : ℕ} (hN : N ≤ 15) (hNM : N ≤ M) {fs : FluidState K} (h : Equilibrium N M fs) (v : PriVars K) :
    ∃ v', assignNaive N M fs v = some v' ∧ 0 < fs.saturation v'.lowest ∧
      (∀ c x, (c, x) ∈ auxConstraints N M v' → 0 < c ∧ c < M ∧ x = fs.moleFraction v'.lowest c) ∧
      ((auxConstraints N M v').map Prod.fst).Nodup ∧
      (auxConstraints N M v').length + (Finset.filter (fun i => 0 < fs.saturation i) (Finset.range N)).card = M := by
  obtain ⟨v', hv, hpre, l1, l2, l3⟩ := assigned hN h v
  obtain ⟨-, hp0, hsw, hrest⟩ := assignNaive_spec hv
  refine ⟨v', hv, ((hpre _).1 l1).2, ?_⟩
  have hfirst : (List.range (N - 1)).foldl
      (fun l j => if v'.present (switchPhase v'.lowest j) then l else l ++ [(j + 1, v'.val (1 + j))]) [] =
      ((List.range (N - 1)).filter fun j => !v'.present (switchPhase v'.lowest j)).map fun j => (j + 1, v'.val (1 + j)) := by
    rw [foldl_collect, List.nil_append]
  have hlen : (((List.range (N - 1)).filter fun j => !v'.present (switchPhase v'.lowest j)).map
      fun j => (j + 1, v'.val (1 + j))).length = numNonPresent N v' := by
    rw [List.length_map, ← List.countP_eq_length_filter]
    have := countP_switchPhase (fun i => !v'.present i) l2
    simp only [l1, Bool.not_true, Bool.false_eq_true, if_false, Nat.add_zero] at this
    exact this.symm
  have hle : numNonPresent N v' ≤ N := by
    unfold numNonPresent
    exact List.countP_le_length.trans (by simp)
  have haux : auxConstraints N M v' =
      (((List.range (N - 1)).filter fun j => !v'.present (switchPhase v'.lowest j)).map fun j => (j + 1, v'.val (1 + j))) ++
      (List.range (M - N)).map fun k => (N + k, v'.val (N + k)) := by
    unfold auxConstraints
    dsimp only
    rw [hfirst, hlen]
    congr 1
    have e1 : M + numNonPresent N v' - N - numNonPresent N v' = M - N := by omega
    rw [e1]
    refine List.map_congr_left fun k _ => ?_
    have e2 : N - numNonPresent N v' + (numNonPresent N v' + k) = N + k := by omega
    have e3 : 1 + (N - 1 + k) = N + k := by omega
    rw [e2, e3]
  refine ⟨?_, ?_, ?_⟩
  · intro c x hc
    rw [haux, List.mem_append, List.mem_map, List.mem_map] at hc
    rcases hc with ⟨j, hj, e⟩ | ⟨k, hk, e⟩
    · rw [List.mem_filter, List.mem_range] at hj
      obtain ⟨rfl, rfl⟩ := Prod.mk.inj e
      refine ⟨by omega, by omega, ?_⟩
      rw [hsw j hj.1, if_neg (by simpa using hj.2)]
    · rw [List.mem_range] at hk
      obtain ⟨rfl, rfl⟩ := Prod.mk.inj e
      refine ⟨by omega, by omega, ?_⟩
      have := hrest (N + k - 1) (by omega) (by omega)
      have e1 : 1 + (N + k - 1) = N + k := by omega
      have e2 : N + k - 1 + 1 = N + k := by omega
      rw [e1, e2] at this
      exact this
  · rw [haux, List.map_append, List.map_map, List.map_map, List.nodup_append]
    refine ⟨?_, ?_, ?_⟩
    · refine List.Nodup.map ?_ (List.nodup_range.filter _)
      intro a b hab
      simpa using hab
    · refine List.Nodup.map ?_ List.nodup_range
      intro a b hab
      simpa using hab
    · intro a ha b hb
      rw [List.mem_map] at ha hb
      obtain ⟨j, hj, rfl⟩ := ha
      obtain ⟨k, hk, rfl⟩ := hb
      rw [List.mem_filter, List.mem_range] at hj
      simp only [Function.comp_apply]
      omega
  · rw [haux, List.length_append, hlen, List.length_map, List.length_range]
    have hcard : numNonPresent N v' + (Finset.filter (fun i => 0 < fs.saturation i) (Finset.range N)).card = N := by
      have e : (Finset.filter (fun i => 0 < fs.saturation i) (Finset.range N)).card =
          (List.range N).countP (fun i => v'.present i) := by
        rw [List.countP_eq_length_filter]
        have : Finset.filter (fun i => 0 < fs.saturation i) (Finset.range N) =
            ((List.range N).filter fun i => v'.present i).toFinset := by
          ext i
          simp only [Finset.mem_filter, Finset.mem_range, List.mem_toFinset, List.mem_filter, List.mem_range, hpre]
          tauto
        rw [this, List.toFinset_card_of_nodup (List.nodup_range.filter _)]
      rw [e]
      unfold numNonPresent
      have := List.length_eq_countP_add_countP (fun i => v'.present i) (l := List.range N)
      rw [List.length_range] at this
      simp only [Bool.not_eq_true, Bool.decide_eq_false] at this
      omega
    omega

/-- **C57** If one phase is present, reading its composition back gives that of the state. -/
theorem C57_composition_single {N M : ℕ} (hN : N ≤ 15) (hNM : N ≤ M) {fs : FluidState K} (h : Equilibrium N M fs)
    (v : PriVars K) {i : ℕ} (hi : i < N) (h1 : fs.saturation i = 1) :
    ∃ v', assignNaive N M fs v = some v' ∧ v'.lowest = i ∧ ∀ c < M, readComposition M v' c = fs.moleFraction i c := by
  obtain ⟨v', hv, hpre, l1, l2, l3⟩ := assigned hN h v
  obtain ⟨-, hp0, hsw, hrest⟩ := assignNaive_spec hv
  have hzero (j : ℕ) (hj : j < N) (hne : j ≠ i) : fs.saturation j = 0 := by
    have h2 := h.sum
    rw [← Finset.add_sum_erase _ _ (Finset.mem_range.2 hi), h1] at h2
    have h3 : ∑ k ∈ (Finset.range N).erase i, fs.saturation k = 0 := by linarith
    rw [Finset.sum_eq_zero_iff_of_nonneg] at h3
    · exact h3 j (Finset.mem_erase.2 ⟨hne, Finset.mem_range.2 hj⟩)
    · intro k hk
      rw [Finset.mem_erase, Finset.mem_range] at hk
      exact h.nonneg k hk.2
  have hlow : v'.lowest = i := by
    by_contra hne
    have := ((hpre _).1 l1).2
    rw [hzero _ l2 hne] at this
    exact lt_irrefl _ this
  have hsum : ∑ c ∈ Finset.range M, fs.moleFraction i c = 1 := by
    rcases h.ncp i hi with e | e
    · rw [h1] at e; exact absurd e one_ne_zero
    · exact e
  have hval (c : ℕ) (hc : 0 < c) (hcM : c < M) : v'.val (1 + c - 1) = fs.moleFraction i c := by
    have e1 : 1 + c - 1 = 1 + (c - 1) := by omega
    have e2 : c - 1 + 1 = c := by omega
    rw [e1]
    by_cases hcN : c - 1 < N - 1
    · rw [hsw _ hcN, if_neg, hlow, e2]
      intro hp
      have hne : switchPhase v'.lowest (c - 1) ≠ v'.lowest := by unfold switchPhase; split_ifs <;> omega
      obtain ⟨g1, g2⟩ := (hpre _).1 hp
      rw [hlow] at g1 g2 hne
      rw [hzero _ g1 hne] at g2
      exact lt_irrefl _ g2
    · rw [hrest _ (by omega) (by omega), hlow, e2]
  refine ⟨v', hv, hlow, fun c hc => ?_⟩
  unfold readComposition
  by_cases h0 : c = 0
  · subst h0
    rw [if_pos rfl, foldl_add, zero_add]
    have e : ((List.range' 1 (M - 1)).map fun c => v'.val (1 + c - 1)).sum =
        ((List.range' 1 (M - 1)).map fun c => fs.moleFraction i c).sum := by
      congr 1
      refine List.map_congr_left fun c hc => ?_
      rw [List.mem_range'_1] at hc
      exact hval c (by omega) (by omega)
    rw [e]
    obtain ⟨m, rfl⟩ : ∃ m, M = m + 1 := ⟨M - 1, by omega⟩
    have e2 : ((List.range' 1 (m + 1 - 1)).map fun c => fs.moleFraction i c).sum =
        ∑ c ∈ Finset.range m, fs.moleFraction i (c + 1) := by
      rw [Nat.add_sub_cancel, List.range'_eq_map_range, List.map_map, sum_range_list]
      refine Finset.sum_congr rfl fun c _ => ?_
      simp [Nat.add_comm]
    rw [e2]
    rw [Finset.sum_range_succ'] at hsum
    linarith
  · rw [if_neg h0]
    exact hval c (by omega) hc

/-- Two of three phases: the first and the third one -/
def demoState : FluidState ℚ where
  saturation i := if i = 0 then 3 / 4 else if i = 2 then 1 / 4 else 0
  moleFraction i c := if i = 1 then 1 / 5 else if c = i then 1 / 2 else 1 / 4
  pressure _ := 100

example : Equilibrium 3 3 demoState := by
  refine ⟨?_, ?_, ?_, ?_⟩ <;> decide +kernel

/-! ### Newton updates -/

theorem mem_limitedPhases {N : ℕ} {cur : PriVars K} {i : ℕ} :
    i ∈ limitedPhases N cur ↔ i < N - 1 ∧ cur.present i = true := by
  unfold limitedPhases
  rw [List.mem_filter, List.mem_range]

theorem nodup_limitedPhases {N : ℕ} {cur : PriVars K} : (limitedPhases N cur).Nodup :=
  List.nodup_range.filter _

/-- The factor by which the changes are reduced -/
noncomputable def factor (N : ℕ) (cur : PriVars K) (update : ℕ → K) : K :=
  if 1 / 5 < maxSatDelta N cur update then (1 / 5) / maxSatDelta N cur update else 1

theorem updated_val {N : ℕ} {cur : PriVars K} {update : ℕ → K} {i : ℕ} (hi : i < N - 1) (hp : cur.present i = true) :
    (updatePrimaryVariables N cur update).val (1 + i) = cur.val (1 + i) - factor N cur update * update (1 + i) := by
  unfold updatePrimaryVariables factor
  dsimp only
  rw [Function.update_of_ne (by omega)]
  split_ifs with h
  · rw [foldl_update_of_mem (mem_limitedPhases.2 ⟨hi, hp⟩)]
  · rw [one_mul]

theorem factor_mul_le {N : ℕ} {cur : PriVars K} {update : ℕ → K} {d : K} (h : |d| ≤ maxSatDelta N cur update) :
    |factor N cur update * d| ≤ 1 / 5 := by
  unfold factor
  split_ifs with hc
  · have hpos : 0 < maxSatDelta N cur update := lt_trans (by norm_num) hc
    rw [abs_mul, abs_div, abs_of_pos hpos, abs_of_pos (by norm_num : (0 : K) < 1 / 5), div_mul_eq_mul_div, div_le_iff₀ hpos]
    exact mul_le_mul_of_nonneg_left h (by norm_num)
  · rw [one_mul]
    linarith

theorem le_maxSatDelta {N : ℕ} {cur : PriVars K} {update : ℕ → K} {i : ℕ} (hi : i < N - 1) (hp : cur.present i = true) :
    |update (1 + i)| ≤ maxSatDelta N cur update := by
  unfold maxSatDelta
  exact le_trans ((foldl_max (g := fun i => |update (1 + i)|) 0).2 i (mem_limitedPhases.2 ⟨hi, hp⟩)) (le_max_right _ _)

theorem sum_le_maxSatDelta {N : ℕ} {cur : PriVars K} {update : ℕ → K} :
    |((limitedPhases N cur).map fun i => update (1 + i)).sum| ≤ maxSatDelta N cur update := by
  unfold maxSatDelta
  dsimp only
  rw [foldl_add, zero_add, abs_neg]
  exact le_max_left _ _

/-- The phases which are present stay the same. -/
theorem C57_update_presence {N : ℕ} {cur : PriVars K} {update : ℕ → K} :
    (updatePrimaryVariables N cur update).presence = cur.presence := rfl

/-- **C57** The pressure changes by at most a fifth. -/
theorem C57_update_pressure {N : ℕ} {cur : PriVars K} {update : ℕ → K} (h : 0 ≤ cur.val 0) :
    cur.val 0 * (4 / 5) ≤ (updatePrimaryVariables N cur update).val 0 ∧
    (updatePrimaryVariables N cur update).val 0 ≤ cur.val 0 * (6 / 5) := by
  unfold updatePrimaryVariables
  dsimp only
  rw [Function.update_self]
  refine ⟨le_max_left _ _, max_le (by linarith) (min_le_right _ _)⟩

/-- **C57** The saturation of a present phase changes by at most a fifth if the phase before it is present, too. -/
theorem C57_update_explicit_partial {N : ℕ} {cur : PriVars K} {update : ℕ → K} {i : ℕ} (hi : i < N) (h1 : cur.present i = true)
    (hne : i ≠ cur.lowest) (h2 : cur.present (i - 1) = true) (h0 : 0 < i) :
    |readSaturation N (updatePrimaryVariables N cur update) i - readSaturation N cur i| ≤ 1 / 5 := by
  rw [readSaturation_eq, readSaturation_eq]
  have e : (updatePrimaryVariables N cur update).lowest = cur.lowest := rfl
  rw [if_neg (by rw [e]; exact hne), if_neg hne]
  unfold explicitSaturation
  have e2 : (updatePrimaryVariables N cur update).present i = cur.present i := rfl
  rw [e2, e, if_neg (by simp [h1, hne]), if_neg (by simp [h1, hne])]
  have e3 : 1 + i - 1 = 1 + (i - 1) := by omega
  rw [e3, updated_val (by omega) h2, sub_sub_cancel_left, abs_neg]
  exact factor_mul_le (le_maxSatDelta (by omega) h2)

/-- Saturations of phases which are not present are zero. -/
theorem readSaturation_absent {N : ℕ} {v : PriVars K} {i : ℕ} (h : v.present i = false) (hne : i ≠ v.lowest) :
    readSaturation N v i = 0 := by
  rw [readSaturation_eq, if_neg hne]
  unfold explicitSaturation
  rw [if_pos (Or.inl h)]

/-- What the change of the remaining saturation is -/
theorem implicit_change {N : ℕ} {cur : PriVars K} {update : ℕ → K} (hl : cur.lowest < N) :
    readSaturation N (updatePrimaryVariables N cur update) cur.lowest - readSaturation N cur cur.lowest =
      -∑ j ∈ (Finset.range N).erase cur.lowest,
        (readSaturation N (updatePrimaryVariables N cur update) j - readSaturation N cur j) := by
  have e : (updatePrimaryVariables N cur update).lowest = cur.lowest := rfl
  have hs (v : PriVars K) (hv : v.lowest < N) : readSaturation N v v.lowest =
      1 - ∑ j ∈ (Finset.range N).erase v.lowest, readSaturation N v j := by
    rw [readSaturation_eq, if_pos rfl, ← Finset.add_sum_erase _ _ (Finset.mem_range.2 hv)]
    have : explicitSaturation v v.lowest = 0 := by unfold explicitSaturation; rw [if_pos (Or.inr rfl)]
    rw [this, zero_add]
    congr 1
    refine Finset.sum_congr rfl fun j hj => ?_
    rw [readSaturation_eq, if_neg (Finset.ne_of_mem_erase hj)]
  have h1 := hs (updatePrimaryVariables N cur update) hl
  have h2 := hs cur hl
  rw [e] at h1
  rw [h1, h2, Finset.sum_sub_distrib]
  ring

/-- No phase is missing between present ones. -/
def Contiguous (v : PriVars K) : Prop := ∀ i, v.present i = true → i ≠ v.lowest → 0 < i ∧ v.present (i - 1) = true

/-- **C57** With up to three phases, of which none is missing between present ones, no saturation changes by more than a fifth.  (With two
phases, none can be missing.) -/
theorem C57_update_partial {N : ℕ} {cur : PriVars K} {update : ℕ → K} (hN : N ≤ 3) (hl : cur.lowest < N)
    (hlp : cur.present cur.lowest = true) (hmin : ∀ i < cur.lowest, cur.present i = false) (hc : Contiguous cur)
    {i : ℕ} (hi : i < N) : |readSaturation N (updatePrimaryVariables N cur update) i - readSaturation N cur i| ≤ 1 / 5 := by
  have hex (j : ℕ) (hj : j < N) (hne : j ≠ cur.lowest) :
      |readSaturation N (updatePrimaryVariables N cur update) j - readSaturation N cur j| ≤ 1 / 5 := by
    by_cases hp : cur.present j = true
    · obtain ⟨h0, h1⟩ := hc j hp hne
      exact C57_update_explicit_partial hj hp hne h1 h0
    · have hp' : cur.present j = false := by simpa using hp
      rw [readSaturation_absent hp' hne, readSaturation_absent (v := updatePrimaryVariables N cur update) hp' hne]
      norm_num
  by_cases hne : i = cur.lowest
  swap
  · exact hex i hi hne
  rw [hne, implicit_change hl, abs_neg]
  have habs (j : ℕ) (hne : j ≠ cur.lowest) (hp : cur.present j = false) :
      readSaturation N (updatePrimaryVariables N cur update) j - readSaturation N cur j = 0 := by
    rw [readSaturation_absent hp hne, readSaturation_absent (v := updatePrimaryVariables N cur update) hp hne, sub_zero]
  -- at most one other phase is present, or all three phases are
  by_cases h3 : N = 3 ∧ cur.present 0 = true ∧ cur.present 1 = true ∧ cur.present 2 = true
  · obtain ⟨rfl, p0, p1, p2⟩ := h3
    have hl0 : cur.lowest = 0 := by
      by_contra h
      have := hmin 0 (by omega)
      rw [p0] at this
      cases this
    have es : ∑ j ∈ (Finset.range 3).erase cur.lowest,
        (readSaturation 3 (updatePrimaryVariables 3 cur update) j - readSaturation 3 cur j) =
        -(factor 3 cur update * (update 1 + update 2)) := by
      have : (Finset.range 3).erase cur.lowest = {1, 2} := by rw [hl0]; decide
      rw [this, Finset.sum_pair (by decide)]
      have hv (j : ℕ) (hj : j < 2) (hp : cur.present (j + 1) = true) (hp' : cur.present j = true) :
          readSaturation 3 (updatePrimaryVariables 3 cur update) (j + 1) - readSaturation 3 cur (j + 1) =
          -(factor 3 cur update * update (1 + j)) := by
        rw [readSaturation_eq, readSaturation_eq]
        have e : (updatePrimaryVariables 3 cur update).lowest = cur.lowest := rfl
        have e2 : (updatePrimaryVariables 3 cur update).present (j + 1) = cur.present (j + 1) := rfl
        rw [e, if_neg (by omega), if_neg (by omega)]
        unfold explicitSaturation
        rw [e2, e, if_neg (by simp [hp, hl0]), if_neg (by simp [hp, hl0])]
        have e3 : 1 + (j + 1) - 1 = 1 + j := by omega
        rw [e3, updated_val (by omega) hp', sub_sub_cancel_left]
      rw [hv 0 (by decide) p1 p0, hv 1 (by decide) p2 p1]
      ring
    rw [es, abs_neg]
    apply factor_mul_le
    have := sum_le_maxSatDelta (N := 3) (cur := cur) (update := update)
    have hlist : limitedPhases 3 cur = [0, 1] := by
      unfold limitedPhases
      simp [List.range_succ, p0, p1]
    rw [hlist] at this
    simpa using this
  · -- at most one term
    have hone : ∀ j k, j < N → k < N → j ≠ cur.lowest → k ≠ cur.lowest → cur.present j = true → cur.present k = true → j = k := by
      intro j k hj hk hjl hkl hpj hpk
      by_contra hjk
      apply h3
      have h1 : cur.lowest < j := by
        rcases Nat.lt_or_ge j cur.lowest with h | h
        · have := hmin j h; rw [hpj] at this; cases this
        · omega
      have h2 : cur.lowest < k := by
        rcases Nat.lt_or_ge k cur.lowest with h | h
        · have := hmin k h; rw [hpk] at this; cases this
        · omega
      have hl0 : cur.lowest = 0 := by omega
      have hN3 : N = 3 := by omega
      rw [hl0] at hlp
      refine ⟨hN3, hlp, ?_, ?_⟩
      · rcases (by omega : j = 1 ∨ k = 1) with rfl | rfl <;> assumption
      · rcases (by omega : j = 2 ∨ k = 2) with rfl | rfl <;> assumption
    by_cases hex2 : ∃ j, j < N ∧ j ≠ cur.lowest ∧ cur.present j = true
    · obtain ⟨j, hj, hjl, hpj⟩ := hex2
      rw [Finset.sum_eq_single_of_mem j (Finset.mem_erase.2 ⟨hjl, Finset.mem_range.2 hj⟩)]
      · exact hex j hj hjl
      · intro k hk hkj
        rw [Finset.mem_erase, Finset.mem_range] at hk
        refine habs k hk.1 ?_
        by_contra hp
        exact hkj (hone k j hk.2 hj hk.1 hjl (by simpa using hp) hpj)
    · rw [Finset.sum_eq_zero]
      · norm_num
      · intro k hk
        rw [Finset.mem_erase, Finset.mem_range] at hk
        refine habs k hk.1 ?_
        by_contra hp
        exact hex2 ⟨k, hk.2, hk.1, by simpa using hp⟩

/-- The second and the third one of three phases -/
def demoCell : PriVars ℚ := ⟨fun i => if i = 0 then 100 else 1 / 2, 6⟩

example : demoCell.lowest = 1 ∧ demoCell.present demoCell.lowest = true ∧ Contiguous demoCell := by
  refine ⟨by decide +kernel, by decide +kernel, ?_⟩
  intro i hi hne
  have h2 : i < 3 := by
    by_contra h
    have : Nat.testBit 6 i = false := Nat.testBit_lt_two_pow (lt_of_lt_of_le (by norm_num : 6 < 2 ^ 3) (Nat.pow_le_pow_right (by norm_num) (by omega)))
    unfold PriVars.present demoCell at hi
    rw [this] at hi
    cases hi
  have h1 : ∀ i < 3, demoCell.present i = true → i ≠ demoCell.lowest → 0 < i ∧ demoCell.present (i - 1) = true := by decide +kernel
  exact h1 i h2 hi hne

/-- The first and the third one of three phases -/
def gapCell : PriVars ℚ := ⟨fun i => if i = 0 then 100 else 1 / 2, 5⟩

/-- **C57** … is violated if the first and the third of three phases are present: the saturation of the third phase is the variable which
the Newton method takes for that of the second one, which is not present. -/
theorem C57_update_violated :
    let update : ℕ → ℚ := fun i => if i = 2 then -1 / 2 else 0
    readSaturation 3 gapCell 2 = 1 / 2 ∧ readSaturation 3 (updatePrimaryVariables 3 gapCell update) 2 = 1 ∧
    readSaturation 3 (updatePrimaryVariables 3 gapCell update) 0 = 0 := by
  decide +kernel

/-- The first three of four phases -/
def fourCell : PriVars ℚ := ⟨fun i => if i = 0 then 100 else 1 / 4, 7⟩

/-- **C57** … is violated for the remaining saturation if there are four phases: a mole fraction is taken for the saturation of a phase,
and its change cancels those of the others. -/
theorem C57_update_implicit_violated :
    let update : ℕ → ℚ := fun i => if i = 1 ∨ i = 2 then -1 / 5 else if i = 3 then 1 / 5 else 0
    readSaturation 4 fourCell 0 = 1 / 2 ∧ readSaturation 4 (updatePrimaryVariables 4 fourCell update) 0 = 1 / 10 := by
  decide +kernel

end Verif.Pvs
