import Mathlib.Tactic.FinCases
import Verif.Agree.Props
import Verif.Pvs.Props
import Verif.PvsSwitch.Lemmas
import Verif.Restart.IntFormat
import Verif.Restart.Lemmas

/-
Properties C114 and C115: switching the primary variables of the PVS model, and its restart files.
-/

set_option autoImplicit false
set_option linter.unusedSectionVars false

namespace Verif.PvsSwitch

open Verif.Pvs

variable {K : Type} [Field K] [LinearOrder K] [IsStrictOrderedRing K]
variable {fluid : ℕ → PriVars K → Option (FluidState K)} {N M : ℕ}

/-! ### Specification -/

/-- The phase `i` exists in a fluid state: its saturation is larger than what is missing of the sum of its mole fractions to one. -/
def Exists (M : ℕ) (fs : FluidState K) (i : ℕ) : Prop := 1 < fs.saturation i + ∑ c ∈ Finset.range M, fs.moleFraction i c

/-- Primary variables describe a fluid state: the same phases, the same pressure; and, if the state is in equilibrium, the same
saturations. -/
structure Describes (N M : ℕ) (v : PriVars K) (fs : FluidState K) : Prop where
  phases : ∀ i, v.present i = true ↔ i < N ∧ Exists M fs i
  pressure : v.val 0 = fs.pressure 0
  saturations : N ≤ 15 → Equilibrium N M fs → ∀ i < N, readSaturation N v i = fs.saturation i

/-- A degree of freedom of an element of the interior of a process -/
def Interior (elements : List (List ℕ)) (i : ℕ) : Prop := ∃ dofs ∈ elements, i ∈ dofs

/-- The fluid state cannot be computed, or no phase exists in it. -/
def Bad (fluid : ℕ → PriVars K → Option (FluidState K)) (N M : ℕ) (i : ℕ) (v : PriVars K) : Prop :=
  ∀ fs, fluid i v = some fs → ∀ j < N, ¬Exists M fs j

/-! ### One process -/

theorem exists_iff {fs : FluidState K} {i : ℕ} : Exists M fs i ↔ moleDefect M fs i < fs.saturation i := by
  unfold Exists
  rw [moleDefect_eq, sub_lt_iff_lt_add]

theorem presence_zero {fs : FluidState K} : presenceOf N M fs = 0 ↔ ∀ j < N, ¬Exists M fs j := by
  constructor
  · intro h j hj he
    have := (presence_testBit N M fs j)
    rw [h, Nat.zero_testBit] at this
    have h2 := of_decide_eq_false this.symm
    exact h2 ⟨hj, exists_iff.1 he⟩
  · intro h
    apply Nat.eq_of_testBit_eq
    intro j
    rw [presence_testBit, Nat.zero_testBit, decide_eq_false_iff_not]
    rintro ⟨a, b⟩
    exact h j a (exists_iff.2 b)

theorem becomes_describes {i : ℕ} {v v' : PriVars K} (h : Becomes fluid N M i v v') :
    ∃ fs, fluid i v = some fs ∧ Describes N M v' fs := by
  obtain ⟨fs, h1, h2⟩ := h
  obtain ⟨hp, h0, -, -⟩ := assignNaive_spec h2
  refine ⟨fs, h1, ⟨fun j => ?_, h0, fun hN he j hj => ?_⟩⟩
  · rw [PriVars.present, hp, presence_testBit, decide_eq_true_eq, exists_iff]
  · obtain ⟨v'', hv, hs, -⟩ := C57_saturations hN he v
    rw [h2] at hv
    obtain rfl := Option.some.inj hv
    exact hs j hj

theorem not_becomes {i : ℕ} {v : PriVars K} (h : ∀ v', ¬Becomes fluid N M i v v') : Bad fluid N M i v := by
  intro fs hf
  by_contra hc
  have hne : presenceOf N M fs ≠ 0 := fun e => hc (presence_zero.1 e)
  have : ∃ v', assignNaive N M fs v = some v' := by
    unfold assignNaive
    dsimp only
    rw [if_neg hne]
    exact ⟨_, rfl⟩
  obtain ⟨v', hv⟩ := this
  exact h v' ⟨fs, hf, hv⟩

theorem bad_not_becomes {i : ℕ} {v v' : PriVars K} (h : Bad fluid N M i v) : ¬Becomes fluid N M i v v' := by
  rintro ⟨fs, h1, h2⟩
  have := presence_zero.2 (h fs h1)
  unfold assignNaive at h2
  dsimp only at h2
  rw [if_pos this] at h2
  exact absurd h2 (by simp)

/-- **C114** If the variables of a process are switched without exception, then the variables of each degree of freedom of the interior
describe the fluid state which belongs to its variables from before (however many elements it belongs to), and all others have been left
alone. -/
theorem C114_switched_states (elements : List (List ℕ)) (sol : ℕ → PriVars K)
    (h : (switchLocal fluid N M elements sol).ok = true) (i : ℕ) :
    (Interior elements i → ∃ fs, fluid i (sol i) = some fs ∧ Describes N M ((switchLocal fluid N M elements sol).sol i) fs) ∧
      (¬Interior elements i → (switchLocal fluid N M elements sol).sol i = sol i) := by
  rcases switchLocal_spec (fluid := fluid) (N := N) (M := M) elements sol with ⟨-, hi⟩ | ⟨h1, -⟩
  · exact ⟨fun hh => becomes_describes (hi.done i (List.mem_flatten.2 hh)),
      fun hh => hi.rest i (fun hm => hh (List.mem_flatten.1 hm))⟩
  · rw [h] at h1; exact absurd h1 (by simp)

/-- **C114** Switching fails on a process exactly if the fluid state of some degree of freedom of the interior cannot be computed, or
has no phase. -/
theorem C114_fails_iff (elements : List (List ℕ)) (sol : ℕ → PriVars K) :
    (switchLocal fluid N M elements sol).ok = false ↔ ∃ i, Interior elements i ∧ Bad fluid N M i (sol i) := by
  constructor
  · intro h
    rcases switchLocal_spec (fluid := fluid) (N := N) (M := M) elements sol with ⟨h1, -⟩ | ⟨-, i, hi, hb⟩
    · rw [h] at h1; exact absurd h1 (by simp)
    · exact ⟨i, List.mem_flatten.1 hi, not_becomes hb⟩
  · rintro ⟨i, hi, hb⟩
    rcases switchLocal_spec (fluid := fluid) (N := N) (M := M) elements sol with ⟨-, hinv⟩ | ⟨h1, -⟩
    · exact absurd (hinv.done i (List.mem_flatten.2 hi)) (bad_not_becomes hb)
    · exact h1

/-- The degrees of freedom of the interior of a process whose phases have changed -/
def changed (elements : List (List ℕ)) (old new : ℕ → PriVars K) : Finset ℕ :=
  elements.flatten.toFinset.filter fun i => (old i).presence ≠ (new i).presence

theorem local_count (elements : List (List ℕ)) (sol : ℕ → PriVars K) (h : (switchLocal fluid N M elements sol).ok = true) :
    (switchLocal fluid N M elements sol).numSwitched = (changed elements sol (switchLocal fluid N M elements sol).sol).card := by
  rcases switchLocal_spec (fluid := fluid) (N := N) (M := M) elements sol with ⟨-, hi⟩ | ⟨h1, -⟩
  · exact hi.count
  · rw [h] at h1; exact absurd h1 (by simp)

/-! ### All processes -/

variable {P : ℕ}

/-- **C114** Whether the variables have been switched is known to all processes: the call throws on all of them if it fails on one, and
otherwise `switched` is true on each of them exactly if the phases of some degree of freedom of the interior of some process have
changed. -/
theorem C114_switched_iff (fluid : Fin P → ℕ → PriVars K → Option (FluidState K)) (elements : Fin P → List (List ℕ))
    (sol : Fin P → ℕ → PriVars K) (p : Fin P) :
    match switchGlobal (fun q => switchLocal (fluid q) N M (elements q) (sol q)) p with
    | none => ∃ q i, Interior (elements q) i ∧ Bad (fluid q) N M i (sol q i)
    | some n => (∀ q i, Interior (elements q) i → ¬Bad (fluid q) N M i (sol q i)) ∧
        (switched n = true ↔ ∃ q i, Interior (elements q) i ∧
          (sol q i).presence ≠ ((switchLocal (fluid q) N M (elements q) (sol q)).sol i).presence) := by
  unfold switchGlobal
  by_cases hok : ∀ q, (switchLocal (fluid q) N M (elements q) (sol q)).ok = true
  · rw [if_pos hok]
    dsimp only
    refine ⟨fun q i hi hb => ?_, ?_⟩
    · have := (C114_fails_iff (fluid := fluid q) (N := N) (M := M) (elements q) (sol q)).2 ⟨i, hi, hb⟩
      rw [hok q] at this; exact absurd this (by simp)
    · rw [switched, decide_eq_true_eq, gt_iff_lt, Finset.sum_pos_iff]
      constructor
      · rintro ⟨q, -, hq⟩
        rw [local_count _ _ (hok q), Finset.card_pos] at hq
        obtain ⟨i, hi⟩ := hq
        rw [changed, Finset.mem_filter, List.mem_toFinset] at hi
        exact ⟨q, i, List.mem_flatten.1 hi.1, hi.2⟩
      · rintro ⟨q, i, hi, hne⟩
        refine ⟨q, Finset.mem_univ _, ?_⟩
        rw [local_count _ _ (hok q), Finset.card_pos]
        exact ⟨i, by rw [changed, Finset.mem_filter, List.mem_toFinset]; exact ⟨List.mem_flatten.2 hi, hne⟩⟩
  · rw [if_neg hok]
    dsimp only
    push Not at hok
    obtain ⟨q, hq⟩ := hok
    obtain ⟨i, hi, hb⟩ := (C114_fails_iff (fluid := fluid q) (N := N) (M := M) (elements q) (sol q)).1 (by simpa using hq)
    exact ⟨q, i, hi, hb⟩

/-- **C114** (partial) The number of switched degrees of freedom is the number of those whose phases have changed, provided that each
belongs to the interior of one process only, as cells do.  `cell` names the degree of freedom of the whole grid.
Missing: vertices at the border of processes. -/
theorem C114_count_partial {E : Type} [DecidableEq E] (fluid : Fin P → ℕ → PriVars K → Option (FluidState K))
    (elements : Fin P → List (List ℕ)) (sol : Fin P → ℕ → PriVars K) (cell : Fin P → ℕ → E)
    (hc : ∀ p q i j, Interior (elements p) i → Interior (elements q) j → cell p i = cell q j → p = q ∧ i = j) (p : Fin P) (n : ℕ)
    (h : switchGlobal (fun q => switchLocal (fluid q) N M (elements q) (sol q)) p = some n) :
    n = (Finset.univ.biUnion fun q =>
      (changed (elements q) (sol q) (switchLocal (fluid q) N M (elements q) (sol q)).sol).image (cell q)).card := by
  unfold switchGlobal at h
  split_ifs at h with hok
  rw [Option.some_inj] at h
  rw [← h, Finset.card_biUnion]
  · refine Finset.sum_congr rfl fun q _ => ?_
    rw [local_count _ _ (hok q), Finset.card_image_of_injOn]
    intro i hi j hj e
    simp only [changed, Finset.coe_filter, List.mem_toFinset, Set.mem_setOf_eq] at hi hj
    exact (hc q q i j (List.mem_flatten.1 hi.1) (List.mem_flatten.1 hj.1) e).2
  · intro q _ r _ hqr
    rw [Function.onFun, Finset.disjoint_left]
    intro e he he'
    rw [Finset.mem_image] at he he'
    obtain ⟨i, hi, rfl⟩ := he
    obtain ⟨j, hj, e⟩ := he'
    rw [changed, Finset.mem_filter, List.mem_toFinset] at hi hj
    exact hqr (hc q r i j (List.mem_flatten.1 hi.1) (List.mem_flatten.1 hj.1) e.symm).1

/-- A fluid state of two phases and two components: both phases are there, or only the second. -/
def demoFluid (both : Bool) : FluidState ℚ where
  saturation i := if both then 1 / 2 else if i = 1 then 1 else 0
  moleFraction i _ := if both ∨ i = 1 then 1 / 2 else 1 / 4
  pressure _ := 100

/-- Variables for which both phases are present -/
def demoVars : PriVars ℚ := ⟨fun _ => 1 / 2, 3⟩

/-- the first phase of the degrees of freedom with the index 1 vanishes -/
def demo (i : ℕ) (_ : PriVars ℚ) : Option (FluidState ℚ) := some (demoFluid (i ≠ 1))

example : (switchLocal demo 2 2 [[0, 1], [1, 2]] (fun _ => demoVars)).ok = true ∧
    (switchLocal demo 2 2 [[0, 1], [1, 2]] (fun _ => demoVars)).numSwitched = 1 := by decide +kernel

/-- two processes with a cell each -/
example : switchGlobal (fun q : Fin 2 => switchLocal demo 2 2 [[q.val]] (fun _ => demoVars)) 0 = some 1 := by decide +kernel

example : ∀ p q : Fin 2, ∀ i j, Interior [[p.val]] i → Interior [[q.val]] j → i = j → p = q ∧ i = j := by
  intro p q i j hi hj e
  simp only [Interior, List.mem_singleton, exists_eq_left] at hi hj
  exact ⟨Fin.ext (by omega), e⟩

/-- **C114** is false for the number of switched vertices: the phases of the only vertex, which two processes share, change; the message
says that two have been switched. -/
theorem C114_count_violated :
    switchGlobal (fun _ : Fin 2 => switchLocal demo 2 2 [[1]] (fun _ => demoVars)) 0 = some 2 := by decide +kernel

/-- **C114** Whatever fails at the end of an iteration (with a `std::exception`), or when the variables are switched (with any
exception), on whichever processes: all leave with an exception, or none does, and they never wait for each other for ever. -/
theorem C114_agreement (outcome : Fin P → ℕ → Verif.Agree.Outcome) (h0 : ∀ p, outcome p 0 ≠ some .foreign) :
    Verif.Agree.Agreement endOfIteration outcome := by
  apply Verif.Agree.agreement
  intro j site hj p
  match j with
  | 0 =>
    obtain rfl : Verif.Agree.endIteration = site := by simpa [endOfIteration] using hj
    refine Verif.Agree.guarded_reduce fun e he => ?_
    simp only [Verif.Agree.catchStd, decide_eq_true_eq]
    rintro rfl
    exact h0 p he
  | 1 =>
    obtain rfl : switchSite = site := by simpa [endOfIteration] using hj
    exact Verif.Agree.guarded_reduce fun _ _ => rfl
  | j + 2 => simp [endOfIteration] at hj

example : ∀ p : Fin 2, (fun (p : Fin 2) (k : ℕ) => if p = 1 ∧ k = 1 then some Verif.Agree.Exn.foreign else none) p 0 ≠ some .foreign := by
  decide

end Verif.PvsSwitch

namespace Verif.PvsSwitch

open Verif.Restart Verif.ForcedSteps

variable {K : Type}

/-- **C115** What the PVS model writes for a degree of freedom is read back: the values and the phases which are present, and the latter
are set for both time levels. -/
theorem C115_dof_round_trip {FI : Format ℤ} {FK : Format K} (hI : FI.Lawful) (hK : FK.Lawful) (junk : ℤ) (d old : Dof K)
    (hlen : old.vals.length = d.vals.length) :
    readPvs FI FK junk old ⟨writePvs FI FK d, false, false⟩ =
      .ok { vals := d.vals, presence := d.presence, oldPresence := d.presence } := by
  obtain ⟨b', hb', _, h1⟩ := readValues_ok hK d.vals old.vals hlen [] (Or.inl rfl) (FI.fmt d.presence ++ c!" ")
  rw [readPvs, writePvs]
  simp only [List.nil_append] at h1
  rw [h1]
  dsimp only [Verif.Restart.Stream.good]
  simp only [Bool.not_false, Bool.and_self, Bool.not_true, Bool.false_eq_true, if_false]
  have h2 : readInto FI junk ⟨b' ++ (FI.fmt d.presence ++ c!" "), false, false⟩ = (d.presence, ⟨c!" ", false, false⟩) := by
    rcases hb' with rfl | rfl
    · exact readInto_sp hI _ _ []
    · exact readInto_sp' hI _ _ []
  rw [h2]

/-- **C115** The section of a restart file with all degrees of freedom is read back by a simulator with the same grid, whatever its
state was. -/
theorem C115_section_round_trip {FI : Format ℤ} {FK : Format K} (hI : FI.Lawful) (hK : FK.Lawful) (junk : ℤ) (cookie : List Char)
    (hc : '\n' ∉ cookie) (numEq : ℕ) (dofs old : List (Dof K)) (hlen : old.length = dofs.length)
    (hd : ∀ d ∈ dofs, d.vals.length = numEq ∧ d.oldPresence = d.presence) (ho : ∀ d ∈ old, d.vals.length = numEq) :
    readEntities cookie (readPvs FI FK junk) old ⟨writeEntities cookie (writePvs FI FK) dofs, false, false⟩ =
      .ok (dofs, ⟨[], false, false⟩) := by
  rw [writeEntities, List.append_assoc]
  simp only [readEntities, bind, Except.bind]
  rw [readSectionBegin_ok _ _ hc]
  simp only
  rw [readEntityLines_ok (writePvs FI FK) (readPvs FI FK junk) dofs old hlen]
  · simp only
    have := readSectionEnd_ok [] [] (by simp) rfl
    simp only [sectionEnd]
    rw [show (c!"\n" : List Char) = [] ++ '\n' :: [] from rfl, this]
  · intro e _
    rw [writePvs]
    simp only [List.mem_append, not_or]
    exact ⟨writeValues_noNewline hK _, hI.noNewline _, by decide⟩
  · intro e he o hoo
    rw [C115_dof_round_trip hI hK junk e o (by rw [ho o hoo, (hd e he).1])]
    obtain ⟨v, a, b⟩ := e
    have := (hd _ he).2
    simp only at this
    rw [this]

example : readEntities c!"Entities: Codim 0" (readPvs intFormat intFormat 77) [⟨[0, 0], 0, 0⟩, ⟨[0, 0], 0, 0⟩]
    ⟨writeEntities c!"Entities: Codim 0" (writePvs intFormat intFormat) [⟨[1, -2], 3, 3⟩, ⟨[5, 6], 1, 1⟩], false, false⟩ =
    .ok ([⟨[1, -2], 3, 3⟩, ⟨[5, 6], 1, 1⟩], ⟨[], false, false⟩) :=
  C115_section_round_trip intFormat_lawful intFormat_lawful 77 _ (by decide) 2 _ _ rfl (by simp) (by simp)

end Verif.PvsSwitch
