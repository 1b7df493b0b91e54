import Verif.Storage.Phase
import Mathlib.Algebra.BigOperators.Ring.List
import Mathlib.Algebra.BigOperators.Group.List.Lemmas
import Mathlib.Algebra.Order.Ring.Rat
import Mathlib.Algebra.Field.Rat
import Mathlib.Tactic.Ring
import Mathlib.Tactic.Linarith
import Mathlib.Tactic.NormNum

set_option autoImplicit false
set_option linter.unusedSectionVars false
set_option linter.unusedSimpArgs false
/-
C147: the amounts of the conserved quantities in one fluid phase.
-/
namespace Verif.Storage.Phase

variable {P C E D K : Type} [Field K] [DecidableEq C]

/-! ### Specification -/

/-- What a unit volume of the porous medium holds of a conserved quantity within a phase. -/
def density (r : Residual) (enableEnergy : Bool) (comp : P → C) (q : Quantities P C K) (p : P) : Equation C → K
  | .conti c =>
    match r with
    | .immiscible => if c = comp p then q.porosity * q.saturation p * q.density p else 0
    | .moles => q.porosity * q.saturation p * q.molarity p c
    | .masses => q.porosity * q.saturation p * (q.density p * q.massFraction p c)
  | .energy => if enableEnergy then q.porosity * q.saturation p * (q.density p * q.internalEnergy p) else 0

/-- What a unit volume of the porous medium holds of a conserved quantity outside of the fluids. -/
def solid (enableEnergy : Bool) (q : Quantities P C K) : Equation C → K
  | .conti _ => 0
  | .energy => if enableEnergy then q.solidInternalEnergy else 0

/-- The sum of an amount per volume over a list of sub-control volumes. -/
def integral (quants : D → Quantities P C K) (f : Quantities P C K → K) (scvs : List (D × K)) : K :=
  (scvs.map fun scv => f (quants scv.1) * (scv.2 * (quants scv.1).extrusionFactor)).sum

/-- The sub-control volumes which make up the domain: the primary ones of all elements. -/
def domain (stencil : E → Stencil D K) (elements : List E) : List (D × K) :=
  elements.flatMap fun e => (stencil e).scvs.take (stencil e).numPrimary

/-! ### Lemmas -/

theorem energyPhase_zero (en : Bool) (comp : P → C) (r : Residual) (q : Quantities P C K) (p : P) :
    addPhaseStorage r en comp q p (fun _ => 0) = density r en comp q p := by
  funext eq
  cases eq <;> cases r <;> cases en <;> simp [addPhaseStorage, energyPhase, density] <;> ring_nf

theorem foldl_add {α β : Type} (g : α → β → K) (l : List α) : ∀ s : β → K,
    l.foldl (fun s a => fun eq => s eq + g a eq) s = fun eq => s eq + (l.map fun a => g a eq).sum := by
  induction l with
  | nil => intro s; simp
  | cons a l ih => intro s; rw [List.foldl_cons, ih]; funext eq; simp [add_assoc]

theorem foldl_foldl {α β γ : Type} (g : α → γ → K) (stc : β → List α) (l : List β) : ∀ s : γ → K,
    l.foldl (fun s e => (stc e).foldl (fun s a => fun eq => s eq + g a eq) s) s
      = fun eq => s eq + ((l.flatMap stc).map fun a => g a eq).sum := by
  induction l with
  | nil => intro s; simp
  | cons e l ih =>
    intro s
    rw [List.foldl_cons, foldl_add, ih]
    funext eq
    simp [add_assoc]

theorem localPhaseStorage_eq (r : Residual) (en : Bool) (comp : P → C) (quants : D → Quantities P C K) (stencil : E → Stencil D K)
    (interior : List E) (p : P) (eq : Equation C) :
    localPhaseStorage r en comp quants stencil interior p eq
      = integral quants (fun q => density r en comp q p eq) (interior.flatMap fun e => (stencil e).scvs) := by
  unfold localPhaseStorage
  simp only [energyPhase_zero]
  rw [foldl_foldl (fun (scv : D × K) eq => density r en comp (quants scv.1) p eq * (scv.2 * (quants scv.1).extrusionFactor))]
  simp [integral]

theorem integral_append (quants : D → Quantities P C K) (f : Quantities P C K → K) (a b : List (D × K)) :
    integral quants f (a ++ b) = integral quants f a + integral quants f b := by simp [integral]

theorem integral_flatten (quants : D → Quantities P C K) (f : Quantities P C K → K) (g : E → List (D × K)) (l : List (List E)) :
    (l.map fun i => integral quants f (i.flatMap g)).sum = integral quants f (l.flatten.flatMap g) := by
  induction l with
  | nil => simp [integral]
  | cons a l ih => simp [integral_append, ih]

theorem integral_perm (quants : D → Quantities P C K) (f : Quantities P C K → K) {a b : List (D × K)} (h : a.Perm b) :
    integral quants f a = integral quants f b := (h.map _).sum_eq

theorem integral_add (quants : D → Quantities P C K) (f g : Quantities P C K → K) (l : List (D × K)) :
    integral quants (fun q => f q + g q) l = integral quants f l + integral quants g l := by
  unfold integral
  induction l with
  | nil => simp
  | cons a l ih => simp only [List.map_cons, List.sum_cons, ih]; ring

theorem integral_sum (quants : D → Quantities P C K) (f : P → Quantities P C K → K) (phases : List P) (l : List (D × K)) :
    integral quants (fun q => (phases.map fun p => f p q).sum) l = (phases.map fun p => integral quants (f p) l).sum := by
  induction phases with
  | nil => simp [integral]
  | cons p ps ih => simp only [List.map_cons, List.sum_cons, integral_add, ih]

theorem globalPhaseStorage_eq (r : Residual) (en : Bool) (comp : P → C) (quants : D → Quantities P C K) (stencil : E → Stencil D K)
    (processes : List (List E)) (p : P) (eq : Equation C) :
    globalPhaseStorage r en comp quants stencil processes p eq
      = integral quants (fun q => density r en comp q p eq) (processes.flatten.flatMap fun e => (stencil e).scvs) := by
  unfold globalPhaseStorage commSum
  rw [List.map_map, ← integral_flatten]
  congr 1
  apply List.map_congr_left
  intro i _
  exact localPhaseStorage_eq r en comp quants stencil i p eq

/-- Adding the phases one after the other. -/
theorem foldl_phases (r : Residual) (en : Bool) (comp : P → C) (q : Quantities P C K) (eq : Equation C) (phases : List P) :
    (phases.map comp).Nodup → ∀ s : Equation C → K, (∀ p ∈ phases, s (.conti (comp p)) = 0 ∨ r ≠ .immiscible) →
    phases.foldl (fun s p => addPhaseStorage r en comp q p s) s eq = s eq + (phases.map fun p => density r en comp q p eq).sum := by
  induction phases with
  | nil => intro _ s _; simp
  | cons p ps ih =>
    intro hn s hs
    rw [List.map_cons, List.nodup_cons] at hn
    rw [List.foldl_cons, ih hn.2]
    · rw [List.map_cons, List.sum_cons, ← add_assoc]
      congr 1
      cases eq with
      | energy => cases r <;> cases en <;> simp [addPhaseStorage, energyPhase, density] <;> ring
      | conti c =>
        cases r with
        | immiscible =>
          simp only [addPhaseStorage, energyPhase, density]
          by_cases hc : c = comp p
          · rw [if_pos hc, if_pos hc]
            have := hs p (by simp)
            rw [hc]
            rcases this with h | h
            · rw [h, zero_add]
            · exact absurd rfl h
          · rw [if_neg hc, if_neg hc, add_zero]
        | moles => simp only [addPhaseStorage, energyPhase, density]; ring
        | masses => simp only [addPhaseStorage, energyPhase, density]; ring
    · intro p' hp'
      by_cases hr : r = .immiscible
      · left
        subst hr
        simp only [addPhaseStorage, energyPhase]
        rw [if_neg (fun h : comp p' = comp p => hn.1 (h ▸ List.mem_map_of_mem hp'))]
        rcases hs p' (by simp [hp']) with h | h
        · exact h
        · exact absurd rfl h
      · exact Or.inr hr

theorem computeStorage_eq (r : Residual) (en : Bool) (comp : P → C) (phases : List P) (hn : (phases.map comp).Nodup)
    (q : Quantities P C K) (eq : Equation C) :
    computeStorage r en comp phases q eq = (phases.map fun p => density r en comp q p eq).sum + solid en q eq := by
  have h := fun e => foldl_phases r en comp q e phases hn (fun _ => 0) (fun _ _ => Or.inl rfl)
  cases eq with
  | conti c => simp only [computeStorage, addSolidEnergy, h, solid]; ring
  | energy => cases en <;> simp only [computeStorage, addSolidEnergy, h, solid] <;> simp

/-! ### Properties -/

/-- **C147** The amount of a conserved quantity in the domain is what the phases hold, plus what the solid holds, summed up over the
sub-control volumes which make up the domain – with every discretisation and every distribution to processes. -/
theorem C147_storage (r : Residual) (en : Bool) (comp : P → C) (phases : List P) (hn : (phases.map comp).Nodup)
    (quants : D → Quantities P C K) (stencil : E → Stencil D K) (processes : List (List E)) (eq : Equation C) :
    globalStorage r en comp phases quants stencil processes eq
      = (phases.map fun p => integral quants (fun q => density r en comp q p eq) (domain stencil processes.flatten)).sum
        + integral quants (fun q => solid en q eq) (domain stencil processes.flatten) := by
  rw [← integral_sum, ← integral_add]
  unfold globalStorage commSum domain
  rw [List.map_map, ← integral_flatten]
  congr 1
  apply List.map_congr_left
  intro i _
  show localStorage r en comp phases quants stencil i eq = _
  unfold localStorage
  rw [foldl_foldl (fun (scv : D × K) eq => computeStorage r en comp phases (quants scv.1) eq * (scv.2 * (quants scv.1).extrusionFactor))]
  simp [integral, computeStorage_eq r en comp phases hn]

/-- **C147** If all degrees of freedom of the elements are primary (vertex-centred grids), the amount within one phase is what this
phase holds in the domain, … -/
theorem C147_phase_partial (r : Residual) (en : Bool) (comp : P → C) (quants : D → Quantities P C K) (stencil : E → Stencil D K)
    (h : ∀ e, (stencil e).numPrimary = (stencil e).scvs.length) (processes : List (List E)) (p : P) (eq : Equation C) :
    globalPhaseStorage r en comp quants stencil processes p eq
      = integral quants (fun q => density r en comp q p eq) (domain stencil processes.flatten) := by
  rw [globalPhaseStorage_eq]
  unfold domain
  congr 2
  funext e
  rw [h, List.take_length]

/-- **C147** … so that the phases together hold what is in the domain, apart from the energy of the solid. -/
theorem C147_total_partial (r : Residual) (en : Bool) (comp : P → C) (phases : List P) (hn : (phases.map comp).Nodup)
    (quants : D → Quantities P C K) (stencil : E → Stencil D K) (h : ∀ e, (stencil e).numPrimary = (stencil e).scvs.length)
    (processes : List (List E)) (eq : Equation C) :
    globalStorage r en comp phases quants stencil processes eq
      = (phases.map fun p => globalPhaseStorage r en comp quants stencil processes p eq).sum
        + integral quants (fun q => solid en q eq) (domain stencil processes.flatten) := by
  rw [C147_storage r en comp phases hn]
  congr 2
  apply List.map_congr_left
  intro p _
  exact (C147_phase_partial r en comp quants stencil h processes p eq).symm

/-- **C147** Neither result depends on how the elements are distributed to processes, nor on the order in which the threads deal with
them. -/
theorem C147_processes (r : Residual) (en : Bool) (comp : P → C) (phases : List P) (hn : (phases.map comp).Nodup)
    (quants : D → Quantities P C K) (stencil : E → Stencil D K) (procs procs' : List (List E)) (h : procs.flatten.Perm procs'.flatten)
    (p : P) (eq : Equation C) :
    globalPhaseStorage r en comp quants stencil procs p eq = globalPhaseStorage r en comp quants stencil procs' p eq ∧
    globalStorage r en comp phases quants stencil procs eq = globalStorage r en comp phases quants stencil procs' eq := by
  constructor
  · rw [globalPhaseStorage_eq, globalPhaseStorage_eq]
    exact integral_perm _ _ (h.flatMap_right _)
  · rw [C147_storage r en comp phases hn, C147_storage r en comp phases hn]
    have hp : (domain stencil procs.flatten).Perm (domain stencil procs'.flatten) := h.flatMap_right _
    congr 1
    · congr 1
      apply List.map_congr_left
      intro p _
      exact integral_perm _ _ hp
    · exact integral_perm _ _ hp

/-! ### Cell-centred grids -/

section Cells
variable {V : Type} [DecidableEq E]

/-- The neighbours of an element, with repetitions if it shares several intersections with one of them. -/
def neighbours (grid : E → List (Verif.Ecfv.Intersection E V K)) (e : E) : List E := (grid e).filterMap fun i => i.outside

theorem elements_eq (l : List (Verif.Ecfv.Intersection E V K)) : ∀ s : Verif.Ecfv.Stencil E V K,
    (l.foldl Verif.Ecfv.addIntersection s).elements = s.elements ++ l.filterMap fun i => i.outside := by
  induction l with
  | nil => intro s; simp
  | cons i l ih =>
    intro s
    rw [List.foldl_cons, ih]
    unfold Verif.Ecfv.addIntersection
    cases h : i.outside <;> simp [h]

theorem sum_count (f : E → K) (l : List E) (hl : l.Nodup) (m : List E) (hm : ∀ x ∈ m, x ∈ l) :
    (m.map f).sum = (l.map fun e => (m.count e : K) * f e).sum := by
  induction m with
  | nil => simp
  | cons a m ih =>
    rw [List.map_cons, List.sum_cons, ih fun x hx => hm x (List.mem_cons_of_mem _ hx)]
    have ha : a ∈ l := hm a (by simp)
    have key : (l.map fun e => ((a :: m).count e : K) * f e).sum
        = (l.map fun e => (m.count e : K) * f e).sum + (l.map fun e => if e = a then f a else 0).sum := by
      rw [← List.sum_map_add]
      congr 1
      apply List.map_congr_left
      intro b _
      rw [List.count_cons]
      by_cases hb : b = a
      · subst hb; simp; ring
      · have hb' : ¬ (a = b) := fun h => hb h.symm
        simp [hb, hb']
    rw [key]
    have one : (l.map fun e => if e = a then f a else 0).sum = f a := by
      clear key hm ih
      induction l with
      | nil => simp at ha
      | cons b l ih =>
        rw [List.nodup_cons] at hl
        rw [List.map_cons, List.sum_cons]
        by_cases hb : b = a
        · subst hb
          have : (l.map fun e => if e = b then f b else 0).sum = 0 := by
            apply List.sum_eq_zero
            intro x hx
            obtain ⟨e, he, rfl⟩ := List.mem_map.1 hx
            rw [if_neg (fun h : e = b => hl.1 (h ▸ he))]
          simp [this]
        · rw [if_neg hb, zero_add]
          exact ih hl.2 ((List.mem_cons.1 ha).resolve_left fun h => hb h.symm)
    rw [one]; ring

theorem sum_swap (f : E → K) (c : E → E → ℕ) (hc : ∀ a b, c a b = c b a) (l m : List E) :
    (l.map fun a => (m.map fun b => (c a b : K) * f b).sum).sum = (m.map fun b => ((l.map fun a => c b a).sum : ℕ) * f b).sum := by
  induction l with
  | nil => simp
  | cons a l ih =>
    rw [List.map_cons, List.sum_cons, ih]
    clear ih
    induction m with
    | nil => simp
    | cons b m ihm =>
      simp only [List.map_cons, List.sum_cons] at ihm ⊢
      rw [hc b a, Nat.cast_add, add_mul]
      rw [show (↑(c a b) * f b + (m.map fun b => (c a b : K) * f b).sum
          + (↑(l.map fun a => c b a).sum * f b + (m.map fun b => (((l.map fun a => c b a).sum : ℕ) : K) * f b).sum))
        = (↑(c a b) * f b + ↑(l.map fun a => c b a).sum * f b)
          + ((m.map fun b => (c a b : K) * f b).sum + (m.map fun b => (((l.map fun a => c b a).sum : ℕ) : K) * f b).sum) by ring, ihm]

theorem count_sum (l : List E) (hl : l.Nodup) (m : List E) (hm : ∀ x ∈ m, x ∈ l) : (l.map fun a => m.count a).sum = m.length := by
  have h := sum_count (K := ℚ) (fun _ => 1) l hl m hm
  simp only [mul_one, List.map_const', List.sum_replicate, nsmul_eq_mul] at h
  have e : ((l.map fun a => m.count a).sum : ℚ) = (l.map fun e => (m.count e : ℚ)).sum := by
    clear h hm hl
    induction l with
    | nil => simp
    | cons a l ih => simp only [List.map_cons, List.sum_cons, Nat.cast_add, ih]
  rw [← e] at h
  exact_mod_cast h.symm

/-- **C147** (violated) On a cell-centred grid whose neighbourhood is symmetric, the amount within a phase counts each cell once more
for every neighbour. -/
theorem C147_cells_violated (r : Residual) (en : Bool) (comp : P → C) (quants : E → Quantities P C K)
    (grid : E → List (Verif.Ecfv.Intersection E V K)) (volume : E → K) (elements : List E) (hd : elements.Nodup)
    (hin : ∀ e, ∀ o ∈ neighbours grid e, o ∈ elements) (hsym : ∀ a b, (neighbours grid a).count b = (neighbours grid b).count a)
    (processes : List (List E)) (hp : processes.flatten.Perm elements) (p : P) (eq : Equation C) :
    globalPhaseStorage r en comp quants (ecfvStencil grid volume) processes p eq
      = (elements.map fun e => (1 + (neighbours grid e).length : K) *
          (density r en comp (quants e) p eq * (volume e * (quants e).extrusionFactor))).sum := by
  rw [globalPhaseStorage_eq, integral_perm _ _ (hp.flatMap_right _)]
  set f : E → K := fun e => density r en comp (quants e) p eq * (volume e * (quants e).extrusionFactor) with hf
  have e1 : ∀ l : List E, integral quants (fun q => density r en comp q p eq) (l.flatMap fun e => (ecfvStencil grid volume e).scvs)
      = (l.map fun e => f e + ((neighbours grid e).map f).sum).sum := by
    intro l
    induction l with
    | nil => simp [integral]
    | cons a l ih =>
      rw [List.flatMap_cons, integral_append, ih, List.map_cons, List.sum_cons]
      congr 1
      unfold integral ecfvStencil Verif.Ecfv.updateTopology Verif.Ecfv.clearAndAdd
      rw [elements_eq]
      simp [neighbours, hf, Function.comp_def]
  rw [e1]
  have e2 : ∀ e, ((neighbours grid e).map f).sum = (elements.map fun d => ((neighbours grid e).count d : K) * f d).sum :=
    fun e => sum_count f elements hd _ (hin e)
  have e3 : (elements.map fun e => f e + ((neighbours grid e).map f).sum).sum
      = (elements.map f).sum + (elements.map fun e => ((neighbours grid e).map f).sum).sum := List.sum_map_add
  rw [e3]
  simp only [e2]
  rw [sum_swap f (fun a b => (neighbours grid a).count b) hsym, ← List.sum_map_add]
  congr 1
  apply List.map_congr_left
  intro e he
  rw [count_sum elements hd _ (hin e)]
  ring

end Cells

/-! ### Concrete cases -/

/-- Two cells in a row, on a grid of dimension one. -/
def rowGrid : Fin 2 → List (Verif.Ecfv.Intersection (Fin 2) Unit ℚ)
  | 0 => [⟨none, (), (), 1, 0⟩, ⟨some 1, (), (), 1, 1⟩]
  | 1 => [⟨some 0, (), (), 1, 0⟩, ⟨none, (), (), 1, 1⟩]

/-- Half water (phase 0), half oil. -/
def mixed : Quantities (Fin 2) (Fin 2) ℚ :=
  ⟨1/5, fun _ => 1/2, fun p => if p = 0 then 1000 else 800, fun _ _ => 1, fun _ _ => 1/2, fun _ => 4, 7, 1⟩

example : (∀ e, ∀ o ∈ neighbours rowGrid e, o ∈ [0, 1]) ∧
    (∀ a b, (neighbours rowGrid a).count b = (neighbours rowGrid b).count a) ∧
    ([(0 : Fin 2), 1].map id).Nodup := by decide

/-- **C147** (violated) Two cells of water and oil: the water phase alone is said to hold twice the water which is in the domain. -/
theorem C147_twice_violated :
    globalStorage .immiscible false id [0, 1] (fun _ : Fin 2 => mixed) (ecfvStencil rowGrid fun _ => 10) [[0], [1]] (.conti 0) = 2000 ∧
    globalPhaseStorage .immiscible false id (fun _ : Fin 2 => mixed) (ecfvStencil rowGrid fun _ => 10) [[0], [1]] 0 (.conti 0) = 4000 := by
  decide +kernel

/-- A vertex-centred grid with two elements. -/
def rowVertices (e : Fin 2) : Stencil (Fin 3) ℚ := ⟨[(⟨e, by omega⟩, 5), (⟨e + 1, by omega⟩, 5)], 2⟩

example : (∀ e, (rowVertices e).numPrimary = (rowVertices e).scvs.length) ∧
    globalPhaseStorage .moles true id (fun _ : Fin 3 => mixed) rowVertices [[0], [1]] 0 .energy = 8000 ∧
    globalStorage .moles true id [0, 1] (fun _ : Fin 3 => mixed) rowVertices [[0], [1]] .energy = 14540 := by
  decide +kernel

end Verif.Storage.Phase
