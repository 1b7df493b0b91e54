import Verif.FvLin.Props
import Verif.Tpfa.Deriv
/-
C34 for vertex-centred elements, C36, C37, C40, C71 and C73 for the general linearizer.
-/

set_option autoImplicit false
set_option linter.unusedSectionVars false
set_option linter.unusedSimpArgs false

namespace Verif.FvLin

open Verif.Tpfa

variable {K V M : Type} [Field K] [AddCommGroup V] [AddCommGroup M] [Module K V] [Module K M]

/-! ### C34: elements all of whose degrees of freedom are primary -/

/-- An element all of whose degrees of freedom are primary (`VcfvStencil`): the faces and boundary segments belong to
them, and the values of the fluxes (not their derivatives) do not depend on the focus. -/
structure AllPrimary (n : ℕ) (e : Elem K V M) : Prop where
  primary : e.numPrimary = e.dofs.length
  dofs : ∀ d ∈ e.dofs, d < n
  faces : ∀ f ∈ e.faces, f.1 < e.numPrimary ∧ f.2.1 < e.numPrimary ∧ ∀ k l, (f.2.2.2 k).1 = (f.2.2.2 l).1
  boundary : ∀ b ∈ e.boundary, b.1 < e.numPrimary ∧ ∀ k l, (b.2 k).1 = (b.2 l).1

/-- What an element's storage change, sources and boundary segments contribute. -/
def balance (dt : K) (e : Elem K V M) : V :=
  ((List.range e.numPrimary).map fun d =>
    (e.volume d / dt) • ((e.storage d).1 - e.oldStorage d) - e.volume d • (e.source d).1).sum +
  (e.boundary.map fun b => (b.2 0).1).sum

theorem list_sum_fst {A : Type} (l : List A) (f : A → V × M) : ((l.map f).sum).1 = (l.map fun a => (f a).1).sum := by
  rw [sum_pair, List.map_map]; rfl

theorem sum_indicator (n i : ℕ) (hi : i < n) (v : V) : ((List.range n).map fun k => if k = i then v else 0).sum = v := by
  have := sum_ite_mem (List.range n) List.nodup_range i (fun _ => v)
  rw [if_pos (List.mem_range.2 hi)] at this
  refine Eq.trans ?_ this
  congr 1
  apply List.map_congr_left
  intro k _
  simp only [eq_comm]

theorem sum_local (dt : K) (e : Elem K V M) (n : ℕ) (h : AllPrimary n e) :
    ((List.range e.numPrimary).map fun p => (evalLocal (fun _ => (1 : K)) dt e p p).1).sum = balance dt e := by
  simp only [evalLocal_eq, one_smul, Prod.fst_add, list_sum_fst, Prod.fst_sub]
  rw [List.sum_map_add, List.sum_map_add]
  have h1 : ((List.range e.numPrimary).map fun p => (e.faces.map fun f =>
      (if p = f.1 then f.2.2.1 • f.2.2.2 p else 0 : V × M).1 - (if p = f.2.1 then f.2.2.1 • f.2.2.2 p else 0 : V × M).1).sum).sum = 0 := by
    have hf := h.faces
    revert hf
    generalize e.faces = fs
    intro hf
    induction fs with
    | nil => simp
    | cons f fs ih =>
      simp only [List.map_cons, List.sum_cons]
      rw [List.sum_map_add, ih (fun f h => hf f (by simp [h])), add_zero]
      obtain ⟨ha, hb, hv⟩ := hf f (by simp)
      have e1 : ∀ p, ((if p = f.1 then f.2.2.1 • f.2.2.2 p else 0 : V × M).1 - (if p = f.2.1 then f.2.2.1 • f.2.2.2 p else 0 : V × M).1)
          = (if p = f.1 then f.2.2.1 • (f.2.2.2 0).1 else 0) + (if p = f.2.1 then - (f.2.2.1 • (f.2.2.2 0).1) else 0) := by
        intro p
        rw [← hv p 0]
        by_cases h1 : p = f.1
        · by_cases h2 : p = f.2.1
          · simp only [if_pos h1, if_pos h2, Prod.smul_fst, sub_eq_add_neg]
          · simp only [if_pos h1, if_neg h2, Prod.smul_fst, Prod.fst_zero, sub_zero, add_zero]
        · by_cases h2 : p = f.2.1
          · simp only [if_neg h1, if_pos h2, Prod.smul_fst, Prod.fst_zero, zero_sub, zero_add]
          · simp only [if_neg h1, if_neg h2, Prod.fst_zero, sub_zero, add_zero]
      simp only [e1]
      rw [List.sum_map_add, sum_indicator _ _ ha, sum_indicator _ _ hb, add_neg_cancel]
  rw [h1, zero_add, balance]
  congr 1
  · congr 1
    apply List.map_congr_left
    intro d hd
    rw [if_pos (List.mem_range.1 hd)]
    simp [focused]
  · have hf := h.boundary
    revert hf
    generalize e.boundary = bs
    intro hf
    induction bs with
    | nil => simp
    | cons b bs ih =>
      simp only [List.map_cons, List.sum_cons]
      rw [List.sum_map_add, ih (fun f h => hf f (by simp [h]))]
      congr 1
      obtain ⟨ha, hv⟩ := hf b (by simp)
      rw [← sum_indicator e.numPrimary b.1 ha (b.2 0).1]
      congr 1
      apply List.map_congr_left
      intro p _
      by_cases h1 : p = b.1
      · simp only [if_pos h1]; exact hv _ _
      · simp only [if_neg h1, Prod.fst_zero]

theorem evalLocal_scale (scale : ℕ → K) (dt : K) (e : Elem K V M) (focus k : ℕ) :
    evalLocal scale dt e focus k = scale (e.dofs.getD k 0) • evalLocal (fun _ => (1 : K)) dt e focus k := by
  simp [evalLocal]

theorem updates_res (scale : ℕ → K) (dt : K) (e : Elem K V M) (g : ℕ) :
    ((elementUpdates scale dt e).map (resVal g)).sum =
      ((List.range e.numPrimary).map fun p => if g = e.dofs.getD p 0 then (evalLocal scale dt e p p).1 else 0).sum := by
  rw [elementUpdates, sum_flatMap]
  congr 1
  apply List.map_congr_left
  intro p _
  rw [List.map_cons, List.sum_cons, List.map_map]
  have : ((List.range e.dofs.length).map (resVal g ∘ fun d =>
      (Upd.mat (e.dofs.getD d 0) (e.dofs.getD p 0) (evalLocal scale dt e p d).2 : Upd V M))).sum = 0 := by
    apply List.sum_eq_zero
    intro x hx
    simp only [List.mem_map] at hx
    obtain ⟨d, _, rfl⟩ := hx
    rfl
  rw [this, add_zero]
  rfl

theorem finset_list_sum {A : Type} (n : ℕ) (l : List A) (f : ℕ → A → V) :
    ∑ g ∈ Finset.range n, (l.map (f g)).sum = (l.map fun a => ∑ g ∈ Finset.range n, f g a).sum := by
  induction l with
  | nil => simp
  | cons a l ih => simp only [List.map_cons, List.sum_cons, Finset.sum_add_distrib, ih]

/-- **C34** If all degrees of freedom of the elements are primary (vertices), the sum of the assembled residuals, each times
the volume it was divided by, is the sum of the storage changes, sources and boundary fluxes of the elements: the fluxes
between the sub-control volumes cancel exactly, for every flux law. -/
theorem C34_vertex_centred (scale : ℕ → K) (hs : ∀ g, scale g ≠ 0) (dt : K) (n : ℕ) (es : List (Elem K V M))
    (h : ∀ e ∈ es, AllPrimary n e) (hcover : ∀ g < n, g ∈ es.flatMap primaries) (s : System V M) :
    ∑ g ∈ Finset.range n, (scale g)⁻¹ • (linearizeDomain scale dt n es s).res g = (es.map (balance dt)).sum := by
  have e1 : ∀ g ∈ Finset.range n, (scale g)⁻¹ • (linearizeDomain scale dt n es s).res g =
      (es.map fun e => (scale g)⁻¹ • ((elementUpdates scale dt e).map (resVal g)).sum).sum := by
    intro g hg
    rw [linearizeDomain, applyAll_res, sum_flatMap]
    have : (if es.length = n then resetAll s else resetElems es s).res g = 0 := by
      split
      · rfl
      · simp only [resetElems, resetCells]
        rw [if_pos (hcover g (Finset.mem_range.1 hg))]
    rw [this, zero_add, List.smul_sum, List.map_map]
    rfl
  rw [Finset.sum_congr rfl e1, finset_list_sum]
  congr 1
  apply List.map_congr_left
  intro e he
  rw [← sum_local dt e n (h e he)]
  simp only [updates_res]
  have e2 : ∀ g, (scale g)⁻¹ • ((List.range e.numPrimary).map fun p =>
      if g = e.dofs.getD p 0 then (evalLocal scale dt e p p).1 else 0).sum =
      ((List.range e.numPrimary).map fun p => if g = e.dofs.getD p 0 then (evalLocal (fun _ => (1 : K)) dt e p p).1 else 0).sum := by
    intro g
    rw [List.smul_sum, List.map_map]
    congr 1
    apply List.map_congr_left
    intro p _
    simp only [Function.comp_def]
    by_cases hg : g = e.dofs.getD p 0
    · rw [if_pos hg, if_pos hg, evalLocal_scale, ← hg, Prod.smul_fst, smul_smul, inv_mul_cancel₀ (hs g), one_smul]
    · rw [if_neg hg, if_neg hg, smul_zero]
  simp only [e2]
  rw [finset_list_sum]
  congr 1
  apply List.map_congr_left
  intro p hp
  have hd : e.dofs.getD p 0 < n := by
    have hp : p < e.dofs.length := by rw [← (h e he).primary]; exact List.mem_range.1 hp
    have : e.dofs.getD p 0 = e.dofs[p] := by simp [List.getD, hp]
    rw [this]
    exact (h e he).dofs _ (List.getElem_mem hp)
  rw [Finset.sum_ite_eq' (Finset.range n) (e.dofs.getD p 0), if_pos (Finset.mem_range.2 hd)]

/-- Two elements (line segments) with three vertices. -/
def segment (a b : ℕ) (flux : ℚ) : Elem ℚ ℚ ℚ where
  dofs := [a, b]
  numPrimary := 2
  faces := [(0, 1, 2, fun k => (flux, k))]
  volume := fun d => d + 1
  storage := fun d => (10 * d, 1)
  oldStorage := fun _ => 3
  source := fun _ => (1, 0)
  boundary := if a = 0 then [(0, fun k => (4, k))] else []

example : AllPrimary 3 (segment 0 1 7) ∧ AllPrimary 3 (segment 1 2 8) ∧
    ∀ g < 3, g ∈ [segment 0 1 7, segment 1 2 8].flatMap primaries := by
  refine ⟨⟨rfl, by simp [segment], by simp [segment], by simp [segment]⟩,
    ⟨rfl, by simp [segment], by simp [segment], by simp [segment]⟩, by decide +kernel⟩

example : (linearizeDomain (fun _ => (1 : ℚ)) 1 3 [segment 0 1 7, segment 1 2 8] zeroSystem).res 1 = 10 := by decide +kernel

/-! ### C36 -/

/-- **C36** (partial) With the general linearizer the rows of the primary degrees of freedom of the elements do not depend
on what was assembled before, whatever the auxiliary modules add.  Missing: the rows of the auxiliary degrees of freedom
(`C36_auxiliary_violated`). -/
theorem C36_general_partial (scale : ℕ → K) (dt : K) (n : ℕ) (es : List (Elem K V M)) (aux : List (Upd V M))
    (s s' : System V M) (g : ℕ) (hg : g ∈ es.flatMap primaries) :
    (linearize scale dt n es aux s).res g = (linearize scale dt n es aux s').res g ∧
      ∀ j, (linearize scale dt n es aux s).mat g j = (linearize scale dt n es aux s').mat g j := by
  simp only [linearize, linearizeDomain]
  constructor
  · rw [applyAll_res, applyAll_res, applyAll_res, applyAll_res]
    congr 2
    split
    · rfl
    · simp only [resetElems, resetCells]; rw [if_pos hg, if_pos hg]
  · intro j
    rw [applyAll_mat, applyAll_mat, applyAll_mat, applyAll_mat]
    congr 2
    split
    · rfl
    · simp only [resetElems, resetCells]; rw [if_pos hg, if_pos hg]

/-- **C36** is false of auxiliary degrees of freedom: with two cells and one auxiliary degree of freedom, whose module adds
its residual and its diagonal block, linearizing twice gives twice the residual and the block. -/
theorem C36_auxiliary_violated : ∃ (es : List (Elem ℚ ℚ ℚ)) (aux : List (Upd ℚ ℚ)),
    let once := linearize (fun _ => 1) 1 3 es aux zeroSystem
    let twice := linearize (fun _ => 1) 1 3 es aux once
    once.res 2 = 5 ∧ twice.res 2 = 10 ∧ once.mat 2 2 = 1 ∧ twice.mat 2 2 = 2 :=
  ⟨[{ segment 0 1 7 with numPrimary := 1 }, { segment 1 0 7 with numPrimary := 1 }], [.res 2 5, .mat 2 2 1], by decide +kernel⟩

/-! ### C37 -/

/-- **C37** for the general linearizer with cells as degrees of freedom: the block in row `i` and column `j` is the
derivative of the residual of cell `i` with respect to the primary variables of cell `j`. -/
theorem C37_general {E W C : Type} [NormedAddCommGroup E] [NormedSpace ℝ E] [NormedAddCommGroup W] [NormedSpace ℝ W]
    (w : Laws E W C) (rev : C → C) (h : w.Valid rev) (s : System W (E →L[ℝ] W)) (x : ℕ → E) (i j : ℕ)
    (hi : i < w.numCells) (hj : j < w.numCells) :
    HasFDerivAt
      (fun y => (linearizeDomain (fun _ => (1 : ℝ)) w.dt w.numCells
        ((List.range w.numCells).map (cellElem (w.at (Function.update x j y)))) s).res i)
      ((linearizeDomain (fun _ => (1 : ℝ)) w.dt w.numCells ((List.range w.numCells).map (cellElem (w.at x))) s).mat i j)
      (x j) := by
  have h1 := C37_jacobian w rev h s x i j hi hj
  have e1 : ∀ z : ℕ → E, (linearizeDomain (fun _ => (1 : ℝ)) w.dt w.numCells
      ((List.range w.numCells).map (cellElem (w.at z))) s).res i = residual w s i z := by
    intro z
    have := (C72_linearizers_agree (w.at z) (fun _ => (1 : ℝ)) s s i j hi hj).1
    rw [one_smul] at this
    exact this
  have e2 : (linearizeDomain (fun _ => (1 : ℝ)) w.dt w.numCells
      ((List.range w.numCells).map (cellElem (w.at x))) s).mat i j = jacobian w s x i j := by
    have := (C72_linearizers_agree (w.at x) (fun _ => (1 : ℝ)) s s i j hi hj).2
    rw [one_smul] at this
    exact this
  simp only [e1]
  rw [e2]
  exact h1

/-! ### C40 -/

/-- **C40** For the general linearizer: after every history of linearizations and erasures of the matrix, the next
linearization gives what a linearization without this history gives, in the rows of the primary degrees of freedom. -/
theorem C40_general (scale : ℕ → K) (dt : K) (n : ℕ) (es : List (Elem K V M)) (aux : List (Upd V M)) (ops : List Op)
    (s : System V M) : ∃ r, life (linearize scale dt n es aux) (ops ++ [.linearize]) = some r ∧
      ∀ g ∈ es.flatMap primaries, r.res g = (linearize scale dt n es aux s).res g ∧
        ∀ j, r.mat g j = (linearize scale dt n es aux s).mat g j := by
  have e : life (linearize scale dt n es aux) (ops ++ [.linearize]) = some (linearize scale dt n es aux
      ((life (linearize scale dt n es aux) ops).getD { res := fun _ => 0, mat := fun _ _ => 0 })) := by
    simp only [life, List.foldl_append, List.foldl_cons, List.foldl_nil, lifeStep]
  refine ⟨_, e, fun g hg => ?_⟩
  exact C36_general_partial scale dt n es aux _ s g hg

example : (life (linearize (fun _ => (1 : ℚ)) 1 3 [segment 0 1 7, segment 1 2 8] [])
    [.linearize, .erase, .erase, .linearize]).isSome = true := by decide +kernel

/-! ### C71 -/

/-- **C71** (partial) A single thread collects all constraints.  Missing: several threads (`C71_race_violated`). -/
theorem C71_one_thread_partial (ds : List ℕ) : ∀ m : List ℕ,
    collect { map := m, threads := [{ todo := ds, inserting := none }], race := false } (List.replicate (2 * ds.length) 0) =
      { map := m ++ ds, threads := [{ todo := [], inserting := none }], race := false } := by
  induction ds with
  | nil => intro m; simp [collect]
  | cons d ds ih =>
    intro m
    have e : 2 * (d :: ds).length = 2 * ds.length + 1 + 1 := by simp; omega
    rw [e, List.replicate_succ, List.replicate_succ]
    have := ih (m ++ [d])
    simp only [collect, List.foldl_cons] at this ⊢
    simp only [collectStep, List.getElem?_cons_zero, List.set_cons_zero, List.any_cons, List.any_nil, Option.isSome_none,
      Bool.or_self]
    rw [this, List.append_assoc]
    rfl

/-- **C71** is false with two threads, each of which has one constrained degree of freedom: they can change the map at the
same time. -/
theorem C71_race_violated : ∃ schedule : List ℕ,
    (collect { map := [], threads := [{ todo := [1], inserting := none }, { todo := [2], inserting := none }], race := false }
      schedule).race = true := ⟨[0, 1], by decide⟩

/-! ### C73 -/

/-- **C73** If the matrix is locked while an element is added to it, the result does not depend on the order in which the
threads get hold of the lock. -/
theorem C73_locked (scale : ℕ → K) (dt : K) (n : ℕ) (es es' : List (Elem K V M)) (h : es.Perm es') (s : System V M) :
    linearizeDomain scale dt n es s = linearizeDomain scale dt n es' s := by
  have hmem : ∀ g, g ∈ es.flatMap primaries ↔ g ∈ es'.flatMap primaries := by
    intro g
    simp only [List.mem_flatMap]
    constructor
    · rintro ⟨e, he, hg⟩; exact ⟨e, h.mem_iff.1 he, hg⟩
    · rintro ⟨e, he, hg⟩; exact ⟨e, h.mem_iff.2 he, hg⟩
  have hs : (if es.length = n then resetAll s else resetElems es s) = if es'.length = n then resetAll s else resetElems es' s := by
    rw [h.length_eq]
    congr 1
    simp only [resetElems, resetCells, hmem]
  unfold linearizeDomain
  rw [hs]
  generalize (if es'.length = n then resetAll s else resetElems es' s) = s0
  have hp : (es.flatMap (elementUpdates scale dt)).Perm (es'.flatMap (elementUpdates scale dt)) :=
    h.flatMap_right _
  have h1 : ∀ g, (applyAll s0 (es.flatMap (elementUpdates scale dt))).res g =
      (applyAll s0 (es'.flatMap (elementUpdates scale dt))).res g := by
    intro g; rw [applyAll_res, applyAll_res, (hp.map (resVal g)).sum_eq]
  have h2 : ∀ g j, (applyAll s0 (es.flatMap (elementUpdates scale dt))).mat g j =
      (applyAll s0 (es'.flatMap (elementUpdates scale dt))).mat g j := by
    intro g j; rw [applyAll_mat, applyAll_mat, (hp.map (matVal g j)).sum_eq]
  cases ha : applyAll s0 (es.flatMap (elementUpdates scale dt))
  cases hb : applyAll s0 (es'.flatMap (elementUpdates scale dt))
  rw [ha, hb] at h1 h2
  simp only at h1 h2
  congr 1
  · funext g; exact h1 g
  · funext g j; exact h2 g j

/-- **C73** If the cells are the degrees of freedom, no lock is needed: for every interleaving of the loads and stores of
all elements the result is that of one thread. -/
theorem C73_unlocked {C : Type} (p : Net K V M C) (scale : ℕ → K) (cells : List ℕ) (hn : cells.Nodup) (s : System V M)
    (schedule : List ℕ) (s' : System V M) (ts' : ℕ → Thread V M)
    (hrun : interleave s (fun k => { todo := if k ∈ cells then elementUpdates scale p.dt (cellElem p k) else [], reg := none })
      schedule = (s', ts')) (hdone : ∀ k, (ts' k).todo = []) :
    s' = applyAll s ((cells.map (cellElem p)).flatMap (elementUpdates scale p.dt)) := by
  have hown : ∀ k, ∀ u ∈ elementUpdates scale p.dt (cellElem p k), u.owner = k := by
    intro k u hu
    simp only [elementUpdates, cellElem, List.range_one, List.flatMap_cons, List.flatMap_nil, List.append_nil,
      List.mem_cons, List.mem_map] at hu
    rcases hu with rfl | ⟨d, _, rfl⟩ <;> rfl
  rw [C38_schedule_independent cells hn _ hown s schedule s' ts' hrun hdone, List.flatMap_map]

/-- vertices shared by elements: without the lock an update can get lost, so that the lock is necessary there -/
example : (interleave ({ res := fun _ => 0, mat := fun _ _ => 0 } : System ℤ ℤ)
    (fun k => { todo := if k < 2 then [.res 1 5] else [], reg := none }) [0, 1, 0, 1]).1.res 1 = 5 := by decide

end Verif.FvLin
