import Verif.FvLin.Model
import Verif.Tpfa.Props
import Mathlib.Data.List.Perm.Basic
/-
C34, C36, C40, C71, C72 and C73 for the general linearizer.
-/

set_option autoImplicit false
set_option linter.unusedSectionVars false
set_option linter.unusedSimpArgs false

namespace Verif.FvLin

open Verif.Tpfa

variable {K V M : Type} [Field K] [AddCommGroup V] [AddCommGroup M] [Module K V] [Module K M]

/-! ### The local residual as sums -/

theorem evalFluxes_eq (e : Elem K V M) (focus : ℕ) (r : LocalRes V M) (k : ℕ) :
    evalFluxes e focus r k = r k + (e.faces.map fun f => (if k = f.1 then f.2.2.1 • f.2.2.2 focus else 0) -
      (if k = f.2.1 then f.2.2.1 • f.2.2.2 focus else 0)).sum := by
  unfold evalFluxes
  generalize e.faces = fs
  induction fs generalizing r with
  | nil => simp
  | cons f fs ih =>
    rw [List.foldl_cons, ih, List.map_cons, List.sum_cons, ← add_assoc]
    congr 1
    by_cases h1 : k = f.1
    · by_cases h2 : k = f.2.1
      · simp only [if_pos h1, if_pos h2]; abel
      · simp only [if_pos h1, if_neg h2]; abel
    · by_cases h2 : k = f.2.1
      · simp only [if_neg h1, if_pos h2]; abel
      · simp only [if_neg h1, if_neg h2]; abel

theorem evalVolumeTerms_eq (e : Elem K V M) (dt : K) (focus : ℕ) (r : LocalRes V M) (k : ℕ) :
    evalVolumeTerms e dt focus r k = r k + if k < e.numPrimary then
      (e.volume k / dt) • (focused k focus (e.storage k) - (e.oldStorage k, 0)) - e.volume k • focused k focus (e.source k)
      else 0 := by
  unfold evalVolumeTerms
  have key : ∀ (l : List ℕ), l.Nodup → ∀ r : LocalRes V M, l.foldl (fun r d => fun k => if k = d then
      r k + (e.volume d / dt) • (focused d focus (e.storage d) - (e.oldStorage d, 0)) -
        e.volume d • focused d focus (e.source d) else r k) r k = r k + if k ∈ l then
      (e.volume k / dt) • (focused k focus (e.storage k) - (e.oldStorage k, 0)) - e.volume k • focused k focus (e.source k)
      else 0 := by
    intro l
    induction l with
    | nil => intro _ r; simp
    | cons d l ih =>
      intro hn r
      rw [List.nodup_cons] at hn
      rw [List.foldl_cons, ih hn.2]
      by_cases h : k = d
      · subst h; simp [hn.1]; abel
      · simp [h]
  rw [key _ List.nodup_range]
  simp

theorem evalBoundary_eq (e : Elem K V M) (focus : ℕ) (r : LocalRes V M) (k : ℕ) :
    evalBoundary e focus r k = r k + (e.boundary.map fun b => if k = b.1 then b.2 focus else 0).sum := by
  unfold evalBoundary
  generalize e.boundary = bs
  induction bs generalizing r with
  | nil => simp
  | cons b bs ih =>
    rw [List.foldl_cons, ih, List.map_cons, List.sum_cons, ← add_assoc]
    congr 1
    by_cases h : k = b.1 <;> simp [h]

theorem evalLocal_eq (scale : ℕ → K) (dt : K) (e : Elem K V M) (focus k : ℕ) :
    evalLocal scale dt e focus k = scale (e.dofs.getD k 0) •
      ((e.faces.map fun f => (if k = f.1 then f.2.2.1 • f.2.2.2 focus else 0) -
          (if k = f.2.1 then f.2.2.1 • f.2.2.2 focus else 0)).sum +
        (if k < e.numPrimary then (e.volume k / dt) • (focused k focus (e.storage k) - (e.oldStorage k, 0)) -
          e.volume k • focused k focus (e.source k) else 0) +
        (e.boundary.map fun b => if k = b.1 then b.2 focus else 0).sum) := by
  simp only [evalLocal, evalBoundary_eq, evalVolumeTerms_eq, evalFluxes_eq, zero_add]

/-! ### C72: elements with one primary degree of freedom -/

section
variable {C : Type}

/-- The element which belongs to a cell of a network if cells are the degrees of freedom (`EcfvStencil`): the cell itself
is the only primary degree of freedom, its neighbours follow, and the interior faces lead from it to each of them. -/
def cellElem (p : Net K V M C) (i : ℕ) : Elem K V M where
  dofs := i :: (p.nb i).map Prod.fst
  numPrimary := 1
  faces := (List.range (p.nb i).length).zipWith (fun k e => (0, k + 1, p.area e.2, fun _ => p.flux i e.1 e.2)) (p.nb i)
  volume := fun _ => p.volume i
  storage := fun _ => p.storage i
  oldStorage := fun _ => p.oldStorage i
  source := fun _ => p.source i
  boundary := (p.boundary.filter fun b => b.cell = i ∧ b.none = false).map fun b => (0, fun _ => b.area • b.flux)

theorem sum_zip (l : List (ℕ × C)) (f : ℕ × C → V × M) (k n : ℕ) :
    ((List.range' n l.length).zipWith (fun j e => (if k = 0 then f e else 0) - (if k = j + 1 then f e else 0)) l).sum =
      (if k = 0 then (l.map f).sum else 0) - (if n < k then (l[k - 1 - n]?.map f).getD 0 else 0) := by
  induction l generalizing n with
  | nil => simp
  | cons e l ih =>
    rw [List.length_cons, List.range'_succ, List.zipWith_cons_cons, List.sum_cons, ih (n + 1), List.map_cons, List.sum_cons]
    rcases Nat.lt_trichotomy k (n + 1) with h | h | h
    · have h1 : ¬ k = n + 1 := by omega
      have h2 : ¬ n + 1 < k := by omega
      have h3 : ¬ n < k := by omega
      simp only [h1, h2, h3, if_false, sub_zero]
      split <;> simp
    · subst h; simp
    · have h1 : ¬ k = n + 1 := by omega
      have h2 : n < k := by omega
      have h3 : ¬ k = 0 := by omega
      obtain ⟨m, rfl⟩ : ∃ m, k = n + 2 + m := ⟨k - (n + 2), by omega⟩
      have e1 : n + 2 + m - 1 - n = m + 1 := by omega
      have e2 : n + 2 + m - 1 - (n + 1) = m := by omega
      simp only [h1, h2, h3, h, if_false, if_true, e1, e2, List.getElem?_cons_succ]
      simp

theorem cell_local (p : Net K V M C) (scale : ℕ → K) (i k : ℕ) : evalLocal scale p.dt (cellElem p i) 0 k =
    scale ((i :: (p.nb i).map Prod.fst).getD k 0) • (if k = 0 then
      ((p.nb i).map fun e => p.area e.2 • p.flux i e.1 e.2).sum + ((p.volume i / p.dt) • (p.storage i - (p.oldStorage i, 0)) -
        p.volume i • p.source i) +
        ((p.boundary.filter fun b => b.cell = i ∧ b.none = false).map fun b => b.area • b.flux).sum
      else - (((p.nb i)[k - 1]?.map fun e => p.area e.2 • p.flux i e.1 e.2).getD 0)) := by
  rw [evalLocal_eq]
  congr 1
  have h1 : ((cellElem p i).faces.map fun f => (if k = f.1 then f.2.2.1 • f.2.2.2 0 else 0) -
      (if k = f.2.1 then f.2.2.1 • f.2.2.2 0 else 0)).sum =
      (if k = 0 then ((p.nb i).map fun e => p.area e.2 • p.flux i e.1 e.2).sum else 0) -
        (if 0 < k then ((p.nb i)[k - 1]?.map fun e => p.area e.2 • p.flux i e.1 e.2).getD 0 else 0) := by
    have := sum_zip (p.nb i) (fun e => p.area e.2 • p.flux i e.1 e.2) k 0
    rw [← List.range_eq_range'] at this
    rw [Nat.sub_zero] at this
    rw [← this]
    simp only [cellElem, List.map_zipWith]
  rw [h1]
  by_cases hk : k = 0
  · subst hk
    simp [cellElem, focused, Function.comp_def]
  · have hk' : 0 < k := by omega
    have h3 : ¬ k < 1 := by omega
    simp [cellElem, hk, hk', h3, Function.comp_def]

theorem sum_boundary_cell (p : Net K V M C) (i : ℕ) :
    ((p.boundary.filter fun b => b.cell = i ∧ b.none = false).map fun b => b.area • b.flux).sum =
      (boundaryRes p i, boundaryDiag p i) := by
  unfold boundaryRes boundaryDiag
  induction p.boundary with
  | nil => rfl
  | cons b bs ih =>
    by_cases h : b.cell = i ∧ b.none = false
    · rw [List.filter_cons_of_pos (by simpa using h), List.map_cons, List.sum_cons, ih]
      have h' : i = b.cell ∧ b.none = false := ⟨h.1.symm, h.2⟩
      simp only [List.map_cons, List.sum_cons, if_pos h']
      rfl
    · rw [List.filter_cons_of_neg (by simpa using h), ih]
      have h' : ¬ (i = b.cell ∧ b.none = false) := fun x => h ⟨x.1.symm, x.2⟩
      simp only [List.map_cons, List.sum_cons, if_neg h', zero_add]

theorem sum_pair (l : List (V × M)) : l.sum = ((l.map Prod.fst).sum, (l.map Prod.snd).sum) := by
  induction l with
  | nil => rfl
  | cons a l ih => rw [List.sum_cons, ih]; rfl

theorem cell_updates_res (p : Net K V M C) (scale : ℕ → K) (i k : ℕ) :
    ((elementUpdates scale p.dt (cellElem p i)).map (resVal k)).sum =
      if k = i then scale i • (cellRes p i + boundaryRes p i) else 0 := by
  have h0 : (cellElem p i).numPrimary = 1 := rfl
  have hm : ∀ (l : List ℕ) (f : ℕ → Upd V M), (∀ d, ∃ a b m, f d = .mat a b m) → ((l.map f).map (resVal k)).sum = 0 := by
    intro l f hf
    apply List.sum_eq_zero
    intro x hx
    simp only [List.mem_map, exists_exists_and_eq_and] at hx
    obtain ⟨d, _, rfl⟩ := hx
    obtain ⟨a, b, m, h⟩ := hf d
    rw [h]; rfl
  simp only [elementUpdates, h0, List.range_one, List.flatMap_cons, List.flatMap_nil, List.append_nil, List.map_cons,
    List.sum_cons]
  rw [hm _ _ (fun d => ⟨_, _, _, rfl⟩), add_zero]
  have hd : (cellElem p i).dofs.getD 0 0 = i := rfl
  rw [hd, cell_local]
  simp only [resVal, if_true, List.getD_cons_zero]
  by_cases h : k = i
  · rw [if_pos h, if_pos h, sum_boundary_cell, sum_pair]
    simp only [cellRes, Prod.smul_fst, Prod.fst_add, Prod.fst_sub, List.map_map, Function.comp_def]
    congr 1
    abel
  · rw [if_neg h, if_neg h]

theorem sum_getElem (l : List (ℕ × C)) (k : ℕ) (f : ℕ × C → M) (g : ℕ → K) :
    ((List.range l.length).map fun d => if k = (l.map Prod.fst).getD d 0 then
      g ((l.map Prod.fst).getD d 0) • (-((l[d]?.map f).getD 0)) else 0).sum =
      (l.map fun e => if k = e.1 then - (g k • f e) else 0).sum := by
  induction l with
  | nil => simp
  | cons e l ih =>
    rw [List.length_cons, List.range_succ_eq_map, List.map_cons, List.sum_cons, List.map_map,
      List.map_cons (f := fun e : ℕ × C => if k = e.1 then - (g k • f e) else 0), List.sum_cons, ← ih]
    congr 1
    by_cases h : k = e.1
    · subst h; simp
    · simp [h]

theorem cell_updates_mat (p : Net K V M C) (scale : ℕ → K) (i k j : ℕ) :
    ((elementUpdates scale p.dt (cellElem p i)).map (matVal k j)).sum =
      if j = i then scale k • ((if k = i then cellDiag p i + boundaryDiag p i else 0) + offDiag p k i) else 0 := by
  have h0 : (cellElem p i).numPrimary = 1 := rfl
  have hd : (cellElem p i).dofs.getD 0 0 = i := rfl
  have hl : (cellElem p i).dofs = i :: (p.nb i).map Prod.fst := rfl
  simp only [elementUpdates, h0, List.range_one, List.flatMap_cons, List.flatMap_nil, List.append_nil, List.map_cons,
    List.sum_cons, hd, List.map_map]
  simp only [matVal, zero_add, Function.comp_def]
  by_cases hj : j = i
  · subst hj
    simp only [and_true, if_true]
    rw [hl, List.length_cons, List.length_map, List.range_succ_eq_map, List.map_cons, List.sum_cons, List.map_map]
    have e1 : (if k = (j :: (p.nb j).map Prod.fst).getD 0 0 then (evalLocal scale p.dt (cellElem p j) 0 0).2 else 0) =
        scale k • (if k = j then cellDiag p j + boundaryDiag p j else 0) := by
      rw [cell_local]
      simp only [List.getD_cons_zero, if_true]
      by_cases h : k = j
      · subst h
        simp only [if_true]
        rw [sum_boundary_cell, sum_pair]
        simp only [cellDiag, Prod.smul_snd, Prod.snd_add, Prod.snd_sub, List.map_map, Function.comp_def, sub_zero]
        congr 1
        abel
      · simp [h]
    rw [e1, smul_add]
    congr 1
    have e2 := sum_getElem (p.nb j) k (fun e => (p.area e.2 • p.flux j e.1 e.2).2) scale
    have e3 : ((List.range (p.nb j).length).map ((fun x => if k = (j :: (p.nb j).map Prod.fst).getD x 0 then
        (evalLocal scale p.dt (cellElem p j) 0 x).2 else 0) ∘ Nat.succ)).sum =
        ((List.range (p.nb j).length).map fun d => if k = ((p.nb j).map Prod.fst).getD d 0 then
          scale (((p.nb j).map Prod.fst).getD d 0) • (-(((p.nb j)[d]?.map (fun e => (p.area e.2 • p.flux j e.1 e.2).2)).getD 0)) else 0).sum := by
      congr 1
      apply List.map_congr_left
      intro d _
      simp only [Function.comp_def, Nat.succ_eq_add_one, List.getD_cons_succ]
      rw [cell_local]
      simp only [List.getD_cons_succ, Nat.add_sub_cancel, Nat.succ_ne_zero, if_false, Nat.add_eq_zero_iff, one_ne_zero,
        and_false]
      congr 1
      rw [Prod.smul_snd, Prod.snd_neg]
      cases h : (p.nb j)[d]? <;> simp
    rw [e3, e2]
    unfold offDiag
    rw [List.smul_sum, List.map_map]
    congr 1
    apply List.map_congr_left
    intro e _
    by_cases h : k = e.1 <;> simp [h, Prod.smul_snd]
  · simp [hj]

/-- **C72** If the cells are the degrees of freedom, the general linearizer and the two-point flux linearizer assemble the
same linear system, for every network of cells, every flux, storage, source and boundary law and whatever was assembled
before; for volumetric residuals each row is divided by the volume of its cell. -/
theorem C72_linearizers_agree (p : Net K V M C) (scale : ℕ → K) (s s' : System V M) (i j : ℕ) (hi : i < p.numCells)
    (hj : j < p.numCells) :
    (linearizeDomain scale p.dt p.numCells ((List.range p.numCells).map (cellElem p)) s).res i =
        scale i • (linearizeFull p s').res i ∧
      (linearizeDomain scale p.dt p.numCells ((List.range p.numCells).map (cellElem p)) s).mat i j =
        scale i • (linearizeFull p s').mat i j := by
  have hr : (List.range p.numCells).Nodup := List.nodup_range
  rw [linearizeFull_res p s' i hi, linearizeFull_mat p s' i j hj, linearizeDomain, if_pos (by simp)]
  constructor
  · rw [applyAll_res, sum_flatMap, List.map_map]
    simp only [Function.comp_def, cell_updates_res]
    rw [sum_ite_mem _ hr i (fun k => scale k • (cellRes p k + boundaryRes p k)), if_pos (List.mem_range.2 hi)]
    simp [resetAll]
  · rw [applyAll_mat, sum_flatMap, List.map_map]
    simp only [Function.comp_def, cell_updates_mat]
    rw [sum_ite_mem _ hr j (fun k => scale i • ((if i = k then cellDiag p k + boundaryDiag p k else 0) + offDiag p i k)),
      if_pos (List.mem_range.2 hj)]
    simp [resetAll]

example : (linearizeDomain (fun i => 1 / ((i : ℚ) + 1)) threeCells.dt 3 ((List.range 3).map (cellElem threeCells)) zeroSystem).res 2
    = 47 / 3 := by decide +kernel

/-- **C34** for the general linearizer with cells as degrees of freedom and residuals which are not volumetric. -/
theorem C34_cell_centred [CharZero K] (p : Net K V M C) (rev : C → C) (h : Network p rev) (s : System V M) :
    ∑ i ∈ Finset.range p.numCells,
        (linearizeDomain (fun _ => 1) p.dt p.numCells ((List.range p.numCells).map (cellElem p)) s).res i =
      ∑ i ∈ Finset.range p.numCells, ((p.volume i / p.dt) • ((p.storage i).1 - p.oldStorage i) - p.volume i • (p.source i).1)
        + ((p.boundary.filter fun b => !b.none).map fun b => b.area • b.flux.1).sum := by
  rw [← C34_tpfa p rev h s]
  refine Finset.sum_congr rfl fun i hi => ?_
  rw [(C72_linearizers_agree p (fun _ => 1) s s i i (Finset.mem_range.1 hi) (Finset.mem_range.1 hi)).1, one_smul]

end

end Verif.FvLin
