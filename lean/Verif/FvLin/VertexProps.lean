import Verif.FvLin.Props2
/-
C37 for elements with several primary degrees of freedom (vertex-centred finite volumes).
-/

set_option autoImplicit false
set_option linter.unusedSectionVars false
set_option linter.unusedSimpArgs false

namespace Verif.FvLin

open Verif.Tpfa

/-- The constitutive laws on an element all of whose degrees of freedom are primary.  The fluxes through interior faces and boundary
segments may depend on the primary variables of all degrees of freedom of the element; each comes with the derivatives, with respect
to each of them, which automatic differentiation provides if the focus is on it. -/
structure ElemLaws (E V : Type) [NormedAddCommGroup E] [NormedSpace ℝ E] [NormedAddCommGroup V] [NormedSpace ℝ V] where
  dofs : List ℕ
  faces : List (ℕ × ℕ × ℝ × ((ℕ → E) → V) × (ℕ → (ℕ → E) → (E →L[ℝ] V)))
  volume : ℕ → ℝ
  storage : ℕ → E → V
  dstorage : ℕ → E → (E →L[ℝ] V)
  oldStorage : ℕ → V
  source : ℕ → E → V
  dsource : ℕ → E → (E →L[ℝ] V)
  boundary : List (ℕ × ((ℕ → E) → V) × (ℕ → (ℕ → E) → (E →L[ℝ] V)))

variable {E V : Type} [NormedAddCommGroup E] [NormedSpace ℝ E] [NormedAddCommGroup V] [NormedSpace ℝ V]

/-- What the linearizer sees of an element if the primary variables of its degrees of freedom are `u`. -/
def ElemLaws.loc (e : ElemLaws E V) (u : ℕ → E) : Elem ℝ V (E →L[ℝ] V) where
  dofs := e.dofs
  numPrimary := e.dofs.length
  faces := e.faces.map fun f => (f.1, f.2.1, f.2.2.1, fun focus => (f.2.2.2.1 u, f.2.2.2.2 focus u))
  volume := e.volume
  storage := fun k => (e.storage k (u k), e.dstorage k (u k))
  oldStorage := e.oldStorage
  source := fun k => (e.source k (u k), e.dsource k (u k))
  boundary := e.boundary.map fun b => (b.1, fun focus => (b.2.1 u, b.2.2 focus u))

/-- The primary variables of the element's degrees of freedom if those of the whole grid are `x` -/
def ElemLaws.vars (e : ElemLaws E V) (x : ℕ → E) (k : ℕ) : E := if k < e.dofs.length then x (e.dofs.getD k 0) else 0

/-- The element if the primary variables of the grid are `x` -/
def ElemLaws.at (e : ElemLaws E V) (x : ℕ → E) : Elem ℝ V (E →L[ℝ] V) := e.loc (e.vars x)

/-- The laws have the given derivatives, and no degree of freedom occurs twice. -/
structure ElemLaws.Valid (e : ElemLaws E V) : Prop where
  nodup : e.dofs.Nodup
  dflux : ∀ f ∈ e.faces, ∀ u k, k < e.dofs.length → HasFDerivAt (fun a => f.2.2.2.1 (Function.update u k a)) (f.2.2.2.2 k u) (u k)
  dboundary : ∀ b ∈ e.boundary, ∀ u k, k < e.dofs.length → HasFDerivAt (fun a => b.2.1 (Function.update u k a)) (b.2.2 k u) (u k)
  dstorage : ∀ k a, HasFDerivAt (e.storage k) (e.dstorage k a) a
  dsource : ∀ k a, HasFDerivAt (e.source k) (e.dsource k a) a

theorem list_sum_snd {A W M : Type} [AddCommGroup W] [AddCommGroup M] (l : List A) (f : A → W × M) :
    ((l.map f).sum).2 = (l.map fun a => (f a).2).sum := by
  induction l with
  | nil => rfl
  | cons a l ih => simp only [List.map_cons, List.sum_cons, Prod.snd_add, ih]

theorem loc_val (scale : ℕ → ℝ) (dt : ℝ) (e : ElemLaws E V) (u : ℕ → E) (focus k : ℕ) :
    (evalLocal scale dt (e.loc u) focus k).1 = scale (e.dofs.getD k 0) •
      ((e.faces.map fun f => (if k = f.1 then f.2.2.1 • f.2.2.2.1 u else 0) - (if k = f.2.1 then f.2.2.1 • f.2.2.2.1 u else 0)).sum +
        (if k < e.dofs.length then (e.volume k / dt) • (e.storage k (u k) - e.oldStorage k) - e.volume k • e.source k (u k) else 0) +
        (e.boundary.map fun b => if k = b.1 then b.2.1 u else 0).sum) := by
  have hvol : (if k < (e.loc u).numPrimary then ((e.loc u).volume k / dt) • (focused k focus ((e.loc u).storage k) -
      ((e.loc u).oldStorage k, 0)) - (e.loc u).volume k • focused k focus ((e.loc u).source k) else (0 : V × (E →L[ℝ] V))).1 =
      if k < e.dofs.length then (e.volume k / dt) • (e.storage k (u k) - e.oldStorage k) - e.volume k • e.source k (u k) else 0 := by
    by_cases h : k < e.dofs.length
    · rw [if_pos h, if_pos (show k < (e.loc u).numPrimary from h)]
      unfold focused
      by_cases hk : k = focus <;> simp [hk, ElemLaws.loc]
    · rw [if_neg h, if_neg (show ¬k < (e.loc u).numPrimary from h)]; rfl
  rw [evalLocal_eq, Prod.smul_fst, Prod.fst_add, Prod.fst_add, hvol]
  simp only [ElemLaws.loc, List.map_map, list_sum_fst]
  congr 2
  · congr 1
    · congr 1
      apply List.map_congr_left
      intro f _
      simp only [Function.comp_def, apply_ite Prod.fst, Prod.fst_sub, Prod.smul_fst, Prod.fst_zero]
  · congr 1
    apply List.map_congr_left
    intro f _
    simp only [Function.comp_def, apply_ite Prod.fst, Prod.fst_zero]

theorem loc_der (scale : ℕ → ℝ) (dt : ℝ) (e : ElemLaws E V) (u : ℕ → E) (focus k : ℕ) :
    (evalLocal scale dt (e.loc u) focus k).2 = scale (e.dofs.getD k 0) •
      ((e.faces.map fun f => (if k = f.1 then f.2.2.1 • f.2.2.2.2 focus u else 0) - (if k = f.2.1 then f.2.2.1 • f.2.2.2.2 focus u else 0)).sum +
        (if k < e.dofs.length ∧ k = focus then (e.volume k / dt) • (e.dstorage k (u k)) - e.volume k • e.dsource k (u k) else 0) +
        (e.boundary.map fun b => if k = b.1 then b.2.2 focus u else 0).sum) := by
  have hvol : (if k < (e.loc u).numPrimary then ((e.loc u).volume k / dt) • (focused k focus ((e.loc u).storage k) -
      ((e.loc u).oldStorage k, 0)) - (e.loc u).volume k • focused k focus ((e.loc u).source k) else (0 : V × (E →L[ℝ] V))).2 =
      if k < e.dofs.length ∧ k = focus then (e.volume k / dt) • (e.dstorage k (u k)) - e.volume k • e.dsource k (u k) else 0 := by
    by_cases h : k < e.dofs.length
    · rw [if_pos (show k < (e.loc u).numPrimary from h)]
      unfold focused
      by_cases hk : k = focus
      · subst hk; simp [ElemLaws.loc, h]
      · simp [hk, ElemLaws.loc]
    · rw [if_neg (show ¬k < (e.loc u).numPrimary from h), if_neg (fun h' => h h'.1)]; rfl
  rw [evalLocal_eq, Prod.smul_snd, Prod.snd_add, Prod.snd_add, hvol]
  simp only [ElemLaws.loc, List.map_map, list_sum_snd]
  congr 2
  · congr 1
    · congr 1
      apply List.map_congr_left
      intro f _
      simp only [Function.comp_def, apply_ite Prod.snd, Prod.snd_sub, Prod.smul_snd, Prod.snd_zero]
  · congr 1
    apply List.map_congr_left
    intro f _
    simp only [Function.comp_def, apply_ite Prod.snd, Prod.snd_zero]

/-- What automatic differentiation gives for a local residual is its derivative with respect to the degree of freedom in focus. -/
theorem loc_hasFDerivAt (scale : ℕ → ℝ) (dt : ℝ) (e : ElemLaws E V) (h : e.Valid) (u : ℕ → E) (q k : ℕ) (hq : q < e.dofs.length) :
    HasFDerivAt (fun a => (evalLocal scale dt (e.loc (Function.update u q a)) k k).1) (evalLocal scale dt (e.loc u) q k).2 (u q) := by
  simp only [loc_val]
  rw [loc_der]
  apply HasFDerivAt.const_smul
  refine HasFDerivAt.add (HasFDerivAt.add ?_ ?_) ?_
  · refine hasFDerivAt_list_sum e.faces (fun f y => (if k = f.1 then f.2.2.1 • f.2.2.2.1 (Function.update u q y) else 0) -
      (if k = f.2.1 then f.2.2.1 • f.2.2.2.1 (Function.update u q y) else 0))
      (fun f => (if k = f.1 then f.2.2.1 • f.2.2.2.2 q u else 0) - (if k = f.2.1 then f.2.2.1 • f.2.2.2.2 q u else 0)) (u q) ?_
    intro f hf
    have hd := (h.dflux f hf u q hq).const_smul f.2.2.1
    refine HasFDerivAt.sub ?_ ?_
    · by_cases h1 : k = f.1
      · simp only [if_pos h1]; exact hd
      · simp only [if_neg h1]; exact hasFDerivAt_const _ _
    · by_cases h1 : k = f.2.1
      · simp only [if_pos h1]; exact hd
      · simp only [if_neg h1]; exact hasFDerivAt_const _ _
  · by_cases hk : k < e.dofs.length
    · simp only [if_pos hk]
      by_cases hkq : k = q
      · subst hkq
        rw [if_pos ⟨hk, rfl⟩]
        simp only [Function.update_self]
        exact (((h.dstorage k (u k)).sub_const _).const_smul _).sub ((h.dsource k (u k)).const_smul _)
      · rw [if_neg (fun h' => hkq h'.2)]
        simp only [Function.update_of_ne hkq]
        exact hasFDerivAt_const _ _
    · simp only [if_neg hk]
      rw [if_neg (fun h' => hk h'.1)]
      exact hasFDerivAt_const _ _
  · refine hasFDerivAt_list_sum e.boundary (fun b y => if k = b.1 then b.2.1 (Function.update u q y) else 0)
      (fun b => if k = b.1 then b.2.2 q u else 0) (u q) ?_
    intro b hb
    by_cases h1 : k = b.1
    · simp only [if_pos h1]; exact h.dboundary b hb u q hq
    · simp only [if_neg h1]; exact hasFDerivAt_const _ _

theorem updates_mat {K W M : Type} [Field K] [AddCommGroup W] [AddCommGroup M] [Module K W] [Module K M] (scale : ℕ → K) (dt : K)
    (e : Elem K W M) (i j : ℕ) :
    ((elementUpdates scale dt e).map (matVal i j)).sum =
      ((List.range e.numPrimary).map fun p => if j = e.dofs.getD p 0 then
        ((List.range e.dofs.length).map fun d => if i = e.dofs.getD d 0 then (evalLocal scale dt e p d).2 else 0).sum else 0).sum := by
  rw [elementUpdates, sum_flatMap]
  congr 1
  apply List.map_congr_left
  intro p _
  rw [List.map_cons, List.sum_cons, List.map_map]
  have h0 : matVal i j (Upd.res (e.dofs.getD p 0) (evalLocal scale dt e p p).1 : Upd W M) = 0 := rfl
  rw [h0, zero_add]
  by_cases hj : j = e.dofs.getD p 0
  · rw [if_pos hj]
    congr 1
    apply List.map_congr_left
    intro d _
    simp only [Function.comp_def, matVal, hj, and_true]
  · rw [if_neg hj]
    apply List.sum_eq_zero
    intro x hx
    obtain ⟨d, -, rfl⟩ := List.mem_map.1 hx
    simp only [Function.comp_def, matVal, hj, and_false, if_false]

theorem vars_update (e : ElemLaws E V) (hn : e.dofs.Nodup) (x : ℕ → E) (q : ℕ) (hq : q < e.dofs.length) (y : E) :
    e.vars (Function.update x (e.dofs.getD q 0) y) = Function.update (e.vars x) q y := by
  funext k
  unfold ElemLaws.vars
  by_cases hk : k < e.dofs.length
  · rw [if_pos hk]
    by_cases hkq : k = q
    · subst hkq; simp
    · have : e.dofs.getD k 0 ≠ e.dofs.getD q 0 := by
        intro h
        have e1 : e.dofs.getD k 0 = e.dofs[k] := by simp [List.getD, hk]
        have e2 : e.dofs.getD q 0 = e.dofs[q] := by simp [List.getD, hq]
        rw [e1, e2] at h
        exact hkq ((List.Nodup.getElem_inj_iff hn).1 h)
      rw [Function.update_of_ne this, Function.update_of_ne hkq, if_pos hk]
  · have hkq : k ≠ q := fun h => hk (h ▸ hq)
    rw [if_neg hk, Function.update_of_ne hkq, if_neg hk]

theorem vars_update_other (e : ElemLaws E V) (x : ℕ → E) (j : ℕ) (hj : ∀ k < e.dofs.length, j ≠ e.dofs.getD k 0) (y : E) :
    e.vars (Function.update x j y) = e.vars x := by
  funext k
  unfold ElemLaws.vars
  by_cases hk : k < e.dofs.length
  · rw [if_pos hk, if_pos hk, Function.update_of_ne (hj k hk).symm]
  · rw [if_neg hk, if_neg hk]

theorem elem_hasFDerivAt (scale : ℕ → ℝ) (dt : ℝ) (e : ElemLaws E V) (h : e.Valid) (x : ℕ → E) (i j : ℕ) :
    HasFDerivAt (fun y => ((elementUpdates scale dt (e.at (Function.update x j y))).map (resVal i)).sum)
      ((elementUpdates scale dt (e.at x)).map (matVal i j)).sum (x j) := by
  simp only [updates_res, updates_mat]
  change HasFDerivAt (fun y => ((List.range e.dofs.length).map fun p => if i = e.dofs.getD p 0 then
      (evalLocal scale dt (e.loc (e.vars (Function.update x j y))) p p).1 else 0).sum)
    ((List.range e.dofs.length).map fun p => if j = e.dofs.getD p 0 then
      ((List.range e.dofs.length).map fun d => if i = e.dofs.getD d 0 then (evalLocal scale dt (e.loc (e.vars x)) p d).2 else 0).sum
      else 0).sum (x j)
  by_cases hj : ∃ q < e.dofs.length, j = e.dofs.getD q 0
  · obtain ⟨q, hq, rfl⟩ := hj
    simp only [vars_update e h.nodup x q hq]
    have e1 : ((List.range e.dofs.length).map fun p => if e.dofs.getD q 0 = e.dofs.getD p 0 then
        ((List.range e.dofs.length).map fun d => if i = e.dofs.getD d 0 then (evalLocal scale dt (e.loc (e.vars x)) p d).2 else 0).sum
        else 0).sum =
        ((List.range e.dofs.length).map fun d => if i = e.dofs.getD d 0 then (evalLocal scale dt (e.loc (e.vars x)) q d).2 else 0).sum := by
      rw [← sum_indicator e.dofs.length q hq
        ((List.range e.dofs.length).map fun d => if i = e.dofs.getD d 0 then (evalLocal scale dt (e.loc (e.vars x)) q d).2 else 0).sum]
      congr 1
      apply List.map_congr_left
      intro p hp
      have hp := List.mem_range.1 hp
      by_cases hpq : p = q
      · subst hpq; simp
      · have : e.dofs.getD q 0 ≠ e.dofs.getD p 0 := by
          intro h'
          have e1 : e.dofs.getD p 0 = e.dofs[p] := by simp [List.getD, hp]
          have e2 : e.dofs.getD q 0 = e.dofs[q] := by simp [List.getD, hq]
          rw [e1, e2] at h'
          exact hpq ((List.Nodup.getElem_inj_iff h.nodup).1 h'.symm)
        rw [if_neg this, if_neg hpq]
    rw [e1]
    have hx : x (e.dofs.getD q 0) = e.vars x q := by unfold ElemLaws.vars; rw [if_pos hq]
    rw [hx]
    refine hasFDerivAt_list_sum (List.range e.dofs.length) (fun p y => if i = e.dofs.getD p 0 then
      (evalLocal scale dt (e.loc (Function.update (e.vars x) q y)) p p).1 else 0)
      (fun d => if i = e.dofs.getD d 0 then (evalLocal scale dt (e.loc (e.vars x)) q d).2 else 0) _ ?_
    intro p _
    by_cases hi : i = e.dofs.getD p 0
    · simp only [if_pos hi]; exact loc_hasFDerivAt scale dt e h (e.vars x) q p hq
    · simp only [if_neg hi]; exact hasFDerivAt_const _ _
  · have hj' : ∀ k < e.dofs.length, j ≠ e.dofs.getD k 0 := fun k hk h' => hj ⟨k, hk, h'⟩
    simp only [vars_update_other e x j hj']
    have e1 : ((List.range e.dofs.length).map fun p => if j = e.dofs.getD p 0 then
        ((List.range e.dofs.length).map fun d => if i = e.dofs.getD d 0 then (evalLocal scale dt (e.loc (e.vars x)) p d).2 else 0).sum
        else 0).sum = 0 := by
      apply List.sum_eq_zero
      intro y hy
      obtain ⟨p, hp, rfl⟩ := List.mem_map.1 hy
      rw [if_neg (hj' p (List.mem_range.1 hp))]
    rw [e1]
    exact hasFDerivAt_const _ _

/-- **C37** for the general linearizer with elements all of whose degrees of freedom are primary: for all differentiable storage,
source, flux and boundary laws, where fluxes may depend on all degrees of freedom of the element, all primary variables, all
scalings of the equations and whatever the linear system contained before, the block in row `i` and column `j` of the assembled
matrix is the derivative of the assembled residual `i` with respect to the primary variables of the degree of freedom `j`. -/
theorem C37_vertex_centred (scale : ℕ → ℝ) (dt : ℝ) (n : ℕ) (es : List (ElemLaws E V)) (h : ∀ e ∈ es, e.Valid)
    (s : System V (E →L[ℝ] V)) (x : ℕ → E) (i j : ℕ) (hi : ∃ e ∈ es, i ∈ e.dofs) :
    HasFDerivAt (fun y => (linearizeDomain scale dt n (es.map fun e => e.at (Function.update x j y)) s).res i)
      ((linearizeDomain scale dt n (es.map fun e => e.at x) s).mat i j) (x j) := by
  have hp : ∀ z : ℕ → E, i ∈ (es.map fun e => e.at z).flatMap primaries := by
    intro z
    obtain ⟨e, he, hie⟩ := hi
    refine List.mem_flatMap.2 ⟨e.at z, List.mem_map.2 ⟨e, he, rfl⟩, ?_⟩
    obtain ⟨k, hk, rfl⟩ := List.getElem_of_mem hie
    refine List.mem_map.2 ⟨k, List.mem_range.2 hk, ?_⟩
    change e.dofs.getD k 0 = e.dofs[k]
    simp [List.getD, hk]
  have hres : ∀ z : ℕ → E, (linearizeDomain scale dt n (es.map fun e => e.at z) s).res i =
      (es.map fun e => ((elementUpdates scale dt (e.at z)).map (resVal i)).sum).sum := by
    intro z
    rw [linearizeDomain, applyAll_res, sum_flatMap, List.map_map]
    have : (if (es.map fun e => e.at z).length = n then resetAll s else resetElems (es.map fun e => e.at z) s).res i = 0 := by
      split
      · rfl
      · simp only [resetElems, resetCells]
        rw [if_pos (hp z)]
    rw [this, zero_add]
    rfl
  have hmat : (linearizeDomain scale dt n (es.map fun e => e.at x) s).mat i j =
      (es.map fun e => ((elementUpdates scale dt (e.at x)).map (matVal i j)).sum).sum := by
    rw [linearizeDomain, applyAll_mat, sum_flatMap, List.map_map]
    have : (if (es.map fun e => e.at x).length = n then resetAll s else resetElems (es.map fun e => e.at x) s).mat i j = 0 := by
      split
      · rfl
      · simp only [resetElems, resetCells]
        rw [if_pos (hp x)]
    rw [this, zero_add]
    rfl
  simp only [hres]
  rw [hmat]
  exact hasFDerivAt_list_sum es (fun e y => ((elementUpdates scale dt (e.at (Function.update x j y))).map (resVal i)).sum)
    (fun e => ((elementUpdates scale dt (e.at x)).map (matVal i j)).sum) (x j) fun e he => elem_hasFDerivAt scale dt e (h e he) x i j

/-- A line segment with two vertices: a nonlinear flux which depends on both, nonlinear storage, and a boundary segment whose flux
depends on the other vertex as well. -/
noncomputable def nonlinearSegment (a b : ℕ) : ElemLaws ℝ ℝ where
  dofs := [a, b]
  faces := [(0, 1, 3, fun u => u 0 * u 0 - u 1, fun k u => if k = 0 then u 0 • ContinuousLinearMap.id ℝ ℝ + u 0 • ContinuousLinearMap.id ℝ ℝ
    else if k = 1 then -ContinuousLinearMap.id ℝ ℝ else 0)]
  volume := fun _ => 2
  storage := fun _ x => x * x
  dstorage := fun _ x => x • ContinuousLinearMap.id ℝ ℝ + x • ContinuousLinearMap.id ℝ ℝ
  oldStorage := fun _ => 1
  source := fun _ _ => 4
  dsource := fun _ _ => 0
  boundary := [(1, fun u => u 0, fun k _ => if k = 0 then ContinuousLinearMap.id ℝ ℝ else 0)]

theorem nonlinearSegment_valid (a b : ℕ) (h : a ≠ b) : (nonlinearSegment a b).Valid where
  nodup := by simp [nonlinearSegment, h]
  dflux := by
    intro f hf u k hk
    simp only [nonlinearSegment, List.mem_singleton] at hf
    subst hf
    have : k = 0 ∨ k = 1 := by simp only [nonlinearSegment, List.length_cons, List.length_nil] at hk; omega
    rcases this with rfl | rfl
    · simp only [Function.update_self, if_true]
      exact ((hasFDerivAt_id (u 0)).mul (hasFDerivAt_id (𝕜 := ℝ) (u 0))).sub_const (u 1)
    · simp only [Function.update_self, if_true]
      exact (hasFDerivAt_id (𝕜 := ℝ) (u 1)).const_sub (u 0 * u 0)
  dboundary := by
    intro f hf u k hk
    simp only [nonlinearSegment, List.mem_singleton] at hf
    subst hf
    have : k = 0 ∨ k = 1 := by simp only [nonlinearSegment, List.length_cons, List.length_nil] at hk; omega
    rcases this with rfl | rfl
    · simp only [Function.update_self, if_true]
      exact hasFDerivAt_id (u 0)
    · exact hasFDerivAt_const (u 0) (u 1)
  dstorage := fun _ x => (hasFDerivAt_id x).mul (hasFDerivAt_id (𝕜 := ℝ) x)
  dsource := fun _ x => hasFDerivAt_const _ x

/-- Two of them with a common vertex: the hypotheses of C37 are met. -/
example (s : System ℝ (ℝ →L[ℝ] ℝ)) (x : ℕ → ℝ) (j : ℕ) :
    HasFDerivAt (fun y => (linearizeDomain (fun _ => 1) 5 3
        ([nonlinearSegment 0 1, nonlinearSegment 1 2].map fun e => e.at (Function.update x j y)) s).res 1)
      ((linearizeDomain (fun _ => 1) 5 3 ([nonlinearSegment 0 1, nonlinearSegment 1 2].map fun e => e.at x) s).mat 1 j) (x j) :=
  C37_vertex_centred _ _ _ _ (by
    intro e he
    simp only [List.mem_cons, List.not_mem_nil, or_false] at he
    rcases he with rfl | rfl
    · exact nonlinearSegment_valid 0 1 (by decide)
    · exact nonlinearSegment_valid 1 2 (by decide)) s x 1 j ⟨_, List.mem_cons_self, by simp [nonlinearSegment]⟩

end Verif.FvLin
