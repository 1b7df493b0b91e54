import Verif.Tpfa.Props
import Mathlib.Analysis.Calculus.FDeriv.Add
import Mathlib.Analysis.Calculus.FDeriv.Mul
/-
C37: the matrix of the two-point flux linearizer is the derivative of its residual.
-/

set_option autoImplicit false
set_option linter.unusedSectionVars false
set_option linter.unusedSimpArgs false

namespace Verif.Tpfa

variable {E V C : Type} [NormedAddCommGroup E] [NormedSpace ℝ E] [NormedAddCommGroup V] [NormedSpace ℝ V]

/-- Constitutive laws, as functions of the primary variables in `E`, with the derivatives which automatic differentiation
provides. -/
structure Laws (E V C : Type) [NormedAddCommGroup E] [NormedSpace ℝ E] [NormedAddCommGroup V] [NormedSpace ℝ V] where
  numCells : ℕ
  nb : ℕ → List (ℕ × C)
  area : C → ℝ
  /-- flux through a connection from the first to the second cell, and its derivative with respect to the first -/
  flux : C → E → E → V
  dflux : C → E → E → (E →L[ℝ] V)
  volume : ℕ → ℝ
  dt : ℝ
  storage : ℕ → E → V
  dstorage : ℕ → E → (E →L[ℝ] V)
  oldStorage : ℕ → V
  source : ℕ → E → V
  dsource : ℕ → E → (E →L[ℝ] V)
  /-- boundary faces: cell, area, flux and its derivative -/
  boundary : List (ℕ × ℝ × (E → V) × (E → (E →L[ℝ] V)))

/-- What the linearizer works with if the primary variables are `x`. -/
def Laws.at (w : Laws E V C) (x : ℕ → E) : Net ℝ V (E →L[ℝ] V) C where
  numCells := w.numCells
  nb := w.nb
  area := w.area
  flux := fun i j c => (w.flux c (x i) (x j), w.dflux c (x i) (x j))
  volume := w.volume
  dt := w.dt
  storage := fun i => (w.storage i (x i), w.dstorage i (x i))
  oldStorage := w.oldStorage
  source := fun i => (w.source i (x i), w.dsource i (x i))
  boundary := w.boundary.map fun b =>
    { cell := b.1, none := false, area := b.2.1, flux := (b.2.2.1 (x b.1), b.2.2.2 (x b.1)) }

/-- The laws are differentiable with the given derivatives, and the connections form a network in which what flows out
of one cell flows into the other. -/
structure Laws.Valid (w : Laws E V C) (rev : C → C) : Prop where
  dflux : ∀ c a b, HasFDerivAt (fun a => w.flux c a b) (w.dflux c a b) a
  dstorage : ∀ i a, HasFDerivAt (w.storage i) (w.dstorage i a) a
  dsource : ∀ i a, HasFDerivAt (w.source i) (w.dsource i a) a
  dboundary : ∀ b ∈ w.boundary, ∀ a, HasFDerivAt b.2.2.1 (b.2.2.2 a) a
  neighbour : ∀ i < w.numCells, ∀ e ∈ w.nb i, e.1 < w.numCells ∧ e.1 ≠ i
  paired : ∀ i < w.numCells, ∀ j < w.numCells,
    (((w.nb i).filter fun e => e.1 = j).map fun e => rev e.2).Perm (((w.nb j).filter fun e => e.1 = i).map Prod.snd)
  area : ∀ c, w.area (rev c) = w.area c
  antisymmetric : ∀ c a b, w.flux (rev c) b a = - w.flux c a b

/-- The residual of cell `i` as a function of the primary variables: what the linearizer assembles. -/
noncomputable def residual (w : Laws E V C) (s : System V (E →L[ℝ] V)) (i : ℕ) (x : ℕ → E) : V := (linearizeFull (w.at x) s).res i

/-- The matrix which the linearizer assembles. -/
noncomputable def jacobian (w : Laws E V C) (s : System V (E →L[ℝ] V)) (x : ℕ → E) (i j : ℕ) : E →L[ℝ] V :=
  (linearizeFull (w.at x) s).mat i j

theorem hasFDerivAt_list_sum {B : Type} (l : List B) (f : B → E → V) (f' : B → (E →L[ℝ] V)) (a : E)
    (h : ∀ b ∈ l, HasFDerivAt (f b) (f' b) a) :
    HasFDerivAt (fun y => (l.map fun b => f b y).sum) (l.map f').sum a := by
  induction l with
  | nil => simpa using hasFDerivAt_const (0 : V) a
  | cons b l ih =>
    simp only [List.map_cons, List.sum_cons]
    exact (h b (by simp)).add (ih fun b hb => h b (by simp [hb]))

theorem residual_eq (w : Laws E V C) (s : System V (E →L[ℝ] V)) (i : ℕ) (hi : i < w.numCells) (x : ℕ → E) :
    residual w s i x = ((w.nb i).map fun e => w.area e.2 • w.flux e.2 (x i) (x e.1)).sum +
      (w.volume i / w.dt) • (w.storage i (x i) - w.oldStorage i) - w.volume i • w.source i (x i) +
      (w.boundary.map fun b => if i = b.1 then b.2.1 • b.2.2.1 (x i) else 0).sum := by
  rw [residual, linearizeFull_res _ s i hi, cellRes, boundaryRes]
  simp only [Laws.at, List.map_map]
  congr 2
  apply List.map_congr_left
  intro b _
  by_cases h : i = b.1 <;> simp [h]

/-- **C37** For every network of cells, all differentiable storage, source, boundary and antisymmetric flux laws, all
primary variables and whatever the linear system contained before: the block in row `i` and column `j` of the assembled
matrix is the derivative of the assembled residual of cell `i` with respect to the primary variables of cell `j`. -/
theorem C37_jacobian (w : Laws E V C) (rev : C → C) (h : w.Valid rev) (s : System V (E →L[ℝ] V)) (x : ℕ → E) (i j : ℕ)
    (hi : i < w.numCells) (hj : j < w.numCells) :
    HasFDerivAt (fun y => residual w s i (Function.update x j y)) (jacobian w s x i j) (x j) := by
  simp only [residual_eq w s i hi]
  rw [jacobian, linearizeFull_mat _ s i j hj]
  by_cases hij : i = j
  · subst hij
    rw [if_pos rfl]
    have hoff : offDiag (w.at x) i i = 0 := by
      apply List.sum_eq_zero
      intro m hm
      simp only [List.mem_map] at hm
      obtain ⟨e, he, rfl⟩ := hm
      rw [if_neg]
      intro e'; exact (h.neighbour i hi e he).2 e'.symm
    rw [hoff, add_zero]
    simp only [cellDiag, boundaryDiag, Laws.at, List.map_map, Function.update_self]
    refine ((HasFDerivAt.add ?_ ?_).sub ?_).add ?_
    · refine hasFDerivAt_list_sum (w.nb i)
        (fun e y => w.area e.2 • w.flux e.2 y (Function.update x i y e.1)) _ _ fun e he => ?_
      have hne : e.1 ≠ i := (h.neighbour i hi e he).2
      simp only [Function.update_of_ne hne]
      exact (h.dflux e.2 (x i) (x e.1)).const_smul _
    · exact ((h.dstorage i (x i)).sub_const _).const_smul _
    · exact (h.dsource i (x i)).const_smul _
    · refine hasFDerivAt_list_sum w.boundary (fun b y => if i = b.1 then b.2.1 • b.2.2.1 y else 0) _ _ fun b hb => ?_
      by_cases hib : i = b.1
      · simp only [hib, if_true, Function.comp, and_self]
        exact (h.dboundary b hb (x b.1)).const_smul _
      · simp only [hib, if_false, Function.comp, false_and]
        exact hasFDerivAt_const _ _
  · rw [if_neg hij, zero_add]
    simp only [Function.update_of_ne hij]
    -- only the fluxes to `j` depend on its variables
    have hflux : HasFDerivAt (fun y => ((w.nb i).map fun e => w.area e.2 • w.flux e.2 (x i) (Function.update x j y e.1)).sum)
        (offDiag (w.at x) i j) (x j) := by
      have h1 : HasFDerivAt (fun y => ((w.nb i).map fun e => w.area e.2 • w.flux e.2 (x i) (Function.update x j y e.1)).sum)
          ((w.nb i).map fun e => if e.1 = j then - (w.area (rev e.2) • w.dflux (rev e.2) (x j) (x i)) else 0).sum (x j) := by
        refine hasFDerivAt_list_sum (w.nb i)
          (fun e y => w.area e.2 • w.flux e.2 (x i) (Function.update x j y e.1)) _ _ fun e he => ?_
        by_cases hej : e.1 = j
        · simp only [hej, Function.update_self, if_true]
          have h2 := ((h.dflux (rev e.2) (x j) (x i)).const_smul (w.area (rev e.2))).neg
          refine h2.congr_of_eventuallyEq (Filter.Eventually.of_forall fun y => ?_)
          simp only [h.antisymmetric e.2, h.area, smul_neg, neg_neg, Pi.neg_apply, Pi.smul_apply]
        · simp only [Function.update_of_ne hej, hej, if_false]
          exact hasFDerivAt_const _ _
      have h3 : ((w.nb i).map fun e => if e.1 = j then - (w.area (rev e.2) • w.dflux (rev e.2) (x j) (x i)) else 0).sum =
          offDiag (w.at x) i j := by
        have hfil : ∀ (l : List (ℕ × C)) (k : ℕ) (f : C → (E →L[ℝ] V)),
            (l.map fun e => if e.1 = k then f e.2 else 0).sum = (((l.filter fun e => e.1 = k).map Prod.snd).map f).sum := by
          intro l k f
          induction l with
          | nil => simp
          | cons e l ih => by_cases he : e.1 = k <;> simp [he, ih]
        have hR : offDiag (w.at x) i j =
            ((w.nb j).map fun e => if e.1 = i then - (w.area e.2 • w.dflux e.2 (x j) (x i)) else 0).sum := by
          unfold offDiag
          congr 1
          apply List.map_congr_left
          intro e _
          by_cases he : e.1 = i
          · subst he; simp [Laws.at]
          · rw [if_neg (Ne.symm he), if_neg he]
        rw [hR, hfil (w.nb j) i (fun c => - (w.area c • w.dflux c (x j) (x i))),
          ← ((h.paired i hi j hj).map fun c => - (w.area c • w.dflux c (x j) (x i))).sum_eq,
          hfil (w.nb i) j (fun c => - (w.area (rev c) • w.dflux (rev c) (x j) (x i))), List.map_map, List.map_map]
        rfl
      rw [← h3]; exact h1
    have := ((hflux.add_const ((w.volume i / w.dt) • (w.storage i (x i) - w.oldStorage i))).sub_const
      (w.volume i • w.source i (x i))).add_const
      (w.boundary.map fun b => if i = b.1 then b.2.1 • b.2.2.1 (x i) else 0).sum
    exact this

/-- Two cells with one connection through which a nonlinear flux goes, a nonlinear storage term and a boundary face. -/
noncomputable def twoCells : Laws ℝ ℝ Bool where
  numCells := 2
  nb := fun i => if i = 0 then [(1, false)] else if i = 1 then [(0, true)] else []
  area := fun _ => 3
  flux := fun _ a b => a * a - b * b
  dflux := fun _ a _ => (a + a) • ContinuousLinearMap.id ℝ ℝ
  volume := fun _ => 2
  dt := 5
  storage := fun _ a => a
  dstorage := fun _ _ => ContinuousLinearMap.id ℝ ℝ
  oldStorage := fun _ => 1
  source := fun _ _ => 4
  dsource := fun _ _ => 0
  boundary := [(1, 7, fun a => a, fun _ => ContinuousLinearMap.id ℝ ℝ)]

/-- the hypotheses of C37 are met -/
theorem twoCells_valid : twoCells.Valid (fun c => !c) where
  dflux := by
    intro c a b
    have h := ((hasFDerivAt_id a).mul (hasFDerivAt_id (𝕜 := ℝ) a)).sub_const (b * b)
    have e : (a + a) • ContinuousLinearMap.id ℝ ℝ = a • ContinuousLinearMap.id ℝ ℝ + a • ContinuousLinearMap.id ℝ ℝ := by
      rw [add_smul]
    simp only [twoCells]
    rw [e]
    exact h
  dstorage := fun _ a => hasFDerivAt_id a
  dsource := fun _ a => hasFDerivAt_const _ a
  dboundary := by
    intro b hb a
    simp only [twoCells, List.mem_singleton] at hb
    subst hb
    exact hasFDerivAt_id a
  neighbour := by
    intro i hi e he
    have : i = 0 ∨ i = 1 := by simp only [twoCells] at hi; omega
    rcases this with rfl | rfl <;> simp [twoCells] at he ⊢ <;> subst he <;> simp
  paired := by
    intro i hi j hj
    have h1 : i = 0 ∨ i = 1 := by simp only [twoCells] at hi; omega
    have h2 : j = 0 ∨ j = 1 := by simp only [twoCells] at hj; omega
    rcases h1 with rfl | rfl <;> rcases h2 with rfl | rfl <;> simp [twoCells]
  area := fun _ => rfl
  antisymmetric := by intro c a b; simp [twoCells]

end Verif.Tpfa
