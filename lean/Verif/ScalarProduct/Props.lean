import Verif.ScalarProduct.Model
import Verif.GlobalIdx.Props
import Mathlib.Algebra.BigOperators.Finprod
import Mathlib.Data.Rat.Defs

/-
C49: the scalar product of distributed vectors.
-/

set_option autoImplicit false
set_option linter.unusedSectionVars false

namespace Verif.ScalarProduct

open Verif.GlobalIdx

variable {P : ℕ} {G B K : Type} {overlapSize : ℕ} {d : Fin P → Part P} {dof : Fin P → ℕ → G}

/-- The distributed vector `x` has, on each process, the entries of the vector `X` of all degrees of freedom: the `k`-th local
index is the native index `i`, which is the degree of freedom `dof p i`.  What further entries (of the overlap) are does not
matter. -/
def Represents (d : Fin P → Part P) (dof : Fin P → ℕ → G) (x : Fin P → ℕ → B) (X : G → B) : Prop :=
  ∀ p k i, (locals (d p))[k]? = some i → x p k = X (dof p i)

theorem foldl_if_sum [AddCommMonoid K] (l : List ℕ) (f : ℕ → Bool) (g : ℕ → K) (a : K) :
    l.foldl (fun s i => if f i then s + g i else s) a = a + ((l.filter f).map g).sum := by
  induction l generalizing a with
  | nil => simp
  | cons b l ih =>
    rw [List.foldl_cons, ih, List.filter_cons]
    by_cases h : f b
    · simp [h, add_assoc]
    · simp [h]

theorem localDot_eq [AddCommMonoid K] (mul : B → B → K) {x y : Fin P → ℕ → B} {X Y : G → B} (hx : Represents d dof x X)
    (hy : Represents d dof y Y) (p : Fin P) :
    localDot mul overlapSize (d p) p (x p) (y p) =
      ((own overlapSize (d p) (dof p) p).map fun g => mul (X g) (Y g)).sum := by
  unfold localDot
  rw [foldl_if_sum, zero_add]
  unfold own
  rw [List.map_map]
  congr 1
  apply List.map_congr_left
  intro k hk
  have hk' : k < (locals (d p)).length := by
    have := (List.mem_filter.1 hk).1
    rwa [List.mem_range, numLocal_eq] at this
  have e : (locals (d p))[k]? = some ((locals (d p))[k]) := List.getElem?_eq_getElem hk'
  simp only [Function.comp_def, e, Option.getD_some]
  rw [hx p k _ e, hy p k _ e]

/-- **C49** The scalar product of two distributed vectors, as every process gets it, is the sum over all degrees of freedom, each
counted once, of the products of the entries: that of the vectors on one process. -/
theorem C49_dot [AddCommMonoid K] (mul : B → B → K) (v : Valid overlapSize d dof) {x y : Fin P → ℕ → B} {X Y : G → B}
    (hx : Represents d dof x X) (hy : Represents d dof y Y) (p : Fin P) :
    dot mul overlapSize d x y p = ∑ᶠ g ∈ present d dof, mul (X g) (Y g) := by
  classical
  unfold dot
  have hset : present d dof = ↑((Finset.univ : Finset (Fin P)).biUnion fun q => (own overlapSize (d q) (dof q) q).toFinset) := by
    ext g
    simp only [Finset.coe_biUnion, Finset.mem_coe, Set.mem_iUnion, List.mem_toFinset, Finset.mem_univ]
    constructor
    · intro h; obtain ⟨q, hq⟩ := present_own v h; exact ⟨q, trivial, hq⟩
    · rintro ⟨q, -, hq⟩; exact own_present hq
  rw [hset, finsum_mem_coe_finset, Finset.sum_biUnion]
  · apply Finset.sum_congr rfl
    intro q _
    rw [localDot_eq mul hx hy, List.sum_toFinset _ (own_nodup v q)]
  · intro q _ r _ hqr
    rw [Function.onFun, Finset.disjoint_left]
    intro g hg hg'
    exact hqr (own_unique v (List.mem_toFinset.1 hg) (List.mem_toFinset.1 hg'))

/-- The three processes of the example of C48, one vertex of which belongs to several processes: the hypotheses of `C49_dot` are
met, and the product counts it once. -/
example : ∃ x : Fin 3 → ℕ → ℚ, Represents three threeDof x (fun g => (g : ℚ) + 1) ∧
    ∀ p, dot (· * ·) 2 three x x p = ∑ᶠ g ∈ present three threeDof, ((g : ℚ) + 1) * ((g : ℚ) + 1) := by
  refine ⟨fun p k => ((locals (three p))[k]?).elim 0 fun i => (threeDof p i : ℚ) + 1, ?_, ?_⟩
  · intro p k i h; simp only [h, Option.elim_some]
  · intro p
    exact C49_dot _ three_valid (by intro p k i h; simp only [h, Option.elim_some])
      (by intro p k i h; simp only [h, Option.elim_some]) p

end Verif.ScalarProduct
