import Verif.Boundary.Model
import Verif.FvLin.Props2
import Mathlib.Algebra.BigOperators.Field
import Mathlib.Algebra.Order.BigOperators.Group.Finset
import Mathlib.Algebra.Order.Field.Basic
import Mathlib.Algebra.Order.Field.Rat
import Mathlib.Tactic.Ring
import Mathlib.Tactic.Linarith
import Mathlib.Tactic.FieldSimp
import Mathlib.Tactic.NormNum

set_option autoImplicit false
set_option linter.unusedSimpArgs false
set_option linter.unusedSectionVars false

/-
**C138** Boundary conditions see the intersection their face belongs to, and the check of conservation accepts what has converged.
-/
namespace Verif.Boundary

open Verif.FvLin Verif.Tpfa

/-! ### intersections -/

theorem loop_faces : ∀ it : List Isect, (∀ i ∈ it.head?, i.neighbor = false) →
    loop (cellFaces it).length it = (cellFaces it).map some := by
  have key : ∀ n (it : List Isect), it.length ≤ n → (∀ i ∈ it.head?, i.neighbor = false) →
      loop (cellFaces it).length it = (cellFaces it).map some := by
    intro n
    induction n with
    | zero =>
      intro it hl _
      have : it = [] := List.length_eq_zero_iff.1 (by omega)
      subst this
      rfl
    | succ n ih =>
      intro it hl h
      cases it with
      | nil => rfl
      | cons i rest =>
        have hi : i.neighbor = false := h i (by simp)
        have hf : cellFaces (i :: rest) = i :: cellFaces rest := by simp [cellFaces, hi]
        have hd : cellFaces (rest.dropWhile fun i => i.neighbor) = cellFaces rest := by
          clear hl h hf
          induction rest with
          | nil => rfl
          | cons j rest ih2 =>
            cases hj : j.neighbor
            · simp [List.dropWhile_cons, hj]
            · rw [List.dropWhile_cons, if_pos hj, ih2]
              simp [cellFaces, hj]
        rw [hf, List.length_cons, List.map_cons, loop]
        refine congrArg₂ List.cons rfl ?_
        show loop _ (rest.dropWhile fun i => i.neighbor) = _
        rw [← hd]
        refine ih _ ?_ ?_
        · have := (List.dropWhile_suffix (l := rest) (fun i : Isect => i.neighbor)).length_le
          simp only [List.length_cons] at hl
          omega
        · intro j hj
          have := List.head?_dropWhile_not (fun i : Isect => i.neighbor) rest
          cases h2 : (rest.dropWhile fun i => i.neighbor).head? with
          | none => rw [h2] at hj; simp at hj
          | some k =>
            rw [h2] at hj this
            simp only [Option.mem_def, Option.some.injEq] at hj
            subst hj
            simpa using this
  exact fun it => key it.length it le_rfl

/-- **C138** With cells as degrees of freedom, each boundary face sees its own intersection, in whatever order the intersections come. -/
theorem C138_cell (is : List Isect) : seen (cellFaces is).length is = (cellFaces is).map some := by
  cases is with
  | nil => rfl
  | cons i rest =>
    have hs : seen (cellFaces (i :: rest)).length (i :: rest) = if i.neighbor then loop (cellFaces (i :: rest)).length (increment (i :: rest))
      else loop (cellFaces (i :: rest)).length (i :: rest) := rfl
    rw [hs]
    cases hi : i.neighbor
    · rw [if_neg (by simp)]
      refine loop_faces (i :: rest) fun j hj => ?_
      simp only [List.head?_cons, Option.mem_def, Option.some.injEq] at hj
      rw [← hj, hi]
    · rw [if_pos rfl]
      have hd : ∀ l : List Isect, cellFaces (l.dropWhile fun i => i.neighbor) = cellFaces l := by
        intro l
        induction l with
        | nil => rfl
        | cons j l ih2 =>
          cases hj : j.neighbor
          · simp [List.dropWhile_cons, hj]
          · rw [List.dropWhile_cons, if_pos hj, ih2]
            simp [cellFaces, hj]
      have hf : cellFaces (i :: rest) = cellFaces (rest.dropWhile fun i => i.neighbor) := by
        rw [hd]; simp [cellFaces, hi]
      rw [hf]
      refine loop_faces (rest.dropWhile fun i => i.neighbor) ?_
      intro j hj
      have := List.head?_dropWhile_not (fun i : Isect => i.neighbor) rest
      cases h2 : (rest.dropWhile fun i => i.neighbor).head? with
      | none => rw [h2] at hj; simp at hj
      | some k =>
        rw [h2] at hj this
        simp only [Option.mem_def, Option.some.injEq] at hj
        subst hj
        simpa using this

/-- The left lower cell of a grid of squares. -/
def corner : List Isect := [⟨0, false, true, 2⟩, ⟨1, true, false, 2⟩, ⟨2, false, true, 2⟩, ⟨3, true, false, 2⟩]

example : seen 2 corner = [some ⟨0, false, true, 2⟩, some ⟨2, false, true, 2⟩] := by decide +kernel

/-- **C138** With vertices as degrees of freedom this needs intersections with one corner, as in one dimension, on one process. -/
theorem C138_vertex_partial (is : List Isect) (h : ∀ i ∈ is, i.corners = 1 ∧ i.boundary = !i.neighbor) :
    seen (vertexFaces is).length is = (vertexFaces is).map some := by
  have e : vertexFaces is = cellFaces is := by
    unfold vertexFaces cellFaces
    induction is with
    | nil => rfl
    | cons i is ih =>
      obtain ⟨h1, h2⟩ := h i (by simp)
      rw [List.flatMap_cons, ih fun i hi => h i (by simp [hi])]
      cases hn : i.neighbor <;> simp [hn, h1, h2]
  rw [e]
  exact C138_cell is

example : ∀ i ∈ [(⟨0, false, true, 1⟩ : Isect), ⟨1, true, false, 1⟩], i.corners = 1 ∧ i.boundary = !i.neighbor := by decide +kernel

/-- **C138** (violated) In two dimensions the second face of an intersection sees the next one, and later faces the end. -/
theorem C138_vertex_violated :
    (vertexFaces corner).map (·.id) = [0, 0, 2, 2] ∧
    seen (vertexFaces corner).length corner = [some ⟨0, false, true, 2⟩, some ⟨2, false, true, 2⟩, none, none] := by decide +kernel

/-- **C138** (violated) At the border of a process, the intersection which is not on the boundary is taken for that of the face. -/
theorem C138_process_violated :
    let is : List Isect := [⟨0, false, false, 1⟩, ⟨1, false, true, 1⟩]
    (vertexFaces is).map (·.id) = [1] ∧ (seen (vertexFaces is).length is).map (Option.map (·.id)) = [some 0] := by decide +kernel

/-- **C138** In the check of conservation this is so exactly if there is at most one boundary face and it comes first. -/
theorem C138_check_seen_partial (is : List Isect) (hn : is.Nodup) :
    seenByCheck (cellFaces is).length is = (cellFaces is).map some ↔
      cellFaces is = [] ∨ ∃ i, is.head? = some i ∧ cellFaces is = [i] := by
  have hnf : (cellFaces is).Nodup := hn.filter _
  unfold seenByCheck
  constructor
  · intro h
    cases hc : cellFaces is with
    | nil => exact Or.inl rfl
    | cons i l =>
      right
      rw [hc] at h hnf
      simp only [List.length_cons, List.replicate_succ, List.map_cons, List.cons.injEq] at h
      refine ⟨i, h.1, ?_⟩
      cases l with
      | nil => rfl
      | cons j l =>
        exfalso
        have h2 := h.2
        simp only [List.length_cons, List.replicate_succ, List.map_cons, List.cons.injEq] at h2
        have : i = j := by
          have := h.1.symm.trans h2.1
          simpa using this
        simp [this] at hnf
  · rintro (h | ⟨i, h1, h2⟩)
    · rw [h]; rfl
    · rw [h2, h1]; rfl

/-- **C138** (violated) The check evaluates boundary conditions with the wrong intersection, even one in the interior. -/
theorem C138_check_seen_violated :
    (seenByCheck 1 [⟨0, true, false, 1⟩, ⟨1, false, true, 1⟩]).map (Option.map (·.neighbor)) = [some true] ∧
    seenByCheck (cellFaces corner).length corner ≠ (cellFaces corner).map some := by decide +kernel

/-! ### the check of conservation -/

section
variable {K M : Type} [Field K] [LinearOrder K] [IsStrictOrderedRing K] [AddCommGroup M] [Module K M]

theorem rate_balance (dt : K) (hdt : dt ≠ 0) (es : List (Elem K K M)) :
    storageRate (fun e => e.volume) dt es - totalRate es = - (es.map (balance dt)).sum := by
  unfold storageRate storageBegin storageEnd totalRate balance
  induction es with
  | nil => simp
  | cons e es ih =>
    simp only [List.map_cons, List.sum_cons] at ih ⊢
    have hl : ∀ l : List ℕ, (l.map fun d => (e.volume d / dt) • ((e.storage d).1 - e.oldStorage d) - e.volume d • (e.source d).1).sum =
        - (((l.map fun d => e.volume d * e.oldStorage d).sum - (l.map fun d => e.volume d * (e.storage d).1).sum) / dt) +
          (l.map fun d => - e.volume d * (e.source d).1).sum := by
      intro l
      induction l with
      | nil => simp
      | cons d l ih =>
        simp only [List.map_cons, List.sum_cons] at ih ⊢
        rw [ih, smul_eq_mul, smul_eq_mul, div_eq_mul_inv, div_eq_mul_inv, div_eq_mul_inv]
        ring
    rw [hl]
    rw [add_sub_add_comm, add_div]
    linear_combination ih

/-- **C138** For vertices as degrees of freedom, what the check compares with its tolerance is the sum of the residuals times their volumes. -/
theorem C138_check_vertex (scale : ℕ → K) (hs : ∀ g, scale g ≠ 0) (dt : K) (hdt : dt ≠ 0) (n : ℕ) (es : List (Elem K K M))
    (h : ∀ e ∈ es, AllPrimary n e) (hcover : ∀ g < n, g ∈ es.flatMap primaries) (s : System K M) :
    storageRate (fun e => e.volume) dt es - totalRate es = - ∑ g ∈ Finset.range n, (scale g)⁻¹ * (linearizeDomain scale dt n es s).res g := by
  rw [rate_balance dt hdt]
  have := C34_vertex_centred scale hs dt n es h hcover s
  simp only [smul_eq_mul] at this
  rw [this]

theorem balance_cells {C : Type} (p : Net K K M C) (hb : ∀ b ∈ p.boundary, b.cell < p.numCells) :
    (((List.range p.numCells).map (cellElem p)).map (balance p.dt)).sum =
      ∑ i ∈ Finset.range p.numCells, ((p.volume i / p.dt) • ((p.storage i).1 - p.oldStorage i) - p.volume i • (p.source i).1)
        + ((p.boundary.filter fun b => !b.none).map fun b => b.area • b.flux.1).sum := by
  have e1 : ∀ i, balance p.dt (cellElem p i) =
      ((p.volume i / p.dt) • ((p.storage i).1 - p.oldStorage i) - p.volume i • (p.source i).1) + boundaryRes p i := by
    intro i
    have h0 : (cellElem p i).numPrimary = 1 := rfl
    have hb := congrArg Prod.fst (sum_boundary_cell p i)
    rw [list_sum_fst] at hb
    replace hb : _ = boundaryRes p i := hb
    unfold balance
    rw [h0]
    simp only [List.range_one, List.map_cons, List.map_nil, List.sum_cons, List.sum_nil, add_zero]
    refine congrArg₂ (· + ·) rfl ?_
    rw [← hb]
    simp only [cellElem, List.map_map]
    rfl
  rw [← sum_boundary p hb, ← Finset.sum_add_distrib, List.map_map]
  simp only [Function.comp_def, e1]
  generalize p.numCells = n
  induction n with
  | zero => rfl
  | succ n ih => rw [List.range_succ, List.map_append, List.sum_append, ih, Finset.sum_range_succ]; simp

/-- **C138** The same for cells. -/
theorem C138_check_cell {C : Type} (p : Net K K M C) (rev : C → C) (h : Network p rev) (hdt : p.dt ≠ 0) (s : System K M) :
    storageRate (fun e => e.volume) p.dt ((List.range p.numCells).map (cellElem p)) - totalRate ((List.range p.numCells).map (cellElem p)) =
      - ∑ i ∈ Finset.range p.numCells,
        (linearizeDomain (fun _ => 1) p.dt p.numCells ((List.range p.numCells).map (cellElem p)) s).res i := by
  rw [rate_balance p.dt hdt, balance_cells p h.boundary, C34_cell_centred p rev h s]

example : storageRate (fun e => e.volume) threeCells.dt ((List.range 3).map (cellElem threeCells)) -
    totalRate ((List.range 3).map (cellElem threeCells)) = - 65 := by decide +kernel

/-- **C138** If the volumetric residuals of all degrees of freedom are at most a thousand times the tolerance of the Newton method, the check
accepts the step. -/
theorem C138_check_accepts (volume : ℕ → K) (hv : ∀ g, 0 < volume g) (newtonTolerance dt : K) (hdt : dt ≠ 0) (n : ℕ) (es : List (Elem K K M))
    (h : ∀ e ∈ es, AllPrimary n e) (hcover : ∀ g < n, g ∈ es.flatMap primaries) (s : System K M)
    (hr : ∀ g < n, |(linearizeDomain (fun g => (volume g)⁻¹) dt n es s).res g| ≤ newtonTolerance * 1000) :
    accepts (defaultTolerance newtonTolerance (∑ g ∈ Finset.range n, volume g)) (storageRate (fun e => e.volume) dt es) (totalRate es) := by
  unfold accepts
  rw [C138_check_vertex (fun g => (volume g)⁻¹) (fun g => inv_ne_zero (hv g).ne') dt hdt n es h hcover s, abs_neg]
  refine le_trans ?_ (le_max_left _ _)
  refine (Finset.abs_sum_le_sum_abs _ _).trans ?_
  unfold defaultTolerance
  rw [Finset.mul_sum, Finset.sum_mul]
  refine Finset.sum_le_sum fun g hg => ?_
  simp only [inv_inv]
  rw [abs_mul, abs_of_pos (hv g)]
  have := mul_le_mul_of_nonneg_left (hr g (Finset.mem_range.1 hg)) (hv g).le
  linarith

end

/-- One element with two vertices, a flux between them, storage, a source and a boundary segment. -/
def bar : Elem ℚ ℚ ℚ where
  dofs := [0, 1]
  numPrimary := 2
  faces := [(0, 1, 1, fun _ => (3, 0))]
  volume := fun _ => 2
  storage := fun k => if k = 0 then (1, 0) else (5, 0)
  oldStorage := fun _ => 1
  source := fun k => if k = 0 then (3 / 2, 0) else (0, 0)
  boundary := [(1, fun _ => (-1, 0))]

theorem bar_primary : AllPrimary 2 bar where
  primary := rfl
  dofs := by decide
  faces := by
    intro f hf
    simp only [bar, List.mem_singleton] at hf
    subst hf
    exact ⟨by decide, by decide, fun _ _ => rfl⟩
  boundary := by
    intro b hb
    simp only [bar, List.mem_singleton] at hb
    subst hb
    exact ⟨by decide, fun _ _ => rfl⟩

example : (∀ g < 2, g ∈ [bar].flatMap primaries) ∧
    ∀ g < 2, |(linearizeDomain (fun _ => (2 : ℚ)⁻¹) 2 2 [bar] { res := fun _ => 0, mat := fun _ _ => 0 }).res g| ≤ 1 / 1000 * 1000 := by
  constructor
  · decide +kernel
  · decide +kernel

/-- **C138** (violated) If the extrusion factor changes, the check rejects steps whose residuals vanish: it takes the extrusion at the
beginning of the step for what was stored then, the residual the one at its end. -/
theorem C138_extrusion_violated :
    ∃ (e : Elem ℚ ℚ ℚ) (oldVolume : Elem ℚ ℚ ℚ → ℕ → ℚ), AllPrimary 1 e ∧
      (∀ g < 1, (linearizeDomain (fun _ => 1) 1 1 [e] { res := fun _ => 0, mat := fun _ _ => 0 }).res g = 0) ∧
      ¬ accepts (1 / 10) (storageRate oldVolume 1 [e]) (totalRate [e]) := by
  refine ⟨⟨[0], 1, [], fun _ => 1, fun _ => (1, 0), fun _ => 1, fun _ => (0, 0), []⟩, fun _ _ => 2, ?_, ?_, ?_⟩
  · exact ⟨rfl, by decide, by simp, by simp⟩
  · decide +kernel
  · decide +kernel

/-- **C138** (violated) The check is stricter if the amounts increase: the part of the tolerance which is relative to the rates vanishes. -/
theorem C138_sign_violated :
    accepts (1 / 1000 : ℚ) 1000 (1000 + 1) ∧ ¬ accepts (1 / 1000 : ℚ) (-1000) (-1000 - 1) := by decide +kernel

/-- **C138** The check accepts equal rates, whatever their signs. -/
theorem C138_equal (tolerance rate : ℚ) (h : 0 ≤ tolerance) : accepts tolerance rate rate := by
  unfold accepts
  rw [sub_self, abs_zero]
  exact h.trans (le_max_left _ _)

end Verif.Boundary
