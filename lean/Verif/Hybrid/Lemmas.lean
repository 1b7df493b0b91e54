import Verif.Hybrid.Spec
import Verif.ThreadSim.Props
import Verif.ParSim.Props

/-
The rows of own cells which a process assembles are those of the whole grid.
-/

set_option autoImplicit false
set_option linter.unusedSectionVars false

namespace Verif.Hybrid

open Verif.Tpfa Verif.ParSolve.Block Verif.ParNewton
open Verif.ParSim (Task Own Memory LocalTask)

variable {P N E : ℕ} {G C K V X : Type} [DecidableEq G] [Field K]
variable (f : Flow G C E K V X) {cells : List G} (own : X) (dt : K) {x y : ℕ → V} {Y old : G → V}

theorem idxOf_of_getElem? (hn : cells.Nodup) {i : ℕ} {c : G} (hi : cells[i]? = some c) : cells.idxOf c = i := by
  obtain ⟨h, rfl⟩ := List.getElem?_eq_some_iff.1 hi
  exact hn.idxOf_getElem i h

theorem getElem?_idxOf {c : G} (hc : c ∈ cells) : cells[cells.idxOf c]? = some c := by
  have hi := List.idxOf_lt_length_iff.2 hc
  rw [List.getElem?_eq_getElem hi, List.getElem_idxOf hi]

/-- Sums over the connections of a cell all neighbours of which the process has -/
theorem sum_localNeighbours {A : Type} [AddCommMonoid A] (l : List (G × C)) (h : ∀ e ∈ l, e.1 ∈ cells) (t : ℕ × C → A) :
    ((l.filterMap fun e => if e.1 ∈ cells then some (cells.idxOf e.1, e.2) else none).map t).sum =
      (l.map fun e => t (cells.idxOf e.1, e.2)).sum := by
  induction l with
  | nil => rfl
  | cons e l ih =>
    rw [List.filterMap_cons, if_pos (h e (by simp)), List.map_cons, List.sum_cons, ih fun e' h' => h e' (by simp [h']),
      List.map_cons, List.sum_cons]

/-- Sums over the connections of a cell to one which the process has -/
theorem sum_connections {A : Type} [AddCommMonoid A] (hn : cells.Nodup) {i : ℕ} {c : G} (hi : cells[i]? = some c) (l : List (G × C))
    (t : ℕ × C → A) :
    ((l.filterMap fun e => if e.1 ∈ cells then some (cells.idxOf e.1, e.2) else none).map fun e => if i = e.1 then t e else 0).sum =
      (l.map fun e => if e.1 = c then t (i, e.2) else 0).sum := by
  induction l with
  | nil => rfl
  | cons e l ih =>
    rw [List.filterMap_cons, List.map_cons, List.sum_cons, ← ih]
    by_cases h : e.1 ∈ cells
    · rw [if_pos h, List.map_cons, List.sum_cons]
      by_cases hc : e.1 = c
      · have : cells.idxOf e.1 = i := by rw [hc]; exact idxOf_of_getElem? hn hi
        rw [if_pos this.symm, if_pos hc, this]
      · have : i ≠ cells.idxOf e.1 := fun h' => hc (by
          have := getElem?_idxOf h
          rw [← h', hi] at this
          exact (Option.some.inj this).symm)
        rw [if_neg this, if_neg hc]
    · rw [if_neg h, if_neg (show ¬ e.1 = c from fun hc => h (by rw [hc]; exact List.mem_of_getElem? hi)), zero_add]

theorem sum_boundary {A : Type} [AddCommMonoid A] {i : ℕ} {c : G} (hi : cells[i]? = some c) (hall : ∀ e ∈ f.neighbours c, e.1 ∈ cells)
    (t : K → Blk E K × Mat E K → A) :
    ((localNet f cells own dt x y).boundary.map fun b => if i = b.cell ∧ b.none = false then t b.area b.flux else 0).sum =
      ((f.boundary own dt c (x i)).map fun b => if b.1 = true then 0 else t b.2.1 b.2.2).sum := by
  have h1 : ∀ j : ℕ, (((cells[j]?).elim [] fun c => localBoundary f cells own dt j c (x j)).map
      fun b => if i = b.cell ∧ b.none = false then t b.area b.flux else 0).sum =
      if i = j then (((cells[i]?).elim [] fun c => localBoundary f cells own dt i c (x i)).map
        fun b => if b.none = false then t b.area b.flux else 0).sum else 0 := by
    intro j
    by_cases h : i = j
    · subst h
      rw [if_pos rfl, hi]
      simp only [Option.elim_some, localBoundary, List.map_map, Function.comp_def, true_and]
    · rw [if_neg h]
      cases cells[j]? with
      | none => rfl
      | some c' =>
        apply List.sum_eq_zero
        simp only [Option.elim_some, localBoundary, List.map_map, Function.comp_def, List.mem_map]
        rintro a ⟨b, _, rfl⟩
        rw [if_neg fun h' => h h'.1]
  have hlt : i < cells.length := (List.getElem?_eq_some_iff.1 hi).1
  simp only [localNet]
  rw [sum_flatMap]
  simp only [h1]
  rw [sum_ite_mem _ List.nodup_range i
    (fun _ => (((cells[i]?).elim [] fun c => localBoundary f cells own dt i c (x i)).map
        fun b => if b.none = false then t b.area b.flux else 0).sum), if_pos (List.mem_range.2 hlt), hi]
  have hnil : (f.neighbours c).filter (fun e => e.1 ∉ cells) = [] := by
    rw [List.filter_eq_nil_iff]
    intro e he
    simp [hall e he]
  simp only [Option.elim_some, localBoundary, hnil, List.map_nil, List.append_nil, List.map_map, Function.comp_def]
  congr 1
  apply List.map_congr_left
  intro b _
  cases b.1 <;> simp

/-- The residuals of own cells are those of the whole grid. -/
theorem local_res {i : ℕ} {c : G} (hi : cells[i]? = some c) (hall : ∀ e ∈ f.neighbours c, e.1 ∈ cells)
    (hY : Sees cells x Y) (ho : old c = y i) (s : System (Blk E K) (Mat E K)) :
    (linearizeFull (localNet f cells own dt x y) s).res i = residual f own dt old Y c := by
  have hlt : i < cells.length := (List.getElem?_eq_some_iff.1 hi).1
  rw [linearizeFull_res _ _ _ hlt, cellRes, boundaryRes, sum_boundary f own dt hi hall fun a b => a • b.1, residual]
  congr 1
  · simp only [localNet, hi, Option.elim_some, hY i c hi, ho]
    congr 2
    unfold localNeighbours
    rw [sum_localNeighbours _ hall]
    congr 1
    apply List.map_congr_left
    intro e he
    simp only [getElem?_idxOf (hall e he), Option.elim_some, hY _ _ (getElem?_idxOf (hall e he))]
  · rw [hY i c hi]

/-- The derivatives of the equations of own cells are those of the whole grid. -/
theorem local_mat (hn : cells.Nodup) {i m : ℕ} {c c' : G} (hi : cells[i]? = some c) (hm : cells[m]? = some c')
    (hall : ∀ e ∈ f.neighbours c, e.1 ∈ cells) (hY : Sees cells x Y) (s : System (Blk E K) (Mat E K)) :
    (linearizeFull (localNet f cells own dt x y) s).mat i m = derivative f own dt Y c c' := by
  have hlt : m < cells.length := (List.getElem?_eq_some_iff.1 hm).1
  rw [linearizeFull_mat _ _ _ _ hlt, derivative, sub_eq_add_neg]
  congr 1
  · by_cases h : i = m
    · subst h
      obtain rfl : c = c' := Option.some.inj (hi.symm.trans hm)
      rw [if_pos rfl, if_pos rfl, cellDiag, boundaryDiag, sum_boundary f own dt hi hall fun a b => a • b.2]
      congr 1
      · simp only [localNet, hi, Option.elim_some, hY i c hi]
        congr 2
        unfold localNeighbours
        rw [sum_localNeighbours _ hall]
        congr 1
        apply List.map_congr_left
        intro e he
        simp only [getElem?_idxOf (hall e he), Option.elim_some, hY _ _ (getElem?_idxOf (hall e he))]
      · rw [hY i c hi]
    · have : c' ≠ c := fun hc => h (by rw [← idxOf_of_getElem? hn hi, ← idxOf_of_getElem? hn hm, hc])
      rw [if_neg h, if_neg this]
  · have hneg : ∀ l : List (Mat E K), (l.map fun a => -a).sum = -l.sum := fun l => by
      induction l with
      | nil => simp
      | cons a l ih => rw [List.map_cons, List.sum_cons, ih, List.sum_cons, neg_add]
    unfold offDiag
    simp only [localNet, hm, Option.elim_some, localNeighbours]
    rw [sum_connections hn hi (f.neighbours c') fun e => -(f.area e.2 • ((cells[e.1]?).elim 0 fun c'' =>
      f.flux own dt c' c'' e.2 (x m) (x e.1)).2), ← hneg, List.map_map]
    congr 1
    apply List.map_congr_left
    intro e _
    simp only [Function.comp_def, hi, Option.elim_some, hY _ _ hm, hY _ _ hi]
    split_ifs <;> simp

theorem mem_stencil {f : Flow G C E K V X} {c c' : G} : c' ∈ stencil f c ↔ c' = c ∨ ∃ k, (c', k) ∈ f.neighbours c := by
  simp [stencil]

theorem mem_stencil_of {f : Flow G C E K V X} {c : G} {e : G × C} (h : e ∈ f.neighbours c) : e.1 ∈ stencil f c :=
  mem_stencil.2 (.inr ⟨e.2, h⟩)

theorem SameValues.residual_eq {f f' : Flow G C E K V X} (h : SameValues f f') (own : X) (dt : K) (old Y : G → V) (c : G) :
    residual f' own dt old Y c = residual f own dt old Y c := by
  unfold residual
  simp only [h.neighbours, h.area, h.volume, h.storage, h.source, h.boundary, h.flux]

theorem SameValues.stencil_eq {f f' : Flow G C E K V X} (h : SameValues f f') (c : G) : stencil f' c = stencil f c := by
  unfold stencil
  rw [h.neighbours]

theorem SameValues.refl (f : Flow G C E K V X) : SameValues f f := ⟨rfl, rfl, rfl, rfl, rfl, rfl, fun _ _ _ _ _ _ _ => rfl⟩

theorem derivative_congr {f : Flow G C E K V X} {own : X} {dt : K} {Y Z : G → V} {c c' : G} (h' : ∀ c' ∈ stencil f c, Y c' = Z c')
    (hm : c' ∈ stencil f c) : derivative f own dt Y c c' = derivative f own dt Z c c' := by
  have hc : Y c = Z c := h' c (mem_stencil.2 (.inl rfl))
  have e1 : ∀ e ∈ f.neighbours c, Y e.1 = Z e.1 := fun e he => h' _ (mem_stencil_of he)
  unfold derivative
  rw [hc, h' c' hm]
  have : ((f.neighbours c).map fun e => f.area e.2 • (f.flux own dt c e.1 e.2 (Z c) (Y e.1)).2) =
      (f.neighbours c).map fun e => f.area e.2 • (f.flux own dt c e.1 e.2 (Z c) (Z e.1)).2 :=
    List.map_congr_left fun e he => by rw [e1 e he]
  rw [this]

theorem task_local {row : G → Flow G C E K V X} (hrow : ∀ c, SameValues f (row c)) (settings : X → K → Memory K → Settings K) (fuel : ℕ) :
    LocalTask (rowTask f row settings fuel) where
  loc own dt old :=
    { nodup := fun c => List.nodup_dedup _
      self := fun c => mem_stencil.2 (.inl rfl)
      row := fun c Y Z h => by
        have h' : ∀ c' ∈ stencil f c, Y c' = Z c' := h
        have hc : Y c = Z c := h' c (mem_stencil.2 (.inl rfl))
        have hw : (∀ c' ∈ stencil f c, f.works own dt c' (Y c') = true) ↔ ∀ c' ∈ stencil f c, f.works own dt c' (Z c') = true :=
          forall₂_congr fun c' hc' => by rw [h' c' hc']
        have e1 : ∀ e ∈ f.neighbours c, Y e.1 = Z e.1 := fun e he => h' _ (mem_stencil_of he)
        have hr : residual f own dt old Y c = residual f own dt old Z c := by
          unfold residual
          rw [hc]
          congr 4
          apply List.map_congr_left
          intro e he
          rw [e1 e he]
        have hd : (fun c' => if c' ∈ stencil f c then derivative (row c) own dt Y c c' else 0) =
            fun c' => if c' ∈ stencil f c then derivative (row c) own dt Z c c' else 0 := by
          funext c'
          by_cases hm : c' ∈ stencil f c
          · rw [if_pos hm, if_pos hm]
            exact derivative_congr (by rw [(hrow c).stencil_eq]; exact h') (by rw [(hrow c).stencil_eq]; exact hm)
          · rw [if_neg hm, if_neg hm]
        simp only [rowTask]
        by_cases hall : ∀ c' ∈ stencil f c, f.works own dt c' (Y c') = true
        · rw [if_pos hall, if_pos (hw.1 hall), hr, hd]
        · rw [if_neg hall, if_neg (fun h => hall (hw.2 h))] }
  stencil _ _ _ _ _ _ := rfl
  row own dt old old' c h := by
    funext Y
    simp only [rowTask, residual, h]
  volume _ _ _ _ _ _ := rfl
  weight _ _ _ _ _ _ := rfl
  update _ _ _ _ _ _ := rfl

end Verif.Hybrid
