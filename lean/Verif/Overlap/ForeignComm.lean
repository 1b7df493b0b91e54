import Verif.Overlap.ForeignLemmas
import Verif.Mpi.Compose

/-
The foreign overlaps of cells: nothing is received from the neighbours, and each process searches on its own.
-/

set_option autoImplicit false
set_option linter.unusedSectionVars false

namespace Verif.Overlap

open Verif.Mpi Verif.GlobalIdx

variable {P : ℕ} {G : Type} {g : Grid P G} {d : Fin P → Native P} {overlapSize : ℕ}

/-! ### Facts about valid grids -/

theorem neighbor_iff (v : Valid g d) (p q : Fin P) : q ∈ (d p).neighborPeers ↔ q ≠ p ∧ ∃ c ∈ g.cells q, g.owner c = p := by
  unfold Native.neighborPeers
  rw [List.mem_filter, decide_eq_true_eq]
  constructor
  · rintro ⟨-, e, he, rfl⟩
    obtain ⟨-, h, c, hc, -, h2⟩ := (v.border p e).1 he
    exact ⟨h, c, List.mem_of_getElem? h2, hc⟩
  · rintro ⟨hq, c, hc, rfl⟩
    refine ⟨List.mem_finRange _, ?_⟩
    obtain ⟨i, hi, hi'⟩ := List.getElem_of_mem (v.owned q c hc)
    obtain ⟨j, hj, hj'⟩ := List.getElem_of_mem hc
    refine ⟨⟨i, j, q, 1⟩, (v.border _ _).2 ⟨rfl, hq, c, rfl, ?_, ?_⟩, rfl⟩
    · rw [List.getElem?_eq_getElem hi, hi']
    · rw [List.getElem?_eq_getElem hj, hj']

theorem neighbors_nodup (p : Fin P) : (d p).neighborPeers.Nodup := List.Nodup.filter _ (List.nodup_finRange P)

theorem neighbors_symm (v : Valid g d) (p q : Fin P) : q ∈ (d p).neighborPeers ↔ p ∈ (d q).neighborPeers := by
  rw [neighbor_iff v, neighbor_iff v]
  constructor
  · rintro ⟨h, h'⟩; exact ⟨h.symm, v.reciprocal p q h'⟩
  · rintro ⟨h, h'⟩; exact ⟨h.symm, v.reciprocal q p h'⟩

theorem neighbors_irrefl (v : Valid g d) (p : Fin P) : p ∉ (d p).neighborPeers := by
  rw [neighbor_iff v]; simp

theorem foldl_min_all {l : List ℕ} {a b : ℕ} (h : ∀ x ∈ l, x = b) (hne : l ≠ []) : l.foldl min a = min a b := by
  induction l generalizing a with
  | nil => exact absurd rfl hne
  | cons x l ih =>
    rw [List.foldl_cons, h x (by simp)]
    by_cases hl : l = []
    · rw [hl]; rfl
    · rw [ih (fun y hy => h y (List.mem_cons_of_mem _ hy)) hl, min_assoc, min_self]

theorem minBorderDist_eq (v : Valid g d) (hs : 0 < overlapSize) (p : Fin P) :
    (d p).minBorderDist overlapSize = if (d p).borderList = [] then overlapSize else 1 := by
  unfold Native.minBorderDist Part.minBorderDist Native.part
  dsimp only
  split_ifs with h
  · rw [h]; rfl
  · rw [foldl_min_all (b := 1)]
    · omega
    · intro x hx
      obtain ⟨e, he, rfl⟩ := List.mem_map.1 hx
      exact ((v.border p e).1 he).1
    · simpa using h

theorem minBorderDist_pos (v : Valid g d) (hs : 0 < overlapSize) (p : Fin P) : 0 < (d p).minBorderDist overlapSize := by
  rw [minBorderDist_eq v hs]; split_ifs <;> omega

theorem neighbors_nil {p : Fin P} (h : (d p).borderList = []) : (d p).neighborPeers = [] := by
  unfold Native.neighborPeers
  rw [List.filter_eq_nil_iff]
  intro q _
  simp [h]

/-! ### The communication -/

/-- No row has the distance zero. -/
def NoZero (s : Foreign P) : Prop := ∀ l q, s.byLocal l q ≠ some 0

theorem borderHandles_nil {n : Native P} {s : Foreign P} (h : NoZero s) (q : Fin P) : borderHandles n q s = [] := by
  unfold borderHandles
  rw [List.filterMap_eq_nil_iff]
  intro e _
  cases n.nativeToLocal e.index with
  | none => rfl
  | some l =>
    dsimp only
    rw [if_neg (fun hh => h l q hh.2.1)]

theorem runRound_quiet (peers : Fin P → List (Fin P)) (dist : ℕ) (σ : Fin P → Foreign P) (h : ∀ p, NoZero (σ p)) :
    runRounds peers σ [addNonNeighborOverlapIndices d dist] = σ := by
  funext p
  unfold runRounds runRound
  rw [List.foldl_cons, List.foldl_nil]
  have : ∀ (l : List (Fin P)) (s : Foreign P), l.foldl (fun s q => (addNonNeighborOverlapIndices d dist).recv p q
      ((addNonNeighborOverlapIndices d dist).send q p (σ q)) s) s = s := by
    intro l
    induction l with
    | nil => intro s; rfl
    | cons q l ih =>
      intro s
      rw [List.foldl_cons]
      have : (addNonNeighborOverlapIndices d dist).send q p (σ q) = [] := borderHandles_nil (h q) p
      rw [this]
      exact ih s
  exact this _ _

theorem noZero_level {n : Native P} {s : Foreign P} {dist : ℕ} (h : NoZero s) (hd : 0 < dist) :
    NoZero (afterLevel n overlapSize dist s) := by
  intro l q
  unfold afterLevel
  dsimp only
  have : (addSeeds n dist s).byLocal l q ≠ some 0 := by
    rw [addSeeds_byLocal]
    split_ifs
    · exact h l q
    · intro e; have := Option.some.inj e; omega
    · simp
  split_ifs <;> exact this

theorem settles_optional {σ : Fin P → Foreign P} {M : Type} [Nonempty M] (c : Fin P → Prop) [DecidablePred c]
    (f : Fin P → Foreign P → Foreign P) :
    Settles (M := M) (fun p => if c p then [.compute (f p)] else []) σ (fun p => if c p then f p (σ p) else σ p) := by
  classical
  refine ⟨ℕ, inferInstance, fun p => if c p then [⟨.compute (f p), 0, Classical.arbitrary M⟩] else [],
    ⟨fun p => ?_, fun p => ?_, fun p q => ?_, fun p q => ?_, fun p q => ?_, fun p => ?_⟩, fun p => ?_, fun p => ?_⟩
  · split_ifs <;> simp
  · split_ifs <;> trivial
  · (try dsimp only); split_ifs <;> rfl
  · split_ifs <;> exact List.Forall₂.nil
  · split_ifs <;> trivial
  · dsimp only [NoSelf]; split_ifs <;> rfl
  · (try dsimp only); split_ifs <;> rfl
  · (try dsimp only); split_ifs <;> rfl

theorem settles_levels (v : Valid g d) (hs : 0 < overlapSize) (l : List ℕ) (hl : ∀ x ∈ l, 0 < x) (σ : Fin P → Foreign P)
    (hσ : ∀ p, NoZero (σ p)) :
    Settles (fun p => (l.filter fun x => decide ((d p).minBorderDist overlapSize ≤ x)).flatMap fun dist =>
        roundProgram (fun p => (d p).neighborPeers) (addNonNeighborOverlapIndices d dist) p ++
          [.compute (afterLevel (d p) overlapSize dist)]) σ
      (fun p => search (d p) overlapSize (l.filter fun x => decide ((d p).minBorderDist overlapSize ≤ x)) (σ p)) := by
  induction l generalizing σ with
  | nil => exact Settles.nil
  | cons x l ih =>
    have hx : 0 < x := hl x (by simp)
    have h1 : Settles (program (fun p => (d p).neighborPeers) [addNonNeighborOverlapIndices d x]) σ σ := by
      have := Settles.rounds (σ := σ) (neighbors_nodup (d := d)) (neighbors_symm v) (neighbors_irrefl v)
        [addNonNeighborOverlapIndices d x]
      rwa [runRound_quiet _ _ _ hσ] at this
    have h2 : Settles (M := List (BorderIndex P))
        (fun p => if (d p).minBorderDist overlapSize ≤ x then [.compute (afterLevel (d p) overlapSize x)] else []) σ
        (fun p => if (d p).minBorderDist overlapSize ≤ x then afterLevel (d p) overlapSize x (σ p) else σ p) :=
      settles_optional (fun p => (d p).minBorderDist overlapSize ≤ x) (fun p => afterLevel (d p) overlapSize x)
    have h3 := ih (fun y hy => hl y (List.mem_cons_of_mem _ hy))
      (fun p => if (d p).minBorderDist overlapSize ≤ x then afterLevel (d p) overlapSize x (σ p) else σ p) (by
        intro p
        split_ifs
        · exact noZero_level (hσ p) hx
        · exact hσ p)
    have key := (h1.append h2).append h3
    have e1 : (fun p => ((x :: l).filter fun x => decide ((d p).minBorderDist overlapSize ≤ x)).flatMap fun dist =>
        roundProgram (fun p => (d p).neighborPeers) (addNonNeighborOverlapIndices d dist) p ++
          [Op.compute (afterLevel (d p) overlapSize dist)]) = fun p =>
        (program (fun p => (d p).neighborPeers) [addNonNeighborOverlapIndices d x] p ++
          (if (d p).minBorderDist overlapSize ≤ x then [Op.compute (afterLevel (d p) overlapSize x)] else [])) ++
        (l.filter fun x => decide ((d p).minBorderDist overlapSize ≤ x)).flatMap fun dist =>
          roundProgram (fun p => (d p).neighborPeers) (addNonNeighborOverlapIndices d dist) p ++
            [Op.compute (afterLevel (d p) overlapSize dist)] := by
      funext p
      have ep : program (fun p => (d p).neighborPeers) [addNonNeighborOverlapIndices d x] p =
          roundProgram (fun p => (d p).neighborPeers) (addNonNeighborOverlapIndices d x) p := by
        unfold Mpi.program; simp
      rw [ep]
      by_cases hm : (d p).minBorderDist overlapSize ≤ x
      · rw [List.filter_cons_of_pos (by simpa using hm), List.flatMap_cons, if_pos hm]
      · rw [List.filter_cons_of_neg (by simpa using hm), if_neg hm]
        have hb : (d p).borderList = [] := by
          by_contra hne
          rw [minBorderDist_eq v hs, if_neg hne] at hm
          exact hm hx
        have hr : roundProgram (fun p => (d p).neighborPeers) (addNonNeighborOverlapIndices d x) p = [] := by
          unfold roundProgram
          simp only [neighbors_nil hb]
          rfl
        rw [hr]
        rfl
    have e2 : (fun p => search (d p) overlapSize ((x :: l).filter fun x => decide ((d p).minBorderDist overlapSize ≤ x)) (σ p)) =
        fun p => search (d p) overlapSize (l.filter fun x => decide ((d p).minBorderDist overlapSize ≤ x))
          (if (d p).minBorderDist overlapSize ≤ x then afterLevel (d p) overlapSize x (σ p) else σ p) := by
      funext p
      by_cases hm : (d p).minBorderDist overlapSize ≤ x
      · rw [List.filter_cons_of_pos (by simpa using hm), if_pos hm]; rfl
      · rw [List.filter_cons_of_neg (by simpa using hm), if_neg hm]
    rw [e1, e2]
    exact key

theorem levels_eq (hs : 0 < overlapSize) (n : Native P) (hn : 0 < n.minBorderDist overlapSize) :
    levels n overlapSize = (List.range' 1 overlapSize).filter fun x => decide (n.minBorderDist overlapSize ≤ x) := by
  have hle := minBorderDist_le (d := n) overlapSize
  unfold levels
  generalize n.minBorderDist overlapSize = m at *
  have e : List.range' 1 overlapSize = List.range' 1 (m - 1) ++ List.range' m (overlapSize + 1 - m) := by
    have := List.range'_append (s := 1) (m := m - 1) (n := overlapSize + 1 - m) (step := 1)
    rw [show 1 + 1 * (m - 1) = m by omega, show m - 1 + (overlapSize + 1 - m) = overlapSize by omega] at this
    exact this.symm
  rw [e, List.filter_append]
  have h1 : (List.range' 1 (m - 1)).filter (fun x => decide (m ≤ x)) = [] := by
    rw [List.filter_eq_nil_iff]
    intro x hx
    rw [List.mem_range'_1] at hx
    simp; omega
  have h2 : (List.range' m (overlapSize + 1 - m)).filter (fun x => decide (m ≤ x)) = List.range' m (overlapSize + 1 - m) := by
    rw [List.filter_eq_self]
    intro x hx
    rw [List.mem_range'_1] at hx
    simp; omega
  rw [h1, h2, List.nil_append]

/-- The extension of the overlap comes to an end, with what each process finds by itself. -/
theorem settles_foreign (v : Valid g d) (hs : 0 < overlapSize) :
    Settles (foreignProgram d overlapSize) (fun p => Foreign.init (d p)) (fun p => searched (d p) overlapSize) := by
  have := settles_levels v hs (List.range' 1 overlapSize) (fun x hx => by rw [List.mem_range'_1] at hx; omega)
    (fun p => Foreign.init (d p)) (fun p l q => by simp [Foreign.init])
  have e1 : foreignProgram d overlapSize = fun p =>
      ((List.range' 1 overlapSize).filter fun x => decide ((d p).minBorderDist overlapSize ≤ x)).flatMap fun dist =>
        roundProgram (fun p => (d p).neighborPeers) (addNonNeighborOverlapIndices d dist) p ++
          [.compute (afterLevel (d p) overlapSize dist)] := by
    funext p
    unfold foreignProgram
    rw [levels_eq hs _ (minBorderDist_pos v hs p)]
  have e2 : (fun p => searched (d p) overlapSize) = fun p => search (d p) overlapSize
      ((List.range' 1 overlapSize).filter fun x => decide ((d p).minBorderDist overlapSize ≤ x)) (Foreign.init (d p)) := by
    funext p
    unfold searched
    rw [levels_eq hs _ (minBorderDist_pos v hs p)]
  rw [e1, e2]
  exact this

end Verif.Overlap
