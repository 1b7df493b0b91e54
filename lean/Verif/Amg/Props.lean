import Verif.Amg.Model
import Verif.Overlap.BorderProps

/-
C141: The algebraic multi-grid solver gets a correct description of the distribution.
-/

set_option autoImplicit false

namespace Verif.Amg

open Verif.Overlap Verif.Mpi

variable {P : ℕ} {G : Type} {g : Grid P G} {d : Fin P → Native P} {overlapSize : ℕ}

/-- The sets of indices describe the distribution: each process lists the cells of its overlap, each of them once and in the order of the
rows of its matrix; exactly the process which owns a cell is marked as its owner; exactly the cells which other processes have too are
marked as shared. -/
structure Describes (g : Grid P G) (d : Fin P → Native P) (overlapSize : ℕ) (number : G → ℕ) (L : Fin P → List Entry) : Prop where
  cells : ∀ p, ∀ c ∈ g.all, (∃ e ∈ L p, e.globalIdx = number c) ↔ InOverlap g d overlapSize p c
  once : ∀ p, ((L p).map Entry.globalIdx).Nodup
  rows : ∀ p, (L p).map Entry.localIdx = List.range (L p).length
  flags : ∀ p, ∀ e ∈ L p, ∃ c ∈ g.all, e.globalIdx = number c ∧ (e.owner ↔ g.owner c = p) ∧
    (e.shared ↔ ∃ q, q ≠ p ∧ InOverlap g d overlapSize q c)

theorem near_ne (v : Valid g d) {p r : Fin P} {k i : ℕ} (h : Near (d p) r k i) : r ≠ p := by
  induction h with
  | border e he hr _ => rw [← hr]; exact ((v.border p e).1 he).2.1
  | step _ _ _ _ _ _ ih => exact ih

theorem describes (v : Valid g d) (hs : 0 < overlapSize) {number : G → ℕ} (hinj : Set.InjOn number g.all) {s : Fin P → Process P}
    (c : Constructed g d overlapSize number s) (hf : ∀ p, (s p).foreign = searched (d p) overlapSize) :
    Describes g d overlapSize number fun p => indexSet (d p) p (s p) := by
  have hlocal : ∀ p i x, i < ((s p).answers (d p) p).numDomestic → x ∈ g.all → ((s p).answers (d p) p).domesticToGlobal i = number x →
      (i < (d p).numLocal ↔ g.owner x = p) := by
    intro p i x hi hx e
    constructor
    · intro hl
      obtain ⟨j, hj⟩ := exists_native hl
      obtain ⟨-, y, hy, ho, e'⟩ := (c.native p j i).1 hj
      have hall : y ∈ g.all := all_of_index (i := j) (by rw [ho]; exact hy)
      rw [hinj hx hall (e.symm.trans e')]
      exact ho
    · intro ho
      have hx' : x ∈ g.cells p := ho ▸ hx
      obtain ⟨j, hj⟩ := List.getElem?_of_mem hx'
      obtain ⟨l, hl, -⟩ := own_index v hj ho
      obtain ⟨hlt, y, hy, -, e'⟩ := (c.native p j l).1 hl
      rw [hj] at hy
      injection hy with hy
      subst hy
      have h1 := (c.index p (number x) i).2 ⟨hi, e⟩
      have h2 := (c.index p (number x) l).2 ⟨hlt, e'⟩
      rw [h1] at h2
      injection h2 with h2
      rw [h2]
      exact toLocal_lt hl
  constructor
  · intro p x hx
    rw [← c.holds p x hx]
    constructor
    · rintro ⟨e, he, h⟩
      obtain ⟨i, hi, rfl⟩ := List.mem_map.1 he
      exact ⟨i, List.mem_range.1 hi, h⟩
    · rintro ⟨i, hi, h⟩
      exact ⟨_, List.mem_map.2 ⟨i, List.mem_range.2 hi, rfl⟩, h⟩
  · intro p
    unfold indexSet
    rw [List.map_map]
    apply List.Nodup.map_on _ List.nodup_range
    intro i hi j hj e
    have h1 := (c.index p _ i).2 ⟨List.mem_range.1 hi, rfl⟩
    have h2 := (c.index p _ j).2 ⟨List.mem_range.1 hj, rfl⟩
    have e' : ((s p).answers (d p) p).domesticToGlobal i = ((s p).answers (d p) p).domesticToGlobal j := e
    rw [e', h2] at h1
    injection h1 with h1
    exact h1.symm
  · intro p
    simp [indexSet, Function.comp_def]
  · intro p e he
    obtain ⟨i, hi, rfl⟩ := List.mem_map.1 he
    have hi := List.mem_range.1 hi
    obtain ⟨x, hx, e1, m1⟩ := c.cell p i hi
    have hloc := hlocal p i x hi hx e1
    refine ⟨x, hx, e1, ?_, ?_⟩
    · constructor
      · intro h
        exact hloc.1 h.1
      · intro h
        have hl := hloc.2 h
        refine ⟨hl, ?_⟩
        have : ((s p).answers (d p) p).masterRank i = masterRank (d p) (s p).foreign p i := by
          show domesticMasterRank _ _ _ _ _ = _
          unfold domesticMasterRank
          rw [if_pos hl]
        rw [← this, m1, h]
    · constructor
      · rintro (h | ⟨q, hq⟩)
        · refine ⟨g.owner x, ?_, Or.inl rfl⟩
          intro ho
          exact h (hloc.2 ho)
        · obtain ⟨m, hm⟩ := Option.isSome_iff_exists.1 hq
          rw [hf] at hm
          obtain ⟨j, k, h1, hk, hd, -⟩ := (foreign_iff v hs p q i m).1 hm
          obtain ⟨-, y, hy, ho, e'⟩ := (c.native p j i).1 h1
          have hall : y ∈ g.all := all_of_index (i := j) (by rw [ho]; exact hy)
          have hxy := hinj hx hall (e1.symm.trans e')
          subst hxy
          exact ⟨q, near_ne v hd.1, Or.inr ⟨j, k, hk, by rw [ho]; exact hy, by rw [ho]; exact hd.1⟩⟩
      · rintro ⟨q, hq, hov⟩
        by_cases ho : g.owner x = p
        · right
          rcases hov with h | ⟨j, k, hk, hj, hn⟩
          · exact absurd (h.symm.trans ho) hq
          · rw [ho] at hj hn
            refine ⟨q, ?_⟩
            obtain ⟨k', hk', hd⟩ := near_dist hn
            obtain ⟨l, hl, -⟩ := own_index v hj ho
            obtain ⟨hlt, y, hy, -, e'⟩ := (c.native p j l).1 hl
            rw [hj] at hy
            injection hy with hy
            subst hy
            have h1 := (c.index p (number x) i).2 ⟨hi, e1⟩
            have h2 := (c.index p (number x) l).2 ⟨hlt, e'⟩
            rw [h1] at h2
            injection h2 with h2
            subst h2
            rw [hf, (foreign_iff v hs p q i (k' + 1)).2 ⟨j, k', hl, by omega, hd, rfl⟩]
            rfl
        · left
          intro h
          exact ho (hloc.1 h)

/-- **C141** Whatever the grid and its distribution, for any positive size of the overlap, whatever the MPI library buffers and however
the processes are scheduled: with the overlaps which the processes have set up, the sets of indices for the algebraic multi-grid solver
describe the distribution, with the cells numbered consecutively. -/
theorem C141_index_set (v : Valid g d) (hs : 0 < overlapSize) (any : Fin P → Domestic P)
    (s : System (Fin P) (Process P) (AnyMsg P)) (h : Reach (start (construct d overlapSize) fun p => Process.start (d p) (any p)) s)
    (hf : Finished s) : ∃ (count : ℕ) (number : G → ℕ), Set.BijOn number g.all {n | n < count} ∧
      Describes g d overlapSize number fun p => indexSet (d p) p (s.state p) := by
  obtain ⟨count, number, τ, hτ, hbij, hc, hfor⟩ := settles_constructed v hs any
  obtain ⟨h1, -⟩ := hτ.correct s h
  rw [show s.state = τ from funext (h1 hf)]
  exact ⟨count, number, hbij, describes v hs hbij.injOn hc hfor⟩

/-- **C141** Each cell of the grid has exactly one process which lists it as its owner: sums over owned entries count each cell once. -/
theorem C141_one_owner (v : Valid g d) (hs : 0 < overlapSize) (any : Fin P → Domestic P)
    (s : System (Fin P) (Process P) (AnyMsg P)) (h : Reach (start (construct d overlapSize) fun p => Process.start (d p) (any p)) s)
    (hf : Finished s) : ∃ number : G → ℕ, Set.InjOn number g.all ∧
      ∀ c ∈ g.all, ∃! p, ∃ e ∈ indexSet (d p) p (s.state p), e.globalIdx = number c ∧ e.owner := by
  obtain ⟨count, number, hbij, D⟩ := C141_index_set v hs any s h hf
  refine ⟨number, hbij.injOn, ?_⟩
  intro c hc
  refine ⟨g.owner c, ?_, ?_⟩
  · obtain ⟨e, he, hn⟩ := (D.cells (g.owner c) c hc).2 (Or.inl rfl)
    obtain ⟨c', hc', h1, h2, -⟩ := D.flags _ e he
    have : c' = c := hbij.injOn hc' hc (h1.symm.trans hn)
    subst this
    exact ⟨e, he, hn, h2.2 rfl⟩
  · rintro p ⟨e, he, hn, ho⟩
    obtain ⟨c', hc', h1, h2, -⟩ := D.flags _ e he
    have : c' = c := hbij.injOn hc' hc (h1.symm.trans hn)
    subst this
    exact (h2.1 ho).symm

/-- Beside C141: three processes in a row with two cells each and an overlap of two cells. -/
example (any : Fin 3 → Domestic 3) :
    ∃ s, Reach (start (construct rowMesh.native 2) fun p => Process.start (rowMesh.native p) (any p)) s ∧ Finished s ∧
      ∃ number : ℕ → ℕ, Describes rowMesh.toGrid rowMesh.native 2 number fun p => indexSet (rowMesh.native p) p (s.state p) := by
  obtain ⟨-, -, τ, hτ, -⟩ := settles_constructed rowMesh_correct (overlapSize := 2) (by decide) any
  obtain ⟨s, hr, hf, -⟩ := hτ.exists_finished
  obtain ⟨-, number, -, h⟩ := C141_index_set rowMesh_correct (by decide) any s hr hf
  exact ⟨s, hr, hf, number, h⟩

end Verif.Amg
