import Verif.Overlap.Constructed
import Verif.Sync.Props

/-
C102: the overlaps which the processes set up.
-/

set_option autoImplicit false
set_option linter.unusedSectionVars false

namespace Verif.Overlap

open Verif.Mpi Verif.GlobalIdx

variable {P : ℕ} {G : Type} {g : Grid P G} {d : Fin P → Native P} {overlapSize : ℕ}

theorem final_constructed (v : Valid g d) (hs : 0 < overlapSize) {t : Fin P → State} {number : Option G → ℕ}
    (hinj : Set.InjOn number (present (parts d) (dof g)))
    (ht : ∀ p, (∀ k, (t p).toGlobal k = ((locals (parts d p))[k]?).map fun i => number (dof g p i)) ∧
      ∀ n k, (t p).toDomestic n = some k ↔ (t p).toGlobal k = some n) :
    Constructed g d overlapSize (fun c => number (some c)) (final d overlapSize t) := by
  set s : Fin P → Domestic P := fun p => Domestic.init (d p) (t p) with hsdef
  have hst : ∀ p k, (s p).toGlobal k = ((locals (parts d p))[k]?).map fun i => number (dof g p i) := fun p => (ht p).1
  set D : Fin P → Domestic P := fun p => (received d overlapSize s p).foldl (fun s e => receiveIndex e.1 s e.2) (s p) with hD
  have B : ∀ p, Built (ownNumbers d g number p) (received d overlapSize s p) (D p) := by
    intro p
    have h0 : Built (ownNumbers d g number p) [] (s p) := by
      apply built_init _ _ (ownNumbers_length number p) _ _ (ht p).2
      intro k
      rw [(ht p).1]
      unfold ownNumbers
      rw [List.getElem?_map]
    have := built_all (received d overlapSize s p) h0 (by
      rw [List.nil_append]; exact numbers_nodup v hs hinj hst p)
    rwa [List.nil_append] at this
  have hnum : ∀ p i n, (D p).toGlobal i = some n → i < (D p).numDomestic := by
    intro p i n h
    rw [(B p).toGlobal] at h
    have := (List.getElem?_eq_some_iff.1 h).1
    rw [(B p).num]
    simpa using this
  have hglob : ∀ p i, i < (D p).numDomestic → ∀ n, ((D p).toGlobal i).getD 0 = n ↔ (D p).toGlobal i = some n := by
    intro p i hi n
    obtain ⟨c, -, e, -⟩ := master_owner v hs hst (B p) hi
    rw [e]
    simp
  have hblackNone : ∀ p, (D p).blackMap = fun _ => none := fun p => (B p).black
  -- the pairs of the black list
  have hpairs : ∀ p x, x ∈ blackPairs d D p ↔ ∃ c, g.owner c ≠ p ∧ c ∈ g.all ∧ (g.cells p)[x.2]? = some c ∧
      x.1 = number (some c) := by
    intro p x
    unfold blackPairs
    rw [List.mem_flatMap]
    constructor
    · rintro ⟨q, hq, h⟩
      obtain ⟨y, hy, rfl⟩ := List.mem_map.1 h
      obtain ⟨hne, c, ho, h1, h2⟩ := (v.peerBlack q p y).1 hy
      obtain ⟨l, hl, hl'⟩ := own_index v h1 ho
      refine ⟨c, by rw [ho]; exact hne.symm, all_of_index (i := y.2) (by rw [ho]; exact h1), h2, ?_⟩
      have hn : nativeToDomestic (d q) y.2 = some l := hl
      have hg : (D q).toGlobal l = some (number (some c)) := by
        rw [(B q).toGlobal, List.getElem?_append_left (by rw [ownNumbers_length]; exact toLocal_lt hl)]
        unfold ownNumbers
        rw [List.getElem?_map, hl']
        simp [dof, h1]
      simp only [hn, Option.bind_some, hg, Option.getD_some]
    · rintro ⟨c, ho, hc, h2, h3⟩
      obtain ⟨i, hi, e⟩ := List.getElem_of_mem (show c ∈ g.cells (g.owner c) from hc)
      have h1 : (g.cells (g.owner c))[i]? = some c := by rw [List.getElem?_eq_getElem hi, e]
      obtain ⟨l, hl, hl'⟩ := own_index v h1 rfl
      refine ⟨g.owner c, (neighbors_symm v _ _).1 ((neighbor_iff v _ _).2 ⟨Ne.symm ho, c, List.mem_of_getElem? h2, rfl⟩), ?_⟩
      refine List.mem_map.2 ⟨(x.2, i), (v.peerBlack _ _ _).2 ⟨Ne.symm ho, c, rfl, h1, h2⟩, ?_⟩
      have hn : nativeToDomestic (d (g.owner c)) i = some l := hl
      have hg : (D (g.owner c)).toGlobal l = some (number (some c)) := by
        rw [(B _).toGlobal, List.getElem?_append_left (by rw [ownNumbers_length]; exact toLocal_lt hl)]
        unfold ownNumbers
        rw [List.getElem?_map, hl']
        simp [dof, h1]
      ext
      · simp only [hn, Option.bind_some, hg, Option.getD_some, h3]
      · rfl
  have hblack : ∀ p i m, (blackPairs d D p).foldl (addBlack (D p)) (D p).blackMap i = some m ↔
      ∃ c, (g.cells p)[i]? = some c ∧ g.owner c ≠ p ∧ (D p).toGlobal m = some (number (some c)) := by
    intro p i m
    rw [hblackNone, addBlack_spec]
    · constructor
      · rintro ⟨x, hx, rfl, hm⟩
        obtain ⟨c, ho, hc, h2, h3⟩ := (hpairs p x).1 hx
        rw [(B p).toDomestic, h3] at hm
        exact ⟨c, h2, ho, hm⟩
      · rintro ⟨c, h2, ho, hm⟩
        exact ⟨(number (some c), i), (hpairs p _).2 ⟨c, ho, v.owned p c (List.mem_of_getElem? h2), h2, rfl⟩, rfl,
          ((B p).toDomestic _ _).2 hm⟩
    · intro x hx y hy e
      obtain ⟨c, -, -, h2, h3⟩ := (hpairs p x).1 hx
      obtain ⟨c', -, -, h2', h3'⟩ := (hpairs p y).1 hy
      rw [e, h2'] at h2
      injection h2 with h2
      subst h2
      exact Prod.ext (h3.trans h3'.symm) e
  refine ⟨?_, ?_, ?_, ?_, ?_, ?_, ?_, ?_, ?_, ?_⟩
  · intro p; exact peerSet_searched p
  · intro p c hc
    rw [← has_iff v hs hinj hst (B p) hc]
    constructor
    · rintro ⟨i, hi, e⟩; exact ⟨i, (hglob p i hi _).1 e⟩
    · rintro ⟨i, e⟩; exact ⟨i, hnum p i _ e, (hglob p i (hnum p i _ e) _).2 e⟩
  · intro p n i
    show (D p).toDomestic n = some i ↔ i < (D p).numDomestic ∧ ((D p).toGlobal i).getD 0 = n
    rw [(B p).toDomestic]
    constructor
    · intro e; exact ⟨hnum p i _ e, (hglob p i (hnum p i _ e) _).2 e⟩
    · rintro ⟨hi, e⟩; exact (hglob p i hi _).1 e
  · intro p i hi
    obtain ⟨c, hc, e, hm⟩ := master_owner v hs hst (B p) hi
    exact ⟨c, hc, (hglob p i hi _).2 e, hm⟩
  · intro p i l
    show (d p).nativeToLocal i = some l ↔ l < (D p).numDomestic ∧
      ∃ c, (g.cells p)[i]? = some c ∧ g.owner c = p ∧ ((D p).toGlobal l).getD 0 = number (some c)
    have hl := ownNumbers_length (d := d) (g := g) number p
    constructor
    · intro h
      have hlt := toLocal_lt h
      obtain ⟨c, hc, ho⟩ := own_cell v h
      have hi : l < (D p).numDomestic := by rw [(B p).num, hl]; omega
      refine ⟨hi, c, hc, ho, (hglob p l hi _).2 ?_⟩
      rw [(B p).toGlobal, List.getElem?_append_left (by rw [hl]; exact hlt)]
      unfold ownNumbers
      rw [List.getElem?_map, (nativeToLocal_eq (parts d p) i l).1 h]
      simp [dof, hc]
    · rintro ⟨hi, c, hc, ho, e⟩
      rw [hglob p l hi] at e
      have hall : c ∈ g.all := all_of_index (i := i) (by rw [ho]; exact hc)
      rcases entry v hs hst (B p) hi with ⟨h, j, c', hj, hc', ho', e'⟩ | ⟨h, j, c', k, h1, h2, h3, h4, h5, e'⟩
      · rw [e] at e'
        have := cell_number_inj v hinj hall (all_of_index (i := j) (by rw [ho']; exact hc')) (Option.some.inj e')
        subst this
        rw [cell_index v hc hc']
        exact hj
      · rw [e] at e'
        have := cell_number_inj v hinj hall (all_of_index h1) (Option.some.inj e')
        subst this
        exact absurd ho h2
  · intro p i l
    show (d p).localToNative l = some i ↔ (d p).nativeToLocal i = some l
    exact (toLocal_iff i l).symm
  · intro p i l
    show (blackPairs d D p).foldl (addBlack (D p)) (D p).blackMap i = some l ↔ l < (D p).numDomestic ∧
      ∃ c, (g.cells p)[i]? = some c ∧ g.owner c ≠ p ∧ ((D p).toGlobal l).getD 0 = number (some c)
    rw [hblack]
    constructor
    · rintro ⟨c, h1, h2, h3⟩
      exact ⟨hnum p l _ h3, c, h1, h2, (hglob p l (hnum p l _ h3) _).2 h3⟩
    · rintro ⟨hl, c, h1, h2, h3⟩
      exact ⟨c, h1, h2, (hglob p l hl _).1 h3⟩
  · intro p i c hc ho
    have hall : c ∈ g.all := v.owned p c (List.mem_of_getElem? hc)
    obtain ⟨j, hj, e⟩ := List.getElem_of_mem (show c ∈ g.cells (g.owner c) from hall)
    have h1 : (g.cells (g.owner c))[j]? = some c := by rw [List.getElem?_eq_getElem hj, e]
    have hov : InOverlap g d overlapSize p c := by
      refine Or.inr ⟨j, 0, hs, h1, ?_⟩
      exact Near.border ⟨j, i, p, 1⟩ ((v.border _ _).2 ⟨rfl, Ne.symm ho, c, rfl, h1, hc⟩) rfl (((v.black _).2 j c h1).2 rfl)
    obtain ⟨l, hl⟩ := (has_iff v hs hinj hst (B p) hall).2 hov
    exact ⟨l, (hblack p i l).2 ⟨c, hc, ho, hl⟩⟩
  · intro p i hi c hc e m
    exact distance_iff v hs hinj hst (B p) hi hc ((hglob p i hi _).1 e) m
  · intro p q hq
    show ((D p).withPeer q).length = (foreignWith (d q) (searched (d q) overlapSize) p).length
    rw [(B p).withPeerLength]
    unfold received
    rw [List.filter_flatMap, List.length_flatMap]
    have hz : ∀ q' ∈ (d p).neighborPeers, (((sendIndices (d q') (searched (d q') overlapSize) p (s q')).map fun x => (q', x)).filter
        fun e => decide (e.1 = q)).length = if q' = q then (foreignWith (d q) (searched (d q) overlapSize) p).length else 0 := by
      intro q' _
      split_ifs with h
      · subst h
        rw [List.filter_eq_self.2]
        · unfold sendIndices
          simp
        · intro e he
          obtain ⟨x, -, rfl⟩ := List.mem_map.1 he
          simp
      · rw [List.length_eq_zero_iff, List.filter_eq_nil_iff]
        intro e he
        obtain ⟨x, -, rfl⟩ := List.mem_map.1 he
        simpa using h
    rw [List.map_congr_left hz]
    have hsum : ∀ (l : List (Fin P)), l.Nodup → q ∈ l → ∀ n : ℕ, (l.map fun q' => if q' = q then n else 0).sum = n := by
      intro l
      induction l with
      | nil => intro _ h; simp at h
      | cons a l ih =>
        intro hnd hm n
        rw [List.map_cons, List.sum_cons]
        rw [List.nodup_cons] at hnd
        by_cases ha : a = q
        · subst ha
          rw [if_pos rfl]
          have : (l.map fun q' => if q' = a then n else 0).sum = 0 := by
            apply List.sum_eq_zero
            intro x hx
            obtain ⟨y, hy, rfl⟩ := List.mem_map.1 hx
            rw [if_neg]
            rintro rfl
            exact hnd.1 hy
          omega
        · rw [if_neg ha, ih hnd.2 ((List.mem_cons.1 hm).resolve_left (Ne.symm ha)), Nat.zero_add]
    exact hsum _ (neighbors_nodup (d := d) p) hq _

theorem settles_constructed (v : Valid g d) (hs : 0 < overlapSize) (any : Fin P → Domestic P) :
    ∃ (count : ℕ) (number : G → ℕ) (τ : Fin P → Process P), Settles (construct d overlapSize) (fun p => Process.start (d p) (any p)) τ ∧
      Set.BijOn number g.all {n | n < count} ∧ Constructed g d overlapSize number τ ∧
      ∀ p, (τ p).foreign = searched (d p) overlapSize := by
  obtain ⟨t, ht, count, number, hbij, hn⟩ := settles_globals v hs
  refine ⟨count, fun c => number (some c), final d overlapSize t, settles_final v hs any ht, ⟨?_, ?_, ?_⟩,
    final_constructed v hs hbij.injOn hn, fun _ => rfl⟩
  · intro c hc
    exact hbij.mapsTo ((present_iff v _).2 ⟨c, hc, rfl⟩)
  · intro c hc c' hc' e
    exact cell_number_inj v hbij.injOn hc hc' e
  · intro n hn
    obtain ⟨x, hx, rfl⟩ := hbij.surjOn hn
    obtain ⟨c, hc, rfl⟩ := (present_iff v x).1 hx
    exact ⟨c, hc, rfl⟩

/-- **C102** Whatever the grid and its distribution, for any positive size of the overlap, whatever the MPI library buffers and however
the processes are scheduled: setting up the overlaps never deadlocks, and when all processes are through the cells are numbered
consecutively and each process has exactly the cells of its overlap, with the right masters, distances and indices. -/
theorem C102_construct (v : Valid g d) (hs : 0 < overlapSize) (any : Fin P → Domestic P)
    (s : System (Fin P) (Process P) (AnyMsg P)) (h : Reach (start (construct d overlapSize) fun p => Process.start (d p) (any p)) s) :
    (Finished s → ∃ (count : ℕ) (number : G → ℕ), Set.BijOn number g.all {n | n < count} ∧
      Constructed g d overlapSize number s.state) ∧ (¬Finished s → ∃ t, Step true s t) := by
  obtain ⟨count, number, τ, hτ, hbij, hc, -⟩ := settles_constructed v hs any
  obtain ⟨h1, h2⟩ := hτ.correct s h
  refine ⟨fun hf => ⟨count, number, hbij, ?_⟩, h2⟩
  rw [show s.state = τ from funext (h1 hf)]
  exact hc

/-- **C102** Setting up the overlaps comes to an end. -/
theorem C102_terminates (v : Valid g d) (hs : 0 < overlapSize) (any : Fin P → Domestic P)
    (s : System (Fin P) (Process P) (AnyMsg P)) (h : Reach (start (construct d overlapSize) fun p => Process.start (d p) (any p)) s) :
    (∀ t, Next s t → remaining t < remaining s) ∧ ∃ t, Relation.ReflTransGen (Step true) s t ∧ Finished t := by
  obtain ⟨count, number, τ, hτ, -, -, -⟩ := settles_constructed v hs any
  exact ⟨fun t ht => remaining_lt ht, hτ.can_finish s h⟩

/-- What `Coherent` and `Complete` need -/
theorem coherent_of_constructed (v : Valid g d) (hs : 0 < overlapSize) {number : G → ℕ} (hinj : Set.InjOn number g.all)
    {s : Fin P → Process P} (c : Constructed g d overlapSize number s) (hf : ∀ p, (s p).foreign = searched (d p) overlapSize) :
    Sync.Coherent (fun p => (s p).answers (d p) p) ∧ Sync.Complete (fun p => (s p).answers (d p) p) := by
  have hpeers : ∀ p, ((s p).answers (d p) p).peerSet = (d p).neighborPeers := c.peers
  -- local indices and cells
  have hforeign : ∀ p q l, l ∈ ((s p).answers (d p) p).foreignOverlap q ↔ ∃ i x, (d p).nativeToLocal i = some l ∧
      (g.cells p)[i]? = some x ∧ g.owner x = p ∧ ∃ k < overlapSize, Near (d p) q k i := by
    intro p q l
    show l ∈ foreignWith (d p) (s p).foreign q ↔ _
    rw [hf, mem_foreignWith]
    constructor
    · rintro ⟨hl, hm⟩
      obtain ⟨m, hm⟩ := Option.isSome_iff_exists.1 hm
      obtain ⟨i, k, h1, h2, h3, -⟩ := (foreign_iff v hs p q l m).1 hm
      obtain ⟨x, hx, ho⟩ := own_cell v h1
      exact ⟨i, x, h1, hx, ho, k, h2, h3.1⟩
    · rintro ⟨i, x, h1, hx, ho, k, hk, hn⟩
      obtain ⟨k', hk', hd⟩ := near_dist hn
      refine ⟨toLocal_lt h1, ?_⟩
      rw [(foreign_iff v hs p q l (k' + 1)).2 ⟨i, k', h1, by omega, hd, rfl⟩]
      rfl
  have hnat : ∀ p i l, (d p).nativeToLocal i = some l → l < ((s p).answers (d p) p).numDomestic ∧
      ∃ x, (g.cells p)[i]? = some x ∧ g.owner x = p ∧ ((s p).answers (d p) p).domesticToGlobal l = number x :=
    fun p i l h => (c.native p i l).1 h
  constructor
  · constructor
    · intro p; rw [hpeers]; exact neighbors_nodup p
    · intro p q; rw [hpeers, hpeers]; exact neighbors_symm v p q
    · intro p; rw [hpeers]; exact neighbors_irrefl v p
    · exact c.index
    · intro p q hq
      rw [hpeers] at hq
      refine ⟨List.Nodup.filter _ List.nodup_range, fun l hl => ?_⟩
      obtain ⟨i, x, h1, h2, h3, k, hk, hn⟩ := (hforeign p q l).1 hl
      obtain ⟨hlt, x', hx', ho', e⟩ := hnat p i l h1
      rw [h2] at hx'
      injection hx' with hx'
      subst hx'
      refine ⟨hlt, ?_⟩
      rw [e]
      have hall : x ∈ g.all := all_of_index (i := i) (by rw [h3]; exact h2)
      exact (c.holds q x hall).2 (Or.inr ⟨i, k, hk, by rw [h3]; exact h2, by rw [h3]; exact hn⟩)
    · intro p q i hi j hj e
      obtain ⟨x, hx, e1, m1⟩ := c.cell p i hi
      obtain ⟨y, hy, e2, m2⟩ := c.cell q j hj
      rw [m1, m2, hinj hx hy (e1.symm.trans (e.trans e2))]
    · intro p i hi
      obtain ⟨x, hx, e1, m1⟩ := c.cell p i hi
      by_cases ho : g.owner x = p
      · exact Or.inl (m1.trans ho)
      · right
        rw [m1, hpeers]
        have hov := (c.holds p x hx).1 ⟨i, hi, e1⟩
        rcases hov with h | ⟨j, k, hk, hj, hn⟩
        · exact absurd h ho
        · obtain ⟨l, hl, -⟩ := own_index v hj rfl
          refine ⟨(neighbors_symm v _ _).1 (near_neighbor hn), l, (hforeign _ _ _).2 ⟨j, x, hl, hj, rfl, k, hk, hn⟩, ?_⟩
          obtain ⟨-, x', hx', -, e⟩ := hnat _ j l hl
          rw [hj] at hx'
          injection hx' with hx'
          subst hx'
          rw [e, e1]
  · intro p q hpq i hi
    dsimp only
    rw [hpeers, hforeign]
    constructor
    · rintro ⟨h1, h2⟩
      obtain ⟨j, hj⟩ := Option.isSome_iff_exists.1 h1
      have hj' := (c.back p j i).1 hj
      obtain ⟨-, x, hx, ho, e⟩ := (c.native p j i).1 hj'
      rw [e] at h2
      have hall : x ∈ g.all := all_of_index (i := j) (by rw [ho]; exact hx)
      rcases (c.holds q x hall).1 h2 with h | ⟨j', k, hk, hj'', hn⟩
      · exact absurd (ho.symm.trans h) hpq
      · rw [ho] at hj'' hn
        have := cell_index v hx hj''
        subst this
        exact ⟨near_neighbor hn, j, x, hj', hx, ho, k, hk, hn⟩
    · rintro ⟨-, j, x, h1, hx, ho, k, hk, hn⟩
      obtain ⟨-, x', hx', -, e⟩ := hnat p j i h1
      rw [hx] at hx'
      injection hx' with hx'
      subst hx'
      refine ⟨Option.isSome_iff_exists.2 ⟨j, (c.back p j i).2 h1⟩, ?_⟩
      rw [e]
      have hall : x ∈ g.all := all_of_index (i := j) (by rw [ho]; exact hx)
      exact (c.holds q x hall).2 (Or.inr ⟨j, k, hk, by rw [ho]; exact hx, by rw [ho]; exact hn⟩)

/-- **C103** The overlaps which the processes have set up meet what vectors need (see C50): peers are mutual, all processes agree on the
masters, and the foreign overlaps are complete. -/
theorem C103_coherent (v : Valid g d) (hs : 0 < overlapSize) (any : Fin P → Domestic P)
    (s : System (Fin P) (Process P) (AnyMsg P)) (h : Reach (start (construct d overlapSize) fun p => Process.start (d p) (any p)) s)
    (hf : Finished s) :
    Sync.Coherent (fun p => (s.state p).answers (d p) p) ∧ Sync.Complete (fun p => (s.state p).answers (d p) p) := by
  obtain ⟨count, number, τ, hτ, hbij, hc, hfor⟩ := settles_constructed v hs any
  obtain ⟨h1, -⟩ := hτ.correct s h
  rw [show s.state = τ from funext (h1 hf)]
  exact coherent_of_constructed v hs hbij.injOn hc hfor

/-- **C103** With the overlaps which the processes have set up, assigning native vectors gives each process, for each cell of its
overlap, the value which the owner of the cell has for it, whatever the MPI library buffers and however processes are scheduled. -/
theorem C103_assign {K : Type} [Zero K] (v : Valid g d) (hs : 0 < overlapSize) (any : Fin P → Domestic P)
    (s : System (Fin P) (Process P) (AnyMsg P)) (h : Reach (start (construct d overlapSize) fun p => Process.start (d p) (any p)) s)
    (hf : Finished s) (native : Fin P → ℕ → K) (w : System (Fin P) (Sync.Vector P K) (Sync.Msg K))
    (hw : Reach (start (Sync.assignProgram fun p => (s.state p).answers (d p) p)
      fun p => Sync.fresh (Sync.fromNative ((s.state p).answers (d p) p) (native p))) w) :
    (Finished w → ∃ number : G → ℕ, Set.InjOn number g.all ∧ ∀ p,
      (∀ c ∈ g.all, Sync.Holds ((s.state p).answers (d p) p) (number c) ↔ InOverlap g d overlapSize p c) ∧
      ∀ i < ((s.state p).answers (d p) p).numDomestic, ∃ c ∈ g.all, ((s.state p).answers (d p) p).domesticToGlobal i = number c ∧
        ∀ j, (g.cells (g.owner c))[j]? = some c → (w.state p).entries i = native (g.owner c) j) ∧
      (¬Finished w → ∃ t, Step true w t) := by
  obtain ⟨count, number, τ, hτ, hbij, hc, hfor⟩ := settles_constructed v hs any
  obtain ⟨h1, -⟩ := hτ.correct s h
  rw [show s.state = τ from funext (h1 hf)] at hw ⊢
  obtain ⟨hco, -⟩ := coherent_of_constructed v hs hbij.injOn hc hfor
  obtain ⟨k1, k2⟩ := Sync.C50_sync hco (fun p => Sync.fromNative ((τ p).answers (d p) p) (native p)) w hw
  refine ⟨fun hfin => ⟨number, hbij.injOn, fun p => ⟨hc.holds p, fun i hi => ?_⟩⟩, k2⟩
  obtain ⟨c, hcall, e, hm⟩ := hc.cell p i hi
  refine ⟨c, hcall, e, fun j hj => ?_⟩
  obtain ⟨l, hl, hl', hval⟩ := k1 hfin p i hi
  simp only [hm] at hl hl' hval
  rw [e] at hl'
  have hnat := (hc.native (g.owner c) j l).2 ⟨hl, c, hj, rfl, hl'⟩
  have hback := (hc.back (g.owner c) j l).2 hnat
  rw [← hval]
  unfold Sync.fromNative
  rw [hback]

end Verif.Overlap
