import Verif.OverlapMatrix.VertexSpec
import Verif.OverlapMatrix.Props
import Verif.Overlap.VertexConstructed

/-
Lemmas about the matrices of processes which share vertices.
-/

set_option autoImplicit false
set_option linter.unusedSectionVars false
set_option linter.unusedSimpArgs false

namespace Verif.OverlapMatrix.Vertex

open Verif.Mpi Verif.Sync Verif.Overlap.Vertex

variable {P : ℕ} {G K : Type} {verts : Fin P → List G} {d : Fin P → Overlap.Native P} {overlapSize : ℕ} {number : G → ℕ}
  {o : Fin P → Overlap P} {black : Fin P → ℕ → Option ℕ} {a : Fin P → NativeMatrix K}

/-- What the overlaps of all processes guarantee, as far as matrices need it -/
structure Labelled (verts : Fin P → List G) (d : Fin P → Overlap.Native P) (overlapSize : ℕ) (number : G → ℕ) (o : Fin P → Overlap P)
    (black : Fin P → ℕ → Option ℕ) : Prop where
  coherent : Coherent o
  inj : Set.InjOn number (all verts)
  nodup : ∀ p, (verts p).Nodup
  symmetric : ∀ p, ∀ i < (verts p).length, ∀ j < (verts p).length, j ∈ (d p).cols i → i ∈ (d p).cols j
  holds : ∀ p, ∀ v ∈ all verts, Holds (o p) (number v) ↔ InOverlap verts d overlapSize p v
  vertex : ∀ p, ∀ i < (o p).numDomestic, ∃ v ∈ all verts, (o p).domesticToGlobal i = number v ∧ IsLowest verts v ((o p).masterRank i)
  native : ∀ p i l, (o p).nativeToDomestic i = some l ↔ l < (o p).numDomestic ∧ ∃ v, (verts p)[i]? = some v ∧
    (o p).domesticToGlobal l = number v
  back : ∀ p i l, (o p).domesticToNative l = some i ↔ (o p).nativeToDomestic i = some l
  noBlack : ∀ p i, black p i = none
  same : ∀ p i v, (verts p)[i]? = some v → (o p).nativeToDomestic i = some i
  foreign : ∀ p q l, l ∈ (o p).foreignOverlap q ↔ q ≠ p ∧ ∃ v, (verts p)[l]? = some v ∧ InOverlap verts d overlapSize q v
  peers : ∀ p q, q ∈ (o p).peerSet ↔ q ≠ p ∧ ∃ v ∈ verts p, InOverlap verts d overlapSize q v

theorem labelled_of_constructed (v : Valid verts d) (hinj : Set.InjOn number (all verts))
    {s : Fin P → Overlap.Process P} (c : Constructed verts d overlapSize number s) :
    Labelled verts d overlapSize number (answers d s) (blackMaps s) := by
  obtain ⟨co, -⟩ := coherent_of_constructed v hinj c
  refine ⟨co, hinj, v.nodup, v.symmetric, c.holds, c.vertex, c.native, c.back, c.noBlack, ?_, c.foreign, ?_⟩
  · intro p i x hx
    exact (toLocal v p i i).2 ⟨rfl, lt_of_get hx⟩
  · intro p q
    have : (answers d s p).peerSet = Overlap.Vertex.peers verts d overlapSize p := c.peers p
    rw [this, mem_peers]

theorem column_iff (L : Labelled verts d overlapSize number o black) (p : Fin P) (m j : ℕ) :
    columnIndex (o p) (black p) m = some j ↔ j < (o p).numDomestic ∧ ∃ v, (verts p)[m]? = some v ∧ (o p).domesticToGlobal j = number v := by
  rw [← L.native]
  unfold columnIndex
  cases h : (o p).nativeToDomestic m with
  | some l => rw [Option.orElse_some]
  | none => rw [Option.orElse_none, L.noBlack]

theorem index_unique (L : Labelled verts d overlapSize number o black) {p : Fin P} {n n' : ℕ} {u : G} (h : (verts p)[n]? = some u)
    (h' : (verts p)[n']? = some u) : n = n' := by
  obtain ⟨w, hw⟩ := List.getElem?_eq_some_iff.1 h
  obtain ⟨w', hw'⟩ := List.getElem?_eq_some_iff.1 h'
  exact (L.nodup _).getElem_inj_iff.1 (hw.trans hw'.symm)

theorem part_unique (L : Labelled verts d overlapSize number o black) {q : Fin P} {u v : G} {x y : K} (h : Part verts a q u v x)
    (h' : Part verts a q u v y) : x = y := by
  obtain ⟨n, m, h1, h2, -, rfl⟩ := h
  obtain ⟨n', m', h1', h2', -, rfl⟩ := h'
  rw [index_unique L h1 h1', index_unique L h2 h2']

theorem owned {p : Fin P} {i : ℕ} {u : G} (h : (verts p)[i]? = some u) : u ∈ all verts := ⟨p, List.mem_of_getElem? h⟩

/-- The domestic index of a vertex of the process is the native one. -/
theorem local_index (L : Labelled verts d overlapSize number o black) {p : Fin P} {n : ℕ} {u : G} (h : (verts p)[n]? = some u) :
    n < (o p).numDomestic ∧ (o p).domesticToGlobal n = number u := by
  obtain ⟨h1, x, hx, e⟩ := (L.native p n n).1 (L.same p n u h)
  rw [h] at hx; injection hx with hx; subst hx
  exact ⟨h1, e⟩

/-- The entries which are sent are those which the process has assembled for vertices in the overlap of the peer. -/
theorem sent_iff (L : Labelled verts d overlapSize number o black) {q p : Fin P} (hp : p ∈ (o q).peerSet) {u v : G} (hu : u ∈ all verts)
    (hv : v ∈ all verts) : (number u, number v) ∈ sentEntries o black a q p ↔
      InOverlap verts d overlapSize p u ∧ ∃ x, Part verts a q u v x := by
  have hne : p ≠ q := ((L.peers q p).1 hp).1
  unfold sentEntries sendIndices
  simp only [List.mem_flatMap, List.mem_map, List.flatMap_map, Prod.mk.injEq]
  constructor
  · rintro ⟨l, hl, y, hy, e1, rfl⟩
    obtain ⟨-, w, hw, hov⟩ := (L.foreign q p l).1 hl
    obtain ⟨-, e⟩ := local_index L hw
    have := L.inj hu (owned hw) (e1.symm.trans e)
    subst this
    rw [mem_columnSet, (L.back q l l).2 (L.same q l u hw)] at hy
    simp only [Option.elim_some, List.mem_map, List.mem_filterMap] at hy
    obtain ⟨j, ⟨m, hm, hj⟩, e2⟩ := hy
    obtain ⟨-, z, hz, ez⟩ := (column_iff L q m j).1 hj
    have := L.inj hv (owned hz) (e2.symm.trans ez)
    subst this
    exact ⟨hov, _, l, m, hw, hz, hm, rfl⟩
  · rintro ⟨hov, x, n, m, h1, h2, hm, -⟩
    refine ⟨n, (L.foreign q p n).2 ⟨hne, u, h1, hov⟩, number v, ?_, (local_index L h1).2, rfl⟩
    rw [mem_columnSet, (L.back q n n).2 (L.same q n u h1)]
    simp only [Option.elim_some, List.mem_map, List.mem_filterMap]
    obtain ⟨h3, h4⟩ := local_index L h2
    exact ⟨m, ⟨m, hm, (column_iff L q m m).2 ⟨h3, v, h2, h4⟩⟩, h4⟩

theorem nodup_sentEntries (L : Labelled verts d overlapSize number o black) {q p : Fin P} (hp : p ∈ (o q).peerSet) :
    (sentEntries o black a q p).Nodup := by
  unfold sentEntries sendIndices
  rw [List.flatMap_map, List.nodup_flatMap]
  obtain ⟨h1, h2⟩ := L.coherent.listed q p hp
  refine ⟨fun l hl => ?_, ?_⟩
  · exact (nodup_columnSet _).map fun x y e => (Prod.mk.inj e).2
  · refine (List.Nodup.pairwise_of_forall_ne h1 ?_)
    intro l hl l' hl' hne e he he'
    simp only [List.mem_map] at he he'
    obtain ⟨x, -, rfl⟩ := he
    obtain ⟨y, -, hy⟩ := he'
    exact hne (global_inj L.coherent (h2 l hl).1 (h2 l' hl').1 (Prod.mk.inj hy).1.symm)

/-- Entries of the own native matrix -/
theorem local_iff (L : Labelled verts d overlapSize number o black) {p : Fin P} {i j : ℕ} {u v : G} (hi : i < (o p).numDomestic)
    (hj : j < (o p).numDomestic) (hu : u ∈ all verts) (hv : v ∈ all verts) (ei : (o p).domesticToGlobal i = number u)
    (ej : (o p).domesticToGlobal j = number v) (n m : ℕ) :
    ((o p).nativeToDomestic n = some i ∧ columnIndex (o p) (black p) m = some j) ↔ (verts p)[n]? = some u ∧ (verts p)[m]? = some v := by
  rw [L.native, column_iff L]
  constructor
  · rintro ⟨⟨-, b, hb, db⟩, -, b', hb', db'⟩
    have e1 := L.inj hu (owned hb) (ei.symm.trans db)
    have e2 := L.inj hv (owned hb') (ej.symm.trans db')
    subst e1; subst e2
    exact ⟨hb, hb'⟩
  · rintro ⟨h1, h2⟩
    exact ⟨⟨hi, u, h1, ei⟩, hj, v, h2, ej⟩

theorem localPattern_iff (L : Labelled verts d overlapSize number o black) (hN : Native verts d a) {p : Fin P} {i j : ℕ} {u v : G}
    (hi : i < (o p).numDomestic) (hj : j < (o p).numDomestic) (hu : u ∈ all verts) (hv : v ∈ all verts)
    (ei : (o p).domesticToGlobal i = number u) (ej : (o p).domesticToGlobal j = number v) :
    localPattern (o p) (black p) (a p) i j ↔ ∃ x, Part verts a p u v x := by
  unfold localPattern
  constructor
  · rintro ⟨n, -, h1, m, hm, h2⟩
    obtain ⟨h3, h4⟩ := (local_iff L hi hj hu hv ei ej n m).1 ⟨h1, h2⟩
    exact ⟨_, n, m, h3, h4, hm, rfl⟩
  · rintro ⟨x, n, m, h1, h2, hm, -⟩
    obtain ⟨h3, h4⟩ := (local_iff L hi hj hu hv ei ej n m).2 ⟨h1, h2⟩
    exact ⟨n, lt_of_lt_of_le (lt_of_get h1) (hN p).1, h3, m, hm, h4⟩

open Classical in
/-- What a process has assembled for two vertices, zero if there is nothing -/
noncomputable def part [Zero K] (verts : Fin P → List G) (a : Fin P → NativeMatrix K) (q : Fin P) (u v : G) : K :=
  if h : ∃ x, Part verts a q u v x then h.choose else 0

theorem part_eq [Zero K] (L : Labelled verts d overlapSize number o black) {q : Fin P} {u v : G} {x : K} (h : Part verts a q u v x) :
    part verts a q u v = x := by
  unfold part
  have h' : ∃ x, Part verts a q u v x := ⟨x, h⟩
  rw [dif_pos h']
  exact part_unique L h'.choose_spec h

theorem part_zero [Zero K] {q : Fin P} {u v : G} (h : ∀ x, ¬Part verts a q u v x) : part verts a q u v = 0 := by
  unfold part
  rw [dif_neg]
  rintro ⟨x, hx⟩
  exact h x hx

/-- The entry of the whole grid -/
theorem entry_iff [AddCommMonoid K] (L : Labelled verts d overlapSize number o black) (u v : G) (x : K) :
    Entry verts a u v x ↔ (∃ q y, Part verts a q u v y) ∧ x = ∑ q, part verts a q u v := by
  constructor
  · rintro ⟨h1, f, h2, h3, rfl⟩
    refine ⟨h1, Finset.sum_congr rfl fun q _ => ?_⟩
    by_cases h : ∃ y, Part verts a q u v y
    · obtain ⟨y, hy⟩ := h
      rw [h2 q y hy, part_eq L hy]
    · rw [h3 q fun y hy => h ⟨y, hy⟩, part_zero fun y hy => h ⟨y, hy⟩]
  · rintro ⟨h1, rfl⟩
    exact ⟨h1, fun q => part verts a q u v, fun q y hy => part_eq L hy, fun q h => part_zero h, rfl⟩

theorem nativeValue_eq [Zero K] (L : Labelled verts d overlapSize number o black) (hN : Native verts d a) {p : Fin P} {i j : ℕ} {u v : G}
    (hi : i < (o p).numDomestic) (hj : j < (o p).numDomestic) (hu : u ∈ all verts) (hv : v ∈ all verts)
    (ei : (o p).domesticToGlobal i = number u) (ej : (o p).domesticToGlobal j = number v) :
    nativeValue (o p) (black p) (a p) i j = part verts a p u v := by
  unfold nativeValue
  have hmem : ∀ y ∈ ((List.range (a p).numRows).flatMap fun n => ((a p).cols n).map fun m => (n, m)),
      ((o p).nativeToDomestic y.1 = some i ∧ columnIndex (o p) (black p) y.2 = some j) →
        Part verts a p u v ((a p).value y.1 y.2) := by
    rintro ⟨n, m⟩ hm ⟨h1, h2⟩
    simp only [List.mem_flatMap, List.mem_range, List.mem_map, Prod.mk.injEq] at hm
    obtain ⟨n', -, m', hm, rfl, rfl⟩ := hm
    obtain ⟨h3, h4⟩ := (local_iff L hi hj hu hv ei ej n' m').1 ⟨h1, h2⟩
    exact ⟨n', m', h3, h4, hm, rfl⟩
  rw [foldl_last (x := part verts a p u v)
    (f := fun y : ℕ × ℕ => (o p).nativeToDomestic y.1 = some i ∧ columnIndex (o p) (black p) y.2 = some j)
    (v := fun y => (a p).value y.1 y.2)]
  · split_ifs with h
    · rfl
    · symm
      apply part_zero
      rintro x ⟨n, m, h1, h2, hm, -⟩
      apply h
      refine ⟨(n, m), ?_, (local_iff L hi hj hu hv ei ej n m).2 ⟨h1, h2⟩⟩
      simp only [List.mem_flatMap, List.mem_range, List.mem_map]
      exact ⟨n, lt_of_lt_of_le (lt_of_get h1) (hN p).1, m, hm, rfl⟩
  · intro y hy h
    exact (part_eq L (hmem y hy h)).symm

theorem globalToDomestic_iff (L : Labelled verts d overlapSize number o black) {p : Fin P} {i : ℕ} {u : G} (hi : i < (o p).numDomestic)
    (ei : (o p).domesticToGlobal i = number u) (x : ℕ) : (o p).globalToDomestic x = some i ↔ x = number u := by
  rw [L.coherent.index]
  exact ⟨fun h => h.2.symm.trans ei, fun h => ⟨hi, ei.trans h.symm⟩⟩

/-- The value which a peer sends, if it sends one -/
theorem sent_value [Zero K] (L : Labelled verts d overlapSize number o black) (hN : Native verts d a) {τ1 : Fin P → Matrix P K}
    {q : Fin P} {u v : G} (h : ∃ x, Part verts a q u v x) :
    (assignFromNative (o q) (black q) (a q) (τ1 q)).entry ((o q).globalToDomestic (number u), (o q).globalToDomestic (number v)) =
      part verts a q u v := by
  obtain ⟨x, n, m, h1, h2, -, -⟩ := h
  obtain ⟨hn, en⟩ := local_index L h1
  obtain ⟨hm, em⟩ := local_index L h2
  rw [(globalToDomestic_iff L hn en _).2 rfl, (globalToDomestic_iff L hm em _).2 rfl]
  exact nativeValue_eq L hN hn hm (owned h1) (owned h2) en em

theorem added_sum [AddCommMonoid K] (L : Labelled verts d overlapSize number o black) {s : Fin P → Matrix P K} {p q : Fin P}
    (hp : p ∈ (o q).peerSet) {i j : ℕ} {u v : G} (hi : i < (o p).numDomestic) (hj : j < (o p).numDomestic)
    (ei : (o p).domesticToGlobal i = number u) (ej : (o p).domesticToGlobal j = number v) :
    ((added o black a s p q).map fun x => if x.1 = (some i, some j) then x.2 else 0).sum =
      if (number u, number v) ∈ sentEntries o black a q p then
        (s q).entry ((o q).globalToDomestic (number u), (o q).globalToDomestic (number v)) else 0 := by
  unfold added
  rw [List.map_map]
  have hk : ∀ e : ℕ × ℕ, ((o p).globalToDomestic e.1, (o p).globalToDomestic e.2) = (some i, some j) ↔ e = (number u, number v) := by
    intro e
    rw [Prod.mk.injEq, globalToDomestic_iff L hi ei, globalToDomestic_iff L hj ej, Prod.ext_iff]
  have := sum_single_list (K := K) (sentEntries o black a q p) (nodup_sentEntries L hp) (fun e => e = (number u, number v))
    (fun e => (s q).entry ((o q).globalToDomestic e.1, (o q).globalToDomestic e.2)) (number u, number v) (fun _ _ => Iff.rfl)
  simp only [and_true] at this
  rw [← this]
  congr 1
  apply List.map_congr_left
  intro e _
  simp only [Function.comp, hk]

/-- A process which has assembled something for a vertex of the overlap of another one is its peer. -/
theorem peer_of_part (L : Labelled verts d overlapSize number o black) {p q : Fin P} {u v : G} {x : K} (hne : q ≠ p)
    (hov : InOverlap verts d overlapSize p u) (h : Part verts a q u v x) : q ∈ (o p).peerSet ∧ p ∈ (o q).peerSet := by
  obtain ⟨n, m, h1, -, -, -⟩ := h
  have : p ∈ (o q).peerSet := (L.peers q p).2 ⟨hne.symm, u, List.mem_of_getElem? h1, hov⟩
  exact ⟨(L.coherent.symm p q).2 this, this⟩

/-- A vertex with a domestic index is in the overlap. -/
theorem inOverlap (L : Labelled verts d overlapSize number o black) {p : Fin P} {i : ℕ} {u : G} (hi : i < (o p).numDomestic)
    (hu : u ∈ all verts) (ei : (o p).domesticToGlobal i = number u) : InOverlap verts d overlapSize p u :=
  (L.holds p u hu).1 ⟨i, hi, ei⟩

theorem pattern_iff (L : Labelled verts d overlapSize number o black) (hN : Native verts d a) {p : Fin P} {s : Matrix P K}
    (b : Buffers o black a p s) {i j : ℕ} {u v : G}
    (hi : i < (o p).numDomestic) (hj : j < (o p).numDomestic) (hu : u ∈ all verts) (hv : v ∈ all verts)
    (ei : (o p).domesticToGlobal i = number u) (ej : (o p).domesticToGlobal j = number v) :
    s.pattern i j ↔ ∃ q y, Part verts a q u v y := by
  have hov := inOverlap L hi hu ei
  rw [b.pattern, localPattern_iff L hN hi hj hu hv ei ej]
  constructor
  · rintro (⟨y, hy⟩ | ⟨q, hq, ⟨e1, e2⟩, he, h1, h2⟩)
    · exact ⟨p, y, hy⟩
    · rw [globalToDomestic_iff L hi ei] at h1
      rw [globalToDomestic_iff L hj ej] at h2
      dsimp only at h1 h2
      subst h1; subst h2
      obtain ⟨-, y, hy⟩ := (sent_iff L ((L.coherent.symm p q).1 hq) hu hv).1 he
      exact ⟨q, y, hy⟩
  · rintro ⟨q, y, hy⟩
    by_cases hqp : q = p
    · subst hqp; exact Or.inl ⟨y, hy⟩
    · obtain ⟨h1, h2⟩ := peer_of_part L hqp hov hy
      exact Or.inr ⟨q, h1, (number u, number v), (sent_iff L h2 hu hv).2 ⟨hov, y, hy⟩, (globalToDomestic_iff L hi ei _).2 rfl,
        (globalToDomestic_iff L hj ej _).2 rfl⟩

/-- A sum over the peers, and the process itself, is one over all processes if others contribute nothing. -/
theorem sum_peers [AddCommMonoid K] (l : List (Fin P)) (hn : l.Nodup) (p : Fin P) (hp : p ∉ l) (f : Fin P → K)
    (h0 : ∀ q, q ≠ p → q ∉ l → f q = 0) : f p + (l.map f).sum = ∑ q, f q := by
  classical
  rw [← List.sum_toFinset _ hn, ← Finset.sum_insert (by simpa using hp)]
  apply Finset.sum_subset (Finset.subset_univ _)
  intro q _ hq
  simp only [Finset.mem_insert, List.mem_toFinset, not_or] at hq
  exact h0 q hq.1 hq.2

/-- Assigning native matrices and `syncAdd`, once the indices have been exchanged -/
theorem distributed_of_buffers [AddCommMonoid K] (L : Labelled verts d overlapSize number o black) (hN : Native verts d a)
    (τ1 : Fin P → Matrix P K) (b1 : ∀ p, Buffers o black a p (τ1 p)) :
    Distributed verts number o a (runRound (fun p => (o p).peerSet) (fun p => assignFromNative (o p) (black p) (a p) (τ1 p)) syncAdd) := by
  set τ2 : Fin P → Matrix P K := fun p => assignFromNative (o p) (black p) (a p) (τ1 p) with hτ2
  have b2 : ∀ p, Buffers o black a p (τ2 p) := fun p => ⟨(b1 p).send, (b1 p).recv, (b1 p).pattern⟩
  intro p i hi j hj u hu v hv ei ej x
  obtain ⟨r1, r2⟩ := syncAdd_round L.coherent τ2 b2 p
  have hov := inOverlap L hi hu ei
  rw [r1, pattern_iff L hN (b2 p) hi hj hu hv ei ej, r2, entry_iff L]
  have hs : ∀ q ∈ (o p).peerSet, ((added o black a τ2 p q).map fun x => if x.1 = (some i, some j) then x.2 else 0).sum =
      part verts a q u v := by
    intro q hq
    have hp := (L.coherent.symm p q).1 hq
    rw [added_sum L hp hi hj ei ej]
    split_ifs with hm
    · exact sent_value L hN ((sent_iff L hp hu hv).1 hm).2
    · symm
      apply part_zero
      intro y hy
      exact hm ((sent_iff L hp hu hv).2 ⟨hov, y, hy⟩)
  have h0 : (τ2 p).value i j = part verts a p u v := nativeValue_eq L hN hi hj hu hv ei ej
  rw [List.map_congr_left hs, h0, sum_peers (o p).peerSet (L.coherent.nodup p) p (L.coherent.irrefl p) (fun q => part verts a q u v)]
  · constructor
    · rintro ⟨h1, rfl⟩; exact ⟨h1, rfl⟩
    · rintro ⟨h1, rfl⟩; exact ⟨h1, rfl⟩
  · intro q hqp hq
    apply part_zero
    intro y hy
    exact hq (peer_of_part L hqp hov hy).1

/-- The matrices after they have been set up and assigned -/
theorem settles_matrix [AddCommMonoid K] (L : Labelled verts d overlapSize number o black) (hN : Native verts d a)
    (any : Fin P → ℕ → ℕ → K) :
    ∃ τ, Settles (matrixProgram o black a) (fun p => Matrix.start (o p) (black p) (a p) (any p)) τ ∧ Distributed verts number o a τ := by
  have h1 := Settles.rounds (σ := fun p => Matrix.start (o p) (black p) (a p) (any p)) (peers := fun p => (o p).peerSet) L.coherent.nodup
    L.coherent.symm L.coherent.irrefl [buildIndices o black a]
  set τ1 := runRound (fun p => (o p).peerSet) (fun p => Matrix.start (o p) (black p) (a p) (any p)) (buildIndices o black a) with hτ1
  set τ2 : Fin P → Matrix P K := fun p => assignFromNative (o p) (black p) (a p) (τ1 p) with hτ2
  have : Nonempty (Msg K) := ⟨.values []⟩
  have h2 : Settles (M := Msg K) (fun p => [.compute (assignFromNative (o p) (black p) (a p))]) τ1 τ2 :=
    Settles.compute (fun p => assignFromNative (o p) (black p) (a p))
  have h3 := Settles.rounds (σ := τ2) (peers := fun p => (o p).peerSet) L.coherent.nodup
    L.coherent.symm L.coherent.irrefl [syncAdd]
  refine ⟨runRound (fun p => (o p).peerSet) τ2 syncAdd, ?_, ?_⟩
  · have h := (h1.append h2).append h3
    have e : (fun p => (program (fun p => (o p).peerSet) [buildIndices o black a] p ++
        [Op.compute (assignFromNative (o p) (black p) (a p))]) ++ program (fun p => (o p).peerSet) [syncAdd] p) =
          matrixProgram o black a := by
      funext p
      simp [matrixProgram, program]
    rw [e] at h
    exact h
  · exact distributed_of_buffers L hN τ1 (buildIndices_buffers any)

/-! ### Products -/

open Classical in
/-- The product which a process gets for one of its vertices: that of the matrix of the whole grid with the part of the vector in its
overlap -/
theorem mv_local [Semiring K] (L : Labelled verts d overlapSize number o black) (hN : Native verts d a) {s : Fin P → Matrix P K}
    (hd : Distributed verts number o a s) {X : G → K} {x : ℕ → K} {p : Fin P}
    (hx : ∀ j < (o p).numDomestic, ∀ v ∈ all verts, (o p).domesticToGlobal j = number v → x j = X v) {i : ℕ}
    (hi : i < (o p).numDomestic) {u : G} (hu : u ∈ all verts) (ei : (o p).domesticToGlobal i = number u) :
    IsProduct verts a (fun v => if InOverlap verts d overlapSize p v then X v else 0) u (mv (o p).numDomestic (s p) x i) := by
  have hvert : ∀ j < (o p).numDomestic, ∃ v ∈ all verts, (o p).domesticToGlobal j = number v := fun j hj => by
    obtain ⟨v, h1, h2, -⟩ := L.vertex p j hj
    exact ⟨v, h1, h2⟩
  have : Nonempty G := ⟨u⟩
  choose! vert hall hnum using hvert
  -- the product as a sum over all columns
  have hmv : mv (o p).numDomestic (s p) x i =
      ∑ j ∈ Finset.range (o p).numDomestic, (∑ q, part verts a q u (vert j)) * X (vert j) := by
    unfold mv
    rw [Finset.sum_filter]
    refine Finset.sum_congr rfl fun j hj => ?_
    rw [Finset.mem_range] at hj
    have h := hd p i hi j hj u hu (vert j) (hall j hj) ei (hnum j hj)
    split_ifs with hp
    · have := ((entry_iff L _ _ _).1 ((h _).1 ⟨hp, rfl⟩)).2
      rw [this, hx j hj (vert j) (hall j hj) (hnum j hj)]
    · have hno : ∀ q y, ¬Part verts a q u (vert j) y := by
        intro q y hy
        exact hp ((h _).2 ((entry_iff L _ _ _).2 ⟨⟨q, y, hy⟩, rfl⟩)).1
      rw [Finset.sum_eq_zero fun q _ => part_zero (hno q), zero_mul]
  rw [hmv]
  refine ⟨fun q => ∑ j ∈ Finset.range (o p).numDomestic, part verts a q u (vert j) * X (vert j), ?_, ?_, ?_⟩
  · intro q n hn
    dsimp only
    rw [← List.sum_toFinset _ ((hN q).2 n).1]
    symm
    -- only columns in the overlap count
    have hcol : ∀ (m : ℕ) (v : G), (verts q)[m]? = some v → InOverlap verts d overlapSize p v → ∃ j < (o p).numDomestic, vert j = v := by
      intro m v hm hov
      obtain ⟨j, hj, e⟩ := (L.holds p v (owned hm)).2 hov
      exact ⟨j, hj, L.inj (hall j hj) (owned hm) ((hnum j hj).symm.trans e)⟩
    obtain ⟨A, hA⟩ : ∃ A : ℕ → Prop, ∀ m, A m ↔ ∃ v, (verts q)[m]? = some v ∧ InOverlap verts d overlapSize p v :=
      ⟨_, fun _ => Iff.rfl⟩
    rw [← Finset.sum_filter_add_sum_filter_not (s := ((a q).cols n).toFinset) (p := A)]
    rw [← Finset.sum_filter_add_sum_filter_not (s := Finset.range (o p).numDomestic) (p := fun j => ∃ y, Part verts a q u (vert j) y)]
    have z1 : ∑ m ∈ ((a q).cols n).toFinset.filter (fun m => ¬A m),
        (((verts q)[m]?).elim 0 fun v => (a q).value n m * (if InOverlap verts d overlapSize p v then X v else 0)) = 0 := by
      refine Finset.sum_eq_zero fun m hm => ?_
      rw [Finset.mem_filter] at hm
      cases h : (verts q)[m]? with
      | none => rfl
      | some v =>
        rw [Option.elim_some, if_neg fun h' => hm.2 ((hA m).2 ⟨v, h, h'⟩), mul_zero]
    have z2 : ∑ j ∈ (Finset.range (o p).numDomestic).filter (fun j => ¬∃ y, Part verts a q u (vert j) y),
        part verts a q u (vert j) * X (vert j) = 0 := by
      refine Finset.sum_eq_zero fun j hj => ?_
      rw [Finset.mem_filter] at hj
      rw [part_zero fun y hy => hj.2 ⟨y, hy⟩, zero_mul]
    rw [z1, z2, add_zero, add_zero]
    refine Finset.sum_bij' (fun m _ => if h : ∃ j < (o p).numDomestic, (verts q)[m]? = some (vert j) then h.choose else 0)
      (fun j _ => if h : ∃ m, (verts q)[m]? = some (vert j) then h.choose else 0) ?_ ?_ ?_ ?_ ?_
    · intro m hm
      rw [Finset.mem_filter, List.mem_toFinset, hA] at hm
      obtain ⟨hm, v, hv, hov⟩ := hm
      obtain ⟨j, hj, e⟩ := hcol m v hv hov
      have h : ∃ j < (o p).numDomestic, (verts q)[m]? = some (vert j) := ⟨j, hj, by rw [hv, e]⟩
      rw [dif_pos h, Finset.mem_filter, Finset.mem_range]
      exact ⟨h.choose_spec.1, _, n, m, hn, h.choose_spec.2, hm, rfl⟩
    · intro j hj
      rw [Finset.mem_filter, Finset.mem_range] at hj
      obtain ⟨hj, y, n', m, h1, h2, hm, -⟩ := hj
      have h : ∃ m, (verts q)[m]? = some (vert j) := ⟨m, h2⟩
      have e1 := index_unique L h1 hn
      subst e1
      have e2 := index_unique L h.choose_spec h2
      rw [dif_pos h, Finset.mem_filter, List.mem_toFinset, hA, e2]
      exact ⟨hm, vert j, h2, inOverlap L hj (hall j hj) (hnum j hj)⟩
    · intro m hm
      rw [Finset.mem_filter, List.mem_toFinset, hA] at hm
      obtain ⟨hm, v, hv, hov⟩ := hm
      obtain ⟨j, hj, e⟩ := hcol m v hv hov
      have h : ∃ j < (o p).numDomestic, (verts q)[m]? = some (vert j) := ⟨j, hj, by rw [hv, e]⟩
      have h' : ∃ m', (verts q)[m']? = some (vert h.choose) := ⟨m, h.choose_spec.2⟩
      simp only [dif_pos h]
      rw [dif_pos h']
      exact index_unique L h'.choose_spec h.choose_spec.2
    · intro j hj
      rw [Finset.mem_filter, Finset.mem_range] at hj
      obtain ⟨hj, y, n', m, h1, h2, hm, -⟩ := hj
      have h : ∃ m, (verts q)[m]? = some (vert j) := ⟨m, h2⟩
      have h' : ∃ j' < (o p).numDomestic, (verts q)[h.choose]? = some (vert j') := ⟨j, hj, h.choose_spec⟩
      simp only [dif_pos h]
      rw [dif_pos h']
      have e : vert h'.choose = vert j := Option.some.inj (h'.choose_spec.2.symm.trans h.choose_spec)
      exact global_inj L.coherent h'.choose_spec.1 hj ((hnum _ h'.choose_spec.1).trans ((congrArg number e).trans (hnum j hj).symm))
    · intro m hm
      rw [Finset.mem_filter, List.mem_toFinset, hA] at hm
      obtain ⟨hm, v, hv, hov⟩ := hm
      obtain ⟨j, hj, e⟩ := hcol m v hv hov
      have h : ∃ j < (o p).numDomestic, (verts q)[m]? = some (vert j) := ⟨j, hj, by rw [hv, e]⟩
      rw [dif_pos h]
      have e' : vert h.choose = v := Option.some.inj (h.choose_spec.2.symm.trans hv)
      rw [e', part_eq L ⟨n, m, hn, hv, hm, rfl⟩, hv, Option.elim_some, if_pos hov]
  · intro q hq
    dsimp only
    refine Finset.sum_eq_zero fun j _ => ?_
    rw [part_zero, zero_mul]
    rintro y ⟨n, m, h1, -⟩
    exact hq (List.mem_of_getElem? h1)
  · rw [Finset.sum_comm]
    exact Finset.sum_congr rfl fun j _ => Finset.sum_mul _ _ _

open Classical in
theorem mv_own [Semiring K] (L : Labelled verts d overlapSize number o black) (hN : Native verts d a) {s : Fin P → Matrix P K}
    (hd : Distributed verts number o a s) {X : G → K} {x : Fin P → ℕ → K} (hx : Consistent verts number o X x) {p : Fin P} {i : ℕ}
    (hi : i < (o p).numDomestic) {u : G} (hu : u ∈ all verts) (ei : (o p).domesticToGlobal i = number u) :
    IsProduct verts a (fun v => if InOverlap verts d overlapSize p v then X v else 0) u (mv (o p).numDomestic (s p) (x p) i) :=
  mv_local L hN hd (hx p) hi hu ei

/-- The product only depends on the values at the vertices next to the one of the row. -/
theorem isProduct_congr [Semiring K] {X Y : G → K} {u : G}
    (h : ∀ q (n m : ℕ) v, (verts q)[n]? = some u → (verts q)[m]? = some v → m ∈ (a q).cols n → X v = Y v) {y : K}
    (hy : IsProduct verts a X u y) : IsProduct verts a Y u y := by
  obtain ⟨row, h1, h2, h3⟩ := hy
  refine ⟨row, fun q n hn => ?_, h2, h3⟩
  rw [h1 q n hn]
  congr 1
  apply List.map_congr_left
  intro m hm
  cases e : (verts q)[m]? with
  | none => rfl
  | some v => rw [Option.elim_some, Option.elim_some, h q n m v hn e hm]

theorem isProduct_unique [Semiring K] {X : G → K} {u : G} {y z : K} (hy : IsProduct verts a X u y) (hz : IsProduct verts a X u z) :
    y = z := by
  obtain ⟨r, h1, h2, rfl⟩ := hy
  obtain ⟨t, k1, k2, rfl⟩ := hz
  refine Finset.sum_congr rfl fun q _ => ?_
  by_cases h : u ∈ verts q
  · obtain ⟨n, hn⟩ := exists_get h
    rw [h1 q n hn, k1 q n hn]
  · rw [h2 q h, k2 q h]

/-- A computation, followed by `sync`, gives on all processes the result of the process of the lowest rank with the vertex. -/
theorem settles_sync [Zero K] (L : Labelled verts d overlapSize number o black) (y0 : Fin P → ℕ → K) (f : Fin P → (ℕ → K) → ℕ → K)
    (R : G → K → Prop)
    (hR : ∀ p, ∀ i < (o p).numDomestic, ∀ u, (o p).domesticToGlobal i = number u → IsLowest verts u p → R u (f p (y0 p) i)) :
    ∃ τ, Settles (fun p => roundProgram (fun p => (o p).peerSet) (createBuffers o) p
        ++ [Op.compute fun y : Sync.Vector P K => { y with entries := f p y.entries }]
        ++ roundProgram (fun p => (o p).peerSet) (sync o) p) (fun p => fresh (y0 p)) τ ∧
      ∀ p, ∀ i < (o p).numDomestic, ∀ u ∈ all verts, (o p).domesticToGlobal i = number u → R u ((τ p).entries i) := by
  have h1 := Settles.rounds (σ := fun p => fresh (y0 p)) (peers := fun p => (o p).peerSet) L.coherent.nodup
    L.coherent.symm L.coherent.irrefl [createBuffers o]
  set τ1 := runRound (fun p => (o p).peerSet) (fun p => fresh (y0 p)) (createBuffers o) with hτ1
  have : Nonempty (Sync.Msg K) := ⟨.values []⟩
  set fc : Fin P → Sync.Vector P K → Sync.Vector P K := fun p y => { y with entries := f p y.entries } with hfc
  set τ2 : Fin P → Sync.Vector P K := fun p => fc p (τ1 p) with hτ2
  have h2 : Settles (M := Sync.Msg K) (fun p => [.compute (fc p)]) τ1 τ2 := Settles.compute fc
  have h3 := Settles.rounds (σ := τ2) (peers := fun p => (o p).peerSet) L.coherent.nodup
    L.coherent.symm L.coherent.irrefl [sync o]
  refine ⟨runRound (fun p => (o p).peerSet) τ2 (sync o), ?_, ?_⟩
  · have h := (h1.append h2).append h3
    have e : (fun p => (program (fun p => (o p).peerSet) [createBuffers o] p ++ [Op.compute (fc p)]) ++
        program (fun p => (o p).peerSet) [sync o] p) =
        fun p => roundProgram (fun p => (o p).peerSet) (createBuffers o) p ++ [Op.compute (fc p)] ++
          roundProgram (fun p => (o p).peerSet) (sync o) p := by
      funext p
      simp [program]
    rw [e] at h
    exact h
  · intro p i hi u hu ei
    have b1 := createBuffers_buffers L.coherent y0
    have b2 : ∀ p, Sync.Buffers o p (τ2 p) := fun p => ⟨(b1 p).1.send, (b1 p).1.recv⟩
    obtain ⟨l, hl, el, hv⟩ := sync_entry L.coherent τ2 b2 p i hi
    obtain ⟨b, hb, eb, ob⟩ := L.vertex p i hi
    have := L.inj hu hb (ei.symm.trans eb)
    subst this
    rw [← hv]
    set r := (o p).masterRank i with hr
    have hrr := hR r l hl u (el.trans ei) ob
    have he : (τ2 r).entries l = f r (y0 r) l := by
      show f r (τ1 r).entries l = _
      rw [hτ1, (b1 r).2]
    rw [he]
    exact hrr

end Verif.OverlapMatrix.Vertex
