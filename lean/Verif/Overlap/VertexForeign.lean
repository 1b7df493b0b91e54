import Verif.Overlap.VertexSpec
import Verif.Overlap.Constructed

/-
The foreign overlaps of vertices.
-/

set_option autoImplicit false
set_option linter.unusedSectionVars false

namespace Verif.Overlap.Vertex

open Verif.Mpi Verif.GlobalIdx Verif.Overlap

variable {P : ℕ} {G : Type} {verts : Fin P → List G} {d : Fin P → Native P} {overlapSize : ℕ}

/-! ### Facts about valid grids -/

theorem locals_eq (v : Valid verts d) (p : Fin P) (l : List (Fin P)) : locals ((d p).part l) = List.range (verts p).length := by
  obtain ⟨m, hm⟩ := v.black p
  unfold locals
  show (List.range (d p).blackList.length).filter (fun i => decide ((d p).blackList[i]? = some false)) = _
  rw [hm]
  simp only [List.length_append, List.length_replicate]
  rw [List.range_add, List.filter_append]
  have h1 : (List.range (verts p).length).filter (fun i => decide
      ((List.replicate (verts p).length false ++ List.replicate m true)[i]? = some false)) = List.range (verts p).length := by
    rw [List.filter_eq_self]
    intro i hi
    rw [List.mem_range] at hi
    rw [decide_eq_true_eq, List.getElem?_append_left (by simpa using hi)]
    simp [hi]
  have h2 : ((List.range m).map ((verts p).length + ·)).filter (fun i => decide
      ((List.replicate (verts p).length false ++ List.replicate m true)[i]? = some false)) = [] := by
    rw [List.filter_eq_nil_iff]
    intro i hi
    obtain ⟨j, hj, rfl⟩ := List.mem_map.1 hi
    rw [List.mem_range] at hj
    rw [decide_eq_true_eq, List.getElem?_append_right (by simp)]
    simp [hj]
  rw [h1, h2, List.append_nil]

theorem toLocal (v : Valid verts d) (p : Fin P) (i l : ℕ) : (d p).nativeToLocal i = some l ↔ l = i ∧ i < (verts p).length := by
  unfold Native.nativeToLocal
  rw [nativeToLocal_eq, locals_eq v, List.getElem?_eq_some_iff]
  simp only [List.length_range, List.getElem_range]
  constructor
  · rintro ⟨h, rfl⟩; exact ⟨rfl, h⟩
  · rintro ⟨rfl, h⟩; exact ⟨h, rfl⟩

theorem numLocal (v : Valid verts d) (p : Fin P) : (d p).numLocal = (verts p).length := by
  unfold Native.numLocal
  rw [numLocal_eq, locals_eq v, List.length_range]

theorem lt_of_get {α : Type} {l : List α} {i : ℕ} {a : α} (h : l[i]? = some a) : i < l.length := (List.getElem?_eq_some_iff.1 h).1

theorem get_inj (v : Valid verts d) {p : Fin P} {i j : ℕ} {x : G} (hi : (verts p)[i]? = some x) (hj : (verts p)[j]? = some x) :
    i = j := by
  obtain ⟨h1, h1'⟩ := List.getElem?_eq_some_iff.1 hi
  obtain ⟨h2, h2'⟩ := List.getElem?_eq_some_iff.1 hj
  exact (List.Nodup.getElem_inj_iff (v.nodup p)).1 (h1'.trans h2'.symm)

theorem exists_get {l : List G} {x : G} (h : x ∈ l) : ∃ i : ℕ, l[i]? = some x := by
  obtain ⟨i, hi, e⟩ := List.getElem_of_mem h
  exact ⟨i, by rw [List.getElem?_eq_getElem hi, e]⟩

theorem exists_vert {p : Fin P} {i : ℕ} (h : i < (verts p).length) : ∃ x, (verts p)[i]? = some x :=
  ⟨_, List.getElem?_eq_getElem h⟩

theorem neighbor_iff (v : Valid verts d) (p q : Fin P) : q ∈ (d p).neighborPeers ↔ q ≠ p ∧ ∃ x ∈ verts p, x ∈ verts q := by
  unfold Native.neighborPeers
  rw [List.mem_filter, decide_eq_true_eq]
  constructor
  · rintro ⟨-, e, he, rfl⟩
    obtain ⟨-, h, x, h1, h2⟩ := (v.border p e).1 he
    exact ⟨h, x, List.mem_of_getElem? h1, List.mem_of_getElem? h2⟩
  · rintro ⟨hq, x, h1, h2⟩
    obtain ⟨i, hi⟩ := exists_get h1
    obtain ⟨j, hj⟩ := exists_get h2
    exact ⟨List.mem_finRange _, ⟨i, j, q, 0⟩, (v.border _ _).2 ⟨rfl, hq, x, hi, hj⟩, rfl⟩

theorem neighbors_symm (v : Valid verts d) (p q : Fin P) : q ∈ (d p).neighborPeers ↔ p ∈ (d q).neighborPeers := by
  rw [neighbor_iff v, neighbor_iff v]
  constructor
  · rintro ⟨h, x, h1, h2⟩; exact ⟨h.symm, x, h2, h1⟩
  · rintro ⟨h, x, h1, h2⟩; exact ⟨h.symm, x, h2, h1⟩

theorem neighbors_irrefl (v : Valid verts d) (p : Fin P) : p ∉ (d p).neighborPeers := by
  rw [neighbor_iff v]; simp

theorem minBorderDist_eq (v : Valid verts d) (p : Fin P) :
    (d p).minBorderDist overlapSize = if (d p).borderList = [] then overlapSize else 0 := by
  unfold Native.minBorderDist Part.minBorderDist Native.part
  dsimp only
  split_ifs with h
  · rw [h]; rfl
  · rw [foldl_min_all (b := 0)]
    · omega
    · intro x hx
      obtain ⟨e, he, rfl⟩ := List.mem_map.1 hx
      exact ((v.border p e).1 he).1
    · simpa using h

theorem isBorder_iff (v : Valid verts d) (p : Fin P) (l : ℕ) :
    (d p).isBorder l ↔ ∃ x q, (verts p)[l]? = some x ∧ q ≠ p ∧ x ∈ verts q := by
  unfold Native.isBorder
  constructor
  · rintro ⟨e, he, hl⟩
    obtain ⟨-, hne, x, h1, h2⟩ := (v.border p e).1 he
    obtain ⟨rfl, -⟩ := (toLocal v p _ _).1 hl
    exact ⟨x, e.peerRank, h1, hne, List.mem_of_getElem? h2⟩
  · rintro ⟨x, q, h1, hq, h2⟩
    obtain ⟨j, hj⟩ := exists_get h2
    exact ⟨⟨l, j, q, 0⟩, (v.border _ _).2 ⟨rfl, hq, x, h1, hj⟩, (toLocal v p _ _).2 ⟨rfl, lt_of_get h1⟩⟩

theorem localToPeerIdx_iff (v : Valid verts d) (p q : Fin P) (hq : q ≠ p) (l j : ℕ) :
    (d p).localToPeerIdx l q = some j ↔ ∃ x, (verts p)[l]? = some x ∧ (verts q)[j]? = some x := by
  unfold Native.localToPeerIdx
  constructor
  · intro h
    rw [Option.map_eq_some_iff] at h
    obtain ⟨e, he, rfl⟩ := h
    have h1 := List.mem_of_find?_eq_some he
    have h2 := List.find?_some he
    simp only [decide_eq_true_eq] at h2
    obtain ⟨rfl, rfl⟩ := h2
    exact ((v.border p e).1 h1).2.2
  · rintro ⟨x, h1, h2⟩
    cases hf : (d p).borderList.find? (fun e => decide (e.localIdx = l ∧ e.peerRank = q)) with
    | none =>
      rw [List.find?_eq_none] at hf
      exact absurd (by simp) (hf ⟨l, j, q, 0⟩ ((v.border _ _).2 ⟨rfl, hq, x, h1, h2⟩))
    | some e =>
      have h3 := List.mem_of_find?_eq_some hf
      have h4 := List.find?_some hf
      simp only [decide_eq_true_eq] at h4
      obtain ⟨rfl, rfl⟩ := h4
      obtain ⟨-, -, y, h5, h6⟩ := (v.border p e).1 h3
      rw [h1] at h5
      injection h5 with h5
      subst h5
      rw [Option.map_some, get_inj v h6 h2]

/-! ### Walks -/

theorem dist_unique {r : Fin P} {k k' : ℕ} {x : G} (h : Dist verts d r k x) (h' : Dist verts d r k' x) : k = k' := by
  rcases Nat.lt_trichotomy k k' with hk | hk | hk
  · exact absurd h.1 (h'.2 k hk)
  · exact hk
  · exact absurd h'.1 (h.2 k' hk)

theorem walk_dist {r : Fin P} {k : ℕ} {x : G} (h : Walk verts d r k x) : ∃ k' ≤ k, Dist verts d r k' x := by
  induction k using Nat.strong_induction_on with
  | _ k ih =>
    by_cases hk : ∃ k' < k, Walk verts d r k' x
    · obtain ⟨k', hlt, hn⟩ := hk
      obtain ⟨m, hm, hd⟩ := ih k' hlt hn
      exact ⟨m, by omega, hd⟩
    · exact ⟨k, le_rfl, h, fun k' hlt hn => hk ⟨k', hlt, hn⟩⟩

theorem dist_zero (r : Fin P) (x : G) : Dist verts d r 0 x ↔ x ∈ verts r := by
  constructor
  · rintro ⟨h, -⟩
    cases h with
    | start _ h => exact h
  · intro h; exact ⟨Walk.start x h, by omega⟩

theorem edge_symm (v : Valid verts d) {x y : G} (h : Edge verts d x y) : Edge verts d y x := by
  obtain ⟨p, i, j, h1, h2, h3⟩ := h
  exact ⟨p, j, i, h2, h1, v.symmetric p i (lt_of_get h1) j (lt_of_get h2) h3⟩

theorem walk_back (v : Valid verts d) {r : Fin P} {k : ℕ} {x : G} (h : Walk verts d r k x) (q : Fin P) :
    ∀ j, Walk verts d q j x → ∃ y ∈ verts r, Walk verts d q (j + k) y := by
  induction h with
  | start x h => intro j hj; exact ⟨x, h, hj⟩
  | step k u x h e ih =>
    intro j hj
    obtain ⟨y, hy, hw⟩ := ih (j + 1) (Walk.step j x u hj (edge_symm v e))
    exact ⟨y, hy, by rw [show j + (k + 1) = j + 1 + k by omega]; exact hw⟩

theorem dist_step {r : Fin P} {k : ℕ} {x : G} (h : Dist verts d r (k + 1) x) :
    ∃ p i j u, p ≠ r ∧ (verts p)[i]? = some u ∧ (verts p)[j]? = some x ∧ j ∈ (d p).cols i ∧ Dist verts d r k u := by
  obtain ⟨hw, hmin⟩ := h
  cases hw with
  | step _ u _ hu e =>
    obtain ⟨p, i, j, h1, h2, h3⟩ := e
    refine ⟨p, i, j, u, ?_, h1, h2, h3, hu, ?_⟩
    · rintro rfl
      exact hmin 0 (by omega) (Walk.start x (List.mem_of_getElem? h2))
    · intro k' hk' hw'
      exact hmin (k' + 1) (by omega) (Walk.step k' u x hw' ⟨p, i, j, h1, h2, h3⟩)

/-- A process without shared vertices is out of reach. -/
theorem isolated (v : Valid verts d) {p : Fin P} (hp : (d p).borderList = []) {r : Fin P} {k : ℕ} {x : G} (h : Walk verts d r k x) :
    x ∈ verts p → r = p := by
  have hsh : ∀ q y, y ∈ verts q → y ∈ verts p → q = p := by
    intro q y h1 h2
    by_contra hq
    have := (neighbor_iff v p q).2 ⟨hq, y, h2, h1⟩
    rw [neighbors_nil hp] at this
    cases this
  induction h with
  | start x h => exact hsh r x h
  | step k u x _ e ih =>
    intro hx
    obtain ⟨q, i, j, h1, h2, -⟩ := e
    have := hsh q x (List.mem_of_getElem? h2) hx
    subst this
    exact ih (List.mem_of_getElem? h1)

/-! ### Receiving -/

theorem receiveHandle_byLocal (dist : ℕ) (H : List (BorderIndex P)) (s : Foreign P) :
    (H.foldl (receiveHandle dist) s).byLocal = s.byLocal := by
  induction H generalizing s with
  | nil => rfl
  | cons h H ih =>
    rw [List.foldl_cons, ih]
    unfold receiveHandle
    dsimp only
    split_ifs <;> rfl

theorem any_iff (seeds : List (Seed P)) (r : Fin P) (i : ℕ) :
    seeds.any (fun e => decide (e.index = i ∧ e.peerRank = r)) = true ↔ IsSeed seeds r i := by
  unfold IsSeed
  rw [List.any_eq_true]
  simp

theorem isSeed_concat (seeds : List (Seed P)) (e : Seed P) (r : Fin P) (i : ℕ) :
    IsSeed (seeds ++ [e]) r i ↔ IsSeed seeds r i ∨ (e.index = i ∧ e.peerRank = r) := by
  unfold IsSeed
  simp only [List.mem_append, List.mem_singleton, or_and_right, exists_or, exists_eq_left]

theorem receiveHandle_seeds (dist : ℕ) (H : List (BorderIndex P)) (s : Foreign P) (r : Fin P) (i : ℕ) :
    IsSeed (H.foldl (receiveHandle dist) s).seeds r i ↔
      IsSeed s.seeds r i ∨ (s.byLocal i r = none ∧ ∃ h ∈ H, h.peerIdx = i ∧ h.peerRank = r) := by
  induction H generalizing s with
  | nil => simp
  | cons h H ih =>
    rw [List.foldl_cons, ih]
    have hb : (receiveHandle dist s h).byLocal = s.byLocal := receiveHandle_byLocal dist [h] s
    rw [hb]
    have key : IsSeed (receiveHandle dist s h).seeds r i ↔
        IsSeed s.seeds r i ∨ (s.byLocal i r = none ∧ h.peerIdx = i ∧ h.peerRank = r) := by
      unfold receiveHandle
      dsimp only
      split_ifs with h1 h2
      · constructor
        · exact Or.inl
        · rintro (h | ⟨hn, rfl, rfl⟩)
          · exact h
          · rw [hn] at h1; cases h1
      · rw [any_iff] at h2
        constructor
        · exact Or.inl
        · rintro (h | ⟨hn, rfl, rfl⟩)
          · exact h
          · exact h2
      · rw [isSeed_concat]
        constructor
        · rintro (h | ⟨rfl, rfl⟩)
          · exact Or.inl h
          · exact Or.inr ⟨by simpa using h1, rfl, rfl⟩
        · rintro (h | ⟨-, h⟩)
          · exact Or.inl h
          · exact Or.inr h
    rw [key]
    simp only [List.mem_cons, or_and_right, exists_or, exists_eq_left, and_or_left]
    rw [or_assoc]

theorem receiveHandle_peers (dist : ℕ) (H : List (BorderIndex P)) (s : Foreign P) (hs : ∀ r i, IsSeed s.seeds r i → s.peers r) :
    (∀ r i, IsSeed (H.foldl (receiveHandle dist) s).seeds r i → (H.foldl (receiveHandle dist) s).peers r) ∧
    ∀ r, ((H.foldl (receiveHandle dist) s).peers r → s.peers r ∨ ∃ i, IsSeed (H.foldl (receiveHandle dist) s).seeds r i) ∧
      (s.peers r → (H.foldl (receiveHandle dist) s).peers r) := by
  induction H using List.reverseRecOn with
  | nil => exact ⟨hs, fun r => ⟨Or.inl, id⟩⟩
  | append_singleton H h ih =>
    rw [List.foldl_append, List.foldl_cons, List.foldl_nil]
    generalize H.foldl (receiveHandle dist) s = t at ih
    obtain ⟨ih1, ih2⟩ := ih
    unfold receiveHandle
    dsimp only
    split_ifs with h1 h2
    · exact ⟨ih1, ih2⟩
    · exact ⟨ih1, ih2⟩
    · refine ⟨?_, fun r => ⟨?_, fun hr => Or.inl ((ih2 r).2 hr)⟩⟩
      · intro r i hi
        rw [isSeed_concat] at hi
        rcases hi with hi | ⟨-, hi⟩
        · exact Or.inl (ih1 r i hi)
        · exact Or.inr hi.symm
      · rintro (hr | hr)
        · rcases (ih2 r).1 hr with h' | ⟨i, hi⟩
          · exact Or.inl h'
          · exact Or.inr ⟨i, (isSeed_concat _ _ _ _).2 (Or.inl hi)⟩
        · exact Or.inr ⟨h.peerIdx, (isSeed_concat _ _ _ _).2 (Or.inr ⟨rfl, hr.symm⟩)⟩

/-- Everything a process receives in one exchange -/
def handles (d : Fin P → Native P) (σ : Fin P → Foreign P) (p : Fin P) : List (BorderIndex P) :=
  (d p).neighborPeers.flatMap fun q => borderHandles (d q) p (σ q)

theorem runRound_handles (dist : ℕ) (σ : Fin P → Foreign P) (p : Fin P) :
    runRound (fun p => (d p).neighborPeers) σ (addNonNeighborOverlapIndices d dist) p =
      (handles d σ p).foldl (receiveHandle dist) (σ p) := by
  unfold runRound handles
  dsimp only
  generalize σ p = s
  induction (d p).neighborPeers generalizing s with
  | nil => rfl
  | cons q l ih =>
    rw [List.foldl_cons, List.flatMap_cons, List.foldl_append, ih]
    rfl

theorem mem_handles (v : Valid verts d) (σ : Fin P → Foreign P) (p : Fin P) (r : Fin P) (i : ℕ) :
    (∃ h ∈ handles d σ p, h.peerIdx = i ∧ h.peerRank = r) ↔
      p ≠ r ∧ ∃ q l x, q ≠ p ∧ (verts q)[l]? = some x ∧ (verts p)[i]? = some x ∧ IsSeed (σ q).seeds r l ∧ (σ q).byLocal l p = some 0 := by
  unfold handles
  constructor
  · rintro ⟨h, hm, rfl, rfl⟩
    obtain ⟨q, hq, hm⟩ := List.mem_flatMap.1 hm
    have hqp := ((neighbor_iff v p q).1 hq).1
    unfold borderHandles at hm
    obtain ⟨e, he, hm⟩ := List.mem_filterMap.1 hm
    cases hn : (d q).nativeToLocal e.index with
    | none => rw [hn] at hm; cases hm
    | some l =>
      rw [hn] at hm
      dsimp only at hm
      split_ifs at hm with hc
      obtain ⟨hb, h0, hne⟩ := hc
      rw [Option.map_eq_some_iff] at hm
      obtain ⟨j, hj, rfl⟩ := hm
      obtain ⟨x, h1, h2⟩ := (localToPeerIdx_iff v q p hqp.symm l j).1 hj
      obtain ⟨rfl, -⟩ := (toLocal v q _ _).1 hn
      exact ⟨hne, q, e.index, x, hqp, h1, h2, ⟨e, he, rfl, rfl⟩, h0⟩
  · rintro ⟨hne, q, l, x, hqp, h1, h2, ⟨e, he, rfl, rfl⟩, h0⟩
    refine ⟨⟨e.index, i, e.peerRank, e.borderDistance⟩, ?_, rfl, rfl⟩
    refine List.mem_flatMap.2 ⟨q, (neighbor_iff v p q).2 ⟨hqp, x, List.mem_of_getElem? h2, List.mem_of_getElem? h1⟩, ?_⟩
    unfold borderHandles
    refine List.mem_filterMap.2 ⟨e, he, ?_⟩
    rw [(toLocal v q e.index e.index).2 ⟨rfl, lt_of_get h1⟩]
    dsimp only
    rw [if_pos ⟨(isBorder_iff v q _).2 ⟨x, p, h1, hqp.symm, List.mem_of_getElem? h2⟩, h0, hne⟩,
      (localToPeerIdx_iff v q p hqp.symm _ i).2 ⟨x, h1, h2⟩]
    rfl

/-! ### The levels -/

/-- What has been found before the level `k` -/
structure Found (verts : Fin P → List G) (d : Fin P → Native P) (p : Fin P) (k : ℕ) (s : Foreign P) : Prop where
  byLocal : ∀ l r m, s.byLocal l r = some m ↔ r ≠ p ∧ m < k ∧ ∃ x, (verts p)[l]? = some x ∧ Dist verts d r m x
  peersOnly : ∀ q, s.peers q → q ≠ p ∧ ∃ x ∈ verts p, ∃ m ≤ k - 1, Dist verts d q m x
  peersAll : ∀ r l m, s.byLocal l r = some m → s.peers r

/-- The seeds before the exchange of the level `k` are those found in the own matrix. -/
structure Before (verts : Fin P → List G) (d : Fin P → Native P) (p : Fin P) (k : ℕ) (s : Foreign P) : Prop
    extends Found verts d p k s where
  sound : ∀ r i, IsSeed s.seeds r i → r ≠ p ∧ ∃ x, (verts p)[i]? = some x ∧ Dist verts d r k x
  complete : ∀ r i x, (verts p)[i]? = some x → r ≠ p → Dist verts d r k x →
    (k = 0 ∨ ∃ j u, (verts p)[j]? = some u ∧ Dist verts d r (k - 1) u ∧ i ∈ (d p).cols j) → IsSeed s.seeds r i
  seedPeers : ∀ r i, IsSeed s.seeds r i → s.peers r

theorem before_init (v : Valid verts d) (p : Fin P) : Before verts d p 0 (Foreign.init (d p)) where
  byLocal l r m := by simp [Foreign.init]
  peersOnly q hq := by
    obtain ⟨h, x, h1, h2⟩ := (neighbor_iff v p q).1 hq
    exact ⟨h, x, h1, 0, le_rfl, (dist_zero q x).2 h2⟩
  peersAll r l m h := by simp [Foreign.init] at h
  sound r i := by
    rintro ⟨e, he, rfl, rfl⟩
    obtain ⟨b, hb, rfl⟩ := List.mem_map.1 he
    obtain ⟨-, hne, x, h1, h2⟩ := (v.border p b).1 hb
    exact ⟨hne, x, h1, (dist_zero _ _).2 (List.mem_of_getElem? h2)⟩
  complete r i x hx hr hd _ := by
    obtain ⟨j, hj⟩ := exists_get ((dist_zero _ _).1 hd)
    exact ⟨⟨i, r, 0⟩, List.mem_map.2 ⟨⟨i, j, r, 0⟩, (v.border _ _).2 ⟨rfl, hr, x, hx, hj⟩, rfl⟩, rfl, rfl⟩
  seedPeers r i := by
    rintro ⟨e, he, rfl, rfl⟩
    obtain ⟨b, hb, rfl⟩ := List.mem_map.1 he
    obtain ⟨-, hne, x, h1, h2⟩ := (v.border p b).1 hb
    exact (neighbor_iff v p _).2 ⟨hne, x, List.mem_of_getElem? h1, List.mem_of_getElem? h2⟩

/-- After the exchange of the level `k` the seeds are all vertices at this distance. -/
structure Exchanged (verts : Fin P → List G) (d : Fin P → Native P) (p : Fin P) (k : ℕ) (s : Foreign P) : Prop where
  byLocal : ∀ l r m, s.byLocal l r = some m ↔ r ≠ p ∧ m < k ∧ ∃ x, (verts p)[l]? = some x ∧ Dist verts d r m x
  peersOnly : ∀ q, s.peers q → q ≠ p ∧ ∃ x ∈ verts p, ∃ m ≤ k, Dist verts d q m x
  peersAll : ∀ r l m, s.byLocal l r = some m → s.peers r
  seeds : ∀ r i, IsSeed s.seeds r i ↔ r ≠ p ∧ ∃ x, (verts p)[i]? = some x ∧ Dist verts d r k x
  seedPeers : ∀ r i, IsSeed s.seeds r i → s.peers r

theorem exchange (v : Valid verts d) {k : ℕ} {σ : Fin P → Foreign P} (h : ∀ p, Before verts d p k (σ p)) (p : Fin P) :
    Exchanged verts d p k (runRound (fun p => (d p).neighborPeers) σ (addNonNeighborOverlapIndices d k) p) := by
  rw [runRound_handles]
  have hseeds : ∀ r i, IsSeed ((handles d σ p).foldl (receiveHandle k) (σ p)).seeds r i ↔
      r ≠ p ∧ ∃ x, (verts p)[i]? = some x ∧ Dist verts d r k x := by
    intro r i
    rw [receiveHandle_seeds, mem_handles v]
    constructor
    · rintro (hs | ⟨-, hne, q, l, x, hqp, h1, h2, h3, h4⟩)
      · exact (h p).sound r i hs
      · obtain ⟨-, y, hy, hd⟩ := (h q).sound r l h3
        rw [h1] at hy
        injection hy with hy
        subst hy
        exact ⟨hne.symm, x, h2, hd⟩
    · rintro ⟨hr, x, hx, hd⟩
      by_cases hs : IsSeed (σ p).seeds r i
      · exact Or.inl hs
      · right
        refine ⟨?_, hr.symm, ?_⟩
        · rw [Option.eq_none_iff_forall_ne_some]
          intro m hm
          obtain ⟨-, hm, y, hy, hd'⟩ := ((h p).byLocal i r m).1 hm
          rw [hx] at hy
          injection hy with hy
          subst hy
          have := dist_unique hd hd'
          omega
        · cases k with
          | zero => exact absurd ((h p).complete r i x hx hr hd (Or.inl rfl)) hs
          | succ k =>
            obtain ⟨q, a, b, u, hqr, h1, h2, h3, h4⟩ := dist_step hd
            have hqp : q ≠ p := by
              rintro rfl
              have := get_inj v h2 hx
              subst this
              exact hs ((h q).complete r b x hx hr hd (Or.inr ⟨a, u, h1, h4, h3⟩))
            refine ⟨q, b, x, hqp, h2, hx, (h q).complete r b x h2 hqr.symm hd (Or.inr ⟨a, u, h1, h4, h3⟩), ?_⟩
            exact ((h q).byLocal b p 0).2 ⟨hqp.symm, by omega, x, h2, (dist_zero _ _).2 (List.mem_of_getElem? hx)⟩
  obtain ⟨hp1, hp2⟩ := receiveHandle_peers k (handles d σ p) (σ p) (h p).seedPeers
  refine ⟨?_, ?_, ?_, hseeds, hp1⟩
  · intro l r m
    rw [receiveHandle_byLocal]
    exact (h p).byLocal l r m
  · intro q hq
    rcases (hp2 q).1 hq with hq | ⟨i, hi⟩
    · obtain ⟨h1, x, hx, m, hm, hd⟩ := (h p).peersOnly q hq
      exact ⟨h1, x, hx, m, by omega, hd⟩
    · obtain ⟨h1, x, hx, hd⟩ := (hseeds q i).1 hi
      exact ⟨h1, x, List.mem_of_getElem? hx, k, le_rfl, hd⟩
  · intro r l m hm
    rw [receiveHandle_byLocal] at hm
    exact (hp2 r).2 ((h p).peersAll r l m hm)

theorem add_found (v : Valid verts d) {p : Fin P} {k : ℕ} {s : Foreign P} (h : Exchanged verts d p k s) :
    Found verts d p (k + 1) (addSeeds (d p) k s) := by
  have hex : ∀ l r, (∃ e ∈ s.seeds, (d p).nativeToLocal e.index = some l ∧ e.peerRank = r) ↔
      r ≠ p ∧ ∃ x, (verts p)[l]? = some x ∧ Dist verts d r k x := by
    intro l r
    rw [← h.seeds r l]
    constructor
    · rintro ⟨e, he, hl, rfl⟩
      obtain ⟨rfl, -⟩ := (toLocal v p _ _).1 hl
      exact ⟨e, he, rfl, rfl⟩
    · intro hs
      obtain ⟨-, x, hx, -⟩ := (h.seeds r l).1 hs
      obtain ⟨e, he, rfl, rfl⟩ := hs
      exact ⟨e, he, (toLocal v p _ _).2 ⟨rfl, lt_of_get hx⟩, rfl⟩
  have hby : ∀ l r m, (addSeeds (d p) k s).byLocal l r = some m ↔
      r ≠ p ∧ m < k + 1 ∧ ∃ x, (verts p)[l]? = some x ∧ Dist verts d r m x := by
    intro l r m
    rw [addSeeds_byLocal]
    by_cases hs : (s.byLocal l r).isSome
    · rw [if_pos hs, h.byLocal]
      obtain ⟨m', hm'⟩ := Option.isSome_iff_exists.1 hs
      obtain ⟨-, hlt, y, hy, hd⟩ := (h.byLocal l r m').1 hm'
      constructor
      · rintro ⟨h1, h2, h3⟩; exact ⟨h1, by omega, h3⟩
      · rintro ⟨h1, h2, x, hx, hd'⟩
        rw [hy] at hx
        injection hx with hx
        subst hx
        have := dist_unique hd hd'
        exact ⟨h1, by omega, y, hy, hd'⟩
    · rw [if_neg hs]
      by_cases he : ∃ e ∈ s.seeds, (d p).nativeToLocal e.index = some l ∧ e.peerRank = r
      · rw [if_pos he]
        obtain ⟨h1, x, hx, hd⟩ := (hex l r).1 he
        constructor
        · intro e
          injection e with e
          subst e
          exact ⟨h1, by omega, x, hx, hd⟩
        · rintro ⟨-, -, y, hy, hd'⟩
          rw [hx] at hy
          injection hy with hy
          subst hy
          rw [dist_unique hd hd']
      · rw [if_neg he]
        constructor
        · intro e; cases e
        · rintro ⟨h1, h2, x, hx, hd⟩
          exfalso
          rcases Nat.lt_succ_iff_lt_or_eq.1 h2 with h2 | rfl
          · exact hs (Option.isSome_iff_exists.2 ⟨m, (h.byLocal l r m).2 ⟨h1, h2, x, hx, hd⟩⟩)
          · exact he ((hex l r).2 ⟨h1, x, hx, hd⟩)
  refine ⟨hby, ?_, ?_⟩
  · intro q hq
    rw [(addSeeds_other _ _).2] at hq
    obtain ⟨h1, x, hx, m, hm, hd⟩ := h.peersOnly q hq
    exact ⟨h1, x, hx, m, by omega, hd⟩
  · intro r l m hm
    rw [(addSeeds_other _ _).2]
    rw [addSeeds_byLocal] at hm
    split_ifs at hm with h1 h2
    · exact h.peersAll r l m hm
    · exact h.seedPeers r l ((h.seeds r l).2 ((hex l r).1 h2))

theorem level (v : Valid verts d) {p : Fin P} {k : ℕ} {s : Foreign P} (h : Exchanged verts d p k s) (hk : k < overlapSize) :
    Before verts d p (k + 1) (afterLevel (d p) overlapSize k s) := by
  have hf := add_found v h
  have hl : ∀ j, (d p).IsLocal j ↔ j < (verts p).length := by
    intro j
    rw [isLocal_iff]
    constructor
    · rintro ⟨l, hl⟩; exact ((toLocal v p _ _).1 hl).2
    · intro hj; exact ⟨j, (toLocal v p _ _).2 ⟨rfl, hj⟩⟩
  unfold afterLevel
  dsimp only
  rw [if_neg (by omega)]
  refine ⟨⟨hf.byLocal, hf.peersOnly, hf.peersAll⟩, ?_, ?_, ?_⟩
  · intro r i hs
    dsimp only at hs
    rw [nextSeeds_mem, (addSeeds_other _ _).1] at hs
    obtain ⟨⟨j, -, hj, hc⟩, l, hil, hn⟩ := hs
    obtain ⟨rfl, hlt⟩ := (toLocal v p _ _).1 hil
    obtain ⟨hr, u, hu, hd⟩ := (h.seeds r j).1 hj
    obtain ⟨x, hx⟩ := exists_vert hlt
    refine ⟨hr, x, hx, Walk.step k u x hd.1 ⟨p, j, l, hu, hx, hc⟩, ?_⟩
    intro k' hk' hw
    obtain ⟨m, hm, hd'⟩ := walk_dist hw
    have := (hf.byLocal l r m).2 ⟨hr, by omega, x, hx, hd'⟩
    rw [hn] at this
    cases this
  · intro r i x hx hr hd hor
    dsimp only
    rw [nextSeeds_mem, (addSeeds_other _ _).1]
    rcases hor with h0 | ⟨j, u, hu, hdu, hc⟩
    · omega
    · rw [Nat.add_sub_cancel] at hdu
      refine ⟨⟨j, (hl j).2 (lt_of_get hu), (h.seeds r j).2 ⟨hr, u, hu, hdu⟩, hc⟩, i, (toLocal v p _ _).2 ⟨rfl, lt_of_get hx⟩, ?_⟩
      rw [Option.eq_none_iff_forall_ne_some]
      intro m hm
      obtain ⟨-, hlt, y, hy, hd'⟩ := (hf.byLocal i r m).1 hm
      rw [hx] at hy
      injection hy with hy
      subst hy
      have := dist_unique hd hd'
      omega
  · intro r i hs
    dsimp only at hs ⊢
    rw [nextSeeds_mem, (addSeeds_other _ _).1] at hs
    obtain ⟨⟨j, -, hj, -⟩, -⟩ := hs
    rw [(addSeeds_other _ _).2]
    exact h.seedPeers r j hj

/-- The foreign overlaps before the level `k` -/
def stage (d : Fin P → Native P) (overlapSize : ℕ) : ℕ → Fin P → Foreign P
  | 0 => fun p => Foreign.init (d p)
  | k + 1 => fun p =>
    let s := runRound (fun p => (d p).neighborPeers) (stage d overlapSize k) (addNonNeighborOverlapIndices d k) p
    if (d p).minBorderDist overlapSize ≤ k then afterLevel (d p) overlapSize k s else s

theorem round_isolated {p : Fin P} (h : (d p).borderList = [])
    (σ : Fin P → Foreign P) (k : ℕ) : runRound (fun p => (d p).neighborPeers) σ (addNonNeighborOverlapIndices d k) p = σ p := by
  rw [runRound_handles]
  unfold handles
  rw [neighbors_nil h]
  rfl

theorem before_isolated (v : Valid verts d) {p : Fin P} (hp : (d p).borderList = []) {k : ℕ} {s : Foreign P}
    (h : Before verts d p k s) : Before verts d p (k + 1) s := by
  have hno : ∀ r m x, r ≠ p → x ∈ verts p → ¬Dist verts d r m x := fun r m x hr hx hd => hr (isolated v hp hd.1 hx)
  refine ⟨⟨?_, ?_, h.peersAll⟩, ?_, ?_, h.seedPeers⟩
  · intro l r m
    rw [h.byLocal]
    constructor
    · rintro ⟨h1, -, x, hx, hd⟩; exact absurd hd (hno r m x h1 (List.mem_of_getElem? hx))
    · rintro ⟨h1, -, x, hx, hd⟩; exact absurd hd (hno r m x h1 (List.mem_of_getElem? hx))
  · intro q hq
    obtain ⟨h1, x, hx, m, hm, hd⟩ := h.peersOnly q hq
    exact ⟨h1, x, hx, m, by omega, hd⟩
  · intro r i hs
    obtain ⟨h1, x, hx, hd⟩ := h.sound r i hs
    exact absurd hd (hno r k x h1 (List.mem_of_getElem? hx))
  · intro r i x hx hr hd _
    exact absurd hd (hno r _ x hr (List.mem_of_getElem? hx))

theorem stage_before (v : Valid verts d) (k : ℕ) (hk : k ≤ overlapSize) (p : Fin P) :
    Before verts d p k (stage d overlapSize k p) := by
  induction k generalizing p with
  | zero => exact before_init v p
  | succ k ih =>
    have ih := ih (by omega)
    unfold stage
    dsimp only
    split_ifs with h
    · exact level v (exchange v ih p) (by omega)
    · rw [minBorderDist_eq v] at h
      split_ifs at h with hb
      · rw [round_isolated (d := d) hb]
        exact before_isolated v hb (ih p)
      · omega

/-- The foreign overlaps after all levels -/
def found (d : Fin P → Native P) (overlapSize : ℕ) (p : Fin P) : Foreign P := stage d overlapSize (overlapSize + 1) p

theorem found_spec (v : Valid verts d) (p : Fin P) : Found verts d p (overlapSize + 1) (found d overlapSize p) := by
  unfold found stage
  dsimp only
  rw [if_pos (minBorderDist_le _)]
  unfold afterLevel
  dsimp only
  rw [if_pos le_rfl]
  exact add_found v (exchange v (stage_before v overlapSize le_rfl) p)

theorem found_byLocal (v : Valid verts d) (p r : Fin P) (l m : ℕ) :
    (found d overlapSize p).byLocal l r = some m ↔ r ≠ p ∧ m ≤ overlapSize ∧ ∃ x, (verts p)[l]? = some x ∧ Dist verts d r m x := by
  rw [(found_spec v p).byLocal, Nat.lt_succ_iff]

theorem found_peers (v : Valid verts d) (p q : Fin P) :
    (found d overlapSize p).peers q ↔ q ≠ p ∧ ∃ x ∈ verts p, InOverlap verts d overlapSize q x := by
  constructor
  · intro h
    obtain ⟨h1, x, hx, m, hm, hd⟩ := (found_spec v p).peersOnly q h
    exact ⟨h1, x, hx, m, by omega, hd.1⟩
  · rintro ⟨h1, x, hx, k, hk, hw⟩
    obtain ⟨m, hm, hd⟩ := walk_dist hw
    obtain ⟨l, hl⟩ := exists_get hx
    exact (found_spec v p).peersAll q l m ((found_byLocal v p q l m).2 ⟨h1, by omega, x, hl, hd⟩)

theorem found_peerSet (v : Valid verts d) (p : Fin P) : (found d overlapSize p).peerSet = peers verts d overlapSize p := by
  unfold Foreign.peerSet peers
  apply List.filter_congr
  intro q _
  rw [decide_eq_decide, found_peers v]

/-! ### The program -/

theorem settles_stage (v : Valid verts d) (k : ℕ) :
    Settles (fun p => ((List.range k).filter fun x => decide ((d p).minBorderDist overlapSize ≤ x)).flatMap fun dist =>
        roundProgram (fun p => (d p).neighborPeers) (addNonNeighborOverlapIndices d dist) p ++
          [.compute (afterLevel (d p) overlapSize dist)]) (fun p => Foreign.init (d p)) (stage d overlapSize k) := by
  induction k with
  | zero => exact Settles.nil
  | succ k ih =>
    have h1 := settles_round (neighbors_nodup (d := d)) (neighbors_symm v) (neighbors_irrefl v) (addNonNeighborOverlapIndices d k)
      (stage d overlapSize k)
    have h2 : Settles (M := List (BorderIndex P))
        (fun p => if (d p).minBorderDist overlapSize ≤ k then [.compute (afterLevel (d p) overlapSize k)] else [])
        (runRound (fun p => (d p).neighborPeers) (stage d overlapSize k) (addNonNeighborOverlapIndices d k))
        (stage d overlapSize (k + 1)) :=
      settles_optional (fun p => (d p).minBorderDist overlapSize ≤ k) (fun p => afterLevel (d p) overlapSize k)
    have key := ih.append (h1.append h2)
    have e : (fun p => ((List.range (k + 1)).filter fun x => decide ((d p).minBorderDist overlapSize ≤ x)).flatMap fun dist =>
        roundProgram (fun p => (d p).neighborPeers) (addNonNeighborOverlapIndices d dist) p ++
          [Op.compute (afterLevel (d p) overlapSize dist)]) = fun p =>
        (((List.range k).filter fun x => decide ((d p).minBorderDist overlapSize ≤ x)).flatMap fun dist =>
          roundProgram (fun p => (d p).neighborPeers) (addNonNeighborOverlapIndices d dist) p ++
            [Op.compute (afterLevel (d p) overlapSize dist)]) ++
        (roundProgram (fun p => (d p).neighborPeers) (addNonNeighborOverlapIndices d k) p ++
          (if (d p).minBorderDist overlapSize ≤ k then [Op.compute (afterLevel (d p) overlapSize k)] else [])) := by
      funext p
      rw [List.range_succ, List.filter_append, List.flatMap_append]
      congr 1
      by_cases hm : (d p).minBorderDist overlapSize ≤ k
      · rw [List.filter_cons_of_pos (by simpa using hm), if_pos hm]
        simp
      · rw [List.filter_cons_of_neg (by simpa using hm), if_neg hm]
        have hb : (d p).borderList = [] := by
          by_contra hne
          rw [minBorderDist_eq v, if_neg hne] at hm
          omega
        have hr : roundProgram (fun p => (d p).neighborPeers) (addNonNeighborOverlapIndices d k) p = [] := by
          unfold roundProgram
          simp only [neighbors_nil hb]
          rfl
        rw [hr]
        rfl
    rw [e]
    exact key

theorem levels_eq (n : Native P) :
    levels n overlapSize = (List.range (overlapSize + 1)).filter fun x => decide (n.minBorderDist overlapSize ≤ x) := by
  have hle := minBorderDist_le (d := n) overlapSize
  unfold levels
  generalize n.minBorderDist overlapSize = m at *
  rw [show overlapSize + 1 = m + (overlapSize + 1 - m) by omega, List.range_add, List.filter_append]
  rw [show m + (overlapSize + 1 - m) - m = overlapSize + 1 - m by omega]
  generalize overlapSize + 1 - m = n'
  have h1 : (List.range m).filter (fun x => decide (m ≤ x)) = [] := by
    rw [List.filter_eq_nil_iff]
    intro x hx
    rw [List.mem_range] at hx
    simp; omega
  have h2 : ((List.range n').map (m + ·)).filter (fun x => decide (m ≤ x)) = (List.range n').map (m + ·) := by
    rw [List.filter_eq_self]
    intro x hx
    obtain ⟨y, -, rfl⟩ := List.mem_map.1 hx
    simp
  rw [h1, h2, List.nil_append, List.range'_eq_map_range]

theorem settles_foreign (v : Valid verts d) :
    Settles (foreignProgram d overlapSize) (fun p => Foreign.init (d p)) (found d overlapSize) := by
  have h := settles_stage (overlapSize := overlapSize) v (overlapSize + 1)
  have e : foreignProgram d overlapSize = fun p =>
      ((List.range (overlapSize + 1)).filter fun x => decide ((d p).minBorderDist overlapSize ≤ x)).flatMap fun dist =>
        roundProgram (fun p => (d p).neighborPeers) (addNonNeighborOverlapIndices d dist) p ++
          [.compute (afterLevel (d p) overlapSize dist)] := by
    funext p
    unfold foreignProgram
    rw [levels_eq]
  rw [e]
  exact h

end Verif.Overlap.Vertex
