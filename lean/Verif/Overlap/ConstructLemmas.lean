import Verif.Overlap.DomesticLemmas

/-
The overlaps which the processes set up.
-/

set_option autoImplicit false
set_option linter.unusedSectionVars false

namespace Verif.Overlap

open Verif.Mpi Verif.GlobalIdx

variable {P : ℕ} {G : Type} {g : Grid P G} {d : Fin P → Native P} {overlapSize : ℕ}

/-! ### What is sent -/

theorem near_neighbor {n : Native P} {r : Fin P} {k i : ℕ} (h : Near n r k i) : r ∈ n.neighborPeers := by
  induction h with
  | border e he hr _ =>
    unfold Native.neighborPeers
    rw [List.mem_filter, decide_eq_true_eq]
    exact ⟨List.mem_finRange _, e, he, hr⟩
  | step _ _ _ _ _ _ ih => exact ih

theorem near_border {n : Native P} {r : Fin P} {k i : ℕ} (h : Near n r k i) : n.borderList ≠ [] := by
  induction h with
  | border e he _ _ => exact List.ne_nil_of_mem he
  | step _ _ _ _ _ _ ih => exact ih

theorem foreign_iff (v : Valid g d) (hs : 0 < overlapSize) (p r : Fin P) (l m : ℕ) :
    (searched (d p) overlapSize).byLocal l r = some m ↔
      ∃ i k, (d p).nativeToLocal i = some l ∧ k < overlapSize ∧ Dist (d p) r k i ∧ m = k + 1 := by
  rw [searched_byLocal]
  constructor
  · rintro ⟨i, k, h1, h2, h3, h4⟩
    rw [minBorderDist_eq v hs, if_neg (near_border h3.1)] at h2 h4
    exact ⟨i, k, h1, by omega, h3, by omega⟩
  · rintro ⟨i, k, h1, h2, h3, h4⟩
    refine ⟨i, k, h1, ?_, h3, ?_⟩
    all_goals rw [minBorderDist_eq v hs, if_neg (near_border h3.1)]; omega

theorem present_iff (v : Valid g d) (x : Option G) : x ∈ present (parts d) (dof g) ↔ ∃ c ∈ g.all, x = some c := by
  constructor
  · rintro ⟨p, i, hi, rfl⟩
    obtain ⟨c, hc, ho⟩ := local_cell v ((mem_locals p i).1 hi)
    refine ⟨c, ?_, hc⟩
    show c ∈ g.cells (g.owner c)
    rw [ho]
    exact List.mem_of_getElem? hc
  · rintro ⟨c, hc, rfl⟩
    obtain ⟨i, hi, h⟩ := List.getElem_of_mem (show c ∈ g.cells (g.owner c) from hc)
    have hc' : (g.cells (g.owner c))[i]? = some c := by rw [List.getElem?_eq_getElem hi, h]
    exact ⟨g.owner c, i, (mem_locals _ _).2 (((v.black _).2 i c hc').2 rfl), hc'⟩

/-- The local index of the own cell -/
theorem own_index (v : Valid g d) {p : Fin P} {i : ℕ} {c : G} (hc : (g.cells p)[i]? = some c) (ho : g.owner c = p) :
    ∃ l, (d p).nativeToLocal i = some l ∧ (locals (parts d p))[l]? = some i := by
  obtain ⟨l, hl⟩ := (isLocal_iff (d := d p) i).1 (((v.black p).2 i c hc).2 ho)
  exact ⟨l, hl, (nativeToLocal_eq (parts d p) i l).1 hl⟩

theorem own_cell (v : Valid g d) {p : Fin P} {i l : ℕ} (h : (d p).nativeToLocal i = some l) :
    ∃ c, (g.cells p)[i]? = some c ∧ g.owner c = p := local_cell v ((isLocal_iff i).2 ⟨l, h⟩)

theorem mem_foreignWith {n : Native P} {s : Foreign P} {r : Fin P} {l : ℕ} :
    l ∈ foreignWith n s r ↔ l < n.numLocal ∧ (s.byLocal l r).isSome := by
  unfold foreignWith
  rw [List.mem_filter, List.mem_range]

theorem mem_sendIndices (v : Valid g d) (hs : 0 < overlapSize) {number : Option G → ℕ} {q : Fin P} {s : Domestic P}
    (ht : ∀ k, s.toGlobal k = ((locals (parts d q))[k]?).map fun i => number (dof g q i)) (p : Fin P) (x : ℕ × ℕ) :
    x ∈ sendIndices (d q) (searched (d q) overlapSize) p s ↔
      ∃ i c k, (g.cells q)[i]? = some c ∧ g.owner c = q ∧ k < overlapSize ∧ Dist (d q) p k i ∧
        x = (number (some c), k + 1) := by
  unfold sendIndices
  rw [List.mem_map]
  constructor
  · rintro ⟨l, hl, rfl⟩
    obtain ⟨hl, hm⟩ := mem_foreignWith.1 hl
    obtain ⟨m, hm⟩ := Option.isSome_iff_exists.1 hm
    obtain ⟨i, k, h1, h2, h3, h4⟩ := (foreign_iff v hs q p l m).1 hm
    obtain ⟨c, hc, ho⟩ := own_cell v h1
    refine ⟨i, c, k, hc, ho, h2, h3, ?_⟩
    rw [ht, (nativeToLocal_eq (parts d q) i l).1 h1, hm, h4]
    simp [dof, hc]
  · rintro ⟨i, c, k, hc, ho, hk, hd, rfl⟩
    obtain ⟨l, hl, hl'⟩ := own_index v hc ho
    have hm := (foreign_iff v hs q p l (k + 1)).2 ⟨i, k, hl, hk, hd, rfl⟩
    refine ⟨l, mem_foreignWith.2 ⟨toLocal_lt hl, by rw [hm]; rfl⟩, ?_⟩
    rw [ht, hl', hm]
    simp [dof, hc]

theorem sendIndices_nodup (v : Valid g d) (hs : 0 < overlapSize) {number : Option G → ℕ}
    (hinj : Set.InjOn number (present (parts d) (dof g))) {q : Fin P} {s : Domestic P}
    (ht : ∀ k, s.toGlobal k = ((locals (parts d q))[k]?).map fun i => number (dof g q i)) (p : Fin P) :
    ((sendIndices (d q) (searched (d q) overlapSize) p s).map Prod.fst).Nodup := by
  unfold sendIndices
  rw [List.map_map]
  refine List.Nodup.map_on ?_ (List.Nodup.filter _ List.nodup_range)
  intro l hl l' hl' h
  obtain ⟨hl, -⟩ := mem_foreignWith.1 hl
  obtain ⟨hl', -⟩ := mem_foreignWith.1 hl'
  obtain ⟨i, hi⟩ := exists_native hl
  obtain ⟨i', hi'⟩ := exists_native hl'
  have e := (nativeToLocal_eq (parts d q) i l).1 hi
  have e' := (nativeToLocal_eq (parts d q) i' l').1 hi'
  simp only [Function.comp_apply, ht, e, e', Option.map_some, Option.getD_some] at h
  have hd := hinj ⟨q, i, List.mem_of_getElem? e, rfl⟩ ⟨q, i', List.mem_of_getElem? e', rfl⟩ h
  have hii := (parts_valid v hs).distinct q i (List.mem_of_getElem? e) i' (List.mem_of_getElem? e') hd
  subst hii
  rw [hi] at hi'
  exact Option.some.inj hi'

/-- What a process receives -/
def received (d : Fin P → Native P) (overlapSize : ℕ) (s : Fin P → Domestic P) (p : Fin P) : List (Fin P × ℕ × ℕ) :=
  (d p).neighborPeers.flatMap fun q => (sendIndices (d q) (searched (d q) overlapSize) p (s q)).map fun x => (q, x)

/-- The numbers of the own cells. -/
def ownNumbers (d : Fin P → Native P) (g : Grid P G) (number : Option G → ℕ) (p : Fin P) : List ℕ :=
  (locals (parts d p)).map fun i => number (dof g p i)

theorem mem_received (v : Valid g d) (hs : 0 < overlapSize) {number : Option G → ℕ} {s : Fin P → Domestic P}
    (ht : ∀ p k, (s p).toGlobal k = ((locals (parts d p))[k]?).map fun i => number (dof g p i)) (p : Fin P) (e : Fin P × ℕ × ℕ) :
    e ∈ received d overlapSize s p ↔ ∃ i c k, (g.cells (g.owner c))[i]? = some c ∧ g.owner c ≠ p ∧ k < overlapSize ∧
      Dist (d (g.owner c)) p k i ∧ e = (g.owner c, number (some c), k + 1) := by
  unfold received
  rw [List.mem_flatMap]
  constructor
  · rintro ⟨q, hq, h⟩
    obtain ⟨x, hx, rfl⟩ := List.mem_map.1 h
    obtain ⟨i, c, k, h1, rfl, h3, h4, rfl⟩ := (mem_sendIndices v hs (ht q) p x).1 hx
    exact ⟨i, c, k, h1, ((neighbor_iff v p _).1 hq).1, h3, h4, rfl⟩
  · rintro ⟨i, c, k, h1, h2, h3, h4, rfl⟩
    exact ⟨g.owner c, (neighbors_symm v _ _).1 (near_neighbor h4.1),
      List.mem_map.2 ⟨_, (mem_sendIndices v hs (ht _) p _).2 ⟨i, c, k, h1, rfl, h3, h4, rfl⟩, rfl⟩⟩

theorem mem_ownNumbers (v : Valid g d) (number : Option G → ℕ) (p : Fin P) (n : ℕ) :
    n ∈ ownNumbers d g number p ↔ ∃ (i : ℕ) (c : G), (g.cells p)[i]? = some c ∧ g.owner c = p ∧ n = number (some c) := by
  unfold ownNumbers
  rw [List.mem_map]
  constructor
  · rintro ⟨i, hi, rfl⟩
    obtain ⟨c, hc, ho⟩ := local_cell v ((mem_locals p i).1 hi)
    exact ⟨i, c, hc, ho, by unfold dof; rw [hc]⟩
  · rintro ⟨i, c, hc, ho, rfl⟩
    exact ⟨i, (mem_locals p i).2 (((v.black p).2 i c hc).2 ho), by unfold dof; rw [hc]⟩

theorem all_of_index {c : G} {i : ℕ} (h : (g.cells (g.owner c))[i]? = some c) : c ∈ g.all := List.mem_of_getElem? h

theorem cell_number_inj {number : Option G → ℕ} (v : Valid g d) (hinj : Set.InjOn number (present (parts d) (dof g))) {c c' : G}
    (h : c ∈ g.all) (h' : c' ∈ g.all) (e : number (some c) = number (some c')) : c = c' :=
  Option.some.inj (hinj ((present_iff v _).2 ⟨c, h, rfl⟩) ((present_iff v _).2 ⟨c', h', rfl⟩) e)

theorem numbers_nodup (v : Valid g d) (hs : 0 < overlapSize) {number : Option G → ℕ}
    (hinj : Set.InjOn number (present (parts d) (dof g))) {s : Fin P → Domestic P}
    (ht : ∀ p k, (s p).toGlobal k = ((locals (parts d p))[k]?).map fun i => number (dof g p i)) (p : Fin P) :
    (ownNumbers d g number p ++ (received d overlapSize s p).map (·.2.1)).Nodup := by
  rw [List.nodup_append]
  refine ⟨?_, ?_, ?_⟩
  · unfold ownNumbers
    refine List.Nodup.map_on ?_ (locals_nodup _)
    intro i hi j hj h
    exact (parts_valid v hs).distinct p i hi j hj (hinj ⟨p, i, hi, rfl⟩ ⟨p, j, hj, rfl⟩ h)
  · unfold received
    rw [List.map_flatMap, List.nodup_flatMap]
    constructor
    · intro q _
      have := sendIndices_nodup v hs hinj (ht q) p
      rw [List.map_map]
      exact this
    · refine List.Pairwise.imp_of_mem ?_ (neighbors_nodup (d := d) p)
      intro q q' _ _ hne n hn hn'
      simp only [List.map_map] at hn hn'
      obtain ⟨x, hx, rfl⟩ := List.mem_map.1 hn
      obtain ⟨x', hx', e⟩ := List.mem_map.1 hn'
      obtain ⟨i, c, k, h1, h2, -, -, rfl⟩ := (mem_sendIndices v hs (ht q) p x).1 hx
      obtain ⟨i', c', k', h1', h2', -, -, rfl⟩ := (mem_sendIndices v hs (ht q') p x').1 hx'
      subst h2
      subst h2'
      have := cell_number_inj v hinj (all_of_index h1') (all_of_index h1) e
      exact hne (by rw [this])
  · intro n hn n' hn' e
    subst e
    obtain ⟨i, c, hc, ho, rfl⟩ := (mem_ownNumbers v number p n).1 hn
    obtain ⟨x, hx, e⟩ := List.mem_map.1 hn'
    obtain ⟨i', c', k, h1, h2, -, -, rfl⟩ := (mem_received v hs ht p x).1 hx
    subst ho
    have := cell_number_inj v hinj (all_of_index h1) (all_of_index hc) e
    exact h2 (by rw [this])

/-! ### The rounds -/

theorem foldl_liftDomestic (r : (Fin P → Foreign P) → Round (Fin P) (Domestic P) Msg) (p : Fin P) (σ : Fin P → Process P)
    (l : List (Fin P)) (s : Process P) :
    l.foldl (fun s q => (liftDomestic r).recv p q ((liftDomestic r).send q p (σ q)) s) s =
      { s with
        domestic := (l.foldl (fun t q => (r fun _ => s.foreign).recv p q
          ((r fun _ => (σ q).foreign).send q p (σ q).domestic) t) s.domestic) } := by
  induction l generalizing s with
  | nil => rfl
  | cons q l ih =>
    rw [List.foldl_cons, ih]
    rfl

theorem foldl_build (p : Fin P) (σ : Fin P → Process P) (f : Foreign P) (hf : ∀ q, (σ q).foreign = searched (d q) overlapSize)
    (l : List (Fin P)) (t : Domestic P) :
    l.foldl (fun t q => (buildDomesticOverlap d fun _ => f).recv p q
      ((buildDomesticOverlap d fun _ => (σ q).foreign).send q p (σ q).domestic) t) t =
      (l.flatMap fun q => (sendIndices (d q) (searched (d q) overlapSize) p (σ q).domestic).map fun x => (q, x)).foldl
        (fun s e => receiveIndex e.1 s e.2) t := by
  induction l generalizing t with
  | nil => rfl
  | cons q l ih =>
    rw [List.foldl_cons, ih, List.flatMap_cons, List.foldl_append]
    congr 1
    simp only [buildDomesticOverlap, hf, List.foldl_map]

theorem built_init (n : Native P) (number : List ℕ) (hl : number.length = n.numLocal) (t : State) (h1 : ∀ k, t.toGlobal k = number[k]?)
    (h2 : ∀ n k, t.toDomestic n = some k ↔ t.toGlobal k = some n) : Built number [] (Domestic.init n t) where
  num := by simp [Domestic.init, hl]
  toGlobal i := by simpa [Domestic.init] using h1 i
  toDomestic := h2
  withPeer q i := by simp [Domestic.init]
  withPeerLength q := by simp [Domestic.init]
  byIndex i q m := by simp [Domestic.init]
  dist i := by simp [Domestic.init, hl]
  black := rfl

/-- The map of the black list after a message -/
def addBlack (s : Domestic P) (b : ℕ → Option ℕ) (x : ℕ × ℕ) : ℕ → Option ℕ := Function.update b x.2 (s.toDomestic x.1)

theorem foldl_black (p : Fin P) (σ : Fin P → Process P) (l : List (Fin P)) (t : Domestic P) :
    l.foldl (fun t q => (updateNativeToDomesticMap d).recv p q ((updateNativeToDomesticMap d).send q p (σ q).domestic) t) t =
      { t with blackMap := (l.flatMap fun q => ((d q).peerBlackList p).map fun x =>
          (((nativeToDomestic (d q) x.2).bind (σ q).domestic.toGlobal).getD 0, x.1)).foldl (addBlack t) t.blackMap } := by
  induction l generalizing t with
  | nil => rfl
  | cons q l ih =>
    rw [List.foldl_cons, ih, List.flatMap_cons, List.foldl_append]
    rfl

theorem addBlack_spec (s : Domestic P) (l : List (ℕ × ℕ)) (hl : ∀ x ∈ l, ∀ y ∈ l, x.2 = y.2 → x = y) (i m : ℕ) :
    l.foldl (addBlack s) (fun _ => none) i = some m ↔ ∃ x ∈ l, x.2 = i ∧ s.toDomestic x.1 = some m := by
  induction l using List.reverseRecOn with
  | nil => simp
  | append_singleton l a ih =>
    rw [List.foldl_append, List.foldl_cons, List.foldl_nil]
    have ih := ih (fun x hx y hy => hl x (List.mem_append_left _ hx) y (List.mem_append_left _ hy))
    unfold addBlack at ih ⊢
    rw [Function.update_apply]
    by_cases h : i = a.2
    · rw [if_pos h]
      constructor
      · intro h'; exact ⟨a, by simp, h.symm, h'⟩
      · rintro ⟨x, hx, e, hx'⟩
        rwa [← hl x hx a (by simp) (e.trans h)]
    · rw [if_neg h, ih]
      constructor
      · rintro ⟨x, hx, hx'⟩; exact ⟨x, List.mem_append_left _ hx, hx'⟩
      · rintro ⟨x, hx, e, hx'⟩
        rcases List.mem_append.1 hx with hx | hx
        · exact ⟨x, hx, e, hx'⟩
        · rw [List.mem_singleton] at hx; subst hx; exact absurd e.symm h

end Verif.Overlap
