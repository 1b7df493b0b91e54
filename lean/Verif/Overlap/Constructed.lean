import Verif.Overlap.ConstructLemmas

/-
The constructor sets up the right overlaps.
-/

set_option autoImplicit false
set_option linter.unusedSectionVars false

namespace Verif.Overlap

open Verif.Mpi Verif.GlobalIdx

variable {P : ℕ} {G : Type} {g : Grid P G} {d : Fin P → Native P} {overlapSize : ℕ}

theorem peerSet_searched (p : Fin P) : (searched (d p) overlapSize).peerSet = (d p).neighborPeers := by
  unfold Foreign.peerSet
  rw [show (d p).neighborPeers = (List.finRange P).filter fun q => ∃ e ∈ (d p).borderList, e.peerRank = q from rfl]
  apply List.filter_congr
  intro q _
  rw [decide_eq_decide, searched_peers]
  unfold Native.neighborPeers
  rw [List.mem_filter, decide_eq_true_eq]
  simp

theorem ownNumbers_length (number : Option G → ℕ) (p : Fin P) : (ownNumbers d g number p).length = (d p).numLocal := by
  unfold ownNumbers
  rw [List.length_map]
  exact (numLocal_eq (parts d p)).symm

theorem minRank_all {l : List (Fin P)} {a : Fin P} (h : ∀ x ∈ l, x = a) (hne : l ≠ []) : minRank l = some a := by
  have key : ∀ (l : List (Fin P)) (m : Option (Fin P)), (∀ x ∈ l, x = a) → m = some a →
      l.foldl (fun m q => some (m.elim q (min q))) m = some a := by
    intro l
    induction l with
    | nil => intro m _ hm; exact hm
    | cons x l ih =>
      intro m hl hm
      rw [List.foldl_cons]
      apply ih _ (fun y hy => hl y (List.mem_cons_of_mem _ hy))
      rw [hm, hl x (by simp)]
      simp
  unfold minRank
  cases l with
  | nil => exact absurd rfl hne
  | cons x l =>
    rw [List.foldl_cons]
    apply key l _ (fun y hy => h y (List.mem_cons_of_mem _ hy))
    rw [h x (by simp)]
    rfl

section Final

variable (v : Valid g d) (hs : 0 < overlapSize) {number : Option G → ℕ} (hinj : Set.InjOn number (present (parts d) (dof g)))
  {s : Fin P → Domestic P} (ht : ∀ p k, (s p).toGlobal k = ((locals (parts d p))[k]?).map fun i => number (dof g p i))
  {p : Fin P} {D : Domestic P} (B : Built (ownNumbers d g number p) (received d overlapSize s p) D)

include v hs ht B in
theorem entry {i : ℕ} (hi : i < D.numDomestic) :
    (i < (d p).numLocal ∧ ∃ j c, (d p).nativeToLocal j = some i ∧ (g.cells p)[j]? = some c ∧ g.owner c = p ∧
      D.toGlobal i = some (number (some c))) ∨
    ((d p).numLocal ≤ i ∧ ∃ j c k, (g.cells (g.owner c))[j]? = some c ∧ g.owner c ≠ p ∧ k < overlapSize ∧
      Dist (d (g.owner c)) p k j ∧ (received d overlapSize s p)[i - (d p).numLocal]? = some (g.owner c, number (some c), k + 1) ∧
      D.toGlobal i = some (number (some c))) := by
  have hl := ownNumbers_length (d := d) (g := g) number p
  rw [B.num, hl] at hi
  rcases lt_or_ge i (d p).numLocal with h | h
  · left
    refine ⟨h, ?_⟩
    obtain ⟨j, hj⟩ := exists_native h
    obtain ⟨c, hc, ho⟩ := own_cell v hj
    refine ⟨j, c, hj, hc, ho, ?_⟩
    rw [B.toGlobal, List.getElem?_append_left (by rw [hl]; exact h)]
    unfold ownNumbers
    rw [List.getElem?_map, (nativeToLocal_eq (parts d p) j i).1 hj]
    simp [dof, hc]
  · right
    refine ⟨h, ?_⟩
    have hk : i - (d p).numLocal < (received d overlapSize s p).length := by omega
    obtain ⟨j, c, k, h1, h2, h3, h4, h5⟩ := (mem_received v hs ht p _).1 (List.getElem_mem hk)
    have e : (received d overlapSize s p)[i - (d p).numLocal]? = some (g.owner c, number (some c), k + 1) := by
      rw [List.getElem?_eq_getElem hk, h5]
    refine ⟨j, c, k, h1, h2, h3, h4, e, ?_⟩
    rw [B.toGlobal, List.getElem?_append_right (by rw [hl]; exact h), hl, List.getElem?_map, e]
    rfl

include v hs ht B in
/-- The master is the owner. -/
theorem master_owner {i : ℕ} (hi : i < D.numDomestic) :
    ∃ c ∈ g.all, D.toGlobal i = some (number (some c)) ∧
      domesticMasterRank (d p) (searched (d p) overlapSize) D p i = g.owner c := by
  have hl := ownNumbers_length (d := d) (g := g) number p
  rcases entry v hs ht B hi with ⟨h, j, c, hj, hc, ho, e⟩ | ⟨h, j, c, k, h1, h2, h3, h4, h5, e⟩
  · refine ⟨c, all_of_index (i := j) (by rw [ho]; exact hc), e, ?_⟩
    unfold domesticMasterRank masterRank
    rw [if_pos h, ho]
    split_ifs
    · have : (List.finRange P).filter (fun q => decide ((searched (d p) overlapSize).byLocal i q = some 0)) = [] := by
        rw [List.filter_eq_nil_iff]
        intro q _ hq
        rw [decide_eq_true_eq] at hq
        obtain ⟨_, k, _, _, _, hk⟩ := (foreign_iff v hs p q i 0).1 hq
        omega
      rw [this]
      rfl
    · rfl
  · refine ⟨c, all_of_index h1, e, ?_⟩
    unfold domesticMasterRank
    rw [if_neg (by omega), peerSet_searched]
    rw [minRank_all (a := g.owner c)]
    · rfl
    · intro q hq
      rw [List.mem_filter, decide_eq_true_eq, B.withPeer] at hq
      obtain ⟨-, k', e', hk', rfl, hi'⟩ := hq
      rw [hl] at hi'
      have : i - (d p).numLocal = k' := by omega
      rw [this, hk'] at h5
      injection h5 with h5
      rw [h5]
    · apply List.ne_nil_of_mem (a := g.owner c)
      rw [List.mem_filter, decide_eq_true_eq, B.withPeer]
      exact ⟨(neighbors_symm v _ _).1 (near_neighbor h4.1), _, _, h5, rfl, by rw [hl]; omega⟩

include v hs ht B hinj in
/-- Which cells the process has -/
theorem has_iff {c : G} (hc : c ∈ g.all) :
    (∃ i, D.toGlobal i = some (number (some c))) ↔ InOverlap g d overlapSize p c := by
  have hl := ownNumbers_length (d := d) (g := g) number p
  constructor
  · rintro ⟨i, hi⟩
    have hlt : i < D.numDomestic := by
      rw [B.toGlobal] at hi
      have := (List.getElem?_eq_some_iff.1 hi).1
      rw [B.num]
      simpa using this
    rcases entry v hs ht B hlt with ⟨h, j, c', hj, hc', ho, e⟩ | ⟨h, j, c', k, h1, h2, h3, h4, h5, e⟩
    · rw [hi] at e
      have := cell_number_inj v hinj hc (all_of_index (i := j) (by rw [ho]; exact hc')) (Option.some.inj e)
      exact Or.inl (by rw [this]; exact ho)
    · rw [hi] at e
      have := cell_number_inj v hinj hc (all_of_index h1) (Option.some.inj e)
      subst this
      exact Or.inr ⟨j, k, h3, h1, h4.1⟩
  · intro h
    have : number (some c) ∈ ownNumbers d g number p ++ (received d overlapSize s p).map (·.2.1) := by
      rw [List.mem_append, mem_ownNumbers v]
      by_cases ho : g.owner c = p
      · left
        obtain ⟨i, hi, e⟩ := List.getElem_of_mem (show c ∈ g.cells (g.owner c) from hc)
        rw [← ho]
        exact ⟨i, c, by rw [List.getElem?_eq_getElem hi, e], rfl, rfl⟩
      · right
        rcases h with h | ⟨i, k, hk, hi, hn⟩
        · exact absurd h ho
        · obtain ⟨k', hk', hd⟩ := near_dist hn
          exact List.mem_map.2 ⟨_, (mem_received v hs ht p _).2 ⟨i, c, k', hi, ho, by omega, hd, rfl⟩, rfl⟩
    obtain ⟨i, hi, e⟩ := List.getElem_of_mem this
    exact ⟨i, by rw [B.toGlobal, List.getElem?_eq_getElem hi, e]⟩

include v hs ht B hinj in
theorem distance_iff {i : ℕ} (hi : i < D.numDomestic) {c : G} (hc : c ∈ g.all) (he : D.toGlobal i = some (number (some c))) (m : ℕ) :
    D.borderDistance i = some m ↔ (g.owner c = p ∧ m = 0) ∨
      (g.owner c ≠ p ∧ ∃ j k, (g.cells (g.owner c))[j]? = some c ∧ Dist (d (g.owner c)) p k j ∧ m = k + 1) := by
  have hl := ownNumbers_length (d := d) (g := g) number p
  rw [B.dist, hl]
  rcases entry v hs ht B hi with ⟨h, j, c', hj, hc', ho, e⟩ | ⟨h, j, c', k, h1, h2, h3, h4, h5, e⟩
  · rw [he] at e
    have := cell_number_inj v hinj hc (all_of_index (i := j) (by rw [ho]; exact hc')) (Option.some.inj e)
    subst this
    rw [if_pos h]
    simp [ho, eq_comm]
  · rw [he] at e
    have := cell_number_inj v hinj hc (all_of_index h1) (Option.some.inj e)
    subst this
    rw [if_neg (by omega), h5]
    simp only [Option.map_some, Option.some.injEq, h2, false_and, ne_eq, not_false_eq_true, true_and, false_or]
    constructor
    · rintro rfl; exact ⟨j, k, h1, h4, rfl⟩
    · rintro ⟨j', k', h1', h4', rfl⟩
      have hj := cell_index v h1 h1'
      subst hj
      rw [dist_unique h4 h4']

end Final

/-! ### The whole constructor -/

theorem settles_round {I S M : Type} [DecidableEq I] {peers : I → List I} (h : ∀ p, (peers p).Nodup)
    (hsym : ∀ p q, q ∈ peers p ↔ p ∈ peers q) (hself : ∀ p, p ∉ peers p) (r : Round I S M) (σ : I → S) :
    Settles (roundProgram peers r) σ (runRound peers σ r) := by
  have := Settles.rounds (σ := σ) h hsym hself [r]
  have e : Mpi.program peers [r] = roundProgram peers r := by
    funext p; unfold Mpi.program; simp
  rw [e] at this
  exact this

theorem runRound_domestic (r : (Fin P → Foreign P) → Round (Fin P) (Domestic P) Msg) (peers : Fin P → List (Fin P))
    (σ : Fin P → Process P) (p : Fin P) :
    runRound peers σ (liftDomestic r) p =
      { σ p with
        domestic := ((peers p).foldl (fun t q => (r fun _ => (σ p).foreign).recv p q
          ((r fun _ => (σ q).foreign).send q p (σ q).domestic) t) (σ p).domestic) } := foldl_liftDomestic r p σ _ _

/-- The pairs of global and native indices which a process gets for its black-listed indices -/
def blackPairs (d : Fin P → Native P) (t : Fin P → Domestic P) (p : Fin P) : List (ℕ × ℕ) :=
  (d p).neighborPeers.flatMap fun q => ((d q).peerBlackList p).map fun x =>
    (((nativeToDomestic (d q) x.2).bind (t q).toGlobal).getD 0, x.1)

/-- The state after the constructor, given the global indices -/
def final (d : Fin P → Native P) (overlapSize : ℕ) (t : Fin P → State) (p : Fin P) : Process P :=
  let D := fun p => (received d overlapSize (fun p => Domestic.init (d p) (t p)) p).foldl (fun s e => receiveIndex e.1 s e.2)
    (Domestic.init (d p) (t p))
  { foreign := searched (d p) overlapSize
    globals := t p
    domestic := { D p with blackMap := (blackPairs d D p).foldl (addBlack (D p)) (D p).blackMap } }

theorem settles_final (v : Valid g d) (hs : 0 < overlapSize) (any : Fin P → Domestic P) {t : Fin P → State}
    (ht : Settles (fun p => GlobalIdx.program overlapSize (parts d p) p) (fun _ => State.empty) t) :
    Settles (construct d overlapSize) (fun p => Process.start (d p) (any p)) (final d overlapSize t) := by
  have : Nonempty (AnyMsg P) := ⟨.seeds []⟩
  have h1 := Settles.lift (get := Process.foreign) (put := fun f s => { s with foreign := f }) (wrap := AnyMsg.seeds)
    (unwrap := AnyMsg.toSeeds) (fun _ _ => rfl) (fun _ _ _ => rfl) (fun _ => rfl) (fun _ => rfl)
    (σ' := fun p => Process.start (d p) (any p)) (settles_foreign v hs)
  have h2 := Settles.lift (M' := AnyMsg P) (get := Process.globals) (put := fun f s => { s with globals := f }) (wrap := AnyMsg.number)
    (unwrap := AnyMsg.toNumber) (fun _ _ => rfl) (fun _ _ _ => rfl) (fun _ => rfl) (fun _ => rfl)
    (σ' := fun p => { Process.start (d p) (any p) with foreign := searched (d p) overlapSize }) ht
  have h3 := Settles.compute (M := AnyMsg P)
    (σ := fun p => { Process.start (d p) (any p) with foreign := searched (d p) overlapSize, globals := t p })
    (fun p s => { s with domestic := Domestic.init (d p) s.globals })
  have h4 := settles_round (neighbors_nodup (d := d)) (neighbors_symm v) (neighbors_irrefl v)
    (liftDomestic (buildDomesticOverlap d)) (fun p => { foreign := searched (d p) overlapSize, globals := t p, domestic := Domestic.init (d p) (t p) })
  have h5 := settles_round (neighbors_nodup (d := d)) (neighbors_symm v) (neighbors_irrefl v)
    (liftDomestic fun _ => updateNativeToDomesticMap d)
    (runRound (fun p => (d p).neighborPeers) (fun p => { foreign := searched (d p) overlapSize, globals := t p, domestic := Domestic.init (d p) (t p) })
      (liftDomestic (buildDomesticOverlap d)))
  have key := (((h1.append h2).append h3).append h4).append h5
  have e : runRound (fun p => (d p).neighborPeers) (runRound (fun p => (d p).neighborPeers)
      (fun p => { foreign := searched (d p) overlapSize, globals := t p, domestic := Domestic.init (d p) (t p) })
      (liftDomestic (buildDomesticOverlap d))) (liftDomestic fun _ => updateNativeToDomesticMap d) = final d overlapSize t := by
    funext p
    rw [runRound_domestic, foldl_black]
    have e1 : ∀ q, runRound (fun p => (d p).neighborPeers)
        (fun p => { foreign := searched (d p) overlapSize, globals := t p, domestic := Domestic.init (d p) (t p) })
        (liftDomestic (buildDomesticOverlap d)) q =
        { foreign := searched (d q) overlapSize
          globals := t q
          domestic := ((received d overlapSize (fun p => Domestic.init (d p) (t p)) q).foldl
            (fun s e => receiveIndex e.1 s e.2) (Domestic.init (d q) (t q))) } := by
      intro q
      rw [runRound_domestic, foldl_build q _ _ (fun _ => rfl)]
      rfl
    simp only [e1]
    rfl
  rw [e] at key
  have ep : construct d overlapSize = fun p => (foreignProgram d overlapSize p).map liftForeign
      ++ (GlobalIdx.program overlapSize (parts d p) p).map liftGlobals
      ++ [.compute fun s => { s with domestic := Domestic.init (d p) s.globals }]
      ++ roundProgram (fun p => (d p).neighborPeers) (liftDomestic (buildDomesticOverlap d)) p
      ++ roundProgram (fun p => (d p).neighborPeers) (liftDomestic fun _ => updateNativeToDomesticMap d) p := by
    funext p
    unfold construct
    rw [show (fun p => (d p).blackPeers) = fun p => (d p).neighborPeers from funext v.blackPeers]
    rfl
  rw [ep]
  exact key

end Verif.Overlap
