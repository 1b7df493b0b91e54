import Verif.Sync.Spec
import Mathlib.Algebra.BigOperators.Group.List.Basic
import Mathlib.Algebra.BigOperators.Fin
import Mathlib.Algebra.BigOperators.Group.Finset.Piecewise

set_option autoImplicit false
set_option linter.unusedSectionVars false

namespace Verif.Sync

open Verif.Mpi

variable {P : ℕ} {K : Type} {o : Fin P → Overlap P}

/-- The buffers which a process has after the constructor. -/
structure Buffers (o : Fin P → Overlap P) (p : Fin P) (v : Vector P K) : Prop where
  send : ∀ q ∈ (o p).peerSet, v.indicesSend q = ((o p).foreignOverlap q).map some
  recv : ∀ q ∈ (o p).peerSet, v.indicesRecv q =
    ((o q).foreignOverlap p).map fun j => (o p).globalToDomestic ((o q).domesticToGlobal j)

theorem own_index (c : Coherent o) {p q : Fin P} (hq : q ∈ (o p).peerSet) {i : ℕ} (hi : i ∈ (o p).foreignOverlap q) :
    (o p).globalToDomestic ((o p).domesticToGlobal i) = some i :=
  (c.index p _ i).2 ⟨((c.listed p q hq).2 i hi).1, rfl⟩

theorem createBuffers_buffers (c : Coherent o) (e : Fin P → ℕ → K) (p : Fin P) :
    Buffers o p (runRound (fun p => (o p).peerSet) (fun p => fresh (e p)) (createBuffers o) p) ∧
      (runRound (fun p => (o p).peerSet) (fun p => fresh (e p)) (createBuffers o) p).entries = e p := by
  have key : ∀ (l : List (Fin P)) (v : Vector P K),
      let w := l.foldl (fun s q => (createBuffers o).recv p q ((createBuffers o).send q p (fresh (e q))) s) v
      w.entries = v.entries ∧ (∀ q ∈ l, w.indicesSend q =
          ((o p).foreignOverlap q).map (fun i => (o p).globalToDomestic ((o p).domesticToGlobal i)) ∧
        w.indicesRecv q = ((o q).foreignOverlap p).map fun j => (o p).globalToDomestic ((o q).domesticToGlobal j)) ∧
        ∀ q ∉ l, w.indicesSend q = v.indicesSend q ∧ w.indicesRecv q = v.indicesRecv q := by
    intro l
    induction l with
    | nil => intro v; simp
    | cons a l ih =>
      intro v
      simp only [List.foldl_cons]
      obtain ⟨h1, h2, h3⟩ := ih ((createBuffers o).recv p a ((createBuffers o).send a p (fresh (e a))) v)
      refine ⟨h1, ?_, ?_⟩
      · intro q hq
        by_cases hql : q ∈ l
        · exact h2 q hql
        · have hqa : q = a := by simpa [hql] using hq
          subst hqa
          rw [(h3 q hql).1, (h3 q hql).2]
          simp [createBuffers, List.map_map, Function.comp_def]
      · intro q hq
        simp only [List.mem_cons, not_or] at hq
        rw [(h3 q hq.2).1, (h3 q hq.2).2]
        simp [createBuffers, Function.update_of_ne hq.1]
  obtain ⟨h1, h2, h3⟩ := key (o p).peerSet (fresh (e p))
  refine ⟨⟨?_, ?_⟩, h1⟩
  · intro q hq
    unfold runRound
    rw [(h2 q hq).1]
    apply List.map_congr_left
    intro i hi
    exact own_index c hq hi
  · intro q hq
    unfold runRound
    exact (h2 q hq).2

/-- The pairs of indices and values which a process gets from a peer. -/
def pairs (o : Fin P → Overlap P) (p q : Fin P) (w : ℕ → K) : List (Option ℕ × K) :=
  ((o q).foreignOverlap p).map fun j => ((o p).globalToDomestic ((o q).domesticToGlobal j), w j)

theorem zip_map_eq {α β γ : Type} (l : List α) (f : α → β) (g : α → γ) : (l.map f).zip (l.map g) = l.map fun x => (f x, g x) := by
  induction l with
  | nil => rfl
  | cons a l ih => simp [ih]

theorem sent_values [Zero K] {p q : Fin P} {v : Vector P K} (h : Buffers o q v) (hp : p ∈ (o q).peerSet) :
    sendEntries v p = .values (((o q).foreignOverlap p).map v.entries) := by
  unfold sendEntries
  rw [h.send p hp, List.map_map]
  rfl

/-- Synchronising: entries change by the messages of the peers, buffers do not. -/
theorem sync_round [Zero K] (c : Coherent o) (σ : Fin P → Vector P K) (hb : ∀ p, Buffers o p (σ p)) (p : Fin P) :
    (runRound (fun p => (o p).peerSet) σ (sync o) p).entries =
      (o p).peerSet.foldl (fun v q => receiveFromMaster (o p) q v (pairs o p q (σ q).entries)) (σ p).entries ∧
    Buffers o p (runRound (fun p => (o p).peerSet) σ (sync o) p) := by
  have key : ∀ (l : List (Fin P)) (hl : ∀ q ∈ l, q ∈ (o p).peerSet) (v : Vector P K) (_ : Buffers o p v),
      let w := l.foldl (fun s q => (sync o).recv p q ((sync o).send q p (σ q)) s) v
      w.entries = l.foldl (fun v q => receiveFromMaster (o p) q v (pairs o p q (σ q).entries)) v.entries ∧ Buffers o p w := by
    intro l hl
    induction l with
    | nil => intro v hv; exact ⟨rfl, hv⟩
    | cons a l ih =>
      intro v hv
      simp only [List.foldl_cons]
      have ha : a ∈ (o p).peerSet := hl a (by simp)
      have hs : (sync o).send a p (σ a) = .values (((o a).foreignOverlap p).map (σ a).entries) :=
        sent_values (hb a) ((c.symm p a).1 ha)
      have hr : (sync o).recv p a ((sync o).send a p (σ a)) v =
          { v with entries := receiveFromMaster (o p) a v.entries (pairs o p a (σ a).entries) } := by
        rw [hs]
        simp only [sync]
        rw [hv.recv a ha, zip_map_eq]
        rfl
      rw [hr]
      exact ih (fun q hq => hl q (List.mem_cons_of_mem _ hq)) _ ⟨hv.send, hv.recv⟩
  exact key _ (fun _ h => h) _ (hb p)

theorem syncAdd_round [Zero K] [Add K] (c : Coherent o) (σ : Fin P → Vector P K) (hb : ∀ p, Buffers o p (σ p)) (p : Fin P) :
    (runRound (fun p => (o p).peerSet) σ syncAdd p).entries =
      (o p).peerSet.foldl (fun v q => receiveAdd v (pairs o p q (σ q).entries)) (σ p).entries ∧
    Buffers o p (runRound (fun p => (o p).peerSet) σ syncAdd p) := by
  have key : ∀ (l : List (Fin P)) (hl : ∀ q ∈ l, q ∈ (o p).peerSet) (v : Vector P K) (_ : Buffers o p v),
      let w := l.foldl (fun s q => syncAdd.recv p q (syncAdd.send q p (σ q)) s) v
      w.entries = l.foldl (fun v q => receiveAdd v (pairs o p q (σ q).entries)) v.entries ∧ Buffers o p w := by
    intro l hl
    induction l with
    | nil => intro v hv; exact ⟨rfl, hv⟩
    | cons a l ih =>
      intro v hv
      simp only [List.foldl_cons]
      have ha : a ∈ (o p).peerSet := hl a (by simp)
      have hs : syncAdd.send a p (σ a) = .values (((o a).foreignOverlap p).map (σ a).entries) :=
        sent_values (hb a) ((c.symm p a).1 ha)
      have hr : syncAdd.recv p a (syncAdd.send a p (σ a)) v =
          { v with entries := receiveAdd v.entries (pairs o p a (σ a).entries) } := by
        rw [hs]
        simp only [syncAdd]
        rw [hv.recv a ha, zip_map_eq]
        rfl
      rw [hr]
      exact ih (fun q hq => hl q (List.mem_cons_of_mem _ hq)) _ ⟨hv.send, hv.recv⟩
  exact key _ (fun _ h => h) _ (hb p)

/-! ### What the loops over received values do -/

theorem receiveFromMaster_other (a : Overlap P) (q : Fin P) (v : ℕ → K) (l : List (Option ℕ × K)) (i : ℕ)
    (h : a.masterRank i ≠ q) : receiveFromMaster a q v l i = v i := by
  unfold receiveFromMaster
  induction l generalizing v with
  | nil => rfl
  | cons x l ih =>
    rw [List.foldl_cons, ih]
    cases x.1 with
    | none => rfl
    | some j =>
      dsimp only
      split_ifs with hm
      · rw [Function.update_of_ne]; rintro rfl; exact h hm
      · rfl

theorem receiveFromMaster_master (a : Overlap P) (v : ℕ → K) (l : List (Option ℕ × K)) (i : ℕ) (x : K)
    (hx : ∀ y ∈ l, y.1 = some i → y.2 = x) :
    receiveFromMaster a (a.masterRank i) v l i = if (∃ y ∈ l, y.1 = some i) then x else v i := by
  unfold receiveFromMaster
  induction l generalizing v with
  | nil => simp
  | cons y l ih =>
    rw [List.foldl_cons, ih _ (fun z hz => hx z (List.mem_cons_of_mem _ hz))]
    by_cases hl : ∃ y ∈ l, y.1 = some i
    · rw [if_pos hl, if_pos]
      obtain ⟨z, hz, hz'⟩ := hl
      exact ⟨z, List.mem_cons_of_mem _ hz, hz'⟩
    · rw [if_neg hl]
      by_cases hy : y.1 = some i
      · rw [if_pos ⟨y, by simp, hy⟩]
        simp only [hy, if_true, Function.update_self]
        exact hx y (by simp) hy
      · have : ¬∃ z ∈ y :: l, z.1 = some i := by
          rintro ⟨z, hz, hz'⟩
          rcases List.mem_cons.1 hz with rfl | hz
          · exact hy hz'
          · exact hl ⟨z, hz, hz'⟩
        rw [if_neg this]
        cases hj : y.1 with
        | none => rfl
        | some j =>
          dsimp only
          split_ifs
          · rw [Function.update_of_ne]; rintro rfl; exact hy hj
          · rfl

theorem receiveAdd_apply [AddCommMonoid K] (v : ℕ → K) (l : List (Option ℕ × K)) (i : ℕ) :
    receiveAdd v l i = v i + (l.map fun x => if x.1 = some i then x.2 else 0).sum := by
  unfold receiveAdd
  induction l generalizing v with
  | nil => simp
  | cons x l ih =>
    rw [List.foldl_cons, ih, List.map_cons, List.sum_cons, ← add_assoc]
    congr 1
    cases hx : x.1 with
    | none => simp
    | some j =>
      by_cases hj : j = i
      · subst hj; simp
      · simp [hj, Function.update_of_ne (Ne.symm hj)]

/-- Copies of the same unknown. -/
theorem index_eq (c : Coherent o) {p q : Fin P} {i j : ℕ} (hi : i < (o p).numDomestic) :
    (o p).globalToDomestic ((o q).domesticToGlobal j) = some i ↔ (o q).domesticToGlobal j = (o p).domesticToGlobal i := by
  rw [c.index]
  constructor
  · rintro ⟨-, h⟩; exact h.symm
  · intro h; exact ⟨hi, h.symm⟩

theorem global_inj (c : Coherent o) {p : Fin P} {i j : ℕ} (hi : i < (o p).numDomestic) (hj : j < (o p).numDomestic)
    (h : (o p).domesticToGlobal i = (o p).domesticToGlobal j) : i = j := by
  have h1 := (c.index p _ i).2 ⟨hi, rfl⟩
  have h2 := (c.index p _ j).2 ⟨hj, h.symm⟩
  rw [h1] at h2
  injection h2

/-- After `sync` an entry is that of the master before. -/
theorem sync_entry [Zero K] (c : Coherent o) (σ : Fin P → Vector P K) (hb : ∀ p, Buffers o p (σ p)) (p : Fin P) (i : ℕ)
    (hi : i < (o p).numDomestic) :
    IsCopy (o ((o p).masterRank i)) (σ ((o p).masterRank i)).entries ((o p).domesticToGlobal i)
      ((runRound (fun p => (o p).peerSet) σ (sync o) p).entries i) := by
  rw [(sync_round c σ hb p).1]
  have skip : ∀ (l : List (Fin P)) (v : ℕ → K), (o p).masterRank i ∉ l →
      l.foldl (fun v q => receiveFromMaster (o p) q v (pairs o p q (σ q).entries)) v i = v i := by
    intro l
    induction l with
    | nil => intro v _; rfl
    | cons a l ih =>
      intro v h
      simp only [List.mem_cons, not_or] at h
      rw [List.foldl_cons, ih _ h.2, receiveFromMaster_other _ _ _ _ _ h.1]
  rcases c.master p i hi with hm | ⟨hm, j, hj, hg⟩
  · rw [skip _ _ (by rw [hm]; exact c.irrefl p), hm]
    exact ⟨i, hi, rfl, rfl⟩
  · have hjd := ((c.listed ((o p).masterRank i) p ((c.symm _ _).1 hm)).2 j hj).1
    refine ⟨j, hjd, hg, ?_⟩
    symm
    have once : ∀ (l : List (Fin P)) (v : ℕ → K), l.Nodup → (o p).masterRank i ∈ l →
        l.foldl (fun v q => receiveFromMaster (o p) q v (pairs o p q (σ q).entries)) v i =
          (σ ((o p).masterRank i)).entries j := by
      intro l
      induction l with
      | nil => intro v _ h; simp at h
      | cons a l ih =>
        intro v hn h
        rw [List.foldl_cons]
        by_cases ha : (o p).masterRank i = a
        · have hnot : (o p).masterRank i ∉ l := by rw [ha]; exact (List.nodup_cons.1 hn).1
          rw [skip l _ hnot, ← ha, receiveFromMaster_master (o p) v _ i ((σ ((o p).masterRank i)).entries j)]
          · rw [if_pos]
            refine ⟨_, List.mem_map.2 ⟨j, hj, rfl⟩, ?_⟩
            exact (index_eq c hi).2 hg
          · intro y hy hyi
            obtain ⟨j', hj', rfl⟩ := List.mem_map.1 hy
            have h' := (index_eq c hi).1 hyi
            have hjd' := ((c.listed ((o p).masterRank i) p ((c.symm _ _).1 hm)).2 j' hj').1
            rw [global_inj c hjd' hjd (h'.trans hg.symm)]
        · have : (o p).masterRank i ∈ l := by
            rcases List.mem_cons.1 h with h | h
            · exact absurd h ha
            · exact h
          exact ih _ (List.nodup_cons.1 hn).2 this
    exact once _ _ (c.nodup p) hm

/-! ### Summing up -/

theorem sum_single_list [AddCommMonoid K] {α : Type} [DecidableEq α] (l : List α) (hn : l.Nodup) (f : α → Prop) [DecidablePred f] (g : α → K)
    (a : α) (ha : ∀ b ∈ l, f b ↔ b = a) :
    (l.map fun b => if f b then g b else 0).sum = if a ∈ l ∧ f a then g a else 0 := by
  induction l with
  | nil => simp
  | cons b l ih =>
    obtain ⟨hb, hl⟩ := List.nodup_cons.1 hn
    have ih' := ih hl fun c hc => ha c (List.mem_cons_of_mem _ hc)
    rw [List.map_cons, List.sum_cons, ih']
    by_cases hba : b = a
    · subst hba
      have hfb : f b := (ha b (by simp)).2 rfl
      simp [hb, hfb]
    · have : ¬f b := fun h => hba ((ha b (by simp)).1 h)
      simp [this, Ne.symm hba]

theorem foldl_receiveAdd [AddCommMonoid K] (l : List (Fin P)) (v : ℕ → K) (f : Fin P → List (Option ℕ × K)) (i : ℕ) :
    l.foldl (fun v q => receiveAdd v (f q)) v i =
      v i + (l.map fun q => ((f q).map fun x => if x.1 = some i then x.2 else 0).sum).sum := by
  induction l generalizing v with
  | nil => simp
  | cons a l ih => rw [List.foldl_cons, ih, receiveAdd_apply, List.map_cons, List.sum_cons, add_assoc]

theorem contribution_eq [Zero K] (c : Coherent o) (native : ℕ → K) (p : Fin P) (i : ℕ) (hi : i < (o p).numDomestic) :
    contribution (o p) native ((o p).domesticToGlobal i) = fromNative (o p) native i := by
  unfold contribution fromNative
  by_cases h : ∃ n, ∃ j < (o p).numDomestic, (o p).domesticToGlobal j = (o p).domesticToGlobal i ∧
      (o p).domesticToNative j = some n
  · rw [dif_pos h]
    obtain ⟨j, hj, hg, hn⟩ := h.choose_spec
    have e : (o p).domesticToNative i = some h.choose := by rw [← hn, global_inj c hj hi hg]
    rw [e]
  · rw [dif_neg h]
    cases hn : (o p).domesticToNative i with
    | none => rfl
    | some n => exact absurd ⟨n, i, hi, rfl, hn⟩ h

theorem contribution_not_held [Zero K] (a : Overlap P) (native : ℕ → K) (g : ℕ) (h : ¬Holds a g) :
    contribution a native g = 0 := by
  unfold contribution
  rw [dif_neg]
  rintro ⟨n, i, hi, hg, -⟩
  exact h ⟨i, hi, hg⟩

/-- What a peer sends for an unknown. -/
theorem peer_sum [AddCommMonoid K] (c : Coherent o) (hc : Complete o) (native : ℕ → K) (p q : Fin P) (hq : q ∈ (o p).peerSet)
    (i : ℕ) (hi : i < (o p).numDomestic) :
    ((pairs o p q (fromNative (o q) native)).map fun x => if x.1 = some i then x.2 else 0).sum =
      contribution (o q) native ((o p).domesticToGlobal i) := by
  have hpq : p ∈ (o q).peerSet := (c.symm p q).1 hq
  have hne : q ≠ p := by rintro rfl; exact c.irrefl q hq
  obtain ⟨hn, hl⟩ := c.listed q p hpq
  unfold pairs
  rw [List.map_map]
  simp only [Function.comp_def]
  by_cases h : Holds (o q) ((o p).domesticToGlobal i)
  · obtain ⟨j, hj, hg⟩ := h
    rw [sum_single_list ((o q).foreignOverlap p) hn
      (fun j => (o p).globalToDomestic ((o q).domesticToGlobal j) = some i) (fromNative (o q) native) j]
    · rw [← hg, contribution_eq c native q j hj]
      split_ifs with hmem
      · rfl
      · have hnot : j ∉ (o q).foreignOverlap p := fun hm => hmem ⟨hm, (index_eq c hi).2 hg⟩
        have : ¬((o q).domesticToNative j).isSome := fun hs =>
          hnot ((hc q p hne j hj).1 ⟨hs, ⟨i, hi, hg.symm⟩⟩).2
        unfold fromNative
        cases hv : (o q).domesticToNative j with
        | none => rfl
        | some n => simp [hv] at this
    · intro b hb
      rw [index_eq c hi]
      constructor
      · intro hb'
        exact global_inj c (hl b hb).1 hj (hb'.trans hg.symm)
      · rintro rfl; exact hg
  · rw [contribution_not_held _ _ _ h]
    apply List.sum_eq_zero
    intro x hx
    obtain ⟨j, hj, rfl⟩ := List.mem_map.1 hx
    rw [if_neg]
    intro hj'
    exact h ⟨j, (hl j hj).1, (index_eq c hi).1 hj'⟩

theorem not_peer_contribution [Zero K] (c : Coherent o) (hc : Complete o) (native : ℕ → K) (p q : Fin P) (hne : q ≠ p)
    (hq : q ∉ (o p).peerSet) (i : ℕ) (hi : i < (o p).numDomestic) :
    contribution (o q) native ((o p).domesticToGlobal i) = 0 := by
  by_cases h : Holds (o q) ((o p).domesticToGlobal i)
  · obtain ⟨j, hj, hg⟩ := h
    rw [← hg, contribution_eq c native q j hj]
    have : ¬((o q).domesticToNative j).isSome := fun hs =>
      hq ((c.symm p q).2 ((hc q p hne j hj).1 ⟨hs, ⟨i, hi, hg.symm⟩⟩).1)
    unfold fromNative
    cases hv : (o q).domesticToNative j with
    | none => rfl
    | some n => simp [hv] at this
  · exact contribution_not_held _ _ _ h

theorem sum_split [AddCommMonoid K] (p : Fin P) (l : List (Fin P)) (hn : l.Nodup) (hp : p ∉ l) (f : Fin P → K)
    (h0 : ∀ q, q ≠ p → q ∉ l → f q = 0) : ∑ q, f q = f p + (l.map f).sum := by
  classical
  rw [← List.sum_toFinset f hn, ← Finset.sum_insert (by simpa using hp)]
  symm
  apply Finset.sum_subset (Finset.subset_univ _)
  intro q _ hq
  simp only [Finset.mem_insert, List.mem_toFinset, not_or] at hq
  exact h0 q hq.1 hq.2

/-- After `syncAdd` of values which come from native vectors an entry is the sum of the contributions. -/
theorem syncAdd_entry [AddCommMonoid K] (c : Coherent o) (hc : Complete o) (native : Fin P → ℕ → K) (σ : Fin P → Vector P K)
    (hb : ∀ p, Buffers o p (σ p)) (hv : ∀ p, (σ p).entries = fromNative (o p) (native p)) (p : Fin P) (i : ℕ)
    (hi : i < (o p).numDomestic) :
    (runRound (fun p => (o p).peerSet) σ syncAdd p).entries i =
      ∑ q, contribution (o q) (native q) ((o p).domesticToGlobal i) := by
  rw [(syncAdd_round c σ hb p).1, foldl_receiveAdd, hv p,
    sum_split p (o p).peerSet (c.nodup p) (c.irrefl p) _
      (fun q hne hq => not_peer_contribution c hc (native q) p q hne hq i hi), contribution_eq c (native p) p i hi]
  congr 2
  apply List.map_congr_left
  intro q hq
  rw [hv q]
  exact peer_sum c hc (native q) p q hq i hi

end Verif.Sync
