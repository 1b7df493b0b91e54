import Verif.GlobalIdx.Owner
import Mathlib.Data.Prod.Lex

set_option autoImplicit false
set_option linter.unusedSectionVars false

namespace Verif.GlobalIdx

open Verif.Mpi

variable {P : ℕ} {G : Type} {overlapSize : ℕ} {d : Fin P → Part P} {dof : Fin P → ℕ → G}

/-! ### Entries of the two sides of a border -/

theorem native_mem {d : Part P} {i k : ℕ} (h : d.nativeToLocal i = some k) : i ∈ locals d :=
  List.mem_of_getElem? ((nativeToLocal_eq d i k).1 h)

theorem exists_local {d : Part P} {i : ℕ} (h : i ∈ locals d) : ∃ k, d.nativeToLocal i = some k ∧ (locals d)[k]? = some i := by
  obtain ⟨k, hk⟩ := List.mem_iff_getElem?.1 h
  exact ⟨k, (nativeToLocal_eq d i k).2 hk, hk⟩

/-- The same entry on the other side. -/
def flip (p : Fin P) (e : BorderIndex P) : BorderIndex P := ⟨e.peerIdx, e.localIdx, p, e.borderDistance⟩

theorem flip_mem (v : Valid overlapSize d dof) {p q : Fin P} {e : BorderIndex P} (he : e ∈ sendEntries overlapSize (d p) p q) :
    flip p e ∈ recvEntries overlapSize (d q) q p := by
  unfold sendEntries at he
  rw [List.mem_filter, decide_eq_true_eq] at he
  obtain ⟨he, rfl, h0, k, hk, hm⟩ := he
  obtain ⟨hne, hl, hp, hd⟩ := v.entries p e he h0
  obtain ⟨k', hk', hk2⟩ := exists_local hp
  unfold recvEntries
  rw [List.mem_filter, decide_eq_true_eq]
  refine ⟨?_, rfl, h0, k', hk', ?_⟩
  · have := v.complete e.peerRank p hne e.peerIdx hp e.localIdx hl hd.symm
    unfold flip; rw [h0]; exact this
  · rw [← hm]
    exact (master_unique v ((nativeToLocal_eq _ _ _).1 hk) hk2 hd).symm.trans (by rw [hm])

theorem unflip_mem (v : Valid overlapSize d dof) {p q : Fin P} {e : BorderIndex P} (he : e ∈ recvEntries overlapSize (d q) q p) :
    flip q e ∈ sendEntries overlapSize (d p) p q := by
  unfold recvEntries at he
  rw [List.mem_filter, decide_eq_true_eq] at he
  obtain ⟨he, rfl, h0, k, hk, hm⟩ := he
  obtain ⟨hne, hl, hp, hd⟩ := v.entries q e he h0
  obtain ⟨k', hk', hk2⟩ := exists_local hp
  unfold sendEntries
  rw [List.mem_filter, decide_eq_true_eq]
  refine ⟨?_, rfl, h0, k', hk', ?_⟩
  · have := v.complete e.peerRank q hne e.peerIdx hp e.localIdx hl hd.symm
    unfold flip; rw [h0]; exact this
  · exact (master_unique v hk2 ((nativeToLocal_eq _ _ _).1 hk) hd.symm).trans hm

theorem sendEntries_peer {p q : Fin P} {e : BorderIndex P} (he : e ∈ sendEntries overlapSize (d p) p q) : e.peerRank = q := by
  unfold sendEntries at he
  rw [List.mem_filter, decide_eq_true_eq] at he
  exact he.2.1

theorem recvEntries_peer {p q : Fin P} {e : BorderIndex P} (he : e ∈ recvEntries overlapSize (d q) q p) : e.peerRank = p := by
  unfold recvEntries at he
  rw [List.mem_filter, decide_eq_true_eq] at he
  exact he.2.1

/-- As many messages are sent as are received. -/
theorem entries_length (v : Valid overlapSize d dof) (p q : Fin P) :
    (recvEntries overlapSize (d q) q p).length = (sendEntries overlapSize (d p) p q).length := by
  have hs : (sendEntries overlapSize (d p) p q).Nodup := List.Nodup.filter _ (v.nodup p)
  have hr : (recvEntries overlapSize (d q) q p).Nodup := List.Nodup.filter _ (v.nodup q)
  apply le_antisymm
  · have : ((recvEntries overlapSize (d q) q p).map (flip q)).Nodup := by
      apply List.Nodup.map_on _ hr
      intro a ha b hb h
      have := recvEntries_peer ha
      have := recvEntries_peer hb
      cases a; cases b
      simp only [flip, BorderIndex.mk.injEq] at *
      simp_all
    have hsub : (recvEntries overlapSize (d q) q p).map (flip q) ⊆ sendEntries overlapSize (d p) p q := by
      intro x hx
      obtain ⟨e, he, rfl⟩ := List.mem_map.1 hx
      exact unflip_mem v he
    simpa using (List.subperm_of_subset this hsub).length_le
  · have : ((sendEntries overlapSize (d p) p q).map (flip p)).Nodup := by
      apply List.Nodup.map_on _ hs
      intro a ha b hb h
      have := sendEntries_peer ha
      have := sendEntries_peer hb
      cases a; cases b
      simp only [flip, BorderIndex.mk.injEq] at *
      simp_all
    have hsub : (sendEntries overlapSize (d p) p q).map (flip p) ⊆ recvEntries overlapSize (d q) q p := by
      intro x hx
      obtain ⟨e, he, rfl⟩ := List.mem_map.1 hx
      exact flip_mem v he
    simpa using (List.subperm_of_subset this hsub).length_le

/-- Border indices are sent to higher ranks only. -/
theorem sendEntries_nil (v : Valid overlapSize d dof) {p q : Fin P} (h : q ≤ p) : sendEntries overlapSize (d p) p q = [] := by
  rw [List.eq_nil_iff_forall_not_mem]
  intro e he
  unfold sendEntries at he
  rw [List.mem_filter, decide_eq_true_eq] at he
  obtain ⟨he, rfl, h0, k, hk, hm⟩ := he
  obtain ⟨hne, hl, hp, hd⟩ := v.entries p e he h0
  have := (master_spec v ((nativeToLocal_eq _ _ _).1 hk)).2.2 _ _ hp hd.symm
  rw [hm] at this
  exact hne (le_antisymm h this)

theorem recvEntries_nil (v : Valid overlapSize d dof) {p q : Fin P} (h : p ≤ q) : recvEntries overlapSize (d p) p q = [] := by
  have := entries_length v q p
  rw [sendEntries_nil v h] at this
  exact List.eq_nil_of_length_eq_zero this

theorem sendEntries_peerSet (v : Valid overlapSize d dof) {p q : Fin P} (h : q ∉ (d p).peerSet) :
    sendEntries overlapSize (d p) p q = [] := by
  rw [List.eq_nil_iff_forall_not_mem]
  intro e he
  have hq := sendEntries_peer he
  unfold sendEntries at he
  rw [List.mem_filter] at he
  exact h (hq ▸ (v.peers p).2 e he.1)

theorem recvEntries_peerSet (v : Valid overlapSize d dof) {p q : Fin P} (h : p ∉ (d q).peerSet) :
    sendEntries overlapSize (d p) p q = [] := by
  apply List.eq_nil_of_length_eq_zero
  rw [← entries_length v p q, List.length_eq_zero_iff, List.eq_nil_iff_forall_not_mem]
  intro e he
  have hq := recvEntries_peer he
  unfold recvEntries at he
  rw [List.mem_filter] at he
  exact h (hq ▸ (v.peers q).2 e he.1)

/-! ### The annotated programs -/

/-- Numbers of operations. -/
abbrev Time := ℕ ×ₗ ℕ ×ₗ ℕ ×ₗ ℕ

def time (a b c e : ℕ) : Time := toLex (a, toLex (b, toLex (c, e)))

theorem time_lt (a b c e a' b' c' e' : ℕ) : time a b c e < time a' b' c' e' ↔
    a < a' ∨ a = a' ∧ (b < b' ∨ b = b' ∧ (c < c' ∨ c = c' ∧ e < e')) := by
  simp [time, Prod.Lex.toLex_lt_toLex]

variable (overlapSize d dof) in
/-- The message for an entry. -/
noncomputable def message (p : Fin P) (e : BorderIndex P) : Msg := .border e.peerIdx (number overlapSize d dof (dof p e.localIdx))

abbrev A' (P : ℕ) := Ann (Fin P) State Msg Time

variable (overlapSize d dof) in
noncomputable def annOffset (p : Fin P) : List (A' P) :=
  if h : p.val = 0 then [⟨.compute fun s => { s with offset := 0 }, time 0 0 0 0, .offset 0⟩]
  else [⟨.recv ⟨p.val - 1, by omega⟩ fun m s => match m with | .offset n => { s with offset := n } | .border _ _ => s,
    time 0 (2 * p.val) 0 0, .offset (ofs overlapSize d dof p.val)⟩]

variable (overlapSize d) in
def annMasters (p : Fin P) : List (A' P) :=
  [⟨.compute fun s => (addMasters overlapSize (d p) p s).1, time 0 (2 * p.val + 1) 0 0, .offset 0⟩]

variable (overlapSize d dof) in
noncomputable def annPass (p : Fin P) : List (A' P) :=
  if h : p.val + 1 < P then [⟨.send ⟨p.val + 1, h⟩ fun s => .offset (s.offset + (addMasters overlapSize (d p) p s).2),
    time 0 (2 * (p.val + 1)) 0 0, .offset (ofs overlapSize d dof (p.val + 1))⟩] else []

variable (overlapSize d dof) in
noncomputable def annRecv (p r : Fin P) : List (A' P) :=
  (sendEntries overlapSize (d r) r p).zipIdx.map fun x =>
    ⟨.recv r (receiveBorderIndex (d p)), time 1 r.val p.val x.2, message overlapSize d dof r x.1⟩

variable (overlapSize d dof) in
noncomputable def annSend (p q : Fin P) : List (A' P) :=
  (sendEntries overlapSize (d p) p q).zipIdx.map fun x =>
    ⟨.send q (borderMsg (d p) x.1), time 1 p.val q.val x.2, message overlapSize d dof p x.1⟩

variable (overlapSize d dof) in
noncomputable def ann (p : Fin P) : List (A' P) :=
  annOffset overlapSize d dof p ++ annMasters overlapSize d p ++ annPass overlapSize d dof p
    ++ ((d p).peerSet.filter (· < p)).flatMap (annRecv overlapSize d dof p)
    ++ ((d p).peerSet.filter (p < ·)).flatMap (annSend overlapSize d dof p)

theorem map_const {α β : Type} (l : List α) (b : β) : l.map (fun _ => b) = List.replicate l.length b := by
  induction l with
  | nil => rfl
  | cons a l ih => simp [ih, List.replicate_succ]

theorem ann_op (v : Valid overlapSize d dof) (p : Fin P) :
    (ann overlapSize d dof p).map (·.op) = program overlapSize (d p) p := by
  unfold ann program
  have h1 : (annOffset overlapSize d dof p).map (·.op) = getOffset p := by
    unfold annOffset getOffset; split_ifs <;> rfl
  have h2 : (annPass overlapSize d dof p).map (·.op) = passOffset overlapSize (d p) p := by
    unfold annPass passOffset; split_ifs <;> rfl
  have h3 : ∀ r, (annRecv overlapSize d dof p r).map (·.op) = receiveBorderFrom overlapSize (d p) p r := by
    intro r
    unfold annRecv receiveBorderFrom
    rw [List.map_map]
    change List.map (fun _ => Op.recv r (receiveBorderIndex (d p))) _ = _
    rw [map_const, map_const, List.length_zipIdx, entries_length v]
  have h4 : ∀ q, (annSend overlapSize d dof p q).map (·.op) = sendBorderTo overlapSize (d p) p q := by
    intro q
    unfold annSend sendBorderTo
    rw [List.map_map]
    change List.map ((fun e => Op.send q (borderMsg (d p) e)) ∘ Prod.fst) _ = _
    rw [← List.map_map, List.zipIdx_map_fst]
  have h5 : ((d p).peerSet.filter (p < ·)).flatMap (receiveBorderFrom overlapSize (d p) p) = [] := by
    rw [List.flatMap_eq_nil_iff]
    intro q hq
    rw [List.mem_filter, decide_eq_true_eq] at hq
    unfold receiveBorderFrom
    rw [recvEntries_nil v hq.2.le]; rfl
  have h6 : ((d p).peerSet.filter (· < p)).flatMap (sendBorderTo overlapSize (d p) p) = [] := by
    rw [List.flatMap_eq_nil_iff]
    intro q hq
    rw [List.mem_filter, decide_eq_true_eq] at hq
    unfold sendBorderTo
    rw [sendEntries_nil v hq.2.le]; rfl
  rw [h5, h6]
  simp only [List.map_append, List.map_flatMap, h1, h2, h3, h4, List.append_nil]
  rfl

/-! ### What is sent and received -/

theorem sendsTo_ann (v : Valid overlapSize d dof) (p q : Fin P) :
    sendsTo q (ann overlapSize d dof p) =
      (if q.val = p.val + 1 then [(true, time 0 (2 * q.val) 0 0, Msg.offset (ofs overlapSize d dof q.val))] else []) ++
        (sendEntries overlapSize (d p) p q).zipIdx.map fun x => (true, time 1 p.val q.val x.2, message overlapSize d dof p x.1) := by
  rw [sendsTo_eq]
  unfold ann
  rw [List.filterMap_append, List.filterMap_append, List.filterMap_append, List.filterMap_append]
  have h1 : List.filterMap (sendTo? q) (annOffset overlapSize d dof p) = [] := by
    unfold annOffset; split_ifs <;> simp [sendTo?]
  have h2 : List.filterMap (sendTo? q) (annMasters overlapSize d p) = [] := by
    unfold annMasters; simp [sendTo?]
  have h3 : List.filterMap (sendTo? q) (annPass overlapSize d dof p) =
      if q.val = p.val + 1 then [(true, time 0 (2 * q.val) 0 0, Msg.offset (ofs overlapSize d dof q.val))] else [] := by
    unfold annPass
    by_cases h : p.val + 1 < P
    · rw [dif_pos h]
      by_cases hq : q.val = p.val + 1
      · have : (⟨p.val + 1, h⟩ : Fin P) = q := Fin.ext hq.symm
        rw [if_pos hq]
        simp [sendTo?, this, hq]
      · have : (⟨p.val + 1, h⟩ : Fin P) ≠ q := fun e => hq (by rw [← e])
        rw [if_neg hq]
        simp [sendTo?, this]
    · rw [dif_neg h, if_neg (by have := q.isLt; omega)]; rfl
  have h4 : List.filterMap (sendTo? q) (((d p).peerSet.filter (· < p)).flatMap (annRecv overlapSize d dof p)) = [] := by
    rw [List.filterMap_eq_nil_iff]
    intro a ha
    obtain ⟨r, -, ha⟩ := List.mem_flatMap.1 ha
    obtain ⟨x, -, rfl⟩ := List.mem_map.1 ha
    rfl
  have h5 : List.filterMap (sendTo? q) (((d p).peerSet.filter (p < ·)).flatMap (annSend overlapSize d dof p)) =
      (sendEntries overlapSize (d p) p q).zipIdx.map
        fun x => (true, time 1 p.val q.val x.2, message overlapSize d dof p x.1) := by
    rw [List.filterMap_flatMap]
    have : ∀ r, List.filterMap (sendTo? q) (annSend overlapSize d dof p r) =
        if r = q then (sendEntries overlapSize (d p) p q).zipIdx.map
          (fun x => (true, time 1 p.val q.val x.2, message overlapSize d dof p x.1)) else [] := by
      intro r
      unfold annSend
      rw [List.filterMap_map]
      by_cases hr : r = q
      · subst hr
        rw [if_pos rfl]
        rw [← List.filterMap_eq_map]
        congr 1
        funext x
        simp [sendTo?]
      · rw [if_neg hr, List.filterMap_eq_nil_iff]
        intro x _
        simp [sendTo?, hr]
    rw [List.flatMap_congr (fun r _ => this r), flatMap_ite _ (List.Nodup.filter _ ((v.peers p).1.imp ne_of_lt))]
    split_ifs with hq
    · rfl
    · rw [List.mem_filter, decide_eq_true_eq, not_and_or] at hq
      rcases hq with hq | hq
      · rw [sendEntries_peerSet v hq]; rfl
      · rw [sendEntries_nil v (not_lt.1 hq)]; rfl
  rw [h1, h2, h3, h4, h5]
  simp

theorem recvsFrom_ann (v : Valid overlapSize d dof) (p q : Fin P) :
    recvsFrom p (ann overlapSize d dof q) =
      (if q.val = p.val + 1 then [(time 0 (2 * q.val) 0 0, Msg.offset (ofs overlapSize d dof q.val))] else []) ++
        (sendEntries overlapSize (d p) p q).zipIdx.map fun x => (time 1 p.val q.val x.2, message overlapSize d dof p x.1) := by
  rw [recvsFrom_eq]
  unfold ann
  rw [List.filterMap_append, List.filterMap_append, List.filterMap_append, List.filterMap_append]
  have h1 : List.filterMap (recvFrom? p) (annOffset overlapSize d dof q) =
      if q.val = p.val + 1 then [(time 0 (2 * q.val) 0 0, Msg.offset (ofs overlapSize d dof q.val))] else [] := by
    unfold annOffset
    by_cases h : q.val = 0
    · rw [dif_pos h, if_neg (by omega)]; simp [recvFrom?]
    · rw [dif_neg h]
      by_cases hq : q.val = p.val + 1
      · have : (⟨q.val - 1, by omega⟩ : Fin P) = p := Fin.ext (by simp [hq])
        rw [if_pos hq]
        simp [recvFrom?, this]
      · have : (⟨q.val - 1, by omega⟩ : Fin P) ≠ p := fun e => hq (by rw [← e]; simp; omega)
        rw [if_neg hq]
        simp [recvFrom?, this]
  have h2 : List.filterMap (recvFrom? p) (annMasters overlapSize d q) = [] := by
    unfold annMasters; simp [recvFrom?]
  have h3 : List.filterMap (recvFrom? p) (annPass overlapSize d dof q) = [] := by
    unfold annPass; split_ifs <;> simp [recvFrom?]
  have h4 : List.filterMap (recvFrom? p) (((d q).peerSet.filter (q < ·)).flatMap (annSend overlapSize d dof q)) = [] := by
    rw [List.filterMap_eq_nil_iff]
    intro a ha
    obtain ⟨r, -, ha⟩ := List.mem_flatMap.1 ha
    obtain ⟨x, -, rfl⟩ := List.mem_map.1 ha
    rfl
  have h5 : List.filterMap (recvFrom? p) (((d q).peerSet.filter (· < q)).flatMap (annRecv overlapSize d dof q)) =
      (sendEntries overlapSize (d p) p q).zipIdx.map
        fun x => (time 1 p.val q.val x.2, message overlapSize d dof p x.1) := by
    rw [List.filterMap_flatMap]
    have : ∀ r, List.filterMap (recvFrom? p) (annRecv overlapSize d dof q r) =
        if r = p then (sendEntries overlapSize (d p) p q).zipIdx.map
          (fun x => (time 1 p.val q.val x.2, message overlapSize d dof p x.1)) else [] := by
      intro r
      unfold annRecv
      rw [List.filterMap_map]
      by_cases hr : r = p
      · subst hr
        rw [if_pos rfl]
        rw [← List.filterMap_eq_map]
        congr 1
        funext x
        simp [recvFrom?]
      · rw [if_neg hr, List.filterMap_eq_nil_iff]
        intro x _
        simp [recvFrom?, hr]
    rw [List.flatMap_congr (fun r _ => this r), flatMap_ite _ (List.Nodup.filter _ ((v.peers q).1.imp ne_of_lt))]
    split_ifs with hq
    · rfl
    · rw [List.mem_filter, decide_eq_true_eq, not_and_or] at hq
      rcases hq with hq | hq
      · rw [recvEntries_peerSet v hq]; rfl
      · rw [sendEntries_nil v (not_lt.1 hq)]; rfl
  rw [h1, h2, h3, h4, h5]
  simp

/-! ### The numbers increase -/

theorem zipIdx_pairwise {α : Type} (l : List α) (n : ℕ) : (l.zipIdx n).Pairwise (fun x y => x.2 < y.2) := by
  induction l generalizing n with
  | nil => simp
  | cons a l ih =>
    rw [List.zipIdx_cons, List.pairwise_cons]
    refine ⟨?_, ih _⟩
    intro x hx
    have := List.le_snd_of_mem_zipIdx hx
    simp only; omega

theorem ann_sorted (v : Valid overlapSize d dof) (p : Fin P) :
    (ann overlapSize d dof p).Pairwise (fun a b => a.time < b.time) := by
  unfold ann
  have tOffset : ∀ a ∈ annOffset overlapSize d dof p, a.time = time 0 (2 * p.val) 0 0 := by
    intro a ha
    unfold annOffset at ha
    split_ifs at ha with h
    · rw [List.mem_singleton.1 ha, h]
    · rw [List.mem_singleton.1 ha]
  have tMasters : ∀ a ∈ annMasters overlapSize d p, a.time = time 0 (2 * p.val + 1) 0 0 := by
    intro a ha; rw [List.mem_singleton.1 ha]
  have tPass : ∀ a ∈ annPass overlapSize d dof p, a.time = time 0 (2 * p.val + 2) 0 0 := by
    intro a ha
    unfold annPass at ha
    split_ifs at ha
    · rw [List.mem_singleton.1 ha]; congr 1
    · simp at ha
  have tRecv : ∀ a ∈ ((d p).peerSet.filter (· < p)).flatMap (annRecv overlapSize d dof p),
      ∃ r k, r < p.val ∧ a.time = time 1 r p.val k := by
    intro a ha
    obtain ⟨r, hr, ha⟩ := List.mem_flatMap.1 ha
    obtain ⟨x, -, rfl⟩ := List.mem_map.1 ha
    rw [List.mem_filter, decide_eq_true_eq] at hr
    exact ⟨r.val, x.2, hr.2, rfl⟩
  have tSend : ∀ a ∈ ((d p).peerSet.filter (p < ·)).flatMap (annSend overlapSize d dof p),
      ∃ q k, a.time = time 1 p.val q k := by
    intro a ha
    obtain ⟨r, hr, ha⟩ := List.mem_flatMap.1 ha
    obtain ⟨x, -, rfl⟩ := List.mem_map.1 ha
    exact ⟨r.val, x.2, rfl⟩
  have sRecv : (((d p).peerSet.filter (· < p)).flatMap (annRecv overlapSize d dof p)).Pairwise
      (fun a b => a.time < b.time) := by
    rw [List.pairwise_flatMap]
    constructor
    · intro r _
      unfold annRecv
      rw [List.pairwise_map]
      exact (zipIdx_pairwise _ 0).imp (fun h => by rw [time_lt]; omega)
    · refine ((v.peers p).1.filter _).imp ?_
      intro r r' h x hx y hy
      obtain ⟨x, -, rfl⟩ := List.mem_map.1 hx
      obtain ⟨y, -, rfl⟩ := List.mem_map.1 hy
      have : r.val < r'.val := h
      exact (time_lt _ _ _ _ _ _ _ _).2 (by omega)
  have sSend : (((d p).peerSet.filter (p < ·)).flatMap (annSend overlapSize d dof p)).Pairwise
      (fun a b => a.time < b.time) := by
    rw [List.pairwise_flatMap]
    constructor
    · intro r _
      unfold annSend
      rw [List.pairwise_map]
      exact (zipIdx_pairwise _ 0).imp (fun h => by rw [time_lt]; omega)
    · refine ((v.peers p).1.filter _).imp ?_
      intro r r' h x hx y hy
      obtain ⟨x, -, rfl⟩ := List.mem_map.1 hx
      obtain ⟨y, -, rfl⟩ := List.mem_map.1 hy
      have : r.val < r'.val := h
      exact (time_lt _ _ _ _ _ _ _ _).2 (by omega)
  have sOffset : (annOffset overlapSize d dof p).Pairwise (fun a b => a.time < b.time) := by
    unfold annOffset; split_ifs <;> simp
  have sMasters : (annMasters overlapSize d p).Pairwise (fun a b => a.time < b.time) := by
    unfold annMasters; simp
  have sPass : (annPass overlapSize d dof p).Pairwise (fun a b => a.time < b.time) := by
    unfold annPass; split_ifs <;> simp
  simp only [List.pairwise_append, List.mem_append]
  refine ⟨⟨⟨⟨sOffset, sMasters, ?_⟩, sPass, ?_⟩, sRecv, ?_⟩, sSend, ?_⟩
  · intro a ha b hb
    rw [tOffset a ha, tMasters b hb, time_lt]; omega
  · rintro a (ha | ha) b hb
    · rw [tOffset a ha, tPass b hb, time_lt]; omega
    · rw [tMasters a ha, tPass b hb, time_lt]; omega
  · rintro a ((ha | ha) | ha) b hb <;> obtain ⟨r, k, hr, hb⟩ := tRecv b hb
    · rw [tOffset a ha, hb, time_lt]; omega
    · rw [tMasters a ha, hb, time_lt]; omega
    · rw [tPass a ha, hb, time_lt]; omega
  · rintro a (((ha | ha) | ha) | ha) b hb <;> obtain ⟨r, k, hb⟩ := tSend b hb
    · rw [tOffset a ha, hb, time_lt]; omega
    · rw [tMasters a ha, hb, time_lt]; omega
    · rw [tPass a ha, hb, time_lt]; omega
    · obtain ⟨r', k', hr', ha⟩ := tRecv a ha
      rw [ha, hb, time_lt]; omega

end Verif.GlobalIdx
