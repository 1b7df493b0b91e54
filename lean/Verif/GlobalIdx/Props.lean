import Verif.GlobalIdx.Protocol
import Mathlib.Tactic.FinCases

/-
C48: the numbering of the degrees of freedom of all processes.
-/

set_option autoImplicit false
set_option linter.unusedSectionVars false

namespace Verif.GlobalIdx

open Verif.Mpi

variable {P : ℕ} {G : Type} {overlapSize : ℕ} {d : Fin P → Part P} {dof : Fin P → ℕ → G}

/-- The pairs which a process gets from another. -/
noncomputable def recvPairs (overlapSize : ℕ) (d : Fin P → Part P) (dof : Fin P → ℕ → G) (p r : Fin P) : List (ℕ × ℕ) :=
  (sendEntries overlapSize (d r) r p).filterMap fun e =>
    ((d p).nativeToLocal e.peerIdx).map fun k => (k, number overlapSize d dof (dof r e.localIdx))

theorem result_annRecv (p r : Fin P) (s : State) :
    result s (annRecv overlapSize d dof p r) = addAll s (recvPairs overlapSize d dof p r) := by
  unfold annRecv recvPairs
  generalize sendEntries overlapSize (d r) r p = l
  have : ∀ n, result s ((l.zipIdx n).map fun x => (⟨.recv r (receiveBorderIndex (d p)), time 1 r.val p.val x.2,
      message overlapSize d dof r x.1⟩ : A' P)) = addAll s (l.filterMap fun e =>
        ((d p).nativeToLocal e.peerIdx).map fun k => (k, number overlapSize d dof (dof r e.localIdx))) := by
    induction l generalizing s with
    | nil => intro n; rfl
    | cons e l ih =>
      intro n
      rw [List.zipIdx_cons, List.map_cons, result]
      simp only
      rw [ih, List.filterMap_cons]
      cases h : (d p).nativeToLocal e.peerIdx with
      | none => simp [message, receiveBorderIndex, h]
      | some k => simp [message, receiveBorderIndex, h, addAll]
  exact this 0

theorem result_flatMap (p : Fin P) (l : List (Fin P)) (s : State) :
    result s (l.flatMap (annRecv overlapSize d dof p)) = addAll s (l.flatMap (recvPairs overlapSize d dof p)) := by
  induction l generalizing s with
  | nil => rfl
  | cons r l ih => rw [List.flatMap_cons, List.flatMap_cons, result_append, result_annRecv, ih, addAll_append]

/-- The pairs which a process adds to its maps. -/
noncomputable def allPairs (overlapSize : ℕ) (d : Fin P → Part P) (dof : Fin P → ℕ → G) (p : Fin P) : List (ℕ × ℕ) :=
  masterPairs overlapSize (d p) p (ofs overlapSize d dof p.val) ++
    ((d p).peerSet.filter (· < p)).flatMap (recvPairs overlapSize d dof p)

theorem allPairs_mem (v : Valid overlapSize d dof) (p : Fin P) (k n : ℕ) :
    (k, n) ∈ allPairs overlapSize d dof p ↔ ∃ i, (locals (d p))[k]? = some i ∧ n = number overlapSize d dof (dof p i) := by
  unfold allPairs
  rw [List.mem_append, masterPairs_mem v]
  constructor
  · rintro (⟨i, h1, -, h2⟩ | h)
    · exact ⟨i, h1, h2⟩
    · obtain ⟨r, hr, h⟩ := List.mem_flatMap.1 h
      unfold recvPairs at h
      rw [List.mem_filterMap] at h
      obtain ⟨e, he, h⟩ := h
      cases hn : (d p).nativeToLocal e.peerIdx with
      | none => rw [hn] at h; simp at h
      | some k' =>
        rw [hn] at h
        simp only [Option.map_some, Option.some.injEq, Prod.mk.injEq] at h
        obtain ⟨rfl, rfl⟩ := h
        refine ⟨e.peerIdx, (nativeToLocal_eq _ _ _).1 hn, ?_⟩
        have hp := sendEntries_peer he
        unfold sendEntries at he
        rw [List.mem_filter, decide_eq_true_eq] at he
        rw [(v.entries r e he.1 he.2.2.1).2.2.2, hp]
  · rintro ⟨i, hi, rfl⟩
    by_cases hm : (d p).masterRank overlapSize p k = p
    · exact Or.inl ⟨i, hi, hm, rfl⟩
    · right
      obtain ⟨hle, ⟨j, hj, hd⟩, -⟩ := master_spec v hi
      set r := (d p).masterRank overlapSize p k with hr
      have hmem : (⟨i, j, r, 0⟩ : BorderIndex P) ∈ (d p).borderList :=
        v.complete p r (Ne.symm hm) i (List.mem_of_getElem? hi) j hj hd.symm
      have hrecv : (⟨i, j, r, 0⟩ : BorderIndex P) ∈ recvEntries overlapSize (d p) p r := by
        unfold recvEntries
        rw [List.mem_filter, decide_eq_true_eq]
        exact ⟨hmem, rfl, rfl, k, (nativeToLocal_eq _ _ _).2 hi, rfl⟩
      have hsend := unflip_mem v hrecv
      refine List.mem_flatMap.2 ⟨r, ?_, ?_⟩
      · rw [List.mem_filter, decide_eq_true_eq]
        exact ⟨(v.peers p).2 _ hmem, lt_of_le_of_ne hle hm⟩
      · unfold recvPairs
        rw [List.mem_filterMap]
        refine ⟨_, hsend, ?_⟩
        simp only [flip, (nativeToLocal_eq _ _ _).2 hi, Option.map_some, hd]

theorem allPairs_oneToOne (v : Valid overlapSize d dof) (p : Fin P) : OneToOne (allPairs overlapSize d dof p) := by
  rintro ⟨k, n⟩ hx ⟨l, m⟩ hy
  obtain ⟨i, hi, rfl⟩ := (allPairs_mem v p k n).1 hx
  obtain ⟨j, hj, rfl⟩ := (allPairs_mem v p l m).1 hy
  simp only
  constructor
  · rintro rfl; rw [hi] at hj; injection hj with hj; rw [hj]
  · intro h
    have hg := number_inj v ⟨p, i, List.mem_of_getElem? hi, rfl⟩ ⟨p, j, List.mem_of_getElem? hj, rfl⟩ h
    have hij := v.distinct p i (List.mem_of_getElem? hi) j (List.mem_of_getElem? hj) hg
    subst hij
    obtain ⟨h1, h1'⟩ := List.getElem?_eq_some_iff.1 hi
    obtain ⟨h2, h2'⟩ := List.getElem?_eq_some_iff.1 hj
    exact (List.Nodup.getElem_inj_iff (locals_nodup (d p))).1 (h1'.trans h2'.symm)

theorem result_offset (p : Fin P) :
    (result State.empty (annOffset overlapSize d dof p)) = { State.empty with offset := ofs overlapSize d dof p.val } := by
  unfold annOffset
  split_ifs with h
  · rw [h, ofs_zero]; rfl
  · rfl

theorem result_masters (p : Fin P) :
    result State.empty (annOffset overlapSize d dof p ++ annMasters overlapSize d p) =
      addAll { State.empty with offset := ofs overlapSize d dof p.val }
        (masterPairs overlapSize (d p) p (ofs overlapSize d dof p.val)) := by
  rw [result_append, result_offset]
  unfold annMasters
  rw [result]
  simp only [result, addMasters_eq]

theorem result_pass (p : Fin P) (s : State) : result s (annPass overlapSize d dof p) = s := by
  unfold annPass; split_ifs <;> rfl

theorem result_before_send (p : Fin P) :
    result State.empty (annOffset overlapSize d dof p ++ annMasters overlapSize d p ++ annPass overlapSize d dof p
      ++ ((d p).peerSet.filter (· < p)).flatMap (annRecv overlapSize d dof p)) =
      addAll { State.empty with offset := ofs overlapSize d dof p.val } (allPairs overlapSize d dof p) := by
  rw [result_append, result_append, result_masters, result_pass, result_flatMap]
  unfold allPairs
  rw [addAll_append]

theorem final (p : Fin P) : result State.empty (ann overlapSize d dof p) =
    addAll { State.empty with offset := ofs overlapSize d dof p.val } (allPairs overlapSize d dof p) := by
  unfold ann
  rw [result_append, result_before_send]
  apply result_sends
  intro a ha
  obtain ⟨r, -, ha⟩ := List.mem_flatMap.1 ha
  obtain ⟨x, -, rfl⟩ := List.mem_map.1 ha
  exact ⟨_, _, Or.inl rfl⟩

theorem ann_consistent (v : Valid overlapSize d dof) (p : Fin P) : Consistent State.empty (ann overlapSize d dof p) := by
  unfold ann
  rw [consistent_append, consistent_append, consistent_append, result_before_send, result_masters]
  refine ⟨⟨⟨?_, ?_⟩, ?_⟩, ?_⟩
  · apply consistent_no_sends
    intro a ha q f
    rcases List.mem_append.1 ha with ha | ha
    · unfold annOffset at ha
      split_ifs at ha <;> rw [List.mem_singleton.1 ha] <;> simp
    · rw [List.mem_singleton.1 ha]; simp
  · unfold annPass
    split_ifs with h
    · refine ⟨?_, trivial⟩
      simp only
      rw [addMasters_eq, addAll_offset, masterPairs_length (dof := dof), ofs_succ]
    · trivial
  · apply consistent_no_sends
    intro a ha q f
    obtain ⟨r, -, ha⟩ := List.mem_flatMap.1 ha
    obtain ⟨x, -, rfl⟩ := List.mem_map.1 ha
    simp
  · apply consistent_sends
    intro a ha
    obtain ⟨q, -, ha⟩ := List.mem_flatMap.1 ha
    obtain ⟨x, hx, rfl⟩ := List.mem_map.1 ha
    refine ⟨_, _, Or.inl rfl, ?_⟩
    have he : x.1 ∈ sendEntries overlapSize (d p) p q := by
      have := List.mem_map_of_mem (f := Prod.fst) hx
      rwa [List.zipIdx_map_fst] at this
    unfold sendEntries at he
    rw [List.mem_filter, decide_eq_true_eq] at he
    obtain ⟨-, -, -, k, hk, -⟩ := he
    have hk' := (nativeToLocal_eq _ _ _).1 hk
    have := (addAll_maps _ (allPairs_oneToOne v p) { State.empty with offset := ofs overlapSize d dof p.val } rfl rfl k
      (number overlapSize d dof (dof p x.1.localIdx))).1.2 ((allPairs_mem v p _ _).2 ⟨_, hk', rfl⟩)
    have hk2 : (d p).nativeToLocal x.1.localIdx = some k := hk
    simp only [borderMsg, message, hk2, Option.bind_some, this, Option.getD_some]

theorem good (v : Valid overlapSize d dof) : Good (ann overlapSize d dof) (fun _ => State.empty) (fun _ _ => []) where
  sorted := ann_sorted v
  consistent := ann_consistent v
  messages p q := by
    rw [sendsTo_ann v, recvsFrom_ann v, List.nil_append]
    simp only [List.map_append, List.map_map]
    congr 1
    split_ifs <;> rfl
  pairs p q := by
    rw [sendsTo_ann v, recvsFrom_ann v, List.length_nil, List.drop_zero]
    refine List.rel_append (R := Pair) ?_ ?_
    · split_ifs
      · exact List.Forall₂.cons ⟨le_rfl, fun _ => rfl⟩ List.Forall₂.nil
      · exact List.Forall₂.nil
    · rw [List.forall₂_map_left_iff, List.forall₂_map_right_iff, List.forall₂_same]
      intro x _
      exact ⟨le_rfl, fun _ => rfl⟩
  waits p q := by
    apply waitsOk_of_no_waits
    intro a ha
    have : a.op ∈ program overlapSize (d p) p := by rw [← ann_op v]; exact List.mem_map_of_mem ha
    intro e he
    rw [he] at this
    simp only [program, List.mem_append, List.mem_flatMap, getOffset, passOffset, receiveBorderFrom, sendBorderTo,
      List.mem_map] at this
    rcases this with (((((h | h) | h) | h) | h) | h) | h
    · split_ifs at h <;> simp at h
    · simp at h
    · split_ifs at h <;> simp at h
    all_goals (obtain ⟨_, _, _, _, h⟩ := h; cases h)
  noSelf p := by
    unfold NoSelf
    rw [sendsTo_ann v, if_neg (by omega), sendEntries_nil v le_rfl]
    rfl

/-- **C48** Building the global indices never deadlocks, whatever the MPI library buffers and however the processes are
scheduled, and when all processes are through they have one numbering of all degrees of freedom. -/
theorem C48_numbered (v : Valid overlapSize d dof) (s : System (Fin P) State Msg)
    (h : Reach (start (fun p => program overlapSize (d p) p) fun _ => State.empty) s) :
    (Finished s → Numbered d dof s.state) ∧ (¬Finished s → ∃ t, Step true s t) := by
  have hprog : (fun p => program overlapSize (d p) p) = fun p => (ann overlapSize d dof p).map (·.op) := by
    funext p; exact (ann_op v p).symm
  rw [hprog] at h
  obtain ⟨h1, h2⟩ := correct (ann overlapSize d dof) (fun _ => State.empty) (good v) s h
  refine ⟨fun hf => ⟨ofs overlapSize d dof P, number overlapSize d dof, number_bij v, fun p => ?_⟩, h2⟩
  rw [h1 hf p, final]
  have key := fun k n => addAll_maps _ (allPairs_oneToOne v p) { State.empty with offset := ofs overlapSize d dof p.val } rfl rfl
    k n
  constructor
  · intro k
    apply Option.ext
    intro n
    rw [(key k n).1, allPairs_mem v, Option.map_eq_some_iff]
    constructor
    · rintro ⟨i, hi, rfl⟩; exact ⟨i, hi, rfl⟩
    · rintro ⟨i, hi, rfl⟩; exact ⟨i, hi, rfl⟩
  · intro n k
    rw [(key k n).1, (key k n).2]

/-- **C48** The processes do come to an end: each step shortens what is left to do, and the end can be reached from every
reachable state. -/
theorem C48_terminates (v : Valid overlapSize d dof) (s : System (Fin P) State Msg)
    (h : Reach (start (fun p => program overlapSize (d p) p) fun _ => State.empty) s) :
    (∀ t, Next s t → remaining t < remaining s) ∧ ∃ t, Relation.ReflTransGen (Step true) s t ∧ Finished t := by
  refine ⟨fun t ht => remaining_lt ht, ?_⟩
  have hprog : (fun p => program overlapSize (d p) p) = fun p => (ann overlapSize d dof p).map (·.op) := by
    funext p; exact (ann_op v p).symm
  rw [hprog] at h
  exact can_finish (ann overlapSize d dof) (fun _ => State.empty) (good v) s h

/-! ### An empty overlap

With an overlap of size zero (`LinearSolverOverlapSize`) and the border list of cells, whose entries have the distance one, the
cells at a border count as shared: `minBorderDist` is zero.  The process with the higher rank then takes the other one for the
master of its own cells, but nobody sends it a number. -/

/-- Two cells on two processes, each of which has the other's cell as a black-listed ghost. -/
def twoCells (p : Fin 2) : Part 2 :=
  { blackList := [false, true], borderList := [⟨0, 1, 1 - p, 1⟩], peerSet := [1 - p] }

/-- The cell of a native index. -/
def twoDof (p : Fin 2) (i : ℕ) : Fin 2 := if i = 0 then p else 1 - p

theorem twoCells_valid : Valid 1 twoCells twoDof where
  distinct := by decide
  uniform := ⟨1, by decide, Or.inr (by decide)⟩
  entries := by decide
  complete := by decide
  nodup := by decide
  peers := by decide

/-- **C48** is false for an overlap of size zero: there is a grid, valid for an overlap of one, and an execution after which a
process has no number for its own cell. -/
theorem C48_empty_overlap_violated :
    ∃ s, Reach (start (fun p => program 0 (twoCells p) p) fun _ => State.empty) s ∧ Finished s ∧
      (s.state 1).toGlobal 0 = none ∧ ¬Numbered twoCells twoDof s.state := by
  have h0 : program 0 (twoCells 0) 0 = [.compute fun s => { s with offset := 0 },
      .compute fun s => (addMasters 0 (twoCells 0) 0 s).1,
      .send 1 fun s => .offset (s.offset + (addMasters 0 (twoCells 0) 0 s).2)] := rfl
  have h1 : program 0 (twoCells 1) 1 = [.recv 0 fun m s => match m with | .offset n => { s with offset := n } | .border _ _ => s,
      .compute fun s => (addMasters 0 (twoCells 1) 1 s).1] := rfl
  let s0 := start (fun p => program 0 (twoCells p) p) fun _ => State.empty
  let s1 : System (Fin 2) State Msg :=
    { s0 with
      rest := Function.update s0.rest 0 [.compute fun s => (addMasters 0 (twoCells 0) 0 s).1,
        .send 1 fun s => .offset (s.offset + (addMasters 0 (twoCells 0) 0 s).2)]
      state := Function.update s0.state 0 { s0.state 0 with offset := 0 } }
  have st1 : Next s0 s1 := ⟨_, Step.compute s0 0 _ _ h0⟩
  let s2 : System (Fin 2) State Msg :=
    { s1 with
      rest := Function.update s1.rest 0 [.send 1 fun s => .offset (s.offset + (addMasters 0 (twoCells 0) 0 s).2)]
      state := Function.update s1.state 0 (addMasters 0 (twoCells 0) 0 (s1.state 0)).1 }
  have st2 : Next s1 s2 := ⟨_, Step.compute s1 0 (fun s => (addMasters 0 (twoCells 0) 0 s).1) _ rfl⟩
  let s3 : System (Fin 2) State Msg :=
    { s2 with
      rest := Function.update (Function.update s2.rest 0 []) 1 [.compute fun s => (addMasters 0 (twoCells 1) 1 s).1]
      state := Function.update s2.state 1 { s2.state 1 with offset := (s2.state 0).offset + (addMasters 0 (twoCells 0) 0 (s2.state 0)).2 } }
  have st3 : Next s2 s3 := ⟨_, Step.rendezvous s2 0 1 (fun s => .offset (s.offset + (addMasters 0 (twoCells 0) 0 s).2))
    (fun m s => match m with | .offset n => { s with offset := n } | .border _ _ => s) _ _ (by decide)
    rfl h1 rfl⟩
  let s4 : System (Fin 2) State Msg :=
    { s3 with
      rest := Function.update s3.rest 1 []
      state := Function.update s3.state 1 (addMasters 0 (twoCells 1) 1 (s3.state 1)).1 }
  have st4 : Next s3 s4 := ⟨_, Step.compute s3 1 (fun s => (addMasters 0 (twoCells 1) 1 s).1) _ rfl⟩
  refine ⟨s4, ((((Relation.ReflTransGen.refl (a := s0)).tail st1).tail st2).tail st3).tail st4, ?_, ?_, ?_⟩
  · intro p
    fin_cases p <;> rfl
  · rfl
  · rintro ⟨count, number, -, h⟩
    have := (h 1).1 0
    have e : (locals (twoCells 1))[0]? = some 0 := by decide
    rw [e] at this
    cases this

/-! ### Examples -/

/-- Three processes: the degree of freedom 10 is shared by all, 11 by the processes 1 and 2, 20, 21 and 22 are not shared, and the
process 2 has a black-listed copy of 20. -/
def three (p : Fin 3) : Part 3 :=
  if p = 0 then { blackList := [false, false], borderList := [⟨1, 0, 1, 0⟩, ⟨1, 3, 2, 0⟩], peerSet := [1, 2] }
  else if p = 1 then
    { blackList := [false, false, false], borderList := [⟨2, 1, 2, 0⟩, ⟨0, 1, 0, 0⟩, ⟨0, 3, 2, 0⟩], peerSet := [0, 2] }
  else { blackList := [true, false, false, false], borderList := [⟨3, 1, 0, 0⟩, ⟨3, 0, 1, 0⟩, ⟨1, 2, 1, 0⟩], peerSet := [0, 1] }

def threeDof (p : Fin 3) (i : ℕ) : ℕ :=
  if p = 0 then [20, 10].getD i 0 else if p = 1 then [10, 21, 11].getD i 0 else [20, 11, 22, 10].getD i 0

theorem three_valid : Valid 2 three threeDof where
  distinct := by decide
  uniform := ⟨0, by decide, Or.inl rfl⟩
  entries := by decide
  complete := by decide
  nodup := by decide
  peers := by decide

end Verif.GlobalIdx
