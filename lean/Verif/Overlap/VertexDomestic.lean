import Verif.Overlap.VertexForeign

/-
The domestic overlaps of vertices.
-/

set_option autoImplicit false
set_option linter.unusedSectionVars false

namespace Verif.Overlap.Vertex

open Verif.Mpi Verif.GlobalIdx Verif.Overlap

variable {P : ℕ} {G : Type} {verts : Fin P → List G} {d : Fin P → Native P} {overlapSize : ℕ}

/-! ### Peers -/

theorem mem_peers (p q : Fin P) : q ∈ peers verts d overlapSize p ↔ q ≠ p ∧ ∃ x ∈ verts p, InOverlap verts d overlapSize q x := by
  unfold peers
  simp [List.mem_filter]

theorem peers_sorted (p : Fin P) : (peers verts d overlapSize p).Pairwise (· < ·) :=
  List.Pairwise.filter _ (List.pairwise_lt_finRange P)

theorem peers_nodup (p : Fin P) : (peers verts d overlapSize p).Nodup := List.Nodup.filter _ (List.nodup_finRange P)

theorem inOverlap_symm (v : Valid verts d) {p q : Fin P} {x : G} (hx : x ∈ verts p) (h : InOverlap verts d overlapSize q x) :
    ∃ y ∈ verts q, InOverlap verts d overlapSize p y := by
  obtain ⟨k, hk, hw⟩ := h
  obtain ⟨y, hy, hw'⟩ := walk_back v hw p 0 (Walk.start x hx)
  exact ⟨y, hy, k, hk, by rwa [Nat.zero_add] at hw'⟩

theorem peers_symm (v : Valid verts d) (p q : Fin P) : q ∈ peers verts d overlapSize p ↔ p ∈ peers verts d overlapSize q := by
  rw [mem_peers, mem_peers]
  constructor
  · rintro ⟨h, x, hx, ho⟩; exact ⟨h.symm, inOverlap_symm v hx ho⟩
  · rintro ⟨h, x, hx, ho⟩; exact ⟨h.symm, inOverlap_symm v hx ho⟩

theorem peers_irrefl (p : Fin P) : p ∉ peers verts d overlapSize p := by
  rw [mem_peers]; simp

/-! ### The numbering -/

/-- The data for the numbering. -/
noncomputable def parts (verts : Fin P → List G) (d : Fin P → Native P) (overlapSize : ℕ) (p : Fin P) : Part P :=
  (d p).part (peers verts d overlapSize p)

/-- The vertex of a native index -/
def dof (verts : Fin P → List G) (p : Fin P) (i : ℕ) : Option G := (verts p)[i]?

theorem mem_locals (v : Valid verts d) (p : Fin P) (i : ℕ) : i ∈ locals (parts verts d overlapSize p) ↔ i < (verts p).length := by
  unfold parts
  rw [locals_eq v, List.mem_range]

theorem parts_valid (v : Valid verts d) : GlobalIdx.Valid overlapSize (parts verts d overlapSize) (dof verts) where
  distinct p i hi j hj h := by
    rw [mem_locals v] at hi hj
    obtain ⟨x, hx⟩ := exists_vert hi
    exact get_inj v hx ((h.symm.trans hx : dof verts p j = some x))
  uniform := ⟨0, fun p e he => ((v.border p e).1 he).1, Or.inl rfl⟩
  entries p e he _ := by
    obtain ⟨-, hne, x, h1, h2⟩ := (v.border p e).1 he
    refine ⟨hne, (mem_locals v _ _).2 (lt_of_get h1), (mem_locals v _ _).2 (lt_of_get h2), ?_⟩
    unfold dof
    rw [h1, h2]
  complete p q hpq i hi j hj h := by
    rw [mem_locals v] at hi hj
    obtain ⟨x, hx⟩ := exists_vert hi
    exact (v.border p _).2 ⟨rfl, hpq.symm, x, hx, h.symm.trans hx⟩
  nodup := v.borderNodup
  peers p := by
    refine ⟨peers_sorted p, fun e he => ?_⟩
    obtain ⟨-, hne, x, h1, h2⟩ := (v.border p e).1 he
    exact (mem_peers _ _).2 ⟨hne, x, List.mem_of_getElem? h1, 0, Nat.zero_le _, Walk.start x (List.mem_of_getElem? h2)⟩

theorem settles_globals (v : Valid verts d) :
    ∃ τ, Settles (fun p => GlobalIdx.program overlapSize (parts verts d overlapSize p) p) (fun _ => State.empty) τ ∧
      Numbered (parts verts d overlapSize) (dof verts) τ := by
  have vv := parts_valid (overlapSize := overlapSize) v
  have h : Settles (fun p => GlobalIdx.program overlapSize (parts verts d overlapSize p) p) (fun _ => State.empty)
      (fun p => result State.empty (ann overlapSize (parts verts d overlapSize) (dof verts) p)) :=
    ⟨_, inferInstance, ann overlapSize (parts verts d overlapSize) (dof verts), good vv, ann_op vv, fun _ => rfl⟩
  refine ⟨_, h, ?_⟩
  obtain ⟨s, hr, hf, e⟩ := h.exists_finished
  rw [← e]
  exact (C48_numbered vv s hr).1 hf

theorem present_iff (v : Valid verts d) (x : Option G) :
    x ∈ present (parts verts d overlapSize) (dof verts) ↔ ∃ y ∈ all verts, x = some y := by
  constructor
  · rintro ⟨p, i, hi, rfl⟩
    rw [mem_locals v] at hi
    obtain ⟨y, hy⟩ := exists_vert hi
    exact ⟨y, ⟨p, List.mem_of_getElem? hy⟩, hy⟩
  · rintro ⟨y, ⟨p, hp⟩, rfl⟩
    obtain ⟨i, hi⟩ := exists_get hp
    exact ⟨p, i, (mem_locals v _ _).2 (lt_of_get hi), hi⟩

/-! ### Receiving -/

/-- Everything the domestic overlap consists of after the entries `pre` have been received, if the distance of the number `n` is always
`D n`. -/
structure Built (own : List ℕ) (D : ℕ → ℕ) (pre : List (Fin P × ℕ × ℕ)) (s : Domestic P) : Prop where
  list : ∃ extra : List ℕ, (own ++ extra).Nodup ∧ s.numDomestic = (own ++ extra).length ∧ (∀ i, s.toGlobal i = (own ++ extra)[i]?) ∧
    ∀ n, n ∈ own ++ extra ↔ n ∈ own ∨ ∃ e ∈ pre, e.2.1 = n
  toDomestic : ∀ n i, s.toDomestic n = some i ↔ s.toGlobal i = some n
  withPeer : ∀ q i, i ∈ s.withPeer q ↔ ∃ e ∈ pre, e.1 = q ∧ s.toGlobal i = some e.2.1
  withPeerLength : ∀ q, (s.withPeer q).length = (pre.filter fun e => e.1 = q).length
  dist : ∀ i, s.borderDistance i = (s.toGlobal i).map D
  black : s.blackMap = fun _ => none

theorem built_step {own : List ℕ} {D : ℕ → ℕ} {pre : List (Fin P × ℕ × ℕ)} {s : Domestic P} (h : Built own D pre s)
    (e : Fin P × ℕ × ℕ) (he : e.2.2 = D e.2.1) : Built own D (pre ++ [e]) (receiveIndex e.1 s e.2) := by
  obtain ⟨q, n, m⟩ := e
  dsimp only at he
  subst he
  obtain ⟨extra, hnd, hnum, hglob, hmem⟩ := h.list
  -- the state after the index is known
  obtain ⟨t, ht, i, hti, htw, htl, htb, hbl, extra', hnd', hnum', hglob', hmem', hdom', hext⟩ :
      ∃ t : Domestic P, t = (if (s.toDomestic n).isSome then s else s.addIndex n) ∧ ∃ i, t.toDomestic n = some i ∧
        t.withPeer = s.withPeer ∧ (∀ i, t.borderDistance i = s.borderDistance i) ∧
        (∀ j, j ≠ i → (t.toGlobal j = s.toGlobal j)) ∧ t.blackMap = s.blackMap ∧
        ∃ extra' : List ℕ, (own ++ extra').Nodup ∧ t.numDomestic = (own ++ extra').length ∧
          (∀ i, t.toGlobal i = (own ++ extra')[i]?) ∧ (∀ k, k ∈ own ++ extra' ↔ k ∈ own ++ extra ∨ k = n) ∧
          (∀ n i, t.toDomestic n = some i ↔ t.toGlobal i = some n) ∧
          ((s.toGlobal i = some n) ∨ (s.toGlobal i = none)) := by
    cases hd : s.toDomestic n with
    | some i =>
      have hg := (h.toDomestic n i).1 hd
      refine ⟨s, by simp, i, hd, rfl, fun _ => rfl, fun _ _ => rfl, rfl, extra, hnd, hnum, hglob, ?_, h.toDomestic, Or.inl hg⟩
      intro k
      constructor
      · exact Or.inl
      · rintro (hk | rfl)
        · exact hk
        · rw [hglob] at hg
          exact List.mem_of_getElem? hg
    | none =>
      have hnew : n ∉ own ++ extra := by
        intro hn
        obtain ⟨i, hi, e⟩ := List.getElem_of_mem hn
        have : s.toDomestic n = some i := by rw [h.toDomestic, hglob, List.getElem?_eq_getElem hi, e]
        rw [hd] at this
        cases this
      have glob : ∀ i, Function.update s.toGlobal s.numDomestic (some n) i = (own ++ (extra ++ [n]))[i]? := by
        intro i
        rw [← List.append_assoc, getElem?_concat, ← hnum, Function.update_apply, hglob]
      refine ⟨s.addIndex n, by simp, s.numDomestic, ?_, rfl, fun _ => rfl, ?_, rfl, extra ++ [n], ?_, ?_, glob, ?_, ?_, Or.inr ?_⟩
      · simp [Domestic.addIndex]
      · intro j hj
        simp [Domestic.addIndex, hj]
      · rw [← List.append_assoc, List.nodup_append]
        refine ⟨hnd, by simp, ?_⟩
        intro a ha b hb
        rw [List.mem_singleton] at hb
        subst hb
        rintro rfl
        exact hnew ha
      · show s.numDomestic + 1 = _
        rw [hnum]
        simp
        omega
      · intro k
        rw [← List.append_assoc, List.mem_append, List.mem_singleton]
      · intro n' i
        show Function.update s.toDomestic n (some s.numDomestic) n' = some i ↔
          Function.update s.toGlobal s.numDomestic (some n) i = some n'
        rw [Function.update_apply, Function.update_apply]
        by_cases hn : n' = n
        · subst hn
          rw [if_pos rfl]
          by_cases hi : i = s.numDomestic
          · simp [hi]
          · rw [if_neg hi, ← h.toDomestic, hd]
            simp
            exact fun h' => hi h'.symm
        · rw [if_neg hn, h.toDomestic]
          by_cases hi : i = s.numDomestic
          · rw [if_pos hi, hglob, hi, hnum, List.getElem?_eq_none le_rfl]
            simp
            exact fun h' => hn h'.symm
          · rw [if_neg hi]
      · rw [hglob, hnum, List.getElem?_eq_none le_rfl]
  have hgi : t.toGlobal i = some n := (hdom' n i).1 hti
  have e1 : receiveIndex q s (n, D n) =
      { t with
        byIndex := Function.update t.byIndex i (Function.update (t.byIndex i) q (some (D n)))
        withPeer := Function.update t.withPeer q (t.withPeer q ++ [i])
        borderDistance := Function.update t.borderDistance i (some ((t.borderDistance i).elim (D n) (min (D n)))) } := by
    unfold receiveIndex
    dsimp only
    rw [← ht, hti]
  have hglobEq : ∀ j x, s.toGlobal j = some x → t.toGlobal j = some x := by
    intro j x hj
    by_cases hji : j = i
    · subst hji
      rcases hext with hx | hx
      · rw [hj] at hx
        rw [hgi, hx]
      · rw [hj] at hx; cases hx
    · rw [htb j hji]; exact hj
  have hglobBack : ∀ j x, t.toGlobal j = some x → s.toGlobal j = some x ∨ (j = i ∧ x = n) := by
    intro j x hj
    by_cases hji : j = i
    · subst hji
      rw [hgi] at hj
      exact Or.inr ⟨rfl, (Option.some.inj hj).symm⟩
    · rw [htb j hji] at hj; exact Or.inl hj
  have huniq : ∀ j, t.toGlobal j = some n → j = i := by
    intro j hj
    have := (hdom' n j).2 hj
    rw [hti] at this
    exact (Option.some.inj this).symm
  rw [e1]
  refine ⟨⟨extra', hnd', hnum', hglob', ?_⟩, hdom', ?_, ?_, ?_, ?_⟩
  · intro k
    rw [hmem', hmem]
    simp only [List.mem_append, List.mem_singleton, or_and_right, exists_or, exists_eq_left]
    rw [or_assoc, eq_comm (a := k)]
  · intro q' j
    dsimp only
    simp only [List.mem_append, List.mem_singleton, or_and_right, exists_or, exists_eq_left]
    rw [htw, Function.update_apply]
    have hold : j ∈ s.withPeer q' ↔ ∃ e ∈ pre, e.1 = q' ∧ t.toGlobal j = some e.2.1 := by
      rw [h.withPeer]
      constructor
      · rintro ⟨e, he, h1, h2⟩; exact ⟨e, he, h1, hglobEq _ _ h2⟩
      · rintro ⟨e, he, h1, h2⟩
        rcases hglobBack _ _ h2 with h3 | ⟨rfl, h3⟩
        · exact ⟨e, he, h1, h3⟩
        · refine ⟨e, he, h1, ?_⟩
          have hin := (hmem e.2.1).2 (Or.inr ⟨e, he, rfl⟩)
          obtain ⟨a, ha, hea⟩ := List.getElem_of_mem hin
          have hsa : s.toGlobal a = some e.2.1 := by rw [hglob, List.getElem?_eq_getElem ha, hea]
          have hta := hglobEq _ _ hsa
          rw [h3] at hta
          rw [← huniq a hta]
          exact hsa
    by_cases hq : q' = q
    · subst hq
      rw [if_pos rfl, List.mem_append, List.mem_singleton, hold]
      constructor
      · rintro (h1 | rfl)
        · exact Or.inl h1
        · exact Or.inr ⟨rfl, hgi⟩
      · rintro (h1 | ⟨-, h1⟩)
        · exact Or.inl h1
        · exact Or.inr (huniq j h1)
    · rw [if_neg hq, hold]
      constructor
      · exact Or.inl
      · rintro (h1 | ⟨h1, -⟩)
        · exact h1
        · exact absurd h1.symm hq
  · intro q'
    dsimp only
    rw [Function.update_apply, List.filter_append, List.length_append, htw]
    by_cases hq : q' = q
    · subst hq
      rw [if_pos rfl, List.length_append, h.withPeerLength]
      simp
    · rw [if_neg hq, h.withPeerLength, List.filter_cons_of_neg (by simpa using Ne.symm hq)]
      simp
  · intro j
    dsimp only
    rw [Function.update_apply]
    by_cases hj : j = i
    · subst hj
      rw [if_pos rfl, htl, h.dist, hgi]
      rcases hext with hx | hx
      · rw [hx]; simp
      · rw [hx]; simp
    · rw [if_neg hj, htl, h.dist, htb j hj]
  · show t.blackMap = _
    rw [hbl, h.black]

theorem built_all {own : List ℕ} {D : ℕ → ℕ} (l : List (Fin P × ℕ × ℕ)) {pre : List (Fin P × ℕ × ℕ)} {s : Domestic P}
    (h : Built own D pre s) (hl : ∀ e ∈ l, e.2.2 = D e.2.1) :
    Built own D (pre ++ l) (l.foldl (fun s e => receiveIndex e.1 s e.2) s) := by
  induction l generalizing pre s with
  | nil => rw [List.append_nil]; exact h
  | cons e l ih =>
    rw [List.foldl_cons, List.append_cons]
    exact ih (built_step h e (hl e (by simp))) (fun x hx => hl x (List.mem_cons_of_mem _ hx))

end Verif.Overlap.Vertex
