import Verif.Overlap.ForeignComm
import Verif.GlobalIdx.Props

/-
What is received for the domestic overlap.
-/

set_option autoImplicit false
set_option linter.unusedSectionVars false

namespace Verif.Overlap

open Verif.Mpi Verif.GlobalIdx

variable {P : ℕ} {G : Type} {g : Grid P G} {d : Fin P → Native P} {overlapSize : ℕ}

/-! ### The numbering -/

/-- The data for the numbering. -/
def parts (d : Fin P → Native P) (p : Fin P) : Part P := (d p).part (d p).neighborPeers

/-- The cell of a native index -/
def dof (g : Grid P G) (p : Fin P) (i : ℕ) : Option G := (g.cells p)[i]?

theorem mem_locals (p : Fin P) (i : ℕ) : i ∈ locals (parts d p) ↔ (d p).IsLocal i := by
  unfold locals
  rw [List.mem_filter, decide_eq_true_eq]
  refine ⟨fun h => h.2, fun h => ⟨?_, h⟩⟩
  rw [List.mem_range]
  exact (List.getElem?_eq_some_iff.1 h).1

theorem local_cell (v : Valid g d) {p : Fin P} {i : ℕ} (h : (d p).IsLocal i) :
    ∃ c, (g.cells p)[i]? = some c ∧ g.owner c = p := by
  have hlt : i < (g.cells p).length := by
    rw [← (v.black p).1]
    exact (List.getElem?_eq_some_iff.1 h).1
  exact ⟨_, List.getElem?_eq_getElem hlt, ((v.black p).2 i _ (List.getElem?_eq_getElem hlt)).1 h⟩

theorem cell_index (v : Valid g d) {p : Fin P} {i j : ℕ} {c : G} (hi : (g.cells p)[i]? = some c) (hj : (g.cells p)[j]? = some c) :
    i = j := by
  obtain ⟨h1, h1'⟩ := List.getElem?_eq_some_iff.1 hi
  obtain ⟨h2, h2'⟩ := List.getElem?_eq_some_iff.1 hj
  exact (List.Nodup.getElem_inj_iff (v.nodup p)).1 (h1'.trans h2'.symm)

theorem parts_valid (v : Valid g d) (hs : 0 < overlapSize) : GlobalIdx.Valid overlapSize (parts d) (dof g) where
  distinct p i hi j hj h := by
    obtain ⟨c, hc, -⟩ := local_cell v ((mem_locals p i).1 hi)
    exact cell_index v hc ((h.symm.trans hc : dof g p j = some c))
  uniform := ⟨1, fun p e he => ((v.border p e).1 he).1, Or.inr hs⟩
  entries p e he h := by
    have := ((v.border p e).1 he).1
    omega
  complete p q hpq i hi j hj h := by
    obtain ⟨c, hc, ho⟩ := local_cell v ((mem_locals p i).1 hi)
    obtain ⟨c', hc', ho'⟩ := local_cell v ((mem_locals q j).1 hj)
    have : some c = some c' := by rw [← hc, ← hc']; exact h
    injection this with this
    subst this
    exact absurd (ho.symm.trans ho') hpq
  nodup := v.borderNodup
  peers p := by
    refine ⟨List.Pairwise.filter _ (List.pairwise_lt_finRange P), fun e he => ?_⟩
    show e.peerRank ∈ (d p).neighborPeers
    unfold Native.neighborPeers
    rw [List.mem_filter, decide_eq_true_eq]
    exact ⟨List.mem_finRange _, e, he, rfl⟩

theorem settles_globals (v : Valid g d) (hs : 0 < overlapSize) :
    ∃ τ, Settles (fun p => GlobalIdx.program overlapSize (parts d p) p) (fun _ => State.empty) τ ∧ Numbered (parts d) (dof g) τ := by
  have vv := parts_valid v hs
  have h : Settles (fun p => GlobalIdx.program overlapSize (parts d p) p) (fun _ => State.empty)
      (fun p => result State.empty (ann overlapSize (parts d) (dof g) p)) :=
    ⟨_, inferInstance, ann overlapSize (parts d) (dof g), good vv, ann_op vv, fun _ => rfl⟩
  refine ⟨_, h, ?_⟩
  obtain ⟨s, hr, hf, e⟩ := h.exists_finished
  rw [← e]
  exact (C48_numbered vv s hr).1 hf

/-! ### Receiving -/

/-- Everything the domestic overlap consists of after the entries `pre` have been received: the process which sent it, the global index
and the border distance. -/
structure Built (own : List ℕ) (pre : List (Fin P × ℕ × ℕ)) (s : Domestic P) : Prop where
  num : s.numDomestic = own.length + pre.length
  toGlobal : ∀ i, s.toGlobal i = (own ++ pre.map (·.2.1))[i]?
  toDomestic : ∀ n i, s.toDomestic n = some i ↔ s.toGlobal i = some n
  withPeer : ∀ q i, i ∈ s.withPeer q ↔ ∃ k e, pre[k]? = some e ∧ e.1 = q ∧ i = own.length + k
  withPeerLength : ∀ q, (s.withPeer q).length = (pre.filter fun e => e.1 = q).length
  byIndex : ∀ i q m, s.byIndex i q = some m ↔ ∃ k e, pre[k]? = some e ∧ e.1 = q ∧ e.2.2 = m ∧ i = own.length + k
  dist : ∀ i, s.borderDistance i = if i < own.length then some 0 else (pre[i - own.length]?).map (·.2.2)
  black : s.blackMap = fun _ => none

theorem getElem?_concat {α : Type} (l : List α) (a : α) (i : ℕ) : (l ++ [a])[i]? = if i = l.length then some a else l[i]? := by
  split_ifs with h
  · rw [h, List.getElem?_concat_length]
  · rcases lt_or_ge i l.length with hl | hl
    · rw [List.getElem?_append_left hl]
    · rw [List.getElem?_eq_none (by simp; omega), List.getElem?_eq_none hl]

theorem exists_concat {α : Type} (l : List α) (a : α) (Q : ℕ → α → Prop) :
    (∃ k e, (l ++ [a])[k]? = some e ∧ Q k e) ↔ (∃ k e, l[k]? = some e ∧ Q k e) ∨ Q l.length a := by
  constructor
  · rintro ⟨k, e, h, hQ⟩
    rw [getElem?_concat] at h
    split_ifs at h with hk
    · injection h with h; subst h; subst hk; exact Or.inr hQ
    · exact Or.inl ⟨k, e, h, hQ⟩
  · rintro (⟨k, e, h, hQ⟩ | hQ)
    · refine ⟨k, e, ?_, hQ⟩
      rw [getElem?_concat, if_neg]
      · exact h
      · rintro rfl
        rw [List.getElem?_eq_none le_rfl] at h
        cases h
    · exact ⟨l.length, a, by rw [getElem?_concat, if_pos rfl], hQ⟩

theorem built_step {own : List ℕ} {pre : List (Fin P × ℕ × ℕ)} {s : Domestic P} (h : Built own pre s) (e : Fin P × ℕ × ℕ)
    (hnew : e.2.1 ∉ own ++ pre.map (·.2.1)) : Built own (pre ++ [e]) (receiveIndex e.1 s e.2) := by
  obtain ⟨q, n, m⟩ := e
  have hnone : s.toDomestic n = none := by
    cases hd : s.toDomestic n with
    | none => rfl
    | some i =>
      rw [h.toDomestic, h.toGlobal] at hd
      exact absurd (List.mem_of_getElem? hd) hnew
  have hN : s.numDomestic = (own ++ pre.map (·.2.1)).length := by rw [h.num]; simp
  have hlen : (own ++ pre.map (·.2.1)).length = own.length + pre.length := by simp
  have hdist : s.borderDistance s.numDomestic = none := by
    rw [h.dist, if_neg (by rw [h.num]; omega), List.getElem?_eq_none (by rw [h.num]; omega)]
    rfl
  have e1 : receiveIndex q s (n, m) =
      { s with
        toGlobal := Function.update s.toGlobal s.numDomestic (some n)
        toDomestic := Function.update s.toDomestic n (some s.numDomestic)
        numDomestic := s.numDomestic + 1
        byIndex := Function.update s.byIndex s.numDomestic (Function.update (s.byIndex s.numDomestic) q (some m))
        withPeer := Function.update s.withPeer q (s.withPeer q ++ [s.numDomestic])
        borderDistance := Function.update s.borderDistance s.numDomestic (some m) } := by
    unfold receiveIndex
    dsimp only
    rw [hnone]
    simp only [Option.isSome_none, Bool.false_eq_true, if_false, Domestic.addIndex, Function.update_self]
    rw [hdist]
    rfl
  have glob : ∀ i, Function.update s.toGlobal s.numDomestic (some n) i = (own ++ (pre ++ [(q, n, m)]).map (·.2.1))[i]? := by
    intro i
    rw [List.map_append, ← List.append_assoc, List.map_singleton, getElem?_concat, ← hN, Function.update_apply, h.toGlobal]
  rw [e1]
  constructor
  · dsimp only; rw [h.num]; simp; omega
  · exact glob
  · intro n' i
    dsimp only
    rw [Function.update_apply, Function.update_apply]
    by_cases hn : n' = n
    · subst hn
      rw [if_pos rfl]
      by_cases hi : i = s.numDomestic
      · simp [hi]
      · rw [if_neg hi, ← h.toDomestic, hnone]
        simp
        exact fun h' => hi h'.symm
    · rw [if_neg hn, h.toDomestic]
      by_cases hi : i = s.numDomestic
      · rw [if_pos hi, h.toGlobal, hi, hN, List.getElem?_eq_none le_rfl]
        simp
        exact fun h' => hn h'.symm
      · rw [if_neg hi]
  · intro q' i
    dsimp only
    rw [exists_concat, Function.update_apply]
    by_cases hq : q' = q
    · subst hq
      rw [if_pos rfl, List.mem_append, List.mem_singleton, h.withPeer, h.num]
      simp
    · rw [if_neg hq, h.withPeer]
      simp [Ne.symm hq]
  · intro q'
    dsimp only
    rw [Function.update_apply, List.filter_append, List.length_append]
    by_cases hq : q' = q
    · subst hq
      rw [if_pos rfl, List.length_append, h.withPeerLength]
      simp
    · rw [if_neg hq, h.withPeerLength, List.filter_cons_of_neg (by simpa using Ne.symm hq)]
      simp
  · intro i q' m'
    dsimp only
    rw [exists_concat, ← h.byIndex, Function.update_apply]
    by_cases hi : i = s.numDomestic
    · rw [if_pos hi, Function.update_apply]
      have hno : s.byIndex s.numDomestic q' ≠ some m' := by
        intro hh
        obtain ⟨k, e, hk, -, -, he⟩ := (h.byIndex _ _ _).1 hh
        have := (List.getElem?_eq_some_iff.1 hk).1
        rw [h.num] at he
        omega
      rw [hi]
      by_cases hq : q' = q
      · rw [if_pos hq]
        rw [or_iff_right hno]
        simp [hq, h.num]
      · rw [if_neg hq]
        simp [hno, Ne.symm hq]
    · rw [if_neg hi]
      rw [h.num] at hi
      simp [hi]
  · intro i
    dsimp only
    rw [Function.update_apply, h.dist]
    by_cases hi : i = s.numDomestic
    · rw [if_pos hi, hi, h.num, if_neg (by omega), Nat.add_sub_cancel_left, List.getElem?_concat_length]
      rfl
    · rw [if_neg hi]
      by_cases hl : i < own.length
      · rw [if_pos hl, if_pos hl]
      · rw [if_neg hl, if_neg hl, getElem?_concat, if_neg]
        rw [h.num] at hi
        omega
  · exact h.black

theorem built_all {own : List ℕ} (l : List (Fin P × ℕ × ℕ)) {pre : List (Fin P × ℕ × ℕ)} {s : Domestic P} (h : Built own pre s)
    (hnd : (own ++ (pre ++ l).map (·.2.1)).Nodup) : Built own (pre ++ l) (l.foldl (fun s e => receiveIndex e.1 s e.2) s) := by
  induction l generalizing pre s with
  | nil => rw [List.append_nil]; exact h
  | cons e l ih =>
    rw [List.foldl_cons, List.append_cons]
    apply ih
    · apply built_step h
      have : (own ++ pre.map (·.2.1) ++ (e.2.1 :: l.map (·.2.1))).Nodup := by
        simpa [List.append_assoc] using hnd
      intro hmem
      exact (List.nodup_append.1 this).2.2 _ hmem _ (by simp) rfl
    · rwa [← List.append_cons]

end Verif.Overlap
