import Verif.GlobalIdx.Lemmas
import Mathlib.Algebra.BigOperators.Fin
import Mathlib.Algebra.BigOperators.Group.Finset.Basic

set_option autoImplicit false
set_option linter.unusedSectionVars false

namespace Verif.GlobalIdx

open Verif.Mpi

variable {P : ℕ} {G : Type} {overlapSize : ℕ} {d : Fin P → Part P} {dof : Fin P → ℕ → G}

/-! ### Masters are the lowest ranks which have a degree of freedom -/

theorem foldl_min_le {α : Type} [LinearOrder α] (l : List α) (a : α) :
    l.foldl min a ≤ a ∧ (∀ x ∈ l, l.foldl min a ≤ x) ∧ (l.foldl min a = a ∨ l.foldl min a ∈ l) := by
  induction l generalizing a with
  | nil => simp
  | cons b l ih =>
    rw [List.foldl_cons]
    obtain ⟨h1, h2, h3⟩ := ih (min a b)
    refine ⟨h1.trans (min_le_left _ _), ?_, ?_⟩
    · intro x hx
      rcases List.mem_cons.1 hx with rfl | hx
      · exact h1.trans (min_le_right _ _)
      · exact h2 x hx
    · rcases h3 with h3 | h3
      · rcases min_choice a b with h | h
        · left; rw [h3, h]
        · right; rw [h3, h]; simp
      · right; exact List.mem_cons_of_mem _ h3

theorem master_spec (v : Valid overlapSize d dof) {p : Fin P} {k i : ℕ} (hk : (locals (d p))[k]? = some i) :
    (d p).masterRank overlapSize p k ≤ p ∧
      (∃ j ∈ locals (d ((d p).masterRank overlapSize p k)), dof ((d p).masterRank overlapSize p k) j = dof p i) ∧
      ∀ q, ∀ j ∈ locals (d q), dof q j = dof p i → (d p).masterRank overlapSize p k ≤ q := by
  have hi : i ∈ locals (d p) := List.mem_of_getElem? hk
  obtain ⟨δ, hu, hδ⟩ := v.uniform
  have hmin := foldl_min_le ((d p).borderList.map (·.borderDistance)) overlapSize
  by_cases hb : (d p).minBorderDist overlapSize = 0
  · have e : (d p).masterRank overlapSize p k = (((d p).borderList.filter
        (fun e => (d p).nativeToLocal e.localIdx = some k)).map (·.peerRank)).foldl min p := by
      unfold Part.masterRank; rw [if_pos hb]
    rw [e]
    obtain ⟨h1, h2, h3⟩ := foldl_min_le (((d p).borderList.filter
        (fun e => (d p).nativeToLocal e.localIdx = some k)).map (·.peerRank)) p
    refine ⟨h1, ?_, ?_⟩
    · rcases h3 with h3 | h3
      · rw [h3]; exact ⟨i, hi, rfl⟩
      · obtain ⟨x, hx, hxe⟩ := List.mem_map.1 h3
        rw [List.mem_filter] at hx
        obtain ⟨hx1, hx2⟩ := hx
        rw [decide_eq_true_eq, nativeToLocal_eq, hk] at hx2
        injection hx2 with hx2
        have hd0 : x.borderDistance = 0 := by
          rw [hu p x hx1]
          rcases hδ with hδ | hδ
          · exact hδ
          · have := hmin.2.2
            unfold Part.minBorderDist at hb
            rw [hb] at this
            rcases this with h | h
            · omega
            · obtain ⟨y, hy, hy'⟩ := List.mem_map.1 h
              rw [← hu p y hy, hy']
        obtain ⟨-, -, he3, he4⟩ := v.entries p x hx1 hd0
        rw [← hxe]
        exact ⟨x.peerIdx, he3, by rw [← he4, hx2]⟩
    · intro q j hj hq
      by_cases hpq : p = q
      · subst hpq; exact h1
      · have := v.complete p q hpq i hi j hj hq.symm
        exact h2 q (List.mem_map.2 ⟨_, List.mem_filter.2 ⟨this, by
          rw [decide_eq_true_eq, nativeToLocal_eq]; exact hk⟩, rfl⟩)
  · have e : (d p).masterRank overlapSize p k = p := by unfold Part.masterRank; rw [if_neg hb]
    rw [e]
    refine ⟨le_rfl, ⟨i, hi, rfl⟩, ?_⟩
    intro q j hj hq
    by_cases hpq : p = q
    · rw [hpq]
    · exfalso
      have := v.complete p q hpq i hi j hj hq.symm
      have h0 := hmin.2.1 0 (List.mem_map.2 ⟨_, this, rfl⟩)
      apply hb
      unfold Part.minBorderDist
      omega

/-- All processes agree on the master. -/
theorem master_unique (v : Valid overlapSize d dof) {p q : Fin P} {k l i j : ℕ} (hk : (locals (d p))[k]? = some i)
    (hl : (locals (d q))[l]? = some j) (h : dof p i = dof q j) :
    (d p).masterRank overlapSize p k = (d q).masterRank overlapSize q l := by
  obtain ⟨-, ⟨a, ha1, ha2⟩, hp⟩ := master_spec v hk
  obtain ⟨-, ⟨b, hb1, hb2⟩, hq⟩ := master_spec v hl
  exact le_antisymm (hp _ b hb1 (hb2.trans h.symm)) (hq _ a ha1 (ha2.trans h))

/-- The degrees of freedom of which a process is the master. -/
def own (overlapSize : ℕ) (d : Part P) (dof : ℕ → G) (p : Fin P) : List G :=
  ((List.range d.numLocal).filter fun i => d.masterRank overlapSize p i = p).map fun k => dof (((locals d)[k]?).getD 0)

theorem mem_own {p : Fin P} {k i : ℕ} (hk : (locals (d p))[k]? = some i)
    (hm : (d p).masterRank overlapSize p k = p) : dof p i ∈ own overlapSize (d p) (dof p) p := by
  unfold own
  rw [List.mem_map]
  refine ⟨k, List.mem_filter.2 ⟨?_, by simpa using hm⟩, by rw [hk]; rfl⟩
  rw [List.mem_range, numLocal_eq]
  exact (List.getElem?_eq_some_iff.1 hk).1

theorem of_mem_own {p : Fin P} {g : G} (h : g ∈ own overlapSize (d p) (dof p) p) :
    ∃ k i, (locals (d p))[k]? = some i ∧ (d p).masterRank overlapSize p k = p ∧ dof p i = g := by
  unfold own at h
  obtain ⟨k, hk, rfl⟩ := List.mem_map.1 h
  rw [List.mem_filter, List.mem_range, numLocal_eq] at hk
  refine ⟨k, (locals (d p))[k]'hk.1, List.getElem?_eq_getElem hk.1, by simpa using hk.2, ?_⟩
  rw [List.getElem?_eq_getElem hk.1]; rfl

theorem own_nodup (v : Valid overlapSize d dof) (p : Fin P) : (own overlapSize (d p) (dof p) p).Nodup := by
  unfold own
  apply List.Nodup.map_on _ (List.Nodup.filter _ List.nodup_range)
  intro k hk l hl h
  rw [List.mem_filter, List.mem_range, numLocal_eq] at hk hl
  rw [List.getElem?_eq_getElem hk.1, List.getElem?_eq_getElem hl.1] at h
  have := v.distinct p _ (List.getElem_mem hk.1) _ (List.getElem_mem hl.1) h
  exact (List.Nodup.getElem_inj_iff (locals_nodup (d p))).1 this

theorem own_unique (v : Valid overlapSize d dof) {p q : Fin P} {g : G} (hp : g ∈ own overlapSize (d p) (dof p) p)
    (hq : g ∈ own overlapSize (d q) (dof q) q) : p = q := by
  obtain ⟨k, i, hk, hm, rfl⟩ := of_mem_own hp
  obtain ⟨l, j, hl, hm', h⟩ := of_mem_own hq
  rw [← hm, ← hm']; exact master_unique v hk hl h.symm

/-- The master has the degree of freedom among its own. -/
theorem master_owns (v : Valid overlapSize d dof) {p : Fin P} {k i : ℕ} (hk : (locals (d p))[k]? = some i) :
    dof p i ∈ own overlapSize (d ((d p).masterRank overlapSize p k)) (dof ((d p).masterRank overlapSize p k))
      ((d p).masterRank overlapSize p k) := by
  obtain ⟨-, ⟨j, hj1, hj2⟩, -⟩ := master_spec v hk
  obtain ⟨l, hl⟩ := List.mem_iff_getElem?.1 hj1
  rw [← hj2]
  exact mem_own hl (master_unique v hl hk hj2)

/-! ### The numbers -/

/-- The number of degrees of freedom whose masters have ranks below `n`. -/
def ofs (overlapSize : ℕ) (d : Fin P → Part P) (dof : Fin P → ℕ → G) (n : ℕ) : ℕ :=
  ∑ r : Fin P, if r.val < n then (own overlapSize (d r) (dof r) r).length else 0

theorem ofs_succ (p : Fin P) : ofs overlapSize d dof (p.val + 1) =
    ofs overlapSize d dof p.val + (own overlapSize (d p) (dof p) p).length := by
  unfold ofs
  have : ∀ r : Fin P, (if r.val < p.val + 1 then (own overlapSize (d r) (dof r) r).length else 0) =
      (if r.val < p.val then (own overlapSize (d r) (dof r) r).length else 0) +
        (if r = p then (own overlapSize (d p) (dof p) p).length else 0) := by
    intro r
    by_cases hr : r = p
    · subst hr; simp
    · have : r.val ≠ p.val := fun h => hr (Fin.ext h)
      by_cases h : r.val < p.val
      · simp [h, hr, Nat.lt_succ_of_lt h]
      · have h' : ¬r.val < p.val + 1 := by omega
        simp [h, hr, h']
  rw [Finset.sum_congr rfl (fun r _ => this r), Finset.sum_add_distrib]
  simp

theorem ofs_zero : ofs overlapSize d dof 0 = 0 := by simp [ofs]

theorem ofs_mono {m n : ℕ} (h : m ≤ n) : ofs overlapSize d dof m ≤ ofs overlapSize d dof n := by
  unfold ofs
  apply Finset.sum_le_sum
  intro r _
  split_ifs with h1 h2
  · exact le_rfl
  · omega
  · omega
  · exact le_rfl

open Classical in
/-- The number of a degree of freedom. -/
noncomputable def number (overlapSize : ℕ) (d : Fin P → Part P) (dof : Fin P → ℕ → G) (g : G) : ℕ :=
  if h : ∃ p, g ∈ own overlapSize (d p) (dof p) p then
    ofs overlapSize d dof h.choose.val + (own overlapSize (d h.choose) (dof h.choose) h.choose).idxOf g
  else 0

open Classical in
theorem number_eq (v : Valid overlapSize d dof) {p : Fin P} {g : G} (hp : g ∈ own overlapSize (d p) (dof p) p) :
    number overlapSize d dof g = ofs overlapSize d dof p.val + (own overlapSize (d p) (dof p) p).idxOf g := by
  have h : ∃ p, g ∈ own overlapSize (d p) (dof p) p := ⟨p, hp⟩
  have e : h.choose = p := own_unique v h.choose_spec hp
  unfold number
  rw [dif_pos h]
  have key : ∀ q, q = p → ofs overlapSize d dof q.val + (own overlapSize (d q) (dof q) q).idxOf g =
      ofs overlapSize d dof p.val + (own overlapSize (d p) (dof p) p).idxOf g := by rintro q rfl; rfl
  exact key _ e

open Classical in
theorem number_range (v : Valid overlapSize d dof) {p : Fin P} {g : G} (hp : g ∈ own overlapSize (d p) (dof p) p) :
    ofs overlapSize d dof p.val ≤ number overlapSize d dof g ∧
      number overlapSize d dof g < ofs overlapSize d dof (p.val + 1) := by
  rw [number_eq v hp, ofs_succ]
  have := List.idxOf_lt_length_iff.2 hp
  omega

theorem present_own (v : Valid overlapSize d dof) {g : G} (h : g ∈ present d dof) :
    ∃ p, g ∈ own overlapSize (d p) (dof p) p := by
  obtain ⟨p, i, hi, rfl⟩ := h
  obtain ⟨k, hk⟩ := List.mem_iff_getElem?.1 hi
  exact ⟨_, master_owns v hk⟩

open Classical in
theorem number_inj (v : Valid overlapSize d dof) {g g' : G} (h : g ∈ present d dof) (h' : g' ∈ present d dof)
    (e : number overlapSize d dof g = number overlapSize d dof g') : g = g' := by
  obtain ⟨p, hp⟩ := present_own v h
  obtain ⟨q, hq⟩ := present_own v h'
  have h1 := number_range v hp
  have h2 := number_range v hq
  have hpq : p = q := by
    rcases lt_trichotomy p q with hlt | heq | hlt
    · have := ofs_mono (overlapSize := overlapSize) (d := d) (dof := dof) (show p.val + 1 ≤ q.val from hlt); omega
    · exact heq
    · have := ofs_mono (overlapSize := overlapSize) (d := d) (dof := dof) (show q.val + 1 ≤ p.val from hlt); omega
  subst hpq
  rw [number_eq v hp, number_eq v hq] at e
  exact (List.idxOf_inj hp).1 (by omega)

theorem own_present {p : Fin P} {g : G} (h : g ∈ own overlapSize (d p) (dof p) p) : g ∈ present d dof := by
  obtain ⟨k, i, hk, -, hg⟩ := of_mem_own h
  exact ⟨p, i, List.mem_of_getElem? hk, hg⟩

open Classical in
theorem number_bij (v : Valid overlapSize d dof) :
    Set.BijOn (number overlapSize d dof) (present d dof) {n | n < ofs overlapSize d dof P} := by
  refine ⟨?_, ?_, ?_⟩
  · intro g hg
    obtain ⟨p, hp⟩ := present_own v hg
    exact lt_of_lt_of_le (number_range v hp).2 (ofs_mono (by omega))
  · intro g hg g' hg' e; exact number_inj v hg hg' e
  · intro n hn
    -- the process whose interval contains the number
    have : ∀ m ≤ P, n < ofs overlapSize d dof m →
        ∃ p : Fin P, ofs overlapSize d dof p.val ≤ n ∧ n < ofs overlapSize d dof (p.val + 1) := by
      intro m
      induction m with
      | zero => intro _ h; rw [ofs_zero] at h; omega
      | succ m ih =>
        intro hm h
        by_cases hlt : n < ofs overlapSize d dof m
        · exact ih (by omega) hlt
        · exact ⟨⟨m, by omega⟩, by simpa using hlt, h⟩
    obtain ⟨p, h1, h2⟩ := this P le_rfl hn
    rw [ofs_succ] at h2
    have hlt : n - ofs overlapSize d dof p.val < (own overlapSize (d p) (dof p) p).length := by omega
    have hmem := List.getElem_mem hlt
    refine ⟨_, own_present hmem, ?_⟩
    rw [number_eq v hmem, List.Nodup.idxOf_getElem (own_nodup v p)]
    omega

open Classical in
/-- The pairs of the loop over the local indices are numbers of degrees of freedom. -/
theorem masterPairs_mem (v : Valid overlapSize d dof) (p : Fin P) (k n : ℕ) :
    (k, n) ∈ masterPairs overlapSize (d p) p (ofs overlapSize d dof p.val) ↔
      ∃ i, (locals (d p))[k]? = some i ∧ (d p).masterRank overlapSize p k = p ∧ n = number overlapSize d dof (dof p i) := by
  unfold masterPairs
  set L := (List.range (d p).numLocal).filter fun i => decide ((d p).masterRank overlapSize p i = p) with hL
  have hown : own overlapSize (d p) (dof p) p = L.map fun k => dof p (((locals (d p))[k]?).getD 0) := rfl
  have hLn : L.Nodup := List.Nodup.filter _ List.nodup_range
  rw [List.mem_zipIdx_iff_le_and_getElem?_sub]
  have value : ∀ m k' i, L[m]? = some k' → (locals (d p))[k']? = some i →
      number overlapSize d dof (dof p i) = ofs overlapSize d dof p.val + m := by
    intro m k' i hm hi
    have hlt := (List.getElem?_eq_some_iff.1 hm).1
    have hmm : (d p).masterRank overlapSize p k' = p := by
      have := List.mem_of_getElem? hm
      rw [hL, List.mem_filter] at this
      simpa using this.2
    rw [number_eq v (mem_own hi hmm)]
    have hlt' : m < (own overlapSize (d p) (dof p) p).length := by rw [hown, List.length_map]; exact hlt
    have : (own overlapSize (d p) (dof p) p)[m]'hlt' = dof p i := by
      have h2 := (List.getElem?_eq_some_iff.1 hm).2
      simp only [hown, List.getElem_map, h2, hi, Option.getD_some]
    rw [← this, List.Nodup.idxOf_getElem (own_nodup v p)]
  constructor
  · rintro ⟨h1, h2⟩
    have hmem := List.mem_of_getElem? h2
    rw [hL, List.mem_filter, List.mem_range, numLocal_eq] at hmem
    refine ⟨(locals (d p))[k]'hmem.1, List.getElem?_eq_getElem hmem.1, by simpa using hmem.2, ?_⟩
    rw [value _ k _ h2 (List.getElem?_eq_getElem hmem.1)]
    omega
  · rintro ⟨i, hi, hm, rfl⟩
    have hmem : k ∈ L := by
      rw [hL, List.mem_filter, List.mem_range, numLocal_eq]
      exact ⟨(List.getElem?_eq_some_iff.1 hi).1, by simpa using hm⟩
    obtain ⟨m, hm'⟩ := List.mem_iff_getElem?.1 hmem
    rw [value m k i hm' hi]
    exact ⟨by omega, by rw [Nat.add_sub_cancel_left]; exact hm'⟩

theorem masterPairs_length (p : Fin P) (n : ℕ) :
    (masterPairs overlapSize (d p) p n).length = (own overlapSize (d p) (dof p) p).length := by
  simp [masterPairs, own]

end Verif.GlobalIdx
