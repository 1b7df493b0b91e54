import Verif.GridComm.Model
import Verif.Sync.Lemmas
import Mathlib.Order.Bounds.Basic
import Mathlib.Data.Int.Order.Basic

/-
C28: the handles for exchanging values of entities.
-/

set_option autoImplicit false
set_option linter.unusedSectionVars false

namespace Verif.GridComm

open Verif.Mpi

variable {P : ℕ} {E K : Type}

/-- `ents p` are the entities which the process `p` has; entities of a process have different indices; peers are mutual; an entity
is sent at most once from one process to another, and to processes which have it. -/
structure Proper (g : Interface P E) (ents : Fin P → Set E) : Prop where
  nodup : ∀ p, (g.peers p).Nodup
  symm : ∀ p q, q ∈ g.peers p ↔ p ∈ g.peers q
  irrefl : ∀ p, p ∉ g.peers p
  inj : ∀ p, Set.InjOn (g.index p) (ents p)
  once : ∀ p q, (g.sent p q).Nodup
  has : ∀ p q, ∀ e ∈ g.sent p q, q ∈ g.peers p ∧ e ∈ ents p ∧ e ∈ ents q

/-- All entities which two processes share are sent from one to the other (the interfaces `InteriorBorder_InteriorBorder` with
`ents` the interior and border entities, or `All_All`). -/
def AllShared (g : Interface P E) (ents : Fin P → Set E) : Prop :=
  ∀ p q, p ≠ q → ∀ e, e ∈ ents p → e ∈ ents q → e ∈ g.sent p q

/-- Each entity has an owner, which sends it to all other processes which have it, and nobody else does (the interface
`InteriorBorder_All` with elements). -/
def FromOwner (g : Interface P E) (ents : Fin P → Set E) (owner : E → Fin P) : Prop :=
  (∀ p, ∀ e ∈ ents p, e ∈ ents (owner e)) ∧ ∀ p q e, e ∈ g.sent p q ↔ p = owner e ∧ q ≠ p ∧ e ∈ ents q

/-! ### Combining with any operation -/

/-- Scattering with any operation -/
def scatterWith (f : K → K → K) (index : E → ℕ) (l : List (E × K)) (container : ℕ → K) : ℕ → K :=
  l.foldl (fun c x => Function.update c (index x.1) (f (c (index x.1)) x.2)) container

open Classical in
theorem scatterWith_apply (f : K → K → K) {S : Set E} {index : E → ℕ} (hi : Set.InjOn index S) (l : List E) (hn : l.Nodup)
    (hl : ∀ e ∈ l, e ∈ S) (v : E → K) (c : ℕ → K) (e : E) (he : e ∈ S) :
    scatterWith f index (l.map fun e => (e, v e)) c (index e) = if e ∈ l then f (c (index e)) (v e) else c (index e) := by
  unfold scatterWith
  induction l generalizing c with
  | nil => simp
  | cons a l ih =>
    obtain ⟨ha, hn'⟩ := List.nodup_cons.1 hn
    rw [List.map_cons, List.foldl_cons, ih hn' fun b hb => hl b (List.mem_cons_of_mem _ hb)]
    by_cases hea : e = a
    · subst hea; simp [ha]
    · have hne : index e ≠ index a := fun h => hea (hi he (hl a (by simp)) h)
      simp [hea, Function.update_of_ne hne]

open Classical in
/-- After a communication each value has been combined with those of the processes which sent theirs. -/
theorem communicate_apply {g : Interface P E} {ents : Fin P → Set E} (h : Proper g ents) (f : K → K → K) (c : Fin P → ℕ → K)
    {s : System (Fin P) (ℕ → K) (List K)} (hr : Reach (start (communicate g (scatterWith f)) c) s) :
    (Finished s → ∀ q, ∀ e ∈ ents q, s.state q (g.index q e) =
      (((g.peers q).filter fun p => decide (e ∈ g.sent p q)).map fun p => c p (g.index p e)).foldl f (c q (g.index q e))) ∧
      (¬Finished s → ∃ t, Step true s t) := by
  obtain ⟨h1, h2⟩ := rounds_correct g.peers h.nodup h.symm h.irrefl _ _ s hr
  refine ⟨fun hf q e he => ?_, h2⟩
  rw [h1 hf q]
  show (g.peers q).foldl (fun c' p => scatterWith f (g.index q) ((g.sent p q).zip (gather (g.index p) (g.sent p q) (c p))) c')
    (c q) (g.index q e) = _
  generalize c q = c0
  generalize g.peers q = l
  induction l generalizing c0 with
  | nil => rfl
  | cons p l ih =>
    rw [List.foldl_cons, ih, List.filter_cons]
    have hz : (g.sent p q).zip (gather (g.index p) (g.sent p q) (c p)) =
        (g.sent p q).map fun e => (e, c p (g.index p e)) := by
      have := Verif.Sync.zip_map_eq (g.sent p q) id fun e => c p (g.index p e)
      simpa [gather] using this
    rw [hz, scatterWith_apply f (h.inj q) _ (h.once p q) (fun e he => (h.has p q e he).2.2) _ _ e he]
    by_cases hm : e ∈ g.sent p q
    · simp [hm]
    · simp [hm]

theorem foldl_sum [AddCommMonoid K] (l : List K) (a : K) : l.foldl (· + ·) a = a + l.sum := by
  induction l generalizing a with
  | nil => simp
  | cons b l ih => rw [List.foldl_cons, ih, List.sum_cons, add_assoc]

open Classical in
/-- **C28** With the sum handle each value becomes the sum of those of all processes which have the entity, in whatever order
messages are sent and received. -/
theorem C28_sum [AddCommMonoid K] {g : Interface P E} {ents : Fin P → Set E} (h : Proper g ents) (ha : AllShared g ents)
    (c : Fin P → ℕ → K) {s : System (Fin P) (ℕ → K) (List K)} (hr : Reach (start (communicate g scatterSum) c) s) :
    (Finished s → ∀ q, ∀ e ∈ ents q, s.state q (g.index q e) = ∑ p, if e ∈ ents p then c p (g.index p e) else 0) ∧
      (¬Finished s → ∃ t, Step true s t) := by
  obtain ⟨h1, h2⟩ := communicate_apply h (· + ·) c (s := s) hr
  refine ⟨fun hf q e he => ?_, h2⟩
  rw [h1 hf q e he, foldl_sum]
  rw [Verif.Sync.sum_split q ((g.peers q).filter fun p => decide (e ∈ g.sent p q)) ((h.nodup q).filter _)
    (fun hq => h.irrefl q (List.mem_filter.1 hq).1)]
  · rw [if_pos he]
    congr 2
    apply List.map_congr_left
    intro p hp
    rw [if_pos]
    have := (List.mem_filter.1 hp).2
    exact (h.has p q e (of_decide_eq_true this)).2.1
  · intro p hpq hp
    rw [if_neg]
    intro hep
    have hs := ha p q hpq e hep he
    exact hp (List.mem_filter.2 ⟨(h.symm p q).1 (h.has p q e hs).1, decide_eq_true hs⟩)

theorem stdMax_eq [LinearOrder K] (a b : K) : stdMax a b = max a b := by
  unfold stdMax
  split_ifs with h
  · exact (max_eq_right h.le).symm
  · exact (max_eq_left (not_lt.1 h)).symm

theorem stdMin_eq [LinearOrder K] (a b : K) : stdMin a b = min a b := by
  unfold stdMin
  split_ifs with h
  · exact (min_eq_right h.le).symm
  · exact (min_eq_left (not_lt.1 h)).symm

theorem foldl_max [LinearOrder K] (l : List K) (a : K) : IsGreatest {x | x = a ∨ x ∈ l} (l.foldl stdMax a) := by
  induction l generalizing a with
  | nil => exact ⟨Or.inl rfl, by rintro x (rfl | hx); exacts [le_rfl, absurd hx (by simp)]⟩
  | cons b l ih =>
    rw [List.foldl_cons]
    obtain ⟨h1, h2⟩ := ih (stdMax a b)
    have hab := stdMax_eq a b
    constructor
    · rcases h1 with h1 | h1
      · rw [Set.mem_ofPred_eq, h1, hab]
        rcases max_choice a b with hc | hc <;> rw [hc]
        · exact Or.inl rfl
        · exact Or.inr (by simp)
      · exact Or.inr (List.mem_cons_of_mem _ h1)
    · have hle := h2 (Or.inl rfl)
      rw [hab] at hle
      rintro x (rfl | hx)
      · exact (le_max_left _ _).trans (by rwa [hab])
      · rcases List.mem_cons.1 hx with rfl | hx
        · exact (le_max_right _ _).trans (by rwa [hab])
        · exact h2 (Or.inr hx)

theorem foldl_min [LinearOrder K] (l : List K) (a : K) : IsLeast {x | x = a ∨ x ∈ l} (l.foldl stdMin a) := by
  induction l generalizing a with
  | nil => exact ⟨Or.inl rfl, by rintro x (rfl | hx); exacts [le_rfl, absurd hx (by simp)]⟩
  | cons b l ih =>
    rw [List.foldl_cons]
    obtain ⟨h1, h2⟩ := ih (stdMin a b)
    have hab := stdMin_eq a b
    constructor
    · rcases h1 with h1 | h1
      · rw [Set.mem_ofPred_eq, h1, hab]
        rcases min_choice a b with hc | hc <;> rw [hc]
        · exact Or.inl rfl
        · exact Or.inr (by simp)
      · exact Or.inr (List.mem_cons_of_mem _ h1)
    · have hle := h2 (Or.inl rfl)
      rw [hab] at hle
      rintro x (rfl | hx)
      · exact (by rwa [hab] : _ ≤ _).trans (min_le_left _ _)
      · rcases List.mem_cons.1 hx with rfl | hx
        · exact (by rwa [hab] : _ ≤ _).trans (min_le_right _ _)
        · exact h2 (Or.inr hx)

open Classical in
/-- The values which are combined are those of the processes which have the entity. -/
theorem combined {g : Interface P E} {ents : Fin P → Set E} (h : Proper g ents) (ha : AllShared g ents) (c : Fin P → ℕ → K)
    (q : Fin P) (e : E) (he : e ∈ ents q) :
    {x | x = c q (g.index q e) ∨ x ∈ ((g.peers q).filter fun p => decide (e ∈ g.sent p q)).map fun p => c p (g.index p e)} =
      {x | ∃ p, e ∈ ents p ∧ x = c p (g.index p e)} := by
  ext x
  simp only [Set.mem_ofPred_eq, List.mem_map, List.mem_filter, decide_eq_true_eq]
  constructor
  · rintro (rfl | ⟨p, ⟨-, hp⟩, rfl⟩)
    · exact ⟨q, he, rfl⟩
    · exact ⟨p, (h.has p q e hp).2.1, rfl⟩
  · rintro ⟨p, hp, rfl⟩
    by_cases hpq : p = q
    · subst hpq; exact Or.inl rfl
    · have hs := ha p q hpq e hp he
      exact Or.inr ⟨p, ⟨(h.symm p q).1 (h.has p q e hs).1, hs⟩, rfl⟩

/-- **C28** With the maximum handle each value becomes the largest of those of all processes which have the entity. -/
theorem C28_max [LinearOrder K] {g : Interface P E} {ents : Fin P → Set E} (h : Proper g ents) (ha : AllShared g ents)
    (c : Fin P → ℕ → K) {s : System (Fin P) (ℕ → K) (List K)} (hr : Reach (start (communicate g scatterMax) c) s) :
    (Finished s → ∀ q, ∀ e ∈ ents q, IsGreatest {x | ∃ p, e ∈ ents p ∧ x = c p (g.index p e)} (s.state q (g.index q e))) ∧
      (¬Finished s → ∃ t, Step true s t) := by
  classical
  obtain ⟨h1, h2⟩ := communicate_apply h stdMax c (s := s) hr
  refine ⟨fun hf q e he => ?_, h2⟩
  rw [h1 hf q e he, ← combined h ha c q e he]
  exact foldl_max _ _

/-- **C28** With the minimum handle each value becomes the smallest of those of all processes which have the entity. -/
theorem C28_min [LinearOrder K] {g : Interface P E} {ents : Fin P → Set E} (h : Proper g ents) (ha : AllShared g ents)
    (c : Fin P → ℕ → K) {s : System (Fin P) (ℕ → K) (List K)} (hr : Reach (start (communicate g scatterMin) c) s) :
    (Finished s → ∀ q, ∀ e ∈ ents q, IsLeast {x | ∃ p, e ∈ ents p ∧ x = c p (g.index p e)} (s.state q (g.index q e))) ∧
      (¬Finished s → ∃ t, Step true s t) := by
  classical
  obtain ⟨h1, h2⟩ := communicate_apply h stdMin c (s := s) hr
  refine ⟨fun hf q e he => ?_, h2⟩
  rw [h1 hf q e he, ← combined h ha c q e he]
  exact foldl_min _ _

/-- **C28** With the handle for ghosts each copy becomes what its owner has, and the owner's value stays. -/
theorem C28_ghostSync {g : Interface P E} {ents : Fin P → Set E} (h : Proper g ents) {owner : E → Fin P}
    (ho : FromOwner g ents owner) (c : Fin P → ℕ → K) {s : System (Fin P) (ℕ → K) (List K)}
    (hr : Reach (start (communicate g scatterGhostSync) c) s) :
    (Finished s → ∀ q, ∀ e ∈ ents q, s.state q (g.index q e) = c (owner e) (g.index (owner e) e)) ∧
      (¬Finished s → ∃ t, Step true s t) := by
  classical
  obtain ⟨h1, h2⟩ := communicate_apply h (fun _ b => b) c (s := s) hr
  refine ⟨fun hf q e he => ?_, h2⟩
  rw [h1 hf q e he]
  have last : ∀ (l : List K) (a x : K), (∀ y ∈ l, y = x) → (l = [] → a = x) → l.foldl (fun _ b => b) a = x := by
    intro l
    induction l with
    | nil => intro a x _ h; exact h rfl
    | cons b l ih =>
      intro a x hl _
      rw [List.foldl_cons]
      exact ih b x (fun y hy => hl y (List.mem_cons_of_mem _ hy)) (fun _ => hl b (by simp))
  apply last
  · intro y hy
    obtain ⟨p, hp, rfl⟩ := List.mem_map.1 hy
    have := of_decide_eq_true (List.mem_filter.1 hp).2
    rw [((ho.2 p q e).1 this).1]
  · intro hnil
    by_cases hq : q = owner e
    · rw [← hq]
    · exfalso
      have hs : e ∈ g.sent (owner e) q := (ho.2 _ q e).2 ⟨rfl, hq, he⟩
      have : owner e ∈ (g.peers q).filter fun p => decide (e ∈ g.sent p q) :=
        List.mem_filter.2 ⟨(h.symm _ _).1 (h.has _ q e hs).1, decide_eq_true hs⟩
      rw [List.map_eq_nil_iff] at hnil
      rw [hnil] at this
      simp at this

/-! ### An example: three processes around a vertex (7), two of which share another one (8) -/

/-- The vertices of each process -/
def exampleEnts (p : Fin 3) : List ℕ := if p = 0 then [7, 1] else if p = 1 then [2, 8, 7] else [8, 7]

def exampleInterface : Interface 3 ℕ where
  peers p := if p = 0 then [1, 2] else if p = 1 then [2, 0] else [0, 1]
  sent p q := if p = q then [] else (exampleEnts p).filter (· ∈ exampleEnts q)
  index p e := (exampleEnts p).idxOf e

theorem example_proper : Proper exampleInterface fun p => {e | e ∈ exampleEnts p} where
  nodup := by decide
  symm := by decide
  irrefl := by decide
  inj := by
    intro p a ha b hb hab
    exact (List.idxOf_inj ha).1 hab
  once := by decide
  has := by
    intro p q e he
    have hpq : p ≠ q := by rintro rfl; simp [exampleInterface] at he
    simp only [exampleInterface, if_neg hpq, List.mem_filter, decide_eq_true_eq] at he
    refine ⟨?_, he.1, he.2⟩
    clear he
    revert hpq
    revert p q
    decide

theorem example_shared : AllShared exampleInterface fun p => {e | e ∈ exampleEnts p} := by
  intro p q hpq e hp hq
  simp only [exampleInterface, if_neg hpq, List.mem_filter, decide_eq_true_eq]
  exact ⟨hp, hq⟩

/-- The sum at the shared vertex, on the process 1, is that of the values of all three. -/
example (c : Fin 3 → ℕ → ℤ) (s : System (Fin 3) (ℕ → ℤ) (List ℤ))
    (hr : Reach (start (communicate exampleInterface scatterSum) c) s) (hf : Finished s) :
    s.state 1 2 = c 0 0 + c 1 2 + c 2 1 := by
  have := (C28_sum example_proper example_shared c hr).1 hf 1 7 (by simp [exampleEnts])
  simpa [exampleInterface, exampleEnts, Fin.sum_univ_three] using this

end Verif.GridComm
