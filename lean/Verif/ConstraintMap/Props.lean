import Verif.ConstraintMap.Lemmas

/-
C186: the constraints of a problem are collected completely, with any number of threads.
-/

set_option autoImplicit false

namespace Verif.ConstraintMap

variable {n : ℕ} {C : Type} {g : Grid C}

/-- The problem constrains some primary degree of freedom of the element. -/
def Constrained (g : Grid C) (e : ℕ) : Prop := e < g.size ∧ ∃ i ∈ g.dofs e, (g.constraint e i).isSome = true

/-- **C186** Whenever all threads get through without a data race, the map has the constraints of the problem: a degree of freedom is
constrained exactly if the problem wants this for some element, and only by a constraint which the problem returned for it; nothing is left of
what the map contained before. -/
theorem C186_collected_partial (hn : 0 < n) (old : ℕ → Option C) (sched : List (Fin n)) (s : State n C)
    (h : exec g (start n old) sched = some s) (hd : ∀ w, s.pc w = .done) (i : ℕ) :
    ((s.map i).isSome = true ↔ ∃ e < g.size, i ∈ g.dofs e ∧ (g.constraint e i).isSome = true) ∧
      ∀ c, s.map i = some c → ∃ e < g.size, i ∈ g.dofs e ∧ g.constraint e i = some c := by
  have I := inv_exec sched (inv_start (g := g) old) h
  refine ⟨⟨fun hs => ?_, ?_⟩, I.found i⟩
  · obtain ⟨c, hc⟩ := Option.isSome_iff_exists.1 hs
    obtain ⟨e, he, hi, hv⟩ := I.found i c hc
    exact ⟨e, he, hi, by rw [hv]; rfl⟩
  · rintro ⟨e, he, hi, hc⟩
    have hpos := I.done ⟨0, hn⟩ (hd _)
    rcases I.complete e (by omega) i hi hc with k | ⟨w, rest, k, -⟩
    · exact k
    · rw [hd w] at k
      simp [Pc.todo] at k

/-- **C186** If the answers of the problem for a degree of freedom are the same for all elements which have it, the map is that of the
problem, whatever the number of threads and the schedule were. -/
theorem C186_same_partial (hn : 0 < n) (old : ℕ → Option C) (con : ℕ → Option C) (hcon : ∀ e i, g.constraint e i = con i)
    (sched : List (Fin n)) (s : State n C) (h : exec g (start n old) sched = some s) (hd : ∀ w, s.pc w = .done) (i : ℕ)
    (hi : ∃ e < g.size, i ∈ g.dofs e) : s.map i = con i := by
  obtain ⟨e, he, hi⟩ := hi
  obtain ⟨h1, h2⟩ := C186_collected_partial hn old sched s h hd i
  cases hm : s.map i with
  | some c =>
    obtain ⟨e', -, -, hc⟩ := h2 c hm
    rw [← hc, hcon]
  | none =>
    cases hc : con i with
    | none => rfl
    | some c =>
      have := h1.2 ⟨e, he, hi, by rw [hcon, hc]; rfl⟩
      rw [hm] at this
      simp at this

/-- **C186** A single thread has no data races. -/
theorem C186_one_thread (old : ℕ → Option C) (sched : List (Fin 1)) : exec g (start 1 old) sched ≠ none := by
  intro h
  obtain ⟨v, w, -, -, hne, -⟩ := exec_none sched (inv_start old) h
  exact hne (Subsingleton.elim _ _)

/-- **C186** There are no data races either if at most one element has constraints. -/
theorem C186_one_element (old : ℕ → Option C) (hg : ∀ e e', Constrained g e → Constrained g e' → e = e') (sched : List (Fin n)) :
    exec g (start n old) sched ≠ none := by
  intro h
  obtain ⟨v, w, e, e', -, hne, he, he', hc, hc'⟩ := exec_none sched (inv_start old) h
  exact hne (hg e e' ⟨he, hc⟩ ⟨he', hc'⟩)

open Classical in
/-- **C186** is false in all other cases: with two threads or more, whenever two elements have constraints, there is a schedule with a data race. -/
theorem C186_race_violated (hn : 2 ≤ n) (old : ℕ → Option C) (e e' : ℕ) (hne : e ≠ e') (he : Constrained g e) (he' : Constrained g e') :
    ∃ sched : List (Fin n), exec g (start n old) sched = none := by
  -- the first element with a constraint and the second one
  have hex : ∃ e, Constrained g e := ⟨e, he⟩
  set a := Nat.find hex with ha
  have hac : Constrained g a := Nat.find_spec hex
  have hamin : ∀ b < a, ¬Constrained g b := fun b hb => Nat.find_min hex hb
  have hex2 : ∃ b, a < b ∧ Constrained g b := by
    by_cases h : a = e
    · exact ⟨e', lt_of_le_of_ne (Nat.find_min' hex he') fun k => hne (h ▸ k), he'⟩
    · exact ⟨e, lt_of_le_of_ne (Nat.find_min' hex he) h, he⟩
  set b := Nat.find hex2 with hb
  have hbc : a < b ∧ Constrained g b := Nat.find_spec hex2
  have hbmin : ∀ c < b, ¬(a < c ∧ Constrained g c) := fun c hc => Nat.find_min hex2 hc
  have hnone : ∀ c < b, c ≠ a → ∀ i ∈ g.dofs c, g.constraint c i = none := by
    intro c hc hca i hi
    by_contra hk
    have hcc : Constrained g c := ⟨by have := hbc.2.1; omega, i, hi, Option.isSome_iff_ne_none.2 hk⟩
    rcases lt_or_gt_of_ne hca with hlt | hgt
    · exact hamin c hlt hcc
    · exact hbmin c hc ⟨hgt, hcc⟩
  let v : Fin n := ⟨0, by omega⟩
  let w : Fin n := ⟨1, by omega⟩
  have hvw : w ≠ v := by simp [v, w, Fin.ext_iff]
  have z : (start n old).pos = 0 := rfl
  -- the first thread begins an insertion
  obtain ⟨k, s, i, c, r, h1, h2, h3, h4⟩ := reach_start v (start n old) rfl a
    (fun x _ hx i hi => hnone x (by omega) (by omega) i hi) (by rw [z, Nat.zero_add]; exact hac.1) (by rw [z, Nat.zero_add]; exact hac.2)
  rw [z, Nat.zero_add] at h2 h3 h4
  set t : State n C := { s with pc := Function.update s.pc v (.insert a i c r) } with ht
  have hst : step g s v = some t := by
    have hno : ¬∃ u, u ≠ v ∧ (s.pc u).inserting = true := by
      rintro ⟨u, hu, hk⟩
      rw [h3, Function.update_of_ne hu] at hk
      simp [start, Pc.inserting] at hk
    have hpc : s.pc v = .dofs a (i :: r) := by rw [h3, Function.update_self]
    simp only [step, hpc, h4, if_neg hno, ht]
  -- the second one comes to its first insertion
  have htw : t.pc w = .start := by
    simp only [ht]
    rw [Function.update_of_ne hvw, h3, Function.update_of_ne hvw]
    rfl
  have htpos : t.pos = a + 1 := h2
  have hd : t.pos + (b - (a + 1)) = b := by have := hbc.1; omega
  obtain ⟨k', s', i', c', r', k1, k2, k3, k4⟩ := reach_start (g := g) w t htw (b - (a + 1))
    (fun x hx hx' i hi => hnone x (by omega) (by omega) i hi) (by rw [hd]; exact hbc.2.1) (by rw [hd]; exact hbc.2.2)
  rw [hd] at k3 k4
  have hlast : step g s' w = none := by
    have hpc : s'.pc w = .dofs b (i' :: r') := by rw [k3, Function.update_self]
    have hyes : ∃ u, u ≠ w ∧ (s'.pc u).inserting = true := by
      refine ⟨v, hvw.symm, ?_⟩
      rw [k3, Function.update_of_ne hvw.symm, ht]
      simp [Pc.inserting]
    simp only [step, hpc, k4, if_pos hyes]
  refine ⟨List.replicate k v ++ (v :: (List.replicate k' w ++ [w])), ?_⟩
  rw [exec_append, h1, Option.bind_some, exec, hst, Option.bind_some, exec_append, k1, Option.bind_some, exec, hlast]
  rfl

/-! ### Examples -/

/-- Three elements in a row with their vertices as degrees of freedom; the two at the ends are fixed. -/
def rod : Grid ℕ where
  size := 3
  dofs e := [e, e + 1]
  constraint _ i := if i = 0 then some 10 else if i = 3 then some 20 else none

/-- One thread collects the two constraints, and what was in the map before is gone. -/
example : ∃ s, exec rod (start 1 fun _ => some 5) (List.replicate 12 0) = some s ∧ (∀ w, s.pc w = .done) ∧ s.map 0 = some 10 ∧
    s.map 1 = none ∧ s.map 3 = some 20 := by
  refine ⟨_, rfl, ?_, ?_, ?_, ?_⟩ <;> decide

/-- Two threads can do so as well, … -/
example : ∃ s, exec rod (start 2 fun _ => some 5) [0, 1, 0, 1, 0, 1, 0, 1, 0, 1, 1, 1, 1, 1, 0] = some s ∧ (∀ w, s.pc w = .done) ∧
    s.map 0 = some 10 ∧ s.map 3 = some 20 := by
  refine ⟨_, rfl, ?_, ?_, ?_⟩ <;> decide

/-- … but they need not. -/
example : ∃ sched : List (Fin 2), exec rod (start 2 fun _ => some 5) sched = none :=
  C186_race_violated le_rfl _ 0 2 (by decide) ⟨by decide, 0, by decide, rfl⟩ ⟨by decide, 3, by decide, rfl⟩

end Verif.ConstraintMap
