import Verif.ConstraintMap.Model
import Mathlib.Data.Fintype.Basic

set_option autoImplicit false

namespace Verif.ConstraintMap

open Verif.EntityIter (bump isFinished)

variable {n : ℕ} {C : Type} {g : Grid C}

/-- The element of a thread and what is left to do for it -/
def Pc.todo : Pc C → Option (ℕ × List ℕ)
  | .dofs e rest => some (e, rest)
  | .insert e i _ rest => some (e, i :: rest)
  | _ => none

structure Inv (g : Grid C) (s : State n C) : Prop where
  pos : s.pos ≤ g.size
  found : ∀ i c, s.map i = some c → ∃ e < g.size, i ∈ g.dofs e ∧ g.constraint e i = some c
  todo : ∀ w e rest, (s.pc w).todo = some (e, rest) → e < s.pos ∧ ∀ i ∈ rest, i ∈ g.dofs e
  value : ∀ w e i c rest, s.pc w = .insert e i c rest → g.constraint e i = some c
  complete : ∀ e < s.pos, ∀ i ∈ g.dofs e, (g.constraint e i).isSome = true →
    (s.map i).isSome = true ∨ ∃ w rest, (s.pc w).todo = some (e, rest) ∧ i ∈ rest
  apart : ∀ v w e r r', (s.pc v).todo = some (e, r) → (s.pc w).todo = some (e, r') → v = w
  done : ∀ w, s.pc w = .done → s.pos = g.size

theorem inv_start (old : ℕ → Option C) : Inv g (start n old) where
  pos := Nat.zero_le _
  found i c h := by simp [start] at h
  todo w e rest h := by simp [start, Pc.todo] at h
  value w e i c rest h := by simp [start] at h
  complete e he := absurd he (Nat.not_lt_zero _)
  apart v w e r r' h := by simp [start, Pc.todo] at h
  done w h := by simp [start] at h

/-- A thread which has nothing left to do takes the next element. -/
theorem inv_enter {s : State n C} (I : Inv g s) (w : Fin n) (hw : ∀ e rest, (s.pc w).todo = some (e, rest) → rest = []) :
    Inv g { s with pos := bump g.size s.pos, pc := Function.update s.pc w (enter g s.pos) } := by
  have hother : ∀ v, v ≠ w → Function.update s.pc w (enter g s.pos) v = s.pc v := fun v hv => Function.update_of_ne hv _ _
  have hself : Function.update s.pc w (enter g s.pos) w = enter g s.pos := Function.update_self _ _ _
  by_cases hend : s.pos = g.size
  · have e1 : enter g s.pos = .done := by simp [enter, isFinished, hend]
    have e2 : bump g.size s.pos = s.pos := by simp [bump, hend]
    have hnone : ∀ v e rest, (Function.update s.pc w (enter g s.pos) v).todo = some (e, rest) → v ≠ w ∧ (s.pc v).todo = some (e, rest) := by
      intro v e rest h
      by_cases hv : v = w
      · subst hv; rw [hself, e1] at h; simp [Pc.todo] at h
      · rw [hother v hv] at h; exact ⟨hv, h⟩
    refine ⟨by simp only [e2]; exact I.pos, I.found, fun v e rest h => ?_, fun v e i c rest h => ?_, fun e he i hi hc => ?_,
      fun u v e r r' h h' => I.apart u v e r r' (hnone _ _ _ h).2 (hnone _ _ _ h').2, fun v _ => ?_⟩
    · simp only [e2]; exact I.todo v e rest (hnone v e rest h).2
    · by_cases hv : v = w
      · subst hv; exact absurd ((hself.symm.trans h).symm.trans e1) (by simp)
      · simp only [hother v hv] at h; exact I.value v e i c rest h
    · simp only [e2] at he
      rcases I.complete e he i hi hc with h | ⟨v, rest, h, hr⟩
      · exact .inl h
      · refine .inr ⟨v, rest, ?_, hr⟩
        have hv : v ≠ w := by
          rintro rfl
          rw [hw e rest h] at hr
          simp at hr
        simp only [hother v hv]; exact h
    · simp only [e2]; exact hend
  · have hlt : s.pos < g.size := lt_of_le_of_ne I.pos hend
    have e1 : enter g s.pos = .dofs s.pos (g.dofs s.pos) := by simp [enter, isFinished, hend]
    have e2 : bump g.size s.pos = s.pos + 1 := by simp [bump, hend]
    have hcase : ∀ v e rest, (Function.update s.pc w (enter g s.pos) v).todo = some (e, rest) →
        (v = w ∧ e = s.pos ∧ rest = g.dofs s.pos) ∨ (v ≠ w ∧ (s.pc v).todo = some (e, rest)) := by
      intro v e rest h
      by_cases hv : v = w
      · subst hv
        rw [hself, e1] at h
        simp only [Pc.todo, Option.some.injEq, Prod.mk.injEq] at h
        exact .inl ⟨rfl, h.1.symm, h.2.symm⟩
      · rw [hother v hv] at h; exact .inr ⟨hv, h⟩
    refine ⟨by simp only [e2]; omega, I.found, fun v e rest h => ?_, fun v e i c rest h => ?_, fun e he i hi hc => ?_,
      fun u v e r r' h h' => ?_, fun v h => ?_⟩
    · simp only [e2]
      rcases hcase v e rest h with ⟨-, rfl, rfl⟩ | ⟨-, h⟩
      · exact ⟨by omega, fun i hi => hi⟩
      · exact ⟨by have := (I.todo v e rest h).1; omega, (I.todo v e rest h).2⟩
    · by_cases hv : v = w
      · subst hv; exact absurd ((hself.symm.trans h).symm.trans e1) (by simp)
      · simp only [hother v hv] at h; exact I.value v e i c rest h
    · simp only [e2] at he
      by_cases hlast : e = s.pos
      · subst hlast
        refine .inr ⟨w, g.dofs s.pos, ?_, hi⟩
        show (Function.update s.pc w (enter g s.pos) w).todo = _
        rw [hself, e1]; rfl
      · rcases I.complete e (by omega) i hi hc with h | ⟨v, rest, h, hr⟩
        · exact .inl h
        · refine .inr ⟨v, rest, ?_, hr⟩
          have hv : v ≠ w := by
            rintro rfl
            rw [hw e rest h] at hr
            simp at hr
          simp only [hother v hv]; exact h
    · rcases hcase u e r h with ⟨rfl, rfl, rfl⟩ | ⟨hu, h0⟩ <;> rcases hcase v _ r' h' with ⟨rfl, k, rfl⟩ | ⟨hv, h0'⟩
      · rfl
      · exact absurd (I.todo v _ r' h0').1 (lt_irrefl _)
      · rw [k] at h0; exact absurd (I.todo u _ r h0).1 (lt_irrefl _)
      · exact I.apart u v e r r' h0 h0'
    · by_cases hv : v = w
      · subst hv; exact absurd ((hself.symm.trans h).symm.trans e1) (by simp)
      · simp only [hother v hv] at h
        exact absurd (I.done v h) hend

/-- A thread goes on within its element: what is left of it becomes less by what is in the map or has no constraint. -/
theorem inv_within {s : State n C} (I : Inv g s) (w : Fin n) (map : ℕ → Option C) (pc : Pc C) (e : ℕ) (r r' : List ℕ)
    (h : (s.pc w).todo = some (e, r)) (h' : pc.todo = some (e, r')) (hsub : ∀ i ∈ r', i ∈ r)
    (hleft : ∀ i ∈ r, (g.constraint e i).isSome = true → (map i).isSome = true ∨ i ∈ r')
    (hmap : ∀ i, (s.map i).isSome = true → (map i).isSome = true)
    (hfound : ∀ i c, map i = some c → ∃ e < g.size, i ∈ g.dofs e ∧ g.constraint e i = some c)
    (hvalue : ∀ e i c rest, pc = .insert e i c rest → g.constraint e i = some c) :
    Inv g { s with map := map, pc := Function.update s.pc w pc } := by
  have hother : ∀ v, v ≠ w → Function.update s.pc w pc v = s.pc v := fun v hv => Function.update_of_ne hv _ _
  have hself : Function.update s.pc w pc w = pc := Function.update_self _ _ _
  have hcase : ∀ v e1 rest, (Function.update s.pc w pc v).todo = some (e1, rest) →
      (v = w ∧ e1 = e ∧ rest = r') ∨ (v ≠ w ∧ (s.pc v).todo = some (e1, rest)) := by
    intro v e1 rest h1
    by_cases hv : v = w
    · subst hv
      rw [hself, h'] at h1
      simp only [Option.some.injEq, Prod.mk.injEq] at h1
      exact .inl ⟨rfl, h1.1.symm, h1.2.symm⟩
    · rw [hother v hv] at h1; exact .inr ⟨hv, h1⟩
  refine ⟨I.pos, hfound, fun v e1 rest h1 => ?_, fun v e1 i c rest h1 => ?_, fun e1 he i hi hc => ?_, fun u v e1 q q' h1 h2 => ?_,
    fun v h1 => ?_⟩
  · rcases hcase v e1 rest h1 with ⟨-, rfl, rfl⟩ | ⟨-, h1⟩
    · exact ⟨(I.todo w _ r h).1, fun i hi => (I.todo w _ r h).2 i (hsub i hi)⟩
    · exact I.todo v e1 rest h1
  · by_cases hv : v = w
    · subst hv; simp only [hself] at h1; exact hvalue e1 i c rest h1
    · simp only [hother v hv] at h1; exact I.value v e1 i c rest h1
  · rcases I.complete e1 he i hi hc with k | ⟨v, rest, k, hr⟩
    · exact .inl (hmap i k)
    · by_cases hv : v = w
      · subst hv
        rw [h] at k
        simp only [Option.some.injEq, Prod.mk.injEq] at k
        obtain ⟨rfl, rfl⟩ := k
        rcases hleft i hr hc with k | k
        · exact .inl k
        · exact .inr ⟨v, r', by simp only [hself]; exact h', k⟩
      · exact .inr ⟨v, rest, by simp only [hother v hv]; exact k, hr⟩
  · rcases hcase u e1 q h1 with ⟨rfl, rfl, rfl⟩ | ⟨hu, h10⟩ <;> rcases hcase v _ q' h2 with ⟨rfl, k, rfl⟩ | ⟨hv, h20⟩
    · rfl
    · exact (I.apart v u _ _ _ h20 h).symm
    · rw [k] at h10; exact I.apart u v _ _ _ h10 h
    · exact I.apart u v e1 q q' h10 h20
  · by_cases hv : v = w
    · subst hv
      simp only [hself] at h1
      rw [h1] at h'
      simp [Pc.todo] at h'
    · simp only [hother v hv] at h1
      exact I.done v h1

theorem inv_step {s s' : State n C} (I : Inv g s) (w : Fin n) (h : step g s w = some s') : Inv g s' := by
  unfold step at h
  split at h
  · next hpc =>
    cases h
    exact inv_enter I w fun e rest k => by simp [hpc, Pc.todo] at k
  · next hpc =>
    cases h
    exact inv_enter I w fun e rest k => by
      simp only [hpc, Pc.todo, Option.some.injEq, Prod.mk.injEq] at k
      exact k.2.symm
  · next e i rest hpc =>
    split at h
    · next hc =>
      cases h
      refine inv_within I w s.map (.dofs e rest) e (i :: rest) rest (by simp [hpc, Pc.todo]) rfl (fun j hj => List.mem_cons_of_mem _ hj)
        (fun j hj hs => ?_) (fun _ h => h) I.found (by simp)
      rcases List.mem_cons.1 hj with rfl | hj
      · rw [hc] at hs; simp at hs
      · exact .inr hj
    · next c hc =>
      split_ifs at h
      cases h
      refine inv_within I w s.map (.insert e i c rest) e (i :: rest) (i :: rest) (by simp [hpc, Pc.todo]) rfl (fun j hj => hj)
        (fun j hj hs => .inr hj) (fun _ h => h) I.found ?_
      intro e1 i1 c1 r1 k
      cases k
      exact hc
  · next e i c rest hpc =>
    cases h
    have hv := I.value w e i c rest hpc
    have ht : (s.pc w).todo = some (e, i :: rest) := by simp [hpc, Pc.todo]
    have hmem := I.todo w e _ ht
    refine inv_within I w (Function.update s.map i (some c)) (.dofs e rest) e (i :: rest) rest ht rfl
      (fun j hj => List.mem_cons_of_mem _ hj) (fun j hj hs => ?_) (fun j hj => ?_) (fun j d hj => ?_) (by simp)
    · rcases List.mem_cons.1 hj with rfl | hj
      · left; simp
      · exact .inr hj
    · by_cases e1 : j = i
      · subst e1; simp
      · rw [Function.update_of_ne e1]; exact hj
    · by_cases e1 : j = i
      · subst e1
        simp only [Function.update_self, Option.some.injEq] at hj
        subst hj
        exact ⟨e, lt_of_lt_of_le hmem.1 I.pos, hmem.2 j (by simp), hv⟩
      · rw [Function.update_of_ne e1] at hj
        exact I.found j d hj
  · cases h; exact I

theorem inv_exec (sched : List (Fin n)) : ∀ {s s' : State n C}, Inv g s → exec g s sched = some s' → Inv g s' := by
  induction sched with
  | nil => intro s s' I h; cases h; exact I
  | cons w rest ih =>
    intro s s' I h
    simp only [exec, Option.bind_eq_some_iff] at h
    obtain ⟨t, ht, h⟩ := h
    exact ih (inv_step I w ht) h

theorem exec_append (a b : List (Fin n)) : ∀ s : State n C, exec g s (a ++ b) = (exec g s a).bind fun s' => exec g s' b := by
  induction a with
  | nil => intro s; rfl
  | cons w a ih =>
    intro s
    simp only [List.cons_append, exec]
    cases step g s w with
    | none => rfl
    | some t => simp only [Option.bind_some]; exact ih t

/-- If a thread cannot go on, two threads are within insertions for different elements. -/
theorem step_none {s : State n C} (I : Inv g s) {w : Fin n} (h : step g s w = none) :
    ∃ v e e', v ≠ w ∧ e ≠ e' ∧ e < g.size ∧ e' < g.size ∧ (∃ i ∈ g.dofs e, (g.constraint e i).isSome = true) ∧
      ∃ i ∈ g.dofs e', (g.constraint e' i).isSome = true := by
  unfold step at h
  split at h
  · cases h
  · cases h
  · next e i rest hpc =>
    split at h
    · cases h
    · next c hc =>
      split_ifs at h with hv
      obtain ⟨v, hne, hins⟩ := hv
      cases hpv : s.pc v with
      | insert e' i' c' rest' =>
        have k := I.todo w e (i :: rest) (by simp [hpc, Pc.todo])
        have k' := I.todo v e' (i' :: rest') (by simp [hpv, Pc.todo])
        refine ⟨v, e, e', hne, ?_, lt_of_lt_of_le k.1 I.pos, lt_of_lt_of_le k'.1 I.pos, ⟨i, k.2 i (by simp), by rw [hc]; rfl⟩,
          i', k'.2 i' (by simp), by rw [I.value v e' i' c' rest' hpv]; rfl⟩
        rintro rfl
        exact hne (I.apart v w e _ _ (by simp [hpv, Pc.todo]; rfl) (by simp [hpc, Pc.todo]; rfl))
      | start => simp [hpv, Pc.inserting] at hins
      | dofs => simp [hpv, Pc.inserting] at hins
      | done => simp [hpv, Pc.inserting] at hins
  · cases h
  · cases h

theorem exec_none (sched : List (Fin n)) : ∀ {s : State n C}, Inv g s → exec g s sched = none → ∃ (v w : Fin n) (e e' : ℕ), v ≠ w ∧ e ≠ e' ∧
    e < g.size ∧ e' < g.size ∧ (∃ i ∈ g.dofs e, (g.constraint e i).isSome = true) ∧ ∃ i ∈ g.dofs e', (g.constraint e' i).isSome = true := by
  induction sched with
  | nil => intro s I h; cases h
  | cons w rest ih =>
    intro s I h
    simp only [exec] at h
    cases hs : step g s w with
    | none =>
      obtain ⟨v, e, e', k⟩ := step_none I hs
      exact ⟨v, w, e, e', k⟩
    | some t =>
      rw [hs] at h
      exact ih (inv_step I w hs) h

/-! ### A race -/

/-- While no other thread inserts anything, a thread which is in the loop over the degrees of freedom gets to the next one with a
constraint, or to the end of the element. -/
theorem reach_dof (w : Fin n) (e : ℕ) (rest : List ℕ) : ∀ s : State n C, s.pc w = .dofs e rest →
    (∃ i ∈ rest, (g.constraint e i).isSome = true) →
    ∃ k s' i c r, exec g s (List.replicate k w) = some s' ∧ s'.pos = s.pos ∧ s'.pc = Function.update s.pc w (.dofs e (i :: r)) ∧
      g.constraint e i = some c := by
  induction rest with
  | nil => rintro s - ⟨i, hi, -⟩; simp at hi
  | cons j rest ih =>
    intro s hpc hex
    cases hc : g.constraint e j with
    | some c =>
      exact ⟨0, s, j, c, rest, rfl, rfl, by rw [← hpc, Function.update_eq_self], hc⟩
    | none =>
      have hs : step g s w = some { s with pc := Function.update s.pc w (.dofs e rest) } := by
        simp only [step, hpc, hc]
      obtain ⟨k, s', i, c, r, h1, h2, h3, h4⟩ := ih { s with pc := Function.update s.pc w (.dofs e rest) } (Function.update_self _ _ _) (by
        obtain ⟨i, hi, hs⟩ := hex
        rcases List.mem_cons.1 hi with rfl | hi
        · rw [hc] at hs; simp at hs
        · exact ⟨i, hi, hs⟩)
      refine ⟨k + 1, s', i, c, r, ?_, h2, ?_, h4⟩
      · rw [List.replicate_succ, exec, hs]; exact h1
      · rw [h3, Function.update_idem]

theorem skip_dofs (w : Fin n) (e : ℕ) (rest : List ℕ) : ∀ s : State n C, s.pc w = .dofs e rest →
    (∀ i ∈ rest, g.constraint e i = none) →
    ∃ k s', exec g s (List.replicate k w) = some s' ∧ s'.pos = bump g.size s.pos ∧ s'.pc = Function.update s.pc w (enter g s.pos) := by
  induction rest with
  | nil =>
    intro s hpc _
    exact ⟨1, { s with pos := bump g.size s.pos, pc := Function.update s.pc w (enter g s.pos) },
      by simp only [List.replicate_one, exec, step, hpc, Option.bind_some], rfl, rfl⟩
  | cons j rest ih =>
    intro s hpc hn
    have hs : step g s w = some { s with pc := Function.update s.pc w (.dofs e rest) } := by
      simp only [step, hpc, hn j (by simp)]
    obtain ⟨k, s', h1, h2, h3⟩ := ih { s with pc := Function.update s.pc w (.dofs e rest) } (Function.update_self _ _ _)
      fun i hi => hn i (List.mem_cons_of_mem _ hi)
    refine ⟨k + 1, s', ?_, h2, ?_⟩
    · rw [List.replicate_succ, exec, hs]; exact h1
    · rw [h3, Function.update_idem]

/-- A thread which takes elements from position `p` on gets to the first one with a constraint, and leaves the iterator behind it. -/
theorem reach_elem (w : Fin n) (d : ℕ) : ∀ (s : State n C) (p : ℕ), p < g.size → s.pos = p + 1 → s.pc w = .dofs p (g.dofs p) →
    (∀ e, p ≤ e → e < p + d → ∀ i ∈ g.dofs e, g.constraint e i = none) → p + d < g.size →
    (∃ i ∈ g.dofs (p + d), (g.constraint (p + d) i).isSome = true) →
    ∃ k s' i c r, exec g s (List.replicate k w) = some s' ∧ s'.pos = p + d + 1 ∧
      s'.pc = Function.update s.pc w (.dofs (p + d) (i :: r)) ∧ g.constraint (p + d) i = some c := by
  induction d with
  | zero =>
    intro s p hp hpos hpc _ _ hex
    obtain ⟨k, s', i, c, r, h1, h2, h3, h4⟩ := reach_dof w p (g.dofs p) s hpc hex
    exact ⟨k, s', i, c, r, h1, by rw [h2, hpos], h3, h4⟩
  | succ d ih =>
    intro s p hp hpos hpc hnone hlt hex
    obtain ⟨k, s', h1, h2, h3⟩ := skip_dofs w p (g.dofs p) s hpc fun i hi => hnone p le_rfl (by omega) i hi
    have hne : ¬p + 1 = g.size := by omega
    have e1 : enter g s.pos = .dofs (p + 1) (g.dofs (p + 1)) := by simp [enter, isFinished, hpos, hne]
    have e2 : s'.pos = p + 1 + 1 := by rw [h2, hpos]; simp [bump, hne]
    rw [e1] at h3
    have ha : p + 1 + d = p + (d + 1) := by omega
    obtain ⟨k', s'', i, c, r, k1, k2, k3, k4⟩ := ih s' (p + 1) (by omega) e2 (by rw [h3, Function.update_self])
      (fun e he he' => hnone e (by omega) (by omega)) (by omega) (by rw [ha]; exact hex)
    rw [ha] at k2 k3 k4
    refine ⟨k + k', s'', i, c, r, ?_, k2, ?_, k4⟩
    · rw [List.replicate_add, exec_append, h1]; exact k1
    · rw [k3, h3, Function.update_idem]

/-- A thread which has not started yet does so. -/
theorem reach_start (w : Fin n) (s : State n C) (hpc : s.pc w = .start) (d : ℕ)
    (hnone : ∀ e, s.pos ≤ e → e < s.pos + d → ∀ i ∈ g.dofs e, g.constraint e i = none) (hlt : s.pos + d < g.size)
    (hex : ∃ i ∈ g.dofs (s.pos + d), (g.constraint (s.pos + d) i).isSome = true) :
    ∃ k s' i c r, exec g s (List.replicate k w) = some s' ∧ s'.pos = s.pos + d + 1 ∧
      s'.pc = Function.update s.pc w (.dofs (s.pos + d) (i :: r)) ∧ g.constraint (s.pos + d) i = some c := by
  have hne : ¬s.pos = g.size := by omega
  have hs : step g s w = some { s with pos := s.pos + 1, pc := Function.update s.pc w (.dofs s.pos (g.dofs s.pos)) } := by
    simp [step, hpc, enter, isFinished, bump, hne]
  obtain ⟨k, s', i, c, r, h1, h2, h3, h4⟩ := reach_elem w d
    { s with pos := s.pos + 1, pc := Function.update s.pc w (.dofs s.pos (g.dofs s.pos)) } s.pos (by omega) rfl (Function.update_self _ _ _)
    hnone hlt hex
  refine ⟨k + 1, s', i, c, r, ?_, h2, ?_, h4⟩
  · rw [List.replicate_succ, exec, hs]; exact h1
  · rw [h3, Function.update_idem]

end Verif.ConstraintMap
