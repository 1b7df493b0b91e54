import Verif.Flows.Model
import Mathlib.Data.List.Nodup

/-
Writes to tables.
-/

set_option autoImplicit false
set_option linter.unusedSectionVars false

namespace Verif.Flows

variable {V C : Type}

/-- The flow in the table -/
def flowAt (t : List (List (Entry V))) (i k : ℕ) : Option V := (t[i]?).bind fun r => (r[k]?).map (·.flow)

/-- The identifiers in the table -/
def faces (t : List (List (Entry V))) : List (List (ℤ × ℕ)) := t.map fun r => r.map fun e => (e.faceId, e.nncId)

theorem flowAt_isSome_faces {t t' : List (List (Entry V))} (h : faces t = faces t') (i k : ℕ) :
    (flowAt t i k).isSome = (flowAt t' i k).isSome := by
  have key : ∀ t : List (List (Entry V)), (flowAt t i k).isSome = (((faces t)[i]?).bind (·[k]?)).isSome := by
    intro t
    unfold flowAt faces
    rw [List.getElem?_map]
    cases t[i]? with
    | none => rfl
    | some r =>
      simp only [Option.bind_some, Option.map_some, List.getElem?_map, Option.isSome_map]
  rw [key t, key t', h]

theorem write_spec (t : List (List (Entry V))) (w : ℕ × ℕ × V) (h : (flowAt t w.1 w.2.1).isSome) :
    ∃ t', write t w = some t' ∧ faces t' = faces t ∧ flowAt t' w.1 w.2.1 = some w.2.2 ∧
      ∀ i k, (i, k) ≠ (w.1, w.2.1) → flowAt t' i k = flowAt t i k := by
  unfold flowAt at h
  cases hr : t[w.1]? with
  | none => rw [hr] at h; cases h
  | some r =>
    rw [hr] at h
    cases he : r[w.2.1]? with
    | none => simp [he] at h
    | some e =>
      have hi : w.1 < t.length := (List.getElem?_eq_some_iff.1 hr).1
      have hk : w.2.1 < r.length := (List.getElem?_eq_some_iff.1 he).1
      refine ⟨t.set w.1 (r.set w.2.1 { e with flow := w.2.2 }), by simp [write, hr, he], ?_, ?_, ?_⟩
      · unfold faces
        apply List.ext_getElem?
        intro i
        rw [List.getElem?_map, List.getElem?_map, List.getElem?_set]
        split_ifs with h1
        · subst h1
          rw [hr, Option.map_some, Option.map_some]
          congr 1
          apply List.ext_getElem?
          intro k
          rw [List.getElem?_map, List.getElem?_map, List.getElem?_set]
          split_ifs with h2
          · subst h2; rw [he]; rfl
          · rfl
        · rfl
      · simp [flowAt, List.getElem?_set, hi, hk]
      · intro i k hne
        unfold flowAt
        rw [List.getElem?_set]
        split_ifs with h1
        · subst h1
          rw [hr, Option.bind_some, Option.bind_some, List.getElem?_set]
          split_ifs with h2
          · exact absurd (by rw [← h2]) hne
          · rfl
        · rfl

/-- Writes to different places succeed in any order, and each of them takes effect. -/
theorem writes_spec (ws : List (ℕ × ℕ × V)) (t : List (List (Entry V))) (hin : ∀ w ∈ ws, (flowAt t w.1 w.2.1).isSome)
    (hd : (ws.map fun w => (w.1, w.2.1)).Nodup) :
    ∃ t', ws.foldlM write t = some t' ∧ faces t' = faces t ∧ (∀ w ∈ ws, flowAt t' w.1 w.2.1 = some w.2.2) ∧
      ∀ i k, (∀ w ∈ ws, (i, k) ≠ (w.1, w.2.1)) → flowAt t' i k = flowAt t i k := by
  induction ws generalizing t with
  | nil => exact ⟨t, rfl, rfl, by simp, by simp⟩
  | cons a ws ih =>
    rw [List.map_cons, List.nodup_cons] at hd
    obtain ⟨t1, h1, h2, h3, h4⟩ := write_spec t a (hin a (List.mem_cons_self ..))
    obtain ⟨t2, g1, g2, g3, g4⟩ := ih t1 (fun w hw => by
      rw [flowAt_isSome_faces h2]
      exact hin w (List.mem_cons_of_mem _ hw)) hd.2
    refine ⟨t2, ?_, g2.trans h2, ?_, ?_⟩
    · rw [List.foldlM_cons, h1]
      exact g1
    · intro w hw
      rcases List.mem_cons.1 hw with rfl | hw
      · rw [g4 _ _ fun w' hw' he => hd.1 (List.mem_map.2 ⟨w', hw', he.symm⟩), h3]
      · exact g3 w hw
    · intro i k hne
      rw [g4 i k fun w hw => hne w (List.mem_cons_of_mem _ hw), h4 i k (hne a (List.mem_cons_self ..))]

/-! ### What is written -/

theorem allCellWrites_spec (nbInfo : List (List (ℕ × C))) (fluxVal : ℕ → ℕ × C → V) (n : ℕ) (hn : n ≤ nbInfo.length) :
    ∃ l, allCellWrites nbInfo fluxVal n = some l ∧
      (∀ w, w ∈ l ↔ w.1 < n ∧ ∃ r e, nbInfo[w.1]? = some r ∧ r[w.2.1]? = some e ∧ w.2.2 = fluxVal w.1 e) ∧
      (l.map fun w => (w.1, w.2.1)).Nodup := by
  induction n with
  | zero => exact ⟨[], rfl, by simp, by simp⟩
  | succ n ih =>
    obtain ⟨l, h1, h2, h3⟩ := ih (by omega)
    have hr : nbInfo[n]? = some nbInfo[n] := List.getElem?_eq_getElem (by omega)
    have hc : cellWrites nbInfo fluxVal n = some (nbInfo[n].zipIdx.map fun e => (n, e.2, fluxVal n e.1)) := by
      rw [cellWrites, hr]; rfl
    refine ⟨l ++ nbInfo[n].zipIdx.map fun e => (n, e.2, fluxVal n e.1), by rw [allCellWrites, h1, hc], ?_, ?_⟩
    · intro w
      rw [List.mem_append, h2]
      constructor
      · rintro (⟨a, b⟩ | hw)
        · exact ⟨by omega, b⟩
        · obtain ⟨⟨e, k⟩, he, rfl⟩ := List.mem_map.1 hw
          exact ⟨Nat.lt_succ_self n, nbInfo[n], e, hr, List.mem_zipIdx_iff_getElem?.1 he, rfl⟩
      · rintro ⟨a, r, e, b1, b2, b3⟩
        rcases Nat.lt_succ_iff_lt_or_eq.1 a with hlt | heq
        · exact Or.inl ⟨hlt, r, e, b1, b2, b3⟩
        · right
          rw [heq, hr, Option.some.injEq] at b1
          subst b1
          refine List.mem_map.2 ⟨(e, w.2.1), List.mem_zipIdx_iff_getElem?.2 b2, ?_⟩
          obtain ⟨w1, w2, w3⟩ := w
          simp only at heq b3
          subst heq
          rw [b3]
    · rw [List.map_append, List.nodup_append]
      refine ⟨h3, ?_, ?_⟩
      · rw [List.map_map]
        have hnd : ((nbInfo[n].zipIdx).map Prod.snd).Nodup := by
          rw [List.zipIdx_map_snd]
          exact List.nodup_range'
        have : ((nbInfo[n].zipIdx).map ((fun w : ℕ × ℕ × V => (w.1, w.2.1)) ∘ fun e => (n, e.2, fluxVal n e.1))) =
            ((nbInfo[n].zipIdx).map Prod.snd).map fun k => (n, k) := by
          rw [List.map_map]
          rfl
        rw [this]
        exact hnd.map fun a b hab => (Prod.mk.inj hab).2
      · intro a ha b hb hab
        subst hab
        obtain ⟨w, hw, rfl⟩ := List.mem_map.1 ha
        obtain ⟨w', hw', he⟩ := List.mem_map.1 hb
        obtain ⟨e, -, rfl⟩ := List.mem_map.1 hw'
        have h5 := ((h2 w).1 hw).1
        have h6 : n = w.1 := (Prod.mk.inj he).1
        omega

/-! ### What is created -/

theorem interiorEntries_length [Zero V] (b : Labels C) (i : ℕ) (l : List (ℕ × C)) (n : ℕ) :
    (interiorEntries (V := V) b i l n).1.length = l.length := by
  induction l generalizing n with
  | nil => rfl
  | cons e l ih => simp [interiorEntries, ih]

theorem interiorEntries_flow [Zero V] (b : Labels C) (i : ℕ) (l : List (ℕ × C)) (n : ℕ) :
    ∀ x ∈ (interiorEntries (V := V) b i l n).1, x.flow = 0 := by
  induction l generalizing n with
  | nil => simp [interiorEntries]
  | cons e l ih =>
    intro x hx
    rw [interiorEntries] at hx
    rcases List.mem_cons.1 hx with rfl | hx
    · rfl
    · exact ih _ x hx

theorem interiorEntries_face [Zero V] (b : Labels C) (i : ℕ) (l : List (ℕ × C)) (n k : ℕ) (e : ℕ × C) (he : l[k]? = some e) :
    ∃ m x, (interiorEntries (V := V) b i l n).1[k]? = some x ∧
      (x.faceId, x.nncId) = faceOf (b.range (b.cart i)) (b.cart e.1) (b.dirId e.2) m := by
  induction l generalizing n k with
  | nil => simp at he
  | cons a l ih =>
    rw [interiorEntries]
    cases k with
    | zero =>
      simp only [List.getElem?_cons_zero, Option.some.injEq] at he
      subst he
      exact ⟨n, _, rfl, rfl⟩
    | succ k =>
      rw [List.getElem?_cons_succ] at he
      exact ih _ k he

theorem rows_get [Zero V] (b : Labels C) (elems : List (Elem C)) (n i : ℕ) (e : Elem C) (he : elems[i]? = some e) :
    ∃ m, (rows (V := V) b elems n)[i]? = some (row b e m).1 := by
  induction elems generalizing n i with
  | nil => simp at he
  | cons a l ih =>
    rw [rows]
    cases i with
    | zero =>
      simp only [List.getElem?_cons_zero, Option.some.injEq] at he
      subst he
      exact ⟨n, rfl⟩
    | succ i =>
      rw [List.getElem?_cons_succ] at he
      exact ih _ i he

theorem faceOf_spec (range : List (ℕ × ℕ)) (cartJ : ℕ) (dirId : ℤ) (n : ℕ) :
    ((∃ it ∈ range, it.1 = cartJ) → (faceOf range cartJ dirId n).1 = -2 ∧ (cartJ, (faceOf range cartJ dirId n).2) ∈ range) ∧
      ((¬∃ it ∈ range, it.1 = cartJ) → (faceOf range cartJ dirId n).1 = dirId) := by
  have key : ∀ (l : List (ℕ × ℕ)) (a : ℤ × ℕ), (∀ it ∈ l, it ∈ range) →
      ((∃ it ∈ l, it.1 = cartJ) ∨ (a.1 = -2 ∧ (cartJ, a.2) ∈ range) →
        (l.foldl (fun a it => if it.1 = cartJ then (-2, it.2) else a) a).1 = -2 ∧
          (cartJ, (l.foldl (fun a it => if it.1 = cartJ then (-2, it.2) else a) a).2) ∈ range) ∧
      ((¬∃ it ∈ l, it.1 = cartJ) → l.foldl (fun a it => if it.1 = cartJ then (-2, it.2) else a) a = a) := by
    intro l
    induction l with
    | nil => intro a _; simp
    | cons x l ih =>
      intro a hl
      rw [List.foldl_cons]
      by_cases hx : x.1 = cartJ
      · rw [if_pos hx]
        refine ⟨fun _ => (ih (-2, x.2) fun it hit => hl it (List.mem_cons_of_mem _ hit)).1 (Or.inr ⟨rfl, ?_⟩), fun hn =>
          absurd ⟨x, List.mem_cons_self .., hx⟩ hn⟩
        show (cartJ, x.2) ∈ range
        rw [← hx]
        exact hl x (List.mem_cons_self ..)
      · rw [if_neg hx]
        obtain ⟨h1, h2⟩ := ih a fun it hit => hl it (List.mem_cons_of_mem _ hit)
        refine ⟨fun h => h1 ?_, fun h => h2 fun ⟨it, hit, hi⟩ => h ⟨it, List.mem_cons_of_mem _ hit, hi⟩⟩
        rcases h with ⟨it, hit, hi⟩ | h
        · rcases List.mem_cons.1 hit with rfl | hit
          · exact absurd hi hx
          · exact Or.inl ⟨it, hit, hi⟩
        · exact Or.inr h
  obtain ⟨h1, h2⟩ := key range (dirId, n) fun _ h => h
  exact ⟨fun h => h1 (Or.inl h), fun h => by rw [faceOf, h2 h]⟩

end Verif.Flows
