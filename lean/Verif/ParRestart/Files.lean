import Verif.ParRestart.Spec
import Verif.RestartSim.Lemmas
import Verif.Restart.Props
import Verif.Names.Props

/-
Lemmas for C183: names and contents of the files.
-/

set_option autoImplicit false
set_option linter.unusedSectionVars false

namespace Verif.ParRestart

open Verif.TimeLoop Verif.Restart Verif.Names

theorem append_cons_inj {α : Type} {x : α} : ∀ {l l' a b : List α}, x ∉ l → x ∉ l' → l ++ x :: a = l' ++ x :: b → l = l' ∧ a = b
  | [], [], _, _, _, _, h => ⟨rfl, by simpa using h⟩
  | [], c :: l', _, _, _, h2, h => by
    simp only [List.nil_append, List.cons_append, List.cons.injEq] at h
    exact absurd (by simp [h.1]) h2
  | c :: l, [], _, _, h1, _, h => by
    simp only [List.nil_append, List.cons_append, List.cons.injEq] at h
    exact absurd (by simp [h.1]) h1
  | c :: l, c' :: l', a, b, h1, h2, h => by
    simp only [List.cons_append, List.cons.injEq] at h
    simp only [List.mem_cons, not_or] at h1 h2
    obtain ⟨e1, e2⟩ := append_cons_inj h1.2 h2.2 h.2
    exact ⟨by rw [h.1, e1], e2⟩

theorem digits_digit {n : ℕ} {c : Char} (h : c ∈ digits n) : c.isDigit = true := by
  unfold digits at h
  rw [Nat.repr, String.toList_ofList] at h
  exact Nat.isDigit_of_mem_toDigits (by omega) (by omega) h

theorem digits_not {n : ℕ} {c : Char} (hc : c.isDigit = false) : c ∉ digits n := fun h => by
  rw [digits_digit h] at hc
  exact absurd hc (by decide)

theorem magicCookie_line (a b c d e : ℕ) : '\n' ∉ magicCookie a b c d e := by
  have h : ∀ n, '\n' ∉ digits n := fun n => digits_not (by decide)
  simp only [magicCookie, List.mem_append, not_or]
  exact ⟨⟨⟨⟨⟨⟨⟨⟨⟨by decide, h a⟩, by decide⟩, h b⟩, by decide⟩, h c⟩, by decide⟩, h d⟩, by decide⟩, h e⟩

theorem magicCookie_inj {a b c d e a' b' c' d' e' : ℕ} (h : magicCookie a b c d e = magicCookie a' b' c' d' e') :
    a = a' ∧ b = b' ∧ c = c' ∧ d = d' ∧ e = e' := by
  have hd : ∀ n, ' ' ∉ digits n := fun n => digits_not (by decide)
  have key : ∀ {n n' : ℕ} {x l l' : List Char}, digits n ++ (' ' :: x ++ l) = digits n' ++ (' ' :: x ++ l') → n = n' ∧ l = l' := by
    intro n n' x l l' h
    simp only [List.cons_append] at h
    obtain ⟨h1, h2⟩ := append_cons_inj (hd _) (hd _) h
    exact ⟨digits_inj.1 h1, List.append_cancel_left h2⟩
  simp only [magicCookie, List.append_assoc] at h
  replace h := List.append_cancel_left h
  obtain ⟨h1, h⟩ := key h
  obtain ⟨h2, h⟩ := key h
  obtain ⟨h3, h⟩ := key h
  obtain ⟨h4, h⟩ := key h
  exact ⟨h1, h2, h3, h4, digits_inj.1 h⟩

theorem fileName_inj {dir name t t' : List Char} {p q : ℕ} (ht : '_' ∉ t) (ht' : '_' ∉ t') (h : fileName dir name t p = fileName dir name t' q) :
    t = t' ∧ p = q := by
  simp only [fileName, List.append_assoc] at h
  replace h := List.append_cancel_left h
  replace h := List.append_cancel_left h
  replace h := List.append_cancel_left h
  obtain ⟨h1, h2⟩ := append_cons_inj ht ht' h
  exact ⟨h1, digits_inj.1 (List.append_cancel_right (List.append_cancel_left (as := "rank=".toList) h2))⟩

theorem fileName_rank {dir name t : List Char} {p q : ℕ} (h : fileName dir name t p = fileName dir name t q) : p = q := by
  simp only [fileName, List.append_assoc] at h
  exact digits_inj.1 (List.append_cancel_right
    (List.append_cancel_left (List.append_cancel_left (List.append_cancel_left (List.append_cancel_left (List.append_cancel_left h)))))) 

variable {P m : ℕ} {K X : Type} [Field K] [LinearOrder K] [IsStrictOrderedRing K]

theorem writeAll_other (y : Setup P K) (c : Conf K (ParSim.St K (Fin (P + 1) → ℕ → Fin m → K) X)) {name : List Char}
    (h : ∀ p, name ≠ y.name c.sim.time p) : ∀ (order : List (Fin (P + 1))) (disk : Disk), writeAll y c disk order name = disk name
  | [], _ => rfl
  | q :: order, disk => by
    simp only [writeAll, List.foldl_cons]
    refine (writeAll_other y c h order _).trans ?_
    simp only [writeOne, Function.update_of_ne (h q)]

theorem writeAll_own (y : Setup P K) (c : Conf K (ParSim.St K (Fin (P + 1) → ℕ → Fin m → K) X)) (p : Fin (P + 1)) :
    ∀ (order : List (Fin (P + 1))) (disk : Disk),
      (p ∈ order ∨ disk (y.name c.sim.time p) = some (writeFile y.integer y.number (y.cookie p) c!"Entities: Codim 0" (save c.sim)
        (RestartSim.values (y.numElements p) (c.prob.sol0 p)))) →
      writeAll y c disk order (y.name c.sim.time p) = some (writeFile y.integer y.number (y.cookie p) c!"Entities: Codim 0" (save c.sim)
        (RestartSim.values (y.numElements p) (c.prob.sol0 p)))
  | [], _, h => h.resolve_left (by simp)
  | q :: order, disk, h => by
    simp only [writeAll, List.foldl_cons]
    refine writeAll_own y c p order _ ?_
    by_cases hq : p = q
    · subst hq
      exact .inr (by simp only [writeOne, Function.update_self])
    · rcases h with h | h
      · exact .inl ((List.mem_cons.1 h).resolve_left hq)
      · refine .inr ?_
        have : y.name c.sim.time p ≠ y.name c.sim.time q := fun e => hq (Fin.ext (fileName_rank e))
        simp only [writeOne, Function.update_of_ne this, h]

theorem readOne_ok (y : Setup P K) (hI : y.integer.Lawful) (hK : y.number.Lawful)
    (c : Conf K (ParSim.St K (Fin (P + 1) → ℕ → Fin m → K) X)) (disk : Disk) (order : List (Fin (P + 1))) (fresh : Sim K) (p : Fin (P + 1))
    (hp : p ∈ order) (s : ℕ → Fin m → K) : readOne y (writeAll y c disk order) c.sim.time fresh s p =
      .ok (save c.sim, RestartSim.values (y.numElements p) (c.prob.sol0 p)) := by
  unfold readOne
  rw [writeAll_own y c p order disk (.inl hp)]
  exact C58_file_round_trip hI hK _ _ (magicCookie_line _ _ _ _ _) (by decide) _ _ m _ _
    (by rw [RestartSim.values_length, RestartSim.values_length]) (RestartSim.values_width _ _) (RestartSim.values_width _ _)

theorem assign_below (n : ℕ) (s t : ℕ → Fin m → K) {i : ℕ} (h : i < n) : RestartSim.assign (RestartSim.values n s) t i = s i := by
  funext k
  simp [RestartSim.assign, RestartSim.values, h]

/-- What the processes have read -/
theorem restartAll_ok (y : Setup P K) (hI : y.integer.Lawful) (hK : y.number.Lawful)
    (c : Conf K (ParSim.St K (Fin (P + 1) → ℕ → Fin m → K) X)) (disk : Disk) (order : List (Fin (P + 1))) (hall : ∀ p, p ∈ order)
    (fresh : Sim K) (own : X) (mem : ParSim.Memory K) (s : Fin (P + 1) → ℕ → Fin m → K) :
    ∃ z : Fin (P + 1) → ℕ → Fin m → K, (∀ p i, i < y.numElements p → z p i = c.prob.sol0 p i) ∧
      restartAll y (writeAll y c disk order) c.sim.time fresh own mem s = some (restarted (save c.sim) fresh ⟨own, z, z, mem⟩) := by
  refine ⟨fun p => RestartSim.assign (RestartSim.values (y.numElements p) (c.prob.sol0 p)) (s p), fun p i hi => assign_below _ _ _ hi, ?_⟩
  have hr := fun p => readOne_ok y hI hK c disk order fresh p (hall p) (s p)
  unfold restartAll
  simp only [hr]
  exact if_pos fun _ => rfl

end Verif.ParRestart
