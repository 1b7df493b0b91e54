import Verif.Setup.Model
import Verif.MpiUtil.Props
import Mathlib.Data.List.OfFn
import Mathlib.Tactic.Common
import Mathlib.Tactic.FinCases
import Mathlib.Data.Fintype.Basic

/-
Theorems about setting up the simulator on all processes.
-/

set_option autoImplicit false

namespace Verif.Setup

open MpiUtil

variable {P : ℕ} {m : Packing} {asserts : Bool}

/-! ### Lemmas -/

theorem flags_map (l : List ℕ) : flags (l.map .max) = some l := by
  induction l with
  | nil => rfl
  | cons a l ih => simp [flags, ih]

theorem texts_map (l : List (List Byte)) : texts (l.map .gather) = some l := by
  induction l with
  | nil => rfl
  | cons a l ih => simp [texts, ih]

theorem others_map {α : Type} (n : ℕ) (l : List α) : others n (l.map fun _ => .other n) = true := by
  induction l with
  | nil => rfl
  | cons a l ih => rw [List.map_cons, others, ih, Bool.and_true, beq_self_eq_true]

theorem ofFn_map {α β : Type} (f : Fin P → α) (g : α → β) : (List.ofFn fun p => g (f p)) = (List.ofFn f).map g := by
  rw [List.map_ofFn]; rfl

theorem answer_other (n : ℕ) : answer m asserts (fun _ : Fin (P + 1) => .other n) = some .other := by
  unfold answer
  rw [List.ofFn_succ]
  simp only
  rw [ofFn_map (fun _ : Fin P => ()) (fun _ => Call.other n), others_map, if_pos rfl]

theorem answer_max (f : Fin (P + 1) → ℕ) :
    answer m asserts (fun p => .max (f p)) = some (.max ((List.ofFn fun p : Fin P => f p.succ).foldl Nat.max (f 0))) := by
  unfold answer
  rw [List.ofFn_succ]
  simp only
  rw [ofFn_map (fun p : Fin P => f p.succ) Call.max, flags_map, Option.map_some]

theorem answer_gather (t : Fin (P + 1) → List Byte) :
    answer m asserts (fun p => .gather (t p)) = some (.gather (gatherStrings m asserts (List.ofFn t))) := by
  unfold answer
  rw [List.ofFn_succ]
  simp only
  rw [ofFn_map (fun p : Fin P => t p.succ) Call.gather, texts_map, Option.map_some, ← List.ofFn_succ]

theorem foldl_max_zero (l : List ℕ) (a : ℕ) : l.foldl Nat.max a = 0 ↔ a = 0 ∧ ∀ x ∈ l, x = 0 := by
  induction l generalizing a with
  | nil => simp
  | cons x l ih =>
    rw [List.foldl_cons, ih]
    have : Nat.max a x = 0 ↔ a = 0 ∧ x = 0 := by
      show max a x = 0 ↔ _
      omega
    rw [this]
    simp [and_assoc]

theorem max_zero_iff (f : Fin (P + 1) → ℕ) :
    (List.ofFn fun p : Fin P => f p.succ).foldl Nat.max (f 0) = 0 ↔ ∀ p, f p = 0 := by
  rw [foldl_max_zero]
  simp only [List.mem_ofFn, forall_exists_index, forall_apply_eq_imp_iff]
  exact ⟨fun h p => Fin.cases h.1 h.2 p, fun h => ⟨h 0, fun p => h _⟩⟩

/-- The end is determined. -/
theorem Ends.unique {s : Fin (P + 1) → Process} {r r' : Option (Fin (P + 1) → Outcome)} (h : Ends m asserts s r)
    (h' : Ends m asserts s r') : r = r' := by
  induction h generalizing r' with
  | done o =>
    generalize hs : (fun p => Process.done (o p)) = s at h'
    cases h' with
    | done o' =>
      congr 1
      funext p
      have := congrFun hs p
      injection this
    | together c next a r ha hr => exact absurd (congrFun hs 0) (by simp)
    | differ c next ha => exact absurd (congrFun hs 0) (by simp)
    | missing s p q o' c next hp hq => rw [← hs] at hq; exact absurd hq (by simp)
  | together c next a r ha hr ih =>
    generalize hs : (fun p => Process.call (c p) (next p)) = s at h'
    cases h' with
    | done o' => exact absurd (congrFun hs 0) (by simp)
    | together c' next' a' r' ha' hr' =>
      have hc : c = c' := funext fun p => (Process.call.inj (congrFun hs p)).1
      have hn : next = next' := funext fun p => (Process.call.inj (congrFun hs p)).2
      subst hc hn
      rw [ha] at ha'
      injection ha' with ha'
      subst ha'
      exact ih hr'
    | differ c' next' ha' =>
      have hc : c = c' := funext fun p => (Process.call.inj (congrFun hs p)).1
      subst hc
      rw [ha] at ha'
      exact absurd ha' (by simp)
    | missing s p q o' c' next' hp hq => rw [← hs] at hp; exact absurd hp (by simp)
  | differ c next ha =>
    generalize hs : (fun p => Process.call (c p) (next p)) = s at h'
    cases h' with
    | done o' => exact absurd (congrFun hs 0) (by simp)
    | together c' next' a' r' ha' hr' =>
      have hc : c = c' := funext fun p => (Process.call.inj (congrFun hs p)).1
      subst hc
      rw [ha] at ha'
      exact absurd ha' (by simp)
    | differ c' next' ha' => rfl
    | missing s p q o' c' next' hp hq => rfl
  | missing s p q o c next hp hq =>
    cases h' with
    | done o' => exact absurd hq (by simp)
    | together c' next' a' r' ha' hr' => exact absurd hp (by simp)
    | differ c' next' ha' => rfl
    | missing s p q o' c' next' hp hq => rfl

theorem ends_calls (l : List ℕ) (next : Fin (P + 1) → Process) (r : Option (Fin (P + 1) → Outcome)) (h : Ends m asserts next r) :
    Ends m asserts (fun p => calls l (next p)) r := by
  induction l with
  | nil => exact h
  | cons n l ih => exact Ends.together (fun _ => .other n) (fun p _ => calls l (next p)) .other r (answer_other n) ih

/-- Nothing has happened: all go on. -/
theorem ends_check (pref : Fin (P + 1) → List Byte) (what : Fin (P + 1) → List Byte) (next : Fin (P + 1) → Process)
    (r : Option (Fin (P + 1) → Outcome)) (h : Ends m asserts next r) :
    Ends m asserts (fun p => checkParallelException (pref p) 0 (what p) (next p)) r := by
  have ha : answer m asserts (fun _ : Fin (P + 1) => .max 0) = some (.max 0) := by
    rw [answer_max (fun _ => 0), (max_zero_iff (fun _ => 0)).2 fun _ => rfl]
  exact Ends.together _ _ (.max 0) r ha h

/-- Some process has thrown: all do. -/
theorem ends_throw (pref : List Byte) (flag : Fin (P + 1) → ℕ) (what : Fin (P + 1) → List Byte) (next : Fin (P + 1) → Process)
    (hflag : ∃ p, flag p ≠ 0) :
    Ends m asserts (fun p => checkParallelException pref (flag p) (what p) (next p))
      (some fun _ => throwFirst pref (gatherStrings m asserts (List.ofFn what))) := by
  obtain ⟨k, hk⟩ : ∃ k, (List.ofFn fun p : Fin P => flag p.succ).foldl Nat.max (flag 0) = k + 1 := by
    refine Nat.exists_eq_succ_of_ne_zero fun e => ?_
    obtain ⟨p, hp⟩ := hflag
    exact hp ((max_zero_iff flag).1 e p)
  have ha := answer_max (m := m) (asserts := asserts) flag
  rw [hk] at ha
  refine Ends.together _ _ (.max (k + 1)) _ ha ?_
  refine Ends.together (fun p => .gather (what p)) _ _ _ (answer_gather what) ?_
  exact Ends.done fun _ => throwFirst pref (gatherStrings m asserts (List.ofFn what))

/-- The texts which the processes give to `gatherStrings` after a step -/
def textsOf (size : ℕ) (step : Fin (P + 1) → Step) (p : Fin (P + 1)) : List Byte :=
  match (step p).ending with
  | .std text => kept size p text
  | _ => []

/-- A step which ends normally or with exceptions which are caught -/
theorem ends_step {size : ℕ} (pref : List Byte) (step : Fin (P + 1) → Step) (rest : Fin (P + 1) → List (List Byte × Step))
    (hcalls : ∀ p q, (step p).calls = (step q).calls) (hf : ∀ p, (step p).ending ≠ .foreign) (what : Fin (P + 1) → List Byte)
    (hwhat : ∀ p, what p = []) :
    ((∀ p, (step p).ending = .normal) → ∀ r, Ends m asserts (fun p => steps size p (rest p) 0 []) r →
        Ends m asserts (fun p => steps size p ((pref, step p) :: rest p) 0 (what p)) r) ∧
      ((∃ p, (step p).ending ≠ .normal) → Ends m asserts (fun p => steps size p ((pref, step p) :: rest p) 0 (what p))
        (some fun _ => throwFirst pref (gatherStrings m asserts (List.ofFn (textsOf size step))))) := by
  have hw : what = fun _ => [] := funext hwhat
  subst hw
  have hc : ∀ p, (step p).calls = (step 0).calls := fun p => hcalls p 0
  constructor
  · intro hn r hr
    simp only [steps, hc, hn]
    exact ends_calls _ _ _ (ends_check (fun _ => pref) (fun _ => []) _ r hr)
  · intro hex
    set flag : Fin (P + 1) → ℕ := fun p => match (step p).ending with | .normal => 0 | _ => 1 with hflag
    have e : ∀ p : Fin (P + 1), steps size p ((pref, step p) :: rest p) 0 [] = calls (step 0).calls
        (checkParallelException pref (flag p) (textsOf size step p) (steps size p (rest p) (flag p) (textsOf size step p))) := by
      intro p
      simp only [steps, hc, hflag, textsOf]
      cases he : (step p).ending with
      | normal => rfl
      | std text => rfl
      | foreign => exact absurd he (hf p)
    simp only [e]
    refine ends_calls _ _ _ (ends_throw pref flag _ _ ?_)
    obtain ⟨p, hp⟩ := hex
    refine ⟨p, ?_⟩
    simp only [hflag]
    cases he : (step p).ending with
    | normal => exact absurd he hp
    | std text => simp
    | foreign => simp

theorem kept_ne {size rank : ℕ} {what : List Byte} (h : size = 1 → what ≠ []) (hs : 0 < size) : kept size rank what ≠ [] := by
  unfold kept
  split_ifs with h1
  · simp [ascii]
  · exact h (by omega)

/-- The first text is that of the failing process of the lowest rank. -/
theorem throw_first (hm : Faithful m) (hc : 0 < m.sizeC) (he : asserts = true → Exact m) (pref : List Byte)
    (step : Fin (P + 1) → Step)
    (hsize : ((List.ofFn (textsOf (P + 1) step)).map fun s => m.sizeU + s.length * m.sizeC).sum ≤ 2 ^ 31 - 1)
    (hone : P = 0 → ∀ p text, (step p).ending = .std text → text ≠ []) {q : Fin (P + 1)} {text : List Byte}
    (hq : (step q).ending = .std text) (hlow : ∀ p < q, (step p).ending = .normal) :
    throwFirst pref (gatherStrings m asserts (List.ofFn (textsOf (P + 1) step))) = .threw (pref ++ kept (P + 1) q text) := by
  rw [C108_gather_partial m hm hc asserts he _ hsize]
  have hne : kept (P + 1) q text ≠ [] := kept_ne (fun h => hone (by omega) q text hq) (Nat.succ_pos P)
  have hfind : ((List.ofFn (textsOf (P + 1) step)).filter fun s => s ≠ []).head? = some (kept (P + 1) q text) := by
    rw [List.head?_filter, List.find?_eq_some_iff_getElem]
    refine ⟨by simpa using hne, q, by simp, ?_, ?_⟩
    · rw [List.getElem_ofFn]
      simp only [textsOf, Fin.eta, hq]
    · intro j hj
      rw [List.getElem_ofFn]
      have := hlow ⟨j, by omega⟩ hj
      simp only [textsOf, this]
      rfl
  revert hfind
  cases (List.ofFn (textsOf (P + 1) step)).filter fun s => s ≠ [] with
  | nil => intro h; exact absurd h (by simp)
  | cons a l =>
    intro h
    injection h with h
    simp only [throwFirst, h]

/-- The steps from any one on -/
theorem ends_steps (hm : Faithful m) (hc : 0 < m.sizeC) (he : asserts = true → Exact m) (step : Fin (P + 1) → ℕ → Step)
    (l : List (List Byte × ℕ)) (hcalls : ∀ x ∈ l, ∀ p q, (step p x.2).calls = (step q x.2).calls)
    (hf : ∀ x ∈ l, ∀ p, (step p x.2).ending ≠ .foreign)
    (hsize : ∀ x ∈ l, ((List.ofFn (textsOf (P + 1) fun p => step p x.2)).map fun s => m.sizeU + s.length * m.sizeC).sum ≤ 2 ^ 31 - 1)
    (hone : P = 0 → ∀ x ∈ l, ∀ p text, (step p x.2).ending = .std text → text ≠ []) :
    ∃ o, Ends m asserts (fun p => steps (P + 1) p (l.map fun x => (x.1, step p x.2)) 0 []) (some fun _ => o) ∧
      ((∀ x ∈ l, ∀ p, (step p x.2).ending = .normal) → o = .ready) ∧
      ∀ j (hj : j < l.length), (∀ i (hi : i < j), ∀ p, (step p (l[i]).2).ending = .normal) → ∀ q text,
        (step q (l[j]).2).ending = .std text → (∀ p < q, (step p (l[j]).2).ending = .normal) →
          o = .threw ((l[j]).1 ++ kept (P + 1) q text) := by
  induction l with
  | nil => exact ⟨.ready, Ends.done fun _ => .ready, fun _ => rfl, fun j hj => absurd hj (by simp)⟩
  | cons x l ih =>
    obtain ⟨o, h1, h2, h3⟩ := ih (fun y hy => hcalls y (List.mem_cons_of_mem _ hy)) (fun y hy => hf y (List.mem_cons_of_mem _ hy))
      (fun y hy => hsize y (List.mem_cons_of_mem _ hy)) (fun h y hy => hone h y (List.mem_cons_of_mem _ hy))
    have hx : x ∈ x :: l := List.mem_cons_self
    obtain ⟨s1, s2⟩ := ends_step (m := m) (asserts := asserts) (size := P + 1) x.1 (fun p => step p x.2)
      (fun p => l.map fun x => (x.1, step p x.2)) (hcalls x hx) (hf x hx) (fun _ => []) fun _ => rfl
    by_cases hn : ∀ p, (step p x.2).ending = .normal
    · refine ⟨o, s1 hn _ h1, fun hall => h2 fun y hy => hall y (List.mem_cons_of_mem _ hy), ?_⟩
      intro j hj hbefore q text hq hlow
      cases j with
      | zero =>
        simp only [List.getElem_cons_zero] at hq
        rw [hn q] at hq
        exact absurd hq (by simp)
      | succ j =>
        simp only [List.getElem_cons_succ] at hq hlow ⊢
        exact h3 j (by simpa using hj) (fun i hi p => by simpa using hbefore (i + 1) (by omega) p) q text hq hlow
    · have hex : ∃ p, (step p x.2).ending ≠ .normal := not_forall.1 hn
      refine ⟨_, s2 hex, fun hall => absurd (hall x hx) hn, ?_⟩
      intro j hj hbefore q text hq hlow
      cases j with
      | zero => exact throw_first hm hc he x.1 (fun p => step p x.2) (hsize x hx) (fun h => hone h x hx) hq hlow
      | succ j => exact absurd (fun p => by simpa using hbefore 0 (Nat.succ_pos j) p) hn

/-! ### The theorems -/

/-- **C149** If all processes take part in the same collective operations in each step, and all exceptions are derived from
`std::exception`, the constructors of the simulator end in the same way on all processes, and in no other way: they return if no process
has thrown an exception in any of the six steps; otherwise all of them throw the same text, which is the prefix of the first step in which a
process has thrown, followed by the text of the process of the lowest rank which has, with this rank if there are several
processes.  The texts must be short enough for MPI, and not empty if there is one process. -/
theorem C149_agree_partial (hm : Faithful m) (hc : 0 < m.sizeC) (he : asserts = true → Exact m) (step : Fin (P + 1) → ℕ → Step)
    (hcalls : ∀ k < 6, ∀ p q, (step p k).calls = (step q k).calls) (hf : ∀ k < 6, ∀ p, (step p k).ending ≠ .foreign)
    (hsize : ∀ k < 6, ((List.ofFn (textsOf (P + 1) fun p => step p k)).map fun s => m.sizeU + s.length * m.sizeC).sum ≤ 2 ^ 31 - 1)
    (hone : P = 0 → ∀ k < 6, ∀ p text, (step p k).ending = .std text → text ≠ []) :
    ∃ o, (∀ r, Ends m asserts (fun p => construct (P + 1) p (step p)) r ↔ r = some fun _ => o) ∧
      ((∀ k < 6, ∀ p, (step p k).ending = .normal) → o = .ready) ∧
      ∀ k < 6, (∀ j < k, ∀ p, (step p j).ending = .normal) → ∀ q text, (step q k).ending = .std text →
        (∀ p < q, (step p k).ending = .normal) → ∀ pref, prefixes[k]? = some pref → o = .threw (pref ++ kept (P + 1) q text) := by
  have hlen : prefixes.zipIdx.length = 6 := rfl
  have hmem : ∀ x ∈ prefixes.zipIdx, x.2 < 6 := by
    intro x hx
    have := List.snd_lt_of_mem_zipIdx hx
    simpa [prefixes] using this
  obtain ⟨o, h1, h2, h3⟩ := ends_steps hm hc he step prefixes.zipIdx (fun x hx => hcalls _ (hmem x hx)) (fun x hx => hf _ (hmem x hx))
    (fun x hx => hsize _ (hmem x hx)) (fun h x hx => hone h _ (hmem x hx))
  refine ⟨o, fun r => ⟨fun h => h.unique h1, fun h => h ▸ h1⟩, fun hall => h2 fun x hx => hall _ (hmem x hx), ?_⟩
  intro k hk hbefore q text hq hlow pref hpref
  have hget : ∀ i (hi : i < prefixes.zipIdx.length), (prefixes.zipIdx[i]).2 = i := by
    intro i hi
    simp
  have e1 : (prefixes.zipIdx[k]'(by rw [hlen]; exact hk)).1 = pref := by
    rw [List.getElem_zipIdx]
    exact (List.getElem_eq_iff (h := by simpa [prefixes] using hk)).2 hpref
  have := h3 k (by rw [hlen]; exact hk) (fun i hi p => by rw [hget]; exact hbefore i hi p) q text (by rw [hget]; exact hq)
    (fun p hp => by rw [hget]; exact hlow p hp)
  rw [e1] at this
  exact this

/-- **C149** is false for an exception without a text on one process: the first of no texts is read. -/
theorem C149_silent_violated (hm : Faithful m) (hc : 0 < m.sizeC) (he : asserts = true → Exact m) (hu : m.sizeU ≤ 2 ^ 31 - 1) :
    ∃ step : Fin 1 → ℕ → Step, (∀ k < 6, ∀ p, (step p k).ending ≠ .foreign) ∧
      ∀ r, Ends m asserts (fun p : Fin 1 => construct 1 p (step p)) r ↔ r = some fun _ => .crashed := by
  refine ⟨fun _ k => ⟨[], if k = 0 then .std [] else .normal⟩, fun k _ _ => by show (if k = 0 then Ending.std [] else .normal) ≠ _; split_ifs <;> simp, ?_⟩
  have h : Ends m asserts (fun p : Fin 1 => construct 1 p fun k => ⟨[], if k = 0 then .std [] else .normal⟩)
      (some fun _ => .crashed) := by
    have := (ends_step (P := 0) (m := m) (asserts := asserts) (size := 1) (prefixes.headD []) (fun _ => ⟨[], .std []⟩)
      (fun _ => (prefixes.zipIdx.tail).map fun x => (x.1, ⟨[], if x.2 = 0 then .std [] else .normal⟩)) (fun _ _ => rfl)
      (fun _ => by simp) (fun _ => []) fun _ => rfl).2 ⟨0, by simp⟩
    have hg : gatherStrings m asserts (List.ofFn (textsOf 1 fun _ : Fin 1 => ⟨[], .std []⟩)) = some [] := by
      have e : List.ofFn (textsOf 1 fun _ : Fin 1 => ⟨[], .std []⟩) = [[]] := rfl
      rw [e, C108_gather_partial m hm hc asserts he _ (by simpa using hu)]
      rfl
    rw [hg] at this
    exact this
  exact fun r => ⟨fun hr => hr.unique h, fun hr => hr ▸ h⟩

/-- **C149** is false for exceptions which are not derived from `std::exception`: the process which gets one leaves, and the others wait. -/
theorem C149_foreign_violated (step : Fin (P + 1) → ℕ → Step) (p q : Fin (P + 1)) (hp : (step p 0).calls = [])
    (hp' : (step p 0).ending = .foreign) (hq : (step q 0).ending ≠ .foreign) :
    ∀ r, Ends m asserts (fun p => construct (P + 1) p (step p)) r ↔ r = none := by
  have h : Ends m asserts (fun p => construct (P + 1) p (step p)) none := by
    have e : construct (P + 1) p (step p) = .done .passed := by
      show steps _ _ ((_, step p 0) :: _) 0 [] = _
      simp only [steps, hp, hp', calls]
    obtain ⟨c, next, e'⟩ : ∃ c next, construct (P + 1) q (step q) = .call c next := by
      show ∃ c next, steps _ _ ((_, step q 0) :: _) 0 [] = Process.call c next
      simp only [steps]
      cases (step q 0).calls with
      | cons n l => exact ⟨_, _, rfl⟩
      | nil =>
        cases he : (step q 0).ending with
        | normal => exact ⟨_, _, rfl⟩
        | std text => exact ⟨_, _, rfl⟩
        | foreign => exact absurd he hq
    exact Ends.missing _ p q _ c next e e'
  exact fun r => ⟨fun hr => hr.unique h, fun hr => hr ▸ h⟩

/-- **C149** is false if a process throws an exception in a step before a collective operation of this step, for instance while the model is
initialised: the reduction by which the process wants to tell the others meets their collective operation. -/
theorem C149_missed_violated (text : List Byte) :
    ∃ step : Fin 2 → ℕ → Step, (∀ k, k ≠ 4 → ∀ p, step p k = ⟨[], .normal⟩) ∧ step 0 4 = ⟨[], .std text⟩ ∧ step 1 4 = ⟨[0], .normal⟩ ∧
      ∀ r, Ends m asserts (fun p : Fin 2 => construct 2 p (step p)) r ↔ r = none := by
  let step : Fin 2 → ℕ → Step := fun p k => if k = 4 then (if p = 0 then ⟨[], .std text⟩ else ⟨[0], .normal⟩) else ⟨[], .normal⟩
  refine ⟨step, fun k hk p => if_neg hk, rfl, rfl, ?_⟩
  have h5 : Ends m asserts (fun p : Fin 2 => steps 2 p ((prefixes.zipIdx.drop 4).map fun x => (x.1, step p x.2)) 0 []) none := by
    let c : Fin 2 → Call := fun p => if p = 0 then .max 1 else .other 0
    have e : ∃ next : Fin 2 → Answer → Process,
        (fun p : Fin 2 => steps 2 p ((prefixes.zipIdx.drop 4).map fun x => (x.1, step p x.2)) 0 []) = fun p => .call (c p) (next p) := by
      have : ∀ p : Fin 2, ∃ next, steps 2 p ((prefixes.zipIdx.drop 4).map fun x => (x.1, step p x.2)) 0 [] = .call (c p) next := by
        intro p
        fin_cases p
        · exact ⟨_, rfl⟩
        · exact ⟨_, rfl⟩
      choose next hnext using this
      exact ⟨next, funext hnext⟩
    obtain ⟨next, e⟩ := e
    rw [e]
    exact Ends.differ c next rfl
  have one : ∀ k < 4, Ends m asserts (fun p : Fin 2 => steps 2 p ((prefixes.zipIdx.drop (k + 1)).map fun x => (x.1, step p x.2)) 0 []) none →
      Ends m asserts (fun p : Fin 2 => steps 2 p ((prefixes.zipIdx.drop k).map fun x => (x.1, step p x.2)) 0 []) none := by
    intro k hk h
    have e : prefixes.zipIdx.drop k = ((prefixes[k]?).getD [], k) :: prefixes.zipIdx.drop (k + 1) := by
      rcases k with _ | _ | _ | _ | k
      · rfl
      · rfl
      · rfl
      · rfl
      · omega
    have hs : ∀ p, step p k = ⟨[], .normal⟩ := fun p => if_neg (by omega)
    rw [e]
    exact (ends_step (P := 1) (m := m) (asserts := asserts) (size := 2) ((prefixes[k]?).getD []) (fun p => step p k)
      (fun p => (prefixes.zipIdx.drop (k + 1)).map fun x => (x.1, step p x.2)) (fun p q => by rw [hs p, hs q])
      (fun p => by rw [hs p]; simp) (fun _ => []) fun _ => rfl).1 (fun p => by rw [hs p]) none h
  have h : Ends m asserts (fun p : Fin 2 => construct 2 p (step p)) none :=
    one 0 (by decide) (one 1 (by decide) (one 2 (by decide) (one 3 (by decide) h5)))
  exact fun r => ⟨fun hr => hr.unique h, fun hr => hr ▸ h⟩

/-! ### The hypotheses are met -/

/-- Three processes, two of which cannot allocate their problem. -/
def threeSteps (p : Fin 3) (k : ℕ) : Step :=
  ⟨[k, k], if k = 3 ∧ p ≠ 0 then .std (ascii c!"no file") else .normal⟩

example : ∀ r, Ends littleEndian true (fun p : Fin 3 => construct 3 p (threeSteps p)) r ↔
    r = some fun _ => .threw (ascii c!"Could not allocate the problem: no file (on rank 1)") := by
  obtain ⟨o, h1, -, h3⟩ := C149_agree_partial (P := 2) (asserts := true) littleEndian_faithful.1 (by decide)
    (fun _ => littleEndian_faithful.2) threeSteps (fun _ _ _ _ => rfl)
    (fun k _ p => by simp only [threeSteps]; split_ifs <;> simp)
    (fun k hk => by
      have : ∀ p : Fin 3, (textsOf (P := 2) (2 + 1) (fun p => threeSteps p k) p).length ≤ 20 := by
        intro p
        by_cases h : k = 3 ∧ p ≠ 0
        · simp only [textsOf, threeSteps]
          rw [if_pos h]
          clear h
          revert p
          decide
        · simp only [textsOf, threeSteps]
          rw [if_neg h]
          exact Nat.zero_le _
      have h0 := this 0
      have h1 := this 1
      have h2 := this 2
      simp only [List.ofFn_succ, List.ofFn_zero, List.map_cons, List.map_nil, List.sum_cons, List.sum_nil, littleEndian]
      simp only [Fin.succ_zero_eq_one, Fin.isValue, Fin.succ_one_eq_two]
      omega)
    (fun h => absurd h (by decide))
  have := h3 3 (by decide) (fun j hj p => by simp only [threeSteps]; rw [if_neg]; rintro ⟨h, -⟩; omega) 1 (ascii c!"no file") rfl
    (fun p hp => by
      have : p = 0 := by
        revert p
        decide
      subst this
      rfl) _ rfl
  rw [this] at h1
  exact h1

end Verif.Setup
