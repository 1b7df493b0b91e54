import Verif.Mpi.Model
import Mathlib.Order.WithBot
import Mathlib.Data.Finset.Max
import Mathlib.Data.Fintype.EquivFin
import Mathlib.Algebra.BigOperators.Group.Finset.Basic
import Mathlib.Algebra.Order.BigOperators.Group.Finset
import Mathlib.Tactic.Common

/-
A method to prove that programs which exchange messages neither deadlock nor depend on the schedule.

Every operation of the programs gets a number from a linear order, such that the numbers of each process increase, and a
message, which is the one it will send or receive.  If these annotations are consistent (`Good`), every reachable system
has a forced step or is finished, and the final states are those which the messages of the annotation give.
-/

set_option autoImplicit false
set_option linter.unusedSectionVars false

namespace Verif.Mpi

variable {I S M T : Type} [DecidableEq I] [LinearOrder T]

/-- An operation with its number and its message (which is not used for computations and waits). -/
structure Ann (I S M T : Type) where
  op : Op I S M
  time : T
  msg : M

/-- The sends to `q` in a program: whether they block, their numbers and messages. -/
def sendsTo (q : I) : List (Ann I S M T) → List (Bool × T × M)
  | [] => []
  | a :: r =>
    match a.op with
    | .isend dest _ => if dest = q then (false, a.time, a.msg) :: sendsTo q r else sendsTo q r
    | .send dest _ => if dest = q then (true, a.time, a.msg) :: sendsTo q r else sendsTo q r
    | _ => sendsTo q r

/-- The receives from `p` in a program: their numbers and messages. -/
def recvsFrom (p : I) : List (Ann I S M T) → List (T × M)
  | [] => []
  | a :: r =>
    match a.op with
    | .recv source _ => if source = p then (a.time, a.msg) :: recvsFrom p r else recvsFrom p r
    | _ => recvsFrom p r

/-- A process in the state `s` sends the messages of the annotation if it receives those of the annotation. -/
def Consistent : S → List (Ann I S M T) → Prop
  | _, [] => True
  | s, a :: r =>
    match a.op with
    | .compute f => Consistent (f s) r
    | .isend _ f => f s = a.msg ∧ Consistent s r
    | .send _ f => f s = a.msg ∧ Consistent s r
    | .recv _ g => Consistent (g a.msg s) r
    | .wait _ => Consistent s r

/-- The final state of a process which receives the messages of the annotation. -/
def result : S → List (Ann I S M T) → S
  | s, [] => s
  | s, a :: r =>
    match a.op with
    | .compute f => result (f s) r
    | .recv _ g => result (g a.msg s) r
    | _ => result s r

/-- A send (`Bool`: blocking) and its receive: the receive is not numbered before the send, and has the same number if the
send is blocking. -/
def Pair (x : Bool × T × M) (y : T × M) : Prop := x.2.1 ≤ y.1 ∧ (x.1 = true → x.2.1 = y.1)

/-- The waits for `q` in a program come after the receives they wait for: `c` messages are under way or have been sent before
in the program. -/
def WaitsOk (q : I) (recvs : List (T × M)) : ℕ → List (Ann I S M T) → Prop
  | _, [] => True
  | c, a :: r =>
    match a.op with
    | .isend dest _ => if dest = q then WaitsOk q recvs (c + 1) r else WaitsOk q recvs c r
    | .send dest _ => if dest = q then WaitsOk q recvs (c + 1) r else WaitsOk q recvs c r
    | .wait dest => (dest = q → ∀ y ∈ recvs.take c, y.1 < a.time) ∧ WaitsOk q recvs c r
    | _ => WaitsOk q recvs c r

/-- A process sends no messages to itself. -/
def NoSelf (p : I) (l : List (Ann I S M T)) : Prop := sendsTo p l = []

/-- The annotated programs are consistent with each other and with the messages under way. -/
structure Good (A : I → List (Ann I S M T)) (state : I → S) (chan : I → I → List M) : Prop where
  sorted : ∀ p, (A p).Pairwise (fun a b => a.time < b.time)
  consistent : ∀ p, Consistent (state p) (A p)
  messages : ∀ p q, chan p q ++ (sendsTo q (A p)).map (·.2.2) = (recvsFrom p (A q)).map (·.2)
  pairs : ∀ p q, List.Forall₂ Pair (sendsTo q (A p)) ((recvsFrom p (A q)).drop (chan p q).length)
  waits : ∀ p q, WaitsOk q (recvsFrom p (A q)) (chan p q).length (A p)
  noSelf : ∀ p, NoSelf p (A p)

/-- The system with the annotations removed. -/
def plain (A : I → List (Ann I S M T)) (state : I → S) (chan : I → I → List M) : System I S M :=
  { rest := fun p => (A p).map (·.op), state := state, chan := chan }

/-! ### Programs in several parts -/

/-- The entry of `sendsTo` for one operation. -/
def sendTo? (q : I) (a : Ann I S M T) : Option (Bool × T × M) :=
  match a.op with
  | .isend dest _ => if dest = q then some (false, a.time, a.msg) else none
  | .send dest _ => if dest = q then some (true, a.time, a.msg) else none
  | _ => none

/-- The entry of `recvsFrom` for one operation. -/
def recvFrom? (p : I) (a : Ann I S M T) : Option (T × M) :=
  match a.op with
  | .recv source _ => if source = p then some (a.time, a.msg) else none
  | _ => none

theorem sendsTo_eq (q : I) (l : List (Ann I S M T)) : sendsTo q l = l.filterMap (sendTo? q) := by
  induction l with
  | nil => rfl
  | cons a r ih =>
    rw [sendsTo, List.filterMap_cons, ← ih]
    unfold sendTo?
    cases a.op <;> simp <;> split_ifs <;> rfl

theorem recvsFrom_eq (p : I) (l : List (Ann I S M T)) : recvsFrom p l = l.filterMap (recvFrom? p) := by
  induction l with
  | nil => rfl
  | cons a r ih =>
    rw [recvsFrom, List.filterMap_cons, ← ih]
    unfold recvFrom?
    cases a.op <;> simp <;> split_ifs <;> rfl

theorem result_append (s : S) (l l' : List (Ann I S M T)) : result s (l ++ l') = result (result s l) l' := by
  induction l generalizing s with
  | nil => rfl
  | cons a r ih =>
    rw [List.cons_append, result, result]
    cases a.op <;> simp only <;> exact ih _

theorem consistent_append (s : S) (l l' : List (Ann I S M T)) :
    Consistent s (l ++ l') ↔ Consistent s l ∧ Consistent (result s l) l' := by
  induction l generalizing s with
  | nil => simp [Consistent, result]
  | cons a r ih =>
    rw [List.cons_append, Consistent, Consistent, result]
    cases a.op <;> simp only [ih, and_assoc]

/-- Programs without waits. -/
theorem waitsOk_of_no_waits (q : I) (recvs : List (T × M)) (c : ℕ) (l : List (Ann I S M T))
    (h : ∀ a ∈ l, ∀ d, a.op ≠ .wait d) : WaitsOk q recvs c l := by
  induction l generalizing c with
  | nil => trivial
  | cons a r ih =>
    have ih' := fun c => ih c (fun b hb => h b (List.mem_cons_of_mem _ hb))
    have ha := h a (by simp)
    rw [WaitsOk]
    split
    · split_ifs <;> exact ih' _
    · split_ifs <;> exact ih' _
    · rename_i d hd; exact absurd hd (ha d)
    · exact ih' _

theorem result_sends (s : S) (l : List (Ann I S M T)) (h : ∀ a ∈ l, ∃ q f, a.op = .send q f ∨ a.op = .isend q f) :
    result s l = s := by
  induction l generalizing s with
  | nil => rfl
  | cons a r ih =>
    obtain ⟨q, f, ha | ha⟩ := h a (by simp) <;> rw [result, ha] <;>
      exact ih _ (fun b hb => h b (List.mem_cons_of_mem _ hb))

theorem result_waits (s : S) (l : List (Ann I S M T)) (h : ∀ a ∈ l, ∃ q, a.op = .wait q) : result s l = s := by
  induction l generalizing s with
  | nil => rfl
  | cons a r ih =>
    obtain ⟨q, ha⟩ := h a (by simp)
    rw [result, ha]
    exact ih _ (fun b hb => h b (List.mem_cons_of_mem _ hb))

theorem consistent_sends (s : S) (l : List (Ann I S M T))
    (h : ∀ a ∈ l, ∃ q f, (a.op = .send q f ∨ a.op = .isend q f) ∧ f s = a.msg) : Consistent s l := by
  induction l generalizing s with
  | nil => trivial
  | cons a r ih =>
    obtain ⟨q, f, ha | ha, hm⟩ := h a (by simp) <;> rw [Consistent, ha] <;>
      exact ⟨hm, ih _ (fun b hb => h b (List.mem_cons_of_mem _ hb))⟩

theorem consistent_no_sends (s : S) (l : List (Ann I S M T))
    (h : ∀ a ∈ l, ∀ q f, a.op ≠ .send q f ∧ a.op ≠ .isend q f) : Consistent s l := by
  induction l generalizing s with
  | nil => trivial
  | cons a r ih =>
    have ih' := fun s => ih s (fun b hb => h b (List.mem_cons_of_mem _ hb))
    have ha := h a (by simp)
    rw [Consistent]
    split
    · exact ih' _
    · rename_i q f ho; exact absurd ho (ha q f).2
    · rename_i q f ho; exact absurd ho (ha q f).1
    · exact ih' _
    · exact ih' _

/-- Exactly one element of a list without duplicates contributes. -/
theorem flatMap_ite {α β : Type} [DecidableEq α] (l : List α) (h : l.Nodup) (x : α) (L : List β) :
    (l.flatMap fun y => if y = x then L else []) = if x ∈ l then L else [] := by
  induction l with
  | nil => simp
  | cons a r ih =>
    have h' := List.nodup_cons.1 h
    rw [List.flatMap_cons, ih h'.2]
    by_cases hax : a = x
    · subst hax; simp [h'.1]
    · simp [hax, Ne.symm hax]

/-! ### Numbers of the operations -/

theorem time_of_sendsTo {q : I} {l : List (Ann I S M T)} {x : Bool × T × M} (h : x ∈ sendsTo q l) :
    ∃ a ∈ l, a.time = x.2.1 ∧ a.msg = x.2.2 ∧
      ((x.1 = true ∧ ∃ f, a.op = .send q f) ∨ (x.1 = false ∧ ∃ f, a.op = .isend q f)) := by
  induction l with
  | nil => simp [sendsTo] at h
  | cons a r ih =>
    have lift : (∃ b ∈ r, b.time = x.2.1 ∧ b.msg = x.2.2 ∧
        ((x.1 = true ∧ ∃ f, b.op = .send q f) ∨ (x.1 = false ∧ ∃ f, b.op = .isend q f))) →
        ∃ b ∈ a :: r, b.time = x.2.1 ∧ b.msg = x.2.2 ∧
        ((x.1 = true ∧ ∃ f, b.op = .send q f) ∨ (x.1 = false ∧ ∃ f, b.op = .isend q f)) := by
      rintro ⟨b, hb, hh⟩; exact ⟨b, List.mem_cons_of_mem _ hb, hh⟩
    rw [sendsTo] at h
    split at h
    · rename_i dest f ho
      split at h
      · rename_i ht
        rcases List.mem_cons.1 h with h | h
        · subst h; subst ht
          exact ⟨a, by simp, rfl, rfl, Or.inr ⟨rfl, f, ho⟩⟩
        · exact lift (ih h)
      · exact lift (ih h)
    · rename_i dest f ho
      split at h
      · rename_i ht
        rcases List.mem_cons.1 h with h | h
        · subst h; subst ht
          exact ⟨a, by simp, rfl, rfl, Or.inl ⟨rfl, f, ho⟩⟩
        · exact lift (ih h)
      · exact lift (ih h)
    · exact lift (ih h)

theorem time_of_recvsFrom {p : I} {l : List (Ann I S M T)} {y : T × M} (h : y ∈ recvsFrom p l) :
    ∃ a ∈ l, a.time = y.1 ∧ a.msg = y.2 ∧ ∃ g, a.op = .recv p g := by
  induction l with
  | nil => simp [recvsFrom] at h
  | cons a r ih =>
    have lift : (∃ b ∈ r, b.time = y.1 ∧ b.msg = y.2 ∧ ∃ g, b.op = .recv p g) →
        ∃ b ∈ a :: r, b.time = y.1 ∧ b.msg = y.2 ∧ ∃ g, b.op = .recv p g := by
      rintro ⟨b, hb, hh⟩; exact ⟨b, List.mem_cons_of_mem _ hb, hh⟩
    rw [recvsFrom] at h
    split at h
    · rename_i so g ho
      split at h
      · rename_i ht
        rcases List.mem_cons.1 h with h | h
        · subst h; subst ht
          exact ⟨a, by simp, rfl, rfl, g, ho⟩
        · exact lift (ih h)
      · exact lift (ih h)
    · exact lift (ih h)

theorem head_le {l : List (Ann I S M T)} (hs : l.Pairwise (fun a b => a.time < b.time)) {a b : Ann I S M T}
    {r : List (Ann I S M T)} (h : l = a :: r) (hb : b ∈ l) : a.time ≤ b.time := by
  subst h
  rcases List.mem_cons.1 hb with rfl | hb
  · exact le_rfl
  · exact le_of_lt ((List.pairwise_cons.1 hs).1 b hb)

theorem eq_head {l : List (Ann I S M T)} (hs : l.Pairwise (fun a b => a.time < b.time)) {a b : Ann I S M T}
    {r : List (Ann I S M T)} (h : l = a :: r) (hb : b ∈ l) (ht : b.time ≤ a.time) : b = a := by
  subst h
  rcases List.mem_cons.1 hb with rfl | hb
  · rfl
  · exact absurd ((List.pairwise_cons.1 hs).1 b hb) (not_lt.2 ht)

/-- If somebody is not finished there is a process whose next operation has the smallest number. -/
theorem exists_first [Finite I] (A : I → List (Ann I S M T)) (h : ∃ p, A p ≠ []) :
    ∃ p a r, A p = a :: r ∧ ∀ q b s, A q = b :: s → a.time ≤ b.time := by
  classical
  have := Fintype.ofFinite I
  obtain ⟨p0, h0⟩ := h
  have hne : (Finset.univ.filter fun p => A p ≠ []).Nonempty := ⟨p0, by simp [h0]⟩
  obtain ⟨p, hp, hmin⟩ := Finset.exists_min_image (Finset.univ.filter fun p => A p ≠ [])
    (fun p => ((A p).head?.map (·.time)).elim (⊤ : WithTop T) (fun t => (t : WithTop T))) hne
  have hp' : A p ≠ [] := by simpa using hp
  obtain ⟨a, r, ha⟩ : ∃ a r, A p = a :: r := by
    cases hA : A p with
    | nil => exact absurd hA hp'
    | cons a r => exact ⟨a, r, rfl⟩
  refine ⟨p, a, r, ha, ?_⟩
  intro q b s hb
  have := hmin q (by simp [hb])
  simp only [ha, hb, List.head?_cons, Option.map_some, Option.elim_some] at this
  exact WithTop.coe_le_coe.1 this

/-! ### There is always a forced step -/

theorem progress [Finite I] (A : I → List (Ann I S M T)) (state : I → S) (chan : I → I → List M) (hg : Good A state chan)
    (h : ¬Finished (plain A state chan)) : ∃ t, Step true (plain A state chan) t := by
  have hne : ∃ p, A p ≠ [] := by
    by_contra hc
    push Not at hc
    exact h fun p => by simp [plain, hc p]
  obtain ⟨p, a, r, ha, hmin⟩ := exists_first A hne
  have rest_p : (plain A state chan).rest p = a.op :: r.map (·.op) := by simp [plain, ha]
  cases ho : a.op with
  | compute f => exact ⟨_, Step.compute _ p f (r.map (·.op)) (by rw [rest_p, ho])⟩
  | isend q f => exact ⟨_, Step.isend _ p q f (r.map (·.op)) (by rw [rest_p, ho])⟩
  | wait q =>
    have hc : chan p q = [] := by
      by_contra hc
      have hw := hg.waits p q
      rw [ha, WaitsOk] at hw
      simp only [ho] at hw
      have hm := congrArg List.length (hg.messages p q)
      simp only [List.length_append, List.length_map] at hm
      obtain ⟨m, c, hmc⟩ := List.exists_cons_of_ne_nil hc
      have hlen : 0 < (recvsFrom p (A q)).length := by rw [← hm, hmc]; simp
      obtain ⟨y, ys, hy⟩ := List.exists_cons_of_length_pos hlen
      have hmem : y ∈ (recvsFrom p (A q)).take (chan p q).length := by rw [hy, hmc]; simp
      have hlt := hw.1 trivial y hmem
      obtain ⟨b, hb, hbt, -, -⟩ := time_of_recvsFrom (p := p) (l := A q) (y := y) (by rw [hy]; simp)
      obtain ⟨b', s, hs⟩ := List.exists_cons_of_ne_nil (List.ne_nil_of_mem hb)
      have h1 := hmin q b' s hs
      have h2 := head_le (hg.sorted q) hs hb
      rw [hbt] at h2
      exact absurd hlt (not_lt.2 (le_trans h1 h2))
    exact ⟨_, Step.wait _ p q (r.map (·.op)) (by rw [rest_p, ho]) hc⟩
  | send q f =>
    -- the receive of this message is at the head of the program of the receiver
    have hne' : p ≠ q := by
      rintro rfl
      have := hg.noSelf p
      unfold NoSelf at this
      rw [ha, sendsTo] at this
      simp [ho] at this
    have hs1 : sendsTo q (A p) = (true, a.time, a.msg) :: sendsTo q r := by rw [ha, sendsTo]; simp [ho]
    have hp := hg.pairs p q
    rw [hs1] at hp
    obtain ⟨y, ys, hpair, -, hdrop⟩ := List.forall₂_cons_left_iff.1 hp
    have hc : chan p q = [] := by
      by_contra hc
      obtain ⟨m, c, hmc⟩ := List.exists_cons_of_ne_nil hc
      have hlen : 0 < (recvsFrom p (A q)).length := by
        have hm := congrArg List.length (hg.messages p q)
        simp only [List.length_append, List.length_map] at hm
        rw [← hm, hmc]; simp
      obtain ⟨z, zs, hz⟩ := List.exists_cons_of_length_pos hlen
      -- `z` is received before `y`
      have hsub : List.Sublist (recvsFrom p (A q)) (recvsFrom p (A q)) := List.Sublist.refl _
      have hsorted : (recvsFrom p (A q)).Pairwise (fun u v => u.1 < v.1) := by
        have : ∀ l : List (Ann I S M T), l.Pairwise (fun a b => a.time < b.time) →
            (recvsFrom p l).Pairwise (fun u v => u.1 < v.1) := by
          intro l
          induction l with
          | nil => intro _; simp [recvsFrom]
          | cons b l ih =>
            intro hl
            have hl' := List.pairwise_cons.1 hl
            rw [recvsFrom]
            split
            · split
              · refine List.pairwise_cons.2 ⟨?_, ih hl'.2⟩
                intro v hv
                obtain ⟨b', hb', ht', -⟩ := time_of_recvsFrom hv
                rw [← ht']; exact hl'.1 b' hb'
              · exact ih hl'.2
            · exact ih hl'.2
        exact this _ (hg.sorted q)
      have hylt : z.1 < y.1 := by
        rw [hz] at hsorted hdrop
        rw [hmc] at hdrop
        simp only [List.length_cons, List.drop_succ_cons] at hdrop
        have : y ∈ zs := List.mem_of_mem_drop (hdrop ▸ List.mem_cons_self)
        exact (List.pairwise_cons.1 hsorted).1 y this
      obtain ⟨b, hb, hbt, -, -⟩ := time_of_recvsFrom (p := p) (l := A q) (y := z) (by rw [hz]; simp)
      obtain ⟨b', s, hs⟩ := List.exists_cons_of_ne_nil (List.ne_nil_of_mem hb)
      have h1 := hmin q b' s hs
      have h2 := head_le (hg.sorted q) hs hb
      have h3 : a.time = y.1 := hpair.2 rfl
      rw [hbt] at h2
      rw [h3] at h1
      exact absurd hylt (not_lt.2 (le_trans h1 h2))
    rw [hc] at hdrop
    simp only [List.length_nil, List.drop_zero] at hdrop
    obtain ⟨b, hb, hbt, hbm, g, hbo⟩ := time_of_recvsFrom (p := p) (l := A q) (y := y) (by rw [hdrop]; simp)
    obtain ⟨b', s, hs⟩ := List.exists_cons_of_ne_nil (List.ne_nil_of_mem hb)
    have h3 : a.time = y.1 := hpair.2 rfl
    have hb' : b = b' := eq_head (hg.sorted q) hs hb (by rw [hbt, ← h3]; exact hmin q b' s hs)
    subst hb'
    refine ⟨_, Step.rendezvous _ p q f g (r.map (·.op)) (s.map (·.op)) hne' (by rw [rest_p, ho]) ?_ hc⟩
    simp [plain, hs, hbo]
  | recv q g =>
    cases hc : chan q p with
    | cons m c => exact ⟨_, Step.recv _ q p g (r.map (·.op)) m c (by rw [rest_p, ho]) hc⟩
    | nil =>
      have hr1 : recvsFrom q (A p) = (a.time, a.msg) :: recvsFrom q r := by rw [ha, recvsFrom]; simp [ho]
      have hp := hg.pairs q p
      rw [hc, hr1] at hp
      simp only [List.length_nil, List.drop_zero] at hp
      obtain ⟨x, xs, hpair, -, hx⟩ := List.forall₂_cons_right_iff.1 hp
      obtain ⟨b, hb, hbt, hbm, hbo⟩ := time_of_sendsTo (q := p) (l := A q) (x := x) (by rw [hx]; simp)
      obtain ⟨b', s, hs⟩ := List.exists_cons_of_ne_nil (List.ne_nil_of_mem hb)
      have hle : x.2.1 ≤ a.time := hpair.1
      have hb' : b = b' := eq_head (hg.sorted q) hs hb (by rw [hbt]; exact le_trans hle (hmin q b' s hs))
      subst hb'
      have rest_q : (plain A state chan).rest q = b.op :: s.map (·.op) := by simp [plain, hs]
      rcases hbo with ⟨-, f, hf⟩ | ⟨-, f, hf⟩
      · have hne' : q ≠ p := by
          rintro rfl
          have := hg.noSelf q
          unfold NoSelf at this
          rw [hx] at this
          simp at this
        exact ⟨_, Step.rendezvous _ q p f g (s.map (·.op)) (r.map (·.op)) hne' (by rw [rest_q, hf]) (by rw [rest_p, ho]) hc⟩
      · exact ⟨_, Step.isend _ q p f (s.map (·.op)) (by rw [rest_q, hf])⟩

/-! ### Steps keep the annotations consistent -/

theorem sorted_tail {l : List (Ann I S M T)} {a : Ann I S M T} {r : List (Ann I S M T)}
    (hs : l.Pairwise (fun a b => a.time < b.time)) (h : l = a :: r) : r.Pairwise (fun a b => a.time < b.time) := by
  subst h; exact (List.pairwise_cons.1 hs).2

/-- An update of the programs which leaves what is sent and received unchanged. -/
theorem good_silent {A : I → List (Ann I S M T)} {state : I → S} {chan : I → I → List M} (hg : Good A state chan)
    {p : I} {a : Ann I S M T} {r : List (Ann I S M T)} (ha : A p = a :: r) (s : S)
    (hs : ∀ q, sendsTo q (a :: r) = sendsTo q r) (hr : ∀ q, recvsFrom q (a :: r) = recvsFrom q r)
    (hw : ∀ q l c, WaitsOk q l c (a :: r) → WaitsOk q l c r) (hc : Consistent s r) :
    Good (Function.update A p r) (Function.update state p s) chan := by
  have hs' : ∀ q q', sendsTo q (Function.update A p r q') = sendsTo q (A q') := by
    intro q q'
    by_cases h : q' = p
    · subst h; rw [Function.update_self, ha, hs]
    · rw [Function.update_of_ne h]
  have hr' : ∀ q q', recvsFrom q (Function.update A p r q') = recvsFrom q (A q') := by
    intro q q'
    by_cases h : q' = p
    · subst h; rw [Function.update_self, ha, hr]
    · rw [Function.update_of_ne h]
  constructor
  · intro q
    by_cases h : q = p
    · subst h; rw [Function.update_self]; exact sorted_tail (hg.sorted q) ha
    · rw [Function.update_of_ne h]; exact hg.sorted q
  · intro q
    by_cases h : q = p
    · subst h; rw [Function.update_self, Function.update_self]; exact hc
    · rw [Function.update_of_ne h, Function.update_of_ne h]; exact hg.consistent q
  · intro q q'; rw [hs', hr']; exact hg.messages q q'
  · intro q q'; rw [hs', hr']; exact hg.pairs q q'
  · intro q q'
    rw [hr']
    by_cases h : q = p
    · subst h; rw [Function.update_self]; exact hw _ _ _ (ha ▸ hg.waits q q')
    · rw [Function.update_of_ne h]; exact hg.waits q q'
  · intro q; unfold NoSelf; rw [hs']; exact hg.noSelf q

theorem setChan_self (c : I → I → List M) (p q : I) (l : List M) : setChan c p q l p q = l := by
  simp [setChan]

theorem setChan_of_ne (c : I → I → List M) (p q : I) (l : List M) {p' q' : I} (h : ¬(p' = p ∧ q' = q)) :
    setChan c p q l p' q' = c p' q' := by
  unfold setChan
  by_cases hp : p' = p
  · subst hp
    rw [Function.update_self, Function.update_of_ne (fun hq => h ⟨rfl, hq⟩)]
  · rw [Function.update_of_ne hp]

/-- Sending a message, with `MPI_Isend` or a buffered `MPI_Send`. -/
theorem good_send {A : I → List (Ann I S M T)} {state : I → S} {chan : I → I → List M} (hg : Good A state chan)
    {p q : I} {a : Ann I S M T} {r : List (Ann I S M T)} (ha : A p = a :: r) {f : S → M} {blocking : Bool}
    (ho : a.op = .isend q f ∧ blocking = false ∨ a.op = .send q f ∧ blocking = true) :
    Good (Function.update A p r) state (setChan chan p q (chan p q ++ [f (state p)])) := by
  have hs : sendsTo q (a :: r) = (blocking, a.time, a.msg) :: sendsTo q r := by
    rcases ho with ⟨ho, hb⟩ | ⟨ho, hb⟩ <;> rw [sendsTo] <;> simp [ho, hb]
  have hs' : ∀ q', q' ≠ q → sendsTo q' (a :: r) = sendsTo q' r := by
    intro q' hq
    rcases ho with ⟨ho, hb⟩ | ⟨ho, hb⟩ <;> rw [sendsTo] <;> simp [ho, Ne.symm hq]
  have hr : ∀ q', recvsFrom q' (a :: r) = recvsFrom q' r := by
    intro q'
    rcases ho with ⟨ho, hb⟩ | ⟨ho, hb⟩ <;> rw [recvsFrom] <;> simp [ho]
  have hr' : ∀ u v, recvsFrom u (Function.update A p r v) = recvsFrom u (A v) := by
    intro u v
    by_cases h : v = p
    · subst h; rw [Function.update_self, ha, hr]
    · rw [Function.update_of_ne h]
  have hcons : f (state p) = a.msg ∧ Consistent (state p) r := by
    have := hg.consistent p
    rw [ha, Consistent] at this
    rcases ho with ⟨ho, hb⟩ | ⟨ho, hb⟩ <;> simpa [ho] using this
  have hne : p ≠ q := by
    rintro rfl
    have := hg.noSelf p
    unfold NoSelf at this
    rw [ha, hs] at this
    simp at this
  have hs'' : ∀ u v, ¬(u = p ∧ v = q) → sendsTo v (Function.update A p r u) = sendsTo v (A u) := by
    intro u v huv
    by_cases h : u = p
    · subst h; rw [Function.update_self, ha, hs' v (fun hv => huv ⟨rfl, hv⟩)]
    · rw [Function.update_of_ne h]
  constructor
  · intro u
    by_cases h : u = p
    · subst h; rw [Function.update_self]; exact sorted_tail (hg.sorted u) ha
    · rw [Function.update_of_ne h]; exact hg.sorted u
  · intro u
    by_cases h : u = p
    · subst h; rw [Function.update_self]; exact hcons.2
    · rw [Function.update_of_ne h]; exact hg.consistent u
  · intro u v
    rw [hr']
    by_cases h : u = p ∧ v = q
    · obtain ⟨rfl, rfl⟩ := h
      rw [setChan_self, Function.update_self, hcons.1, ← hg.messages u v, ha, hs]
      simp
    · rw [setChan_of_ne _ _ _ _ h, hs'' u v h]; exact hg.messages u v
  · intro u v
    rw [hr']
    by_cases h : u = p ∧ v = q
    · obtain ⟨rfl, rfl⟩ := h
      rw [setChan_self, Function.update_self]
      have := hg.pairs u v
      rw [ha, hs] at this
      obtain ⟨y, ys, -, hys, hd⟩ := List.forall₂_cons_left_iff.1 this
      have e : List.drop (chan u v ++ [f (state u)]).length (recvsFrom u (A v)) = ys := by
        rw [List.length_append, List.length_singleton, ← List.drop_drop, hd]; rfl
      rw [e]; exact hys
    · rw [setChan_of_ne _ _ _ _ h, hs'' u v h]; exact hg.pairs u v
  · intro u v
    rw [hr']
    by_cases hu : u = p
    · subst hu
      rw [Function.update_self]
      have hw := hg.waits u v
      rw [ha, WaitsOk] at hw
      by_cases hv : v = q
      · subst hv
        rw [setChan_self, List.length_append, List.length_singleton]
        rcases ho with ⟨ho, hb⟩ | ⟨ho, hb⟩ <;> simpa [ho] using hw
      · rw [setChan_of_ne _ _ _ _ (fun h => hv h.2)]
        rcases ho with ⟨ho, hb⟩ | ⟨ho, hb⟩ <;> simpa [ho, Ne.symm hv] using hw
    · rw [setChan_of_ne _ _ _ _ (fun h => hu h.1), Function.update_of_ne hu]
      exact hg.waits u v
  · intro u
    unfold NoSelf
    rw [hs'' u u (by rintro ⟨rfl, h⟩; exact hne h)]
    exact hg.noSelf u

theorem waitsOk_tail {q : I} (y : T × M) (ys : List (T × M)) (l : List (Ann I S M T)) (c : ℕ)
    (h : WaitsOk q (y :: ys) (c + 1) l) : WaitsOk q ys c l := by
  induction l generalizing c with
  | nil => trivial
  | cons a r ih =>
    rw [WaitsOk] at h ⊢
    split at h
    · split at h
      · rename_i hd; simp only [hd, if_true]; exact ih _ h
      · rename_i hd; simp only [hd, if_false]; exact ih _ h
    · split at h
      · rename_i hd; simp only [hd, if_true]; exact ih _ h
      · rename_i hd; simp only [hd, if_false]; exact ih _ h
    · refine ⟨fun hd z hz => h.1 hd z ?_, ih _ h.2⟩
      rw [List.take_succ_cons]; exact List.mem_cons_of_mem _ hz
    · exact ih _ h

/-- Receiving a message. -/
theorem good_recv {A : I → List (Ann I S M T)} {state : I → S} {chan : I → I → List M} (hg : Good A state chan)
    {p q : I} {a : Ann I S M T} {r : List (Ann I S M T)} (ha : A q = a :: r) {g : M → S → S} (ho : a.op = .recv p g)
    {m : M} {c : List M} (hc : chan p q = m :: c) :
    m = a.msg ∧ Good (Function.update A q r) (Function.update state q (g m (state q))) (setChan chan p q c) := by
  have hs : ∀ v, sendsTo v (a :: r) = sendsTo v r := by intro v; rw [sendsTo]; simp [ho]
  have hs' : ∀ u v, sendsTo v (Function.update A q r u) = sendsTo v (A u) := by
    intro u v
    by_cases h : u = q
    · subst h; rw [Function.update_self, ha, hs]
    · rw [Function.update_of_ne h]
  have hr : recvsFrom p (a :: r) = (a.time, a.msg) :: recvsFrom p r := by rw [recvsFrom]; simp [ho]
  have hr0 : ∀ u, u ≠ p → recvsFrom u (a :: r) = recvsFrom u r := by
    intro u hu; rw [recvsFrom]; simp [ho, Ne.symm hu]
  have hr' : ∀ u v, ¬(u = p ∧ v = q) → recvsFrom u (Function.update A q r v) = recvsFrom u (A v) := by
    intro u v h
    by_cases hv : v = q
    · subst hv; rw [Function.update_self, ha, hr0 u (fun hu => h ⟨hu, rfl⟩)]
    · rw [Function.update_of_ne hv]
  have hm := hg.messages p q
  rw [hc, ha, hr, List.cons_append, List.map_cons] at hm
  have hmm : m = a.msg := (List.cons.inj hm).1
  refine ⟨hmm, ?_⟩
  constructor
  · intro u
    by_cases h : u = q
    · subst h; rw [Function.update_self]; exact sorted_tail (hg.sorted u) ha
    · rw [Function.update_of_ne h]; exact hg.sorted u
  · intro u
    by_cases h : u = q
    · subst h
      rw [Function.update_self, Function.update_self]
      have := hg.consistent u
      rw [ha, Consistent] at this
      simpa [ho, hmm] using this
    · rw [Function.update_of_ne h, Function.update_of_ne h]; exact hg.consistent u
  · intro u v
    rw [hs']
    by_cases h : u = p ∧ v = q
    · obtain ⟨rfl, rfl⟩ := h
      rw [setChan_self, Function.update_self]
      exact (List.cons.inj hm).2
    · rw [setChan_of_ne _ _ _ _ h, hr' u v h]; exact hg.messages u v
  · intro u v
    rw [hs']
    by_cases h : u = p ∧ v = q
    · obtain ⟨rfl, rfl⟩ := h
      rw [setChan_self, Function.update_self]
      have := hg.pairs u v
      rw [hc, ha, hr] at this
      simpa using this
    · rw [setChan_of_ne _ _ _ _ h, hr' u v h]; exact hg.pairs u v
  · intro u v
    have hwA : ∀ l n, WaitsOk v l n (A u) → WaitsOk v l n (Function.update A q r u) := by
      intro l n hl
      by_cases hu : u = q
      · subst hu
        rw [Function.update_self]
        rw [ha, WaitsOk] at hl
        simpa [ho] using hl
      · rw [Function.update_of_ne hu]; exact hl
    apply hwA
    by_cases h : u = p ∧ v = q
    · obtain ⟨rfl, rfl⟩ := h
      rw [setChan_self, Function.update_self]
      have := hg.waits u v
      rw [hc] at this
      have e : recvsFrom u (A v) = (a.time, a.msg) :: recvsFrom u r := by rw [ha, hr]
      rw [e] at this
      exact waitsOk_tail _ _ _ _ this
    · rw [setChan_of_ne _ _ _ _ h, hr' u v h]; exact hg.waits u v
  · intro u; unfold NoSelf; rw [hs']; exact hg.noSelf u

theorem plain_update (A : I → List (Ann I S M T)) (p : I) (r : List (Ann I S M T)) :
    Function.update (fun p => (A p).map (·.op)) p (r.map (·.op)) = fun q => (Function.update A p r q).map (·.op) := by
  funext q
  by_cases h : q = p
  · subst h; simp
  · simp [h]

/-- What the processes still have to do, with the annotation; the results are those of the annotation. -/
def Tracks (A₀ : I → List (Ann I S M T)) (init : I → S) (s : System I S M) : Prop :=
  ∃ (A : I → List (Ann I S M T)) (state : I → S) (chan : I → I → List M), s = plain A state chan ∧ Good A state chan ∧ ∀ p, result (state p) (A p) = result (init p) (A₀ p)

theorem head_of_plain {A : I → List (Ann I S M T)} {state : I → S} {chan : I → I → List M} {p : I} {o : Op I S M}
    {r : List (Op I S M)} (h : (plain A state chan).rest p = o :: r) :
    ∃ a r', A p = a :: r' ∧ a.op = o ∧ r = r'.map (·.op) := by
  unfold plain at h
  simp only at h
  cases hA : A p with
  | nil => rw [hA] at h; simp at h
  | cons a r' =>
    rw [hA] at h
    simp only [List.map_cons, List.cons.injEq] at h
    exact ⟨a, r', rfl, h.1, h.2.symm⟩

theorem result_update {A : I → List (Ann I S M T)} {state : I → S} {p : I} {a : Ann I S M T} {r : List (Ann I S M T)}
    (ha : A p = a :: r) {s : S} (h : result s r = result (state p) (a :: r)) (q : I) :
    result (Function.update state p s q) (Function.update A p r q) = result (state q) (A q) := by
  by_cases hq : q = p
  · subst hq; rw [Function.update_self, Function.update_self, ha]; exact h
  · rw [Function.update_of_ne hq, Function.update_of_ne hq]

theorem tracks_step {A₀ : I → List (Ann I S M T)} {init : I → S} {s t : System I S M} (h : Tracks A₀ init s)
    (hst : Next s t) : Tracks A₀ init t := by
  obtain ⟨A, state, chan, rfl, hg, hr⟩ := h
  obtain ⟨forced, hst⟩ := hst
  have sendCase : ∀ {p q : I} {f : S → M} {r : List (Op I S M)} {blocking : Bool} (o : Op I S M)
      (_ : o = .isend q f ∧ blocking = false ∨ o = .send q f ∧ blocking = true)
      (_ : (plain A state chan).rest p = o :: r),
      Tracks A₀ init { plain A state chan with
        rest := Function.update (plain A state chan).rest p r
        chan := setChan (plain A state chan).chan p q ((plain A state chan).chan p q ++ [f ((plain A state chan).state p)]) } := by
    intro p q f r blocking o ho h
    obtain ⟨a, r', ha, hao, rfl⟩ := head_of_plain h
    refine ⟨Function.update A p r', state, setChan chan p q (chan p q ++ [f (state p)]), ?_,
      good_send hg ha (blocking := blocking) (by rw [hao]; exact ho), ?_⟩
    · simp only [plain]; rw [plain_update]
    · intro u
      rw [← hr u]
      have := result_update (A := A) (state := state) ha (s := state p) (by
        rw [result]; rw [hao]; rcases ho with ⟨rfl, -⟩ | ⟨rfl, -⟩ <;> rfl) u
      rwa [Function.update_eq_self] at this
  cases hst with
  | compute _ p f r h =>
    obtain ⟨a, r', ha, hao, rfl⟩ := head_of_plain h
    refine ⟨Function.update A p r', Function.update state p (f (state p)), chan, ?_, ?_, ?_⟩
    · simp only [plain]; rw [plain_update]
    · refine good_silent hg ha _ (fun q => by rw [sendsTo]; simp [hao]) (fun q => by rw [recvsFrom]; simp [hao])
        (fun q l c hw => by rw [WaitsOk] at hw; simpa [hao] using hw) ?_
      have := hg.consistent p
      rw [ha, Consistent] at this
      simpa [hao] using this
    · intro u; rw [← hr u]; exact result_update ha (by rw [result, hao]) u
  | isend _ p q f r h => exact sendCase (blocking := false) _ (Or.inl ⟨rfl, rfl⟩) h
  | buffered _ p q f r h => exact sendCase (blocking := true) _ (Or.inr ⟨rfl, rfl⟩) h
  | recv _ p q g r m c h hc =>
    obtain ⟨a, r', ha, hao, rfl⟩ := head_of_plain h
    obtain ⟨hm, hg'⟩ := good_recv hg ha hao hc
    refine ⟨_, _, _, ?_, hg', ?_⟩
    · simp only [plain]; rw [plain_update]
    · intro u; rw [← hr u]; exact result_update ha (by rw [result, hao, hm]) u
  | rendezvous _ p q f g r r' hpq h h' hc =>
    obtain ⟨a, r1, ha, hao, rfl⟩ := head_of_plain h
    obtain ⟨b, r2, hb, hbo, rfl⟩ := head_of_plain h'
    have hg1 := good_send hg ha (q := q) (f := f) (blocking := true) (Or.inr ⟨hao, rfl⟩)
    have hb' : Function.update A p r1 q = b :: r2 := by rw [Function.update_of_ne (Ne.symm hpq)]; exact hb
    have hc' : chan p q = [] := hc
    obtain ⟨hm, hg2⟩ := good_recv hg1 hb' hbo (m := f (state p)) (c := []) (by rw [setChan_self, hc']; rfl)
    refine ⟨_, _, _, ?_, hg2, ?_⟩
    · simp only [plain]
      rw [plain_update, plain_update]
      congr 1
      funext u v
      by_cases huv : u = p ∧ v = q
      · obtain ⟨rfl, rfl⟩ := huv; rw [setChan_self]; exact hc'
      · rw [setChan_of_ne _ _ _ _ huv, setChan_of_ne _ _ _ _ huv]
    · intro u
      rw [result_update hb' (by rw [result, hbo, hm]) u, ← hr u]
      have := result_update (A := A) (state := state) ha (s := state p) (by rw [result, hao]) u
      rwa [Function.update_eq_self] at this
  | waitEarly _ p q r h =>
    obtain ⟨a, r', ha, hao, rfl⟩ := head_of_plain h
    refine ⟨Function.update A p r', Function.update state p (state p), chan, ?_, ?_, ?_⟩
    · simp only [plain]; rw [plain_update, Function.update_eq_self]
    · refine good_silent hg ha _ (fun q => by rw [sendsTo]; simp [hao]) (fun q => by rw [recvsFrom]; simp [hao])
        (fun q l c hw => by rw [WaitsOk] at hw; simp only [hao] at hw; exact hw.2) ?_
      have := hg.consistent p
      rw [ha, Consistent] at this
      simpa [hao] using this
    · intro u; rw [← hr u]; exact result_update ha (by rw [result, hao]) u
  | wait _ p q r h hc =>
    obtain ⟨a, r', ha, hao, rfl⟩ := head_of_plain h
    refine ⟨Function.update A p r', Function.update state p (state p), chan, ?_, ?_, ?_⟩
    · simp only [plain]; rw [plain_update, Function.update_eq_self]
    · refine good_silent hg ha _ (fun q => by rw [sendsTo]; simp [hao]) (fun q => by rw [recvsFrom]; simp [hao])
        (fun q l c hw => by rw [WaitsOk] at hw; simp only [hao] at hw; exact hw.2) ?_
      have := hg.consistent p
      rw [ha, Consistent] at this
      simpa [hao] using this
    · intro u; rw [← hr u]; exact result_update ha (by rw [result, hao]) u

/-- Every reachable system is finished, with the states of the annotation, or has a forced step. -/
theorem correct [Finite I] (A : I → List (Ann I S M T)) (init : I → S) (hg : Good A init (fun _ _ => []))
    (s : System I S M) (h : Reach (start (fun p => (A p).map (·.op)) init) s) :
    (Finished s → ∀ p, s.state p = result (init p) (A p)) ∧ (¬Finished s → ∃ t, Step true s t) := by
  have ht : Tracks A init s := by
    induction h with
    | refl => exact ⟨A, init, fun _ _ => [], rfl, hg, fun _ => rfl⟩
    | tail _ hst ih => exact tracks_step ih hst
  obtain ⟨A', state, chan, rfl, hg', hr⟩ := ht
  refine ⟨fun hf p => ?_, fun hf => progress A' state chan hg' hf⟩
  have : A' p = [] := by
    have := hf p
    simpa [plain] using this
  rw [← hr p, this]; rfl

/-! ### Programs end -/

/-- What is left to do. -/
def remaining [Fintype I] (s : System I S M) : ℕ := ∑ p, (s.rest p).length

theorem sum_update_lt [Fintype I] (f : I → List (Op I S M)) (p : I) (o : Op I S M) (r : List (Op I S M)) (h : f p = o :: r) :
    ∑ q, (Function.update f p r q).length < ∑ q, (f q).length := by
  apply Finset.sum_lt_sum
  · intro q _
    by_cases hq : q = p
    · subst hq; rw [Function.update_self, h]; simp
    · rw [Function.update_of_ne hq]
  · exact ⟨p, Finset.mem_univ _, by rw [Function.update_self, h]; simp⟩

/-- Every step, forced or not, brings the programs closer to their end. -/
theorem remaining_lt [Fintype I] {s t : System I S M} (h : Next s t) : remaining t < remaining s := by
  obtain ⟨b, h⟩ := h
  unfold remaining
  cases h with
  | compute _ p f r h => exact sum_update_lt _ p _ r h
  | isend _ p q f r h => exact sum_update_lt _ p _ r h
  | buffered _ p q f r h => exact sum_update_lt _ p _ r h
  | recv _ p q g r m c h hc => exact sum_update_lt _ q _ r h
  | waitEarly _ p q r h => exact sum_update_lt _ p _ r h
  | wait _ p q r h hc => exact sum_update_lt _ p _ r h
  | rendezvous _ p q f g r r' hpq h h' hc =>
    refine lt_trans (sum_update_lt _ q (.recv p g) r' ?_) (sum_update_lt s.rest p _ r h)
    · rw [Function.update_of_ne (Ne.symm hpq)]; exact h'

/-- From every reachable system the end can be reached by forced steps. -/
theorem can_finish [Fintype I] (A : I → List (Ann I S M T)) (init : I → S) (hg : Good A init (fun _ _ => []))
    (s : System I S M) (h : Reach (start (fun p => (A p).map (·.op)) init) s) :
    ∃ t, Relation.ReflTransGen (Step true) s t ∧ Finished t := by
  induction hn : remaining s using Nat.strong_induction_on generalizing s with
  | _ n ih =>
    by_cases hf : Finished s
    · exact ⟨s, Relation.ReflTransGen.refl, hf⟩
    · obtain ⟨t, ht⟩ := (correct A init hg s h).2 hf
      obtain ⟨u, hu, hfu⟩ := ih (remaining t) (hn ▸ remaining_lt ⟨_, ht⟩) t (h.tail ⟨_, ht⟩) rfl
      exact ⟨u, Relation.ReflTransGen.head ht hu, hfu⟩

end Verif.Mpi
