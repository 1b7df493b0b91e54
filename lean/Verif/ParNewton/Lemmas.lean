import Verif.ParNewton.Spec
import Verif.ParSolve.BlockProps

/-
Lemmas about the Newton method on several processes.
-/

set_option autoImplicit false
set_option linter.unusedSectionVars false
set_option linter.unusedSimpArgs false

namespace Verif.ParNewton

open Verif.Mpi Verif.Sync Verif.Overlap Verif.OverlapMatrix Verif.Newton Verif.Criteria Verif.ParSolve.Block Verif.GridComm
open Verif.ParSolve (Enumerates Wide Steps Covered mem_all steps_mem wide_one row_enumerates)

variable {P N E : ℕ} {G K V : Type} [Field K] [LinearOrder K] [IsStrictOrderedRing K]
variable {g : Grid (P + 1) G} {number : G → ℕ} {o : Fin (P + 1) → Sync.Overlap (P + 1)} {black : Fin (P + 1) → ℕ → Option ℕ}

/-! ### The matrix -/

theorem syncAdd_buffers {a : Fin (P + 1) → NativeMatrix (Mat E K)} (s : Fin (P + 1) → OverlapMatrix.Matrix (P + 1) (Mat E K)) (p : Fin (P + 1)) :
    (runRound (fun p => (o p).peerSet) s OverlapMatrix.syncAdd p).send = (s p).send ∧
      (runRound (fun p => (o p).peerSet) s OverlapMatrix.syncAdd p).recv = (s p).recv ∧
      (runRound (fun p => (o p).peerSet) s OverlapMatrix.syncAdd p).pattern = (s p).pattern := by
  unfold runRound
  have key : ∀ (l : List (Fin (P + 1))) (v : OverlapMatrix.Matrix (P + 1) (Mat E K)),
      let w := l.foldl (fun v q => OverlapMatrix.syncAdd.recv p q (OverlapMatrix.syncAdd.send q p (s q)) v) v
      w.send = v.send ∧ w.recv = v.recv ∧ w.pattern = v.pattern := by
    intro l
    induction l with
    | nil => intro v; exact ⟨rfl, rfl, rfl⟩
    | cons q l ih =>
      intro v
      obtain ⟨h1, h2, h3⟩ := ih (OverlapMatrix.syncAdd.recv p q (OverlapMatrix.syncAdd.send q p (s q)) v)
      exact ⟨h1, h2, h3⟩
  exact key _ (s p)

theorem settles_set (L : Labelled g number o black) {a : Fin (P + 1) → NativeMatrix (Mat E K)} (σ : Fin (P + 1) → OverlapMatrix.Matrix (P + 1) (Mat E K))
    (hb : ∀ p, Buffers o black a p (σ p)) (hN : OverlapMatrix.Native g a) :
    ∃ τ, Settles (setMatrixProgram o black a) σ τ ∧ Distributed g number o a τ ∧ ∀ p, Buffers o black a p (τ p) := by
  have : Nonempty (OverlapMatrix.Msg (Mat E K)) := ⟨.values []⟩
  have h2 : Settles (M := OverlapMatrix.Msg (Mat E K)) (fun p => [.compute (assignFromNative (o p) (black p) (a p))]) σ
      (fun p => assignFromNative (o p) (black p) (a p) (σ p)) :=
    Settles.compute (fun p => assignFromNative (o p) (black p) (a p))
  have h3 := Settles.rounds (σ := fun p => assignFromNative (o p) (black p) (a p) (σ p)) (peers := fun p => (o p).peerSet)
    L.coherent.nodup L.coherent.symm L.coherent.irrefl [OverlapMatrix.syncAdd]
  refine ⟨runRound (fun p => (o p).peerSet) (fun p => assignFromNative (o p) (black p) (a p) (σ p)) OverlapMatrix.syncAdd, ?_,
    distributed_of_buffers L hN σ hb, fun p => ?_⟩
  · have h := h2.append h3
    have e : (fun p => [Op.compute (assignFromNative (o p) (black p) (a p))] ++
        program (fun p => (o p).peerSet) [OverlapMatrix.syncAdd] p) = setMatrixProgram o black a := by
      funext p
      simp [setMatrixProgram, program]
    rw [e] at h
    exact h
  · obtain ⟨e1, e2, e3⟩ := syncAdd_buffers (o := o) (a := a) (fun p => assignFromNative (o p) (black p) (a p) (σ p)) p
    exact ⟨fun q hq => by rw [e1]; exact (hb p).send q hq, fun q hq => by rw [e2]; exact (hb p).recv q hq,
      fun i j => by rw [e3]; exact (hb p).pattern i j⟩

theorem native_congr {a a' : Fin (P + 1) → NativeMatrix (Mat E K)} (same : ∀ p, (a' p).numRows = (a p).numRows ∧ (a' p).cols = (a p).cols)
    (h : OverlapMatrix.Native g a') : OverlapMatrix.Native g a := by
  intro p
  obtain ⟨e1, e2⟩ := same p
  have := h p
  rw [e1, e2] at this
  exact this

theorem buffers_congr {a a' : Fin (P + 1) → NativeMatrix (Mat E K)} (same : ∀ p, (a' p).numRows = (a p).numRows ∧ (a' p).cols = (a p).cols)
    {p : Fin (P + 1)} {s : OverlapMatrix.Matrix (P + 1) (Mat E K)} (h : Buffers o black a p s) : Buffers o black a' p s := by
  have hs : ∀ p q, OverlapMatrix.sendIndices (o p) (black p) (a' p) q = OverlapMatrix.sendIndices (o p) (black p) (a p) q := by
    intro p q
    unfold OverlapMatrix.sendIndices
    rw [(same p).2]
  refine ⟨fun q hq => by rw [hs]; exact h.send q hq, fun q hq => by rw [hs]; exact h.recv q hq, fun i j => ?_⟩
  have hl : localPattern (o p) (black p) (a' p) i j ↔ localPattern (o p) (black p) (a p) i j := by
    unfold localPattern
    rw [(same p).1, (same p).2]
  have he : ∀ q, sentEntries o black a' q p = sentEntries o black a q p := by
    intro q
    unfold sentEntries
    rw [hs]
  rw [hl, h.pattern]
  simp only [he]

theorem assigned_spec (L : Labelled g number o black) {a : Fin (P + 1) → NativeMatrix (Mat E K)} {m : Fin (P + 1) → OverlapMatrix.Matrix (P + 1) (Mat E K)}
    (h : Assigned o black a m) (hN : OverlapMatrix.Native g a) : Distributed g number o a m ∧ ∀ p, Buffers o black a p (m p) := by
  induction h with
  | first a any w h hf =>
    have h1 := Settles.rounds (σ := fun p => Matrix.start (o p) (black p) (a p) (any p)) (peers := fun p => (o p).peerSet) L.coherent.nodup
      L.coherent.symm L.coherent.irrefl [buildIndices o black a]
    obtain ⟨τ, hτ, hd, hb⟩ := settles_set L _ (buildIndices_buffers (o := o) (black := black) (a := a) any) hN
    have hs : Settles (matrixProgram o black a) (fun p => Matrix.start (o p) (black p) (a p) (any p)) τ := by
      have h := h1.append hτ
      have e : (fun p => program (fun p => (o p).peerSet) [buildIndices o black a] p ++ setMatrixProgram o black a p) =
          matrixProgram o black a := by
        funext p
        simp [matrixProgram, setMatrixProgram, program]
      rw [e] at h
      exact h
    rw [show w.state = τ from funext ((hs.correct w h).1 hf)]
    exact ⟨hd, hb⟩
  | next a a' m hm same w h hf ih =>
    obtain ⟨-, hb⟩ := ih (native_congr same hN)
    obtain ⟨τ, hτ, hd, hb'⟩ := settles_set L m (fun p => buffers_congr same (hb p)) hN
    rw [show w.state = τ from funext ((hτ.correct w h).1 hf)]
    exact ⟨hd, hb'⟩

/-! ### The error -/

theorem foldl_num {α : Type} (f : α → K) (l : List α) (x : K) :
    ∃ e, l.foldl (fun acc a => Fl.max (Fl.num (f a)) acc) (.num x) = .num e ∧ ∀ y, e ≤ y ↔ x ≤ y ∧ ∀ a ∈ l, f a ≤ y := by
  induction l generalizing x with
  | nil => exact ⟨x, rfl, fun y => by simp⟩
  | cons a l ih =>
    have hm : Fl.max (Fl.num (f a)) (.num x) = .num (max (f a) x) := by
      simp only [Fl.max, Fl.lt, decide_eq_true_eq]
      by_cases h : f a < x
      · rw [if_pos h, max_eq_right h.le]
      · rw [if_neg h, max_eq_left (not_lt.1 h)]
    obtain ⟨e, he, hy⟩ := ih (max (f a) x)
    refine ⟨e, by rw [List.foldl_cons, hm, he], fun y => ?_⟩
    rw [hy]
    simp only [max_le_iff, List.forall_mem_cons]
    tauto

/-- The error of the residual of one cell -/
theorem errorOfDof_spec (env : Newton.Env K V (Blk E K)) (i : ℕ) (r : Blk E K) (x : K) :
    ∃ e, errorOfDof env i (.num x) (List.ofFn fun j => .num (r j)) = .num e ∧
      ∀ y, e ≤ y ↔ x ≤ y ∧ ∀ j : Fin E, |r j * env.weight i j| ≤ y := by
  have hz : (List.ofFn fun j => Fl.num (r j)).zipIdx = (List.finRange E).map fun j => (Fl.num (r j), (j : ℕ)) := by
    refine List.ext_getElem (by simp) fun l h1 h2 => ?_
    simp
  obtain ⟨e, he, hy⟩ := foldl_num (fun j : Fin E => |r j * env.weight i j|) (List.finRange E) x
  refine ⟨e, ?_, fun y => ?_⟩
  · unfold errorOfDof
    rw [hz, List.foldl_map, ← he]
    rfl
  · rw [hy]
    simp only [List.mem_finRange, forall_true_left]

/-- The error of a residual -/
theorem computeError_spec (env : Newton.Env K V (Blk E K)) (r : ℕ → Blk E K)
    (hn : env.numTotalDof = env.numGridDof) (rs : Newton.Vec (List (Fl K)))
    (hr : ∀ i < env.numGridDof, rs i = List.ofFn fun j => .num (r i j)) :
    ∃ e, computeError env rs = .num e ∧ ∀ y, e ≤ y ↔ 0 ≤ y ∧
      ∀ i < env.numGridDof, 0 < env.volume i ∧ env.constraints i = none → ∀ j : Fin E, |r i j * env.weight i j| ≤ y := by
  classical
  have key : ∀ (l : List ℕ), (∀ i ∈ l, i < env.numGridDof) → ∀ x, ∃ e,
      l.foldl (fun acc dof => if considered env dof then errorOfDof env dof acc (rs dof) else acc) (.num x) = .num e ∧
        ∀ y, e ≤ y ↔ x ≤ y ∧ ∀ i ∈ l, 0 < env.volume i ∧ env.constraints i = none → ∀ j : Fin E, |r i j * env.weight i j| ≤ y := by
    intro l
    induction l with
    | nil => intro _ x; exact ⟨x, rfl, fun y => by simp⟩
    | cons i l ih =>
      intro hl x
      have hi := hl i (List.mem_cons_self ..)
      have hcons : considered env i = decide (0 < env.volume i ∧ env.constraints i = none) := by
        rw [Bool.decide_and]
        simp only [considered, hi, decide_true, Bool.true_and]
        congr 1
        cases env.constraints i <;> simp
      rw [List.foldl_cons, hcons, hr i hi]
      by_cases hv : 0 < env.volume i ∧ env.constraints i = none
      · rw [if_pos (by simpa using hv)]
        obtain ⟨e1, h1, hy1⟩ := errorOfDof_spec env i (r i) x
        obtain ⟨e, h2, hy⟩ := ih (fun j hj => hl j (List.mem_cons_of_mem _ hj)) e1
        refine ⟨e, by rw [h1, h2], fun y => ?_⟩
        rw [hy, hy1, List.forall_mem_cons]
        tauto
      · rw [if_neg (by simpa using hv)]
        obtain ⟨e, h2, hy⟩ := ih (fun j hj => hl j (List.mem_cons_of_mem _ hj)) x
        refine ⟨e, h2, fun y => ?_⟩
        rw [hy, List.forall_mem_cons]
        tauto
  unfold computeError
  rw [hn]
  obtain ⟨e, he, hy⟩ := key (List.range env.numGridDof) (fun i hi => List.mem_range.1 hi) 0
  exact ⟨e, he, fun y => by rw [hy]; simp only [List.mem_range]⟩

theorem commMax_spec (f : Fin (P + 1) → Fl K) (e : Fin (P + 1) → K) (h : ∀ p, f p = .num (e p)) :
    ∃ x, commMax f = .num x ∧ ∀ y, x ≤ y ↔ ∀ p, e p ≤ y := by
  have key : ∀ (l : List (Fin P)) (x : K), ∃ z, l.foldl (fun a p => Fl.max a (f p.succ)) (.num x) = .num z ∧
      ∀ y, z ≤ y ↔ x ≤ y ∧ ∀ p ∈ l, e p.succ ≤ y := by
    intro l
    induction l with
    | nil => intro x; exact ⟨x, rfl, fun y => by simp⟩
    | cons p l ih =>
      intro x
      have hm : Fl.max (.num x) (f p.succ) = .num (max x (e p.succ)) := by
        rw [h]
        simp only [Fl.max, Fl.lt, decide_eq_true_eq]
        by_cases hx : x < e p.succ
        · rw [if_pos hx, max_eq_right hx.le]
        · rw [if_neg hx, max_eq_left (not_lt.1 hx)]
      obtain ⟨z, hz, hy⟩ := ih (max x (e p.succ))
      refine ⟨z, by rw [List.foldl_cons, hm, hz], fun y => ?_⟩
      rw [hy]
      simp only [max_le_iff, List.forall_mem_cons]
      tauto
  obtain ⟨z, hz, hy⟩ := key (List.finRange P) (e 0)
  refine ⟨z, by rw [commMax, h 0]; exact hz, fun y => ?_⟩
  rw [hy]
  constructor
  · rintro ⟨h0, h1⟩ p
    refine Fin.cases h0 (fun q => h1 q (List.mem_finRange q)) p
  · intro h
    exact ⟨h 0, fun p _ => h _⟩

/-! ### One pass -/

variable {cell : Fin N → G} {eqs : Equations G E K V} {set : Settings K} {d : Fin (P + 1) → Overlap.Native (P + 1)} {overlapSize : ℕ}
  {face : Interface (P + 1) G} {M : Machine P E K V}

theorem onCells_apply {α : Type} [Inhabited α] (hE : Enumerates g cell) (x : Fin N → α) (k : Fin N) : onCells cell x (cell k) = x k :=
  hE.1.extend_apply _ _ _

theorem exists_cell (v : Valid g d) (hE : Enumerates g cell) {p : Fin (P + 1)} {i : ℕ} {c : G} (h : (g.cells p)[i]? = some c) :
    ∃ k, cell k = c := (hE.2 c).1 (v.owned p c (List.mem_of_getElem? h))

theorem sees_of_haveAll [Inhabited V] (v : Valid g d) (hE : Enumerates g cell) {y : Fin (P + 1) → ℕ → V} {x : ℕ → V}
    (h : HaveAll g cell y x) (p : Fin (P + 1)) : Sees (g.cells p) (y p) (onCells cell fun j : Fin N => x j) := by
  intro i c hc
  obtain ⟨k, rfl⟩ := exists_cell v hE hc
  rw [onCells_apply hE, h p i k hc]

theorem sync_all (v : Valid g d) (hg : Ghosts g face) (hM : Runs eqs set g d overlapSize o black face M) (n : ℕ)
    {y : Fin (P + 1) → ℕ → V} {x : ℕ → V} (h : HaveOwn g cell y x) : HaveAll g cell (M.syncOverlap n y) x := by
  obtain ⟨s, hr, hf, e⟩ := hM.syncOverlap n y
  intro p i k hk
  have h1 := (C28_ghostSync hg.proper hg.fromOwner y hr).1 hf p (cell k) (List.mem_of_getElem? hk)
  rw [hg.index p i _ hk] at h1
  rw [e, h1]
  obtain ⟨j, hj⟩ := List.getElem?_of_mem (v.owned p _ (List.mem_of_getElem? hk))
  rw [hg.index _ j _ hj]
  exact h _ j k hj rfl

/-- The linearizations of all processes fit to the one on a single process. -/
def Fits [Inhabited V] (eqs : Equations G E K V) (g : Grid (P + 1) G) (cell : Fin N → G) (cols : Fin (P + 1) → ℕ → List ℕ)
    (a : Fin (P + 1) → NativeMatrix (Mat E K)) (b : Fin (P + 1) → ℕ → Blk E K) (x : ℕ → V) : Prop :=
  ∀ p, (a p).numRows = (g.cells p).length ∧ (a p).cols = cols p ∧
    ∀ (i : ℕ) k, (g.cells p)[i]? = some (cell k) → g.owner (cell k) = p → ∃ J, rowAt eqs cell x k = some (b p i, J) ∧
      ∀ m ∈ (a p).cols i, ∀ c', (g.cells p)[m]? = some c' → (a p).value i m = J c'

theorem native_of_fits [Inhabited V] (hp : Pattern eqs g fun p => (d p).cols) {a : Fin (P + 1) → NativeMatrix (Mat E K)} {b : Fin (P + 1) → ℕ → Blk E K}
    {x : ℕ → V} (h : Fits eqs g cell (fun p => (d p).cols) a b x) : OverlapMatrix.Native g a := by
  intro p
  obtain ⟨h1, h2, -⟩ := h p
  refine ⟨h1, fun n => ?_⟩
  rw [h2]
  exact ⟨hp.nodup p n, hp.range p n⟩

theorem product_of_fits [Inhabited V] (hl : Local eqs) (v : Valid g d) (hE : Enumerates g cell) (hp : Pattern eqs g fun p => (d p).cols)
    {a : Fin (P + 1) → NativeMatrix (Mat E K)} {b : Fin (P + 1) → ℕ → Blk E K} {x : ℕ → V} (h : Fits eqs g cell (fun p => (d p).cols) a b x)
    (y : (Σ _ : Fin (0 + 1), Fin (N * E)) → K) (Y : G → Blk E K) (hY : ∀ k, Y (cell k) = block y k) (k : Fin N) :
    IsProduct g a Y (cell k) (product eqs cell x y k) := by
  obtain ⟨n, hn⟩ := List.getElem?_of_mem (show cell k ∈ g.cells (g.owner (cell k)) from mem_all hE k)
  obtain ⟨-, h2, h3⟩ := h (g.owner (cell k))
  obtain ⟨J, hJ, hv⟩ := h3 n k hn rfl
  refine ⟨n, hn, ?_⟩
  unfold product
  rw [hJ]
  set p := g.owner (cell k) with hpdef
  -- the cells of the columns are those of the stencil
  have hcols : ((a p).cols n).map (fun m => (g.cells p)[m]?) = ((((a p).cols n).filterMap fun m => (g.cells p)[m]?)).map some := by
    have : ∀ l : List ℕ, (∀ m ∈ l, m < (g.cells p).length) →
        l.map (fun m => (g.cells p)[m]?) = (l.filterMap fun m => (g.cells p)[m]?).map some := by
      intro l
      induction l with
      | nil => intro _; rfl
      | cons m l ih =>
        intro hl
        have hm := hl m (List.mem_cons_self ..)
        rw [List.map_cons, List.filterMap_cons, List.getElem?_eq_getElem hm]
        simp only [List.map_cons]
        rw [ih fun m' hm' => hl m' (List.mem_cons_of_mem _ hm')]
    apply this
    rw [h2]
    exact hp.range p n
  have hperm : (((a p).cols n).filterMap fun m => (g.cells p)[m]?).Perm (eqs.stencil (cell k)) := by
    refine (List.perm_ext_iff_of_nodup ?_ (hl.nodup _)).2 fun c' => ?_
    · refine List.Nodup.filterMap ?_ (by rw [h2]; exact hp.nodup p n)
      intro m m' c hc hc'
      exact Verif.ParSolve.index_eq v.nodup hc hc'
    · rw [List.mem_filterMap, hp.own p n _ hn rfl c', h2]
  have e1 : ((eqs.stencil (cell k)).map fun c' => (Option.elim (some (b p n, J)) 0 fun r => r.2 c').mulVec
      (letI : Inhabited (Blk E K) := ⟨0⟩; onCells cell (fun j => block y j) c')) =
      (eqs.stencil (cell k)).map fun c' => (J c').mulVec (Y c') := by
    apply List.map_congr_left
    intro c' hc'
    obtain ⟨m, -, hm⟩ := (hp.own p n _ hn rfl c').1 hc'
    obtain ⟨k', rfl⟩ := exists_cell v hE hm
    rw [hY]
    congr 1
    exact @onCells_apply P N G g cell (Blk E K) ⟨0⟩ hE _ k'
  rw [e1, ← (hperm.map fun c' => (J c').mulVec (Y c')).sum_eq]
  congr 1
  have e2 : ((a p).cols n).map (fun m => ((g.cells p)[m]?).elim 0 fun c' => ((a p).value n m).mulVec (Y c')) =
      ((a p).cols n).map fun m => ((g.cells p)[m]?).elim 0 fun c' => (J c').mulVec (Y c') := by
    apply List.map_congr_left
    intro m hm
    cases hc : (g.cells p)[m]? with
    | none => rfl
    | some c' =>
      simp only [Option.elim_some]
      rw [hv m hm c' hc]
  rw [e2]
  have e3 : ((a p).cols n).map (fun m => ((g.cells p)[m]?).elim 0 fun c' => (J c').mulVec (Y c')) =
      (((a p).cols n).map fun m => (g.cells p)[m]?).map fun z => z.elim 0 fun c' => (J c').mulVec (Y c') := by
    rw [List.map_map]; rfl
  rw [e3, hcols, List.map_map]
  rfl

theorem whole_of_fits [Inhabited V] (hl : Local eqs) (v : Valid g d) (hE : Enumerates g cell) (hp : Pattern eqs g fun p => (d p).cols)
    {a : Fin (P + 1) → NativeMatrix (Mat E K)} {b : Fin (P + 1) → ℕ → Blk E K} {x : ℕ → V} (h : Fits eqs g cell (fun p => (d p).cols) a b x)
    (par : ParSolve.Parameters K) : Whole g a b cell par (linearSystem eqs cell par x) where
  nodup := Finset.nodup_toList _
  complete i := Finset.mem_toList.2 (Finset.mem_univ i)
  rhs k := by
    obtain ⟨n, hn⟩ := List.getElem?_of_mem (show cell k ∈ g.cells (g.owner (cell k)) from mem_all hE k)
    obtain ⟨J, hJ, -⟩ := (h _).2.2 n k hn rfl
    refine ⟨n, hn, ?_⟩
    simp only [linearSystem, block_flat, hJ, Option.elim_some]
  operator y Y hY k := by
    simp only [linearSystem, block_flat]
    exact product_of_fits hl v hE hp h y Y hY k
  precondition n y r := by
    set jac : ((Σ _ : Fin (0 + 1), Fin (N * E)) → K) → (Σ _ : Fin (0 + 1), Fin (N * E)) → K := fun y => flat fun k => block y k + par.relaxation •
      (((rowAt eqs cell x k).elim 0 fun r => r.2 (cell k))⁻¹.mulVec (block r k - product eqs cell x y k)) with hjac
    refine ⟨fun j => jac^[j] y, rfl, rfl, ?_⟩
    intro j _ Y R hY hR k
    simp only [Function.iterate_succ_apply'] at hY ⊢
    generalize jac^[j] y = y at hY ⊢
    obtain ⟨n, hn⟩ := List.getElem?_of_mem (show cell k ∈ g.cells (g.owner (cell k)) from mem_all hE k)
    obtain ⟨-, h2, h3⟩ := h (g.owner (cell k))
    obtain ⟨J, hJ, hv⟩ := h3 n k hn rfl
    refine ⟨product eqs cell x y k, J (cell k), product_of_fits hl v hE hp h y Y hY k, ?_, ?_⟩
    · obtain ⟨m, hm, hc⟩ := (hp.own _ n _ hn rfl (cell k)).1 (hl.self _)
      refine ⟨n, m, hn, hc, by rw [h2]; exact hm, hv m (by rw [h2]; exact hm) _ hc⟩
    · rw [hY, hR, hjac, block_flat, hJ]
      rfl
  pre _ _ := rfl
  post _ := rfl
  dot _ _ := rfl
  criterion := rfl
  breakdownEps := rfl
  maxIterations := rfl

end Verif.ParNewton
