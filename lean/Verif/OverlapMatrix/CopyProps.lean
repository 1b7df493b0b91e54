import Verif.OverlapMatrix.Copy
import Verif.OverlapMatrix.VertexProps

/-
C176: matrices which are assigned by copying rows from their masters.
-/

set_option autoImplicit false
set_option linter.unusedSectionVars false

namespace Verif.OverlapMatrix

open Verif.Mpi Verif.Sync Verif.Overlap

variable {P : ℕ} {G K : Type}

/-! ### Messages -/

section
variable {o : Fin P → Sync.Overlap P} {black : Fin P → ℕ → Option ℕ} {a : Fin P → NativeMatrix K}

theorem receiveCopyEntries_apply (l : List ((Option ℕ × Option ℕ) × K)) (v : ℕ → ℕ → K) (i j : ℕ) (y : K)
    (h : ∀ x ∈ l, x.1 = (some i, some j) → x.2 = y) :
    ((∃ x ∈ l, x.1 = (some i, some j)) → receiveCopyEntries l v i j = y) ∧
    ((∀ x ∈ l, x.1 ≠ (some i, some j)) → receiveCopyEntries l v i j = v i j) := by
  unfold receiveCopyEntries
  induction l using List.reverseRecOn with
  | nil => simp
  | append_singleton l x ih =>
    obtain ⟨h1, h2⟩ := ih fun z hz => h z (List.mem_append_left _ hz)
    rw [List.foldl_append, List.foldl_cons, List.foldl_nil]
    set V := l.foldl copyEntry v with hV
    by_cases hx : x.1 = (some i, some j)
    · refine ⟨fun _ => ?_, fun hn => absurd hx (hn x (by simp))⟩
      unfold copyEntry
      rw [hx]
      dsimp only
      rw [Function.update_self, Function.update_self]
      exact h x (by simp) hx
    · have hs : copyEntry V x i j = V i j := by
        obtain ⟨⟨r, c⟩, z⟩ := x
        cases r with
        | none => rfl
        | some r => cases c with
          | none => rfl
          | some c =>
            dsimp only [copyEntry] at hx ⊢
            by_cases hr : i = r
            · subst hr
              have hc : j ≠ c := fun e => hx (by rw [e])
              rw [Function.update_self, Function.update_of_ne hc]
            · rw [Function.update_of_ne hr]
      rw [hs]
      refine ⟨?_, fun hn => h2 fun z hz => hn z (List.mem_append_left _ hz)⟩
      rintro ⟨z, hz, e⟩
      rcases List.mem_append.1 hz with hz | hz
      · exact h1 ⟨z, hz, e⟩
      · rw [List.mem_singleton.1 hz] at e
        exact absurd e hx

/-- What `syncCopy` does with an entry for which all peers who send it send the same value, or no peer sends any -/
theorem syncCopy_round [Zero K] (L : Coherent o) (s : Fin P → Matrix P K) (hb : ∀ p, Buffers o black a p (s p)) (p : Fin P) :
    (runRound (fun p => (o p).peerSet) s syncCopy p).pattern = (s p).pattern ∧
    ∀ i j y, (∀ q ∈ (o p).peerSet, ∀ x ∈ added o black a s p q, x.1 = (some i, some j) → x.2 = y) →
      ((∃ q ∈ (o p).peerSet, ∃ x ∈ added o black a s p q, x.1 = (some i, some j)) →
        (runRound (fun p => (o p).peerSet) s syncCopy p).value i j = y) ∧
      ((∀ q ∈ (o p).peerSet, ∀ x ∈ added o black a s p q, x.1 ≠ (some i, some j)) →
        (runRound (fun p => (o p).peerSet) s syncCopy p).value i j = (s p).value i j) := by
  have key : ∀ (l : List (Fin P)), (∀ q ∈ l, q ∈ (o p).peerSet) → ∀ (v : Matrix P K), v.recv = (s p).recv →
      let w := l.foldl (fun v q => syncCopy.recv p q (syncCopy.send q p (s q)) v) v
      w.pattern = v.pattern ∧ ∀ i j y, (∀ q ∈ l, ∀ x ∈ added o black a s p q, x.1 = (some i, some j) → x.2 = y) →
        ((∃ q ∈ l, ∃ x ∈ added o black a s p q, x.1 = (some i, some j)) → w.value i j = y) ∧
        ((∀ q ∈ l, ∀ x ∈ added o black a s p q, x.1 ≠ (some i, some j)) → w.value i j = v.value i j) := by
    intro l
    induction l with
    | nil => intro _ v _; simp
    | cons q l ih =>
      intro hl v hv
      dsimp only [List.foldl_cons]
      obtain ⟨h1, h2⟩ := ih (fun q hq => hl q (List.mem_cons_of_mem _ hq)) (syncCopy.recv p q (syncCopy.send q p (s q)) v) hv
      refine ⟨h1, fun i j y hy => ?_⟩
      have hq : q ∈ (o p).peerSet := hl q List.mem_cons_self
      have hp : p ∈ (o q).peerSet := (L.symm p q).1 hq
      have e : (syncCopy.recv p q (syncCopy.send q p (s q)) v).value = receiveCopyEntries (added o black a s p q) v.value := by
        show receiveCopyEntries ((entries (v.recv q)).zip ((entries ((s q).send p)).map (s q).entry)) v.value = _
        rw [hv, (hb p).recv q hq, (hb q).send p hp, entries_globalToDomestic, entries_globalToDomestic, List.map_map, zip_map_eq]
        rfl
      obtain ⟨k1, k2⟩ := h2 i j y fun q hq => hy q (List.mem_cons_of_mem _ hq)
      rw [e] at k2
      obtain ⟨m1, m2⟩ := receiveCopyEntries_apply (added o black a s p q) v.value i j y (hy q List.mem_cons_self)
      by_cases hex : ∃ r ∈ l, ∃ x ∈ added o black a s p r, x.1 = (some i, some j)
      · refine ⟨fun _ => k1 hex, fun hn => ?_⟩
        obtain ⟨r, hr, x, hx, ex⟩ := hex
        exact absurd ex (hn r (List.mem_cons_of_mem _ hr) x hx)
      · have hex' : ∀ r ∈ l, ∀ x ∈ added o black a s p r, x.1 ≠ (some i, some j) := fun r hr x hx ex => hex ⟨r, hr, x, hx, ex⟩
        rw [k2 hex']
        refine ⟨?_, fun hn => m2 (hn q List.mem_cons_self)⟩
        rintro ⟨r, hr, x, hx, ex⟩
        rcases List.mem_cons.1 hr with rfl | hr
        · exact m1 ⟨x, hx, ex⟩
        · exact absurd ex (hex' r hr x hx)
  exact key (o p).peerSet (fun _ h => h) (s p) rfl

/-- The constructor, assigning the native matrices and `syncCopy` -/
theorem settles_copy [Zero K] (c : Coherent o) (any : Fin P → ℕ → ℕ → K) :
    Settles (copyProgram o black a) (fun p => Matrix.start (o p) (black p) (a p) (any p))
      (runRound (fun p => (o p).peerSet) (fun p => assignFromNative (o p) (black p) (a p)
        (runRound (fun p => (o p).peerSet) (fun p => Matrix.start (o p) (black p) (a p) (any p)) (buildIndices o black a) p)) syncCopy) := by
  have h1 := Settles.rounds (σ := fun p => Matrix.start (o p) (black p) (a p) (any p)) (peers := fun p => (o p).peerSet) c.nodup
    c.symm c.irrefl [buildIndices o black a]
  set τ1 := runRound (fun p => (o p).peerSet) (fun p => Matrix.start (o p) (black p) (a p) (any p)) (buildIndices o black a) with hτ1
  set τ2 : Fin P → Matrix P K := fun p => assignFromNative (o p) (black p) (a p) (τ1 p) with hτ2
  have : Nonempty (Msg K) := ⟨.values []⟩
  have h2 : Settles (M := Msg K) (fun p => [.compute (assignFromNative (o p) (black p) (a p))]) τ1 τ2 :=
    Settles.compute (fun p => assignFromNative (o p) (black p) (a p))
  have h3 := Settles.rounds (σ := τ2) (peers := fun p => (o p).peerSet) c.nodup c.symm c.irrefl [syncCopy]
  have h := (h1.append h2).append h3
  have e : (fun p => (program (fun p => (o p).peerSet) [buildIndices o black a] p ++
      [Op.compute (assignFromNative (o p) (black p) (a p))]) ++ program (fun p => (o p).peerSet) [syncCopy] p) =
        copyProgram o black a := by
    funext p
    simp [copyProgram, program]
  rw [e] at h
  exact h

end

/-! ### Cells -/

section
variable {g : Grid P G} {number : G → ℕ} {o : Fin P → Sync.Overlap P} {black : Fin P → ℕ → Option ℕ} {a : Fin P → NativeMatrix K}

/-- Assigning native matrices and `syncCopy`, once the indices have been exchanged -/
theorem copied_of_buffers [Zero K] (L : Labelled g number o black) (hN : Native g a) (τ1 : Fin P → Matrix P K)
    (b1 : ∀ p, Buffers o black a p (τ1 p)) :
    Distributed g number o a (runRound (fun p => (o p).peerSet) (fun p => assignFromNative (o p) (black p) (a p) (τ1 p)) syncCopy) := by
  set τ2 : Fin P → Matrix P K := fun p => assignFromNative (o p) (black p) (a p) (τ1 p) with hτ2
  have b2 : ∀ p, Buffers o black a p (τ2 p) := fun p => ⟨(b1 p).send, (b1 p).recv, (b1 p).pattern⟩
  intro p i hi j hj c hc c' hc' ei ej x
  obtain ⟨r1, r2⟩ := syncCopy_round L.coherent τ2 b2 p
  have hk : ∀ q ∈ (o p).peerSet, ∀ z ∈ added o black a τ2 p q, z.1 = (some i, some j) →
      g.owner c = q ∧ (∃ y, Entry g a c c' y) ∧
        z.2 = (τ2 q).entry ((o q).globalToDomestic (number c), (o q).globalToDomestic (number c')) := by
    intro q hq z hz ez
    unfold added at hz
    obtain ⟨e, he, rfl⟩ := List.mem_map.1 hz
    rw [Prod.mk.injEq, globalToDomestic_iff L hi ei, globalToDomestic_iff L hj ej] at ez
    obtain ⟨e1, e2⟩ := e
    dsimp only at ez
    obtain ⟨rfl, rfl⟩ := ez
    obtain ⟨h1, h2⟩ := (sent_iff (i := i) (j := j) L hN ((L.coherent.symm p q).1 hq) hi hc hc' ei).1 he
    exact ⟨h1, h2, rfl⟩
  have hpeer : g.owner c ≠ p → g.owner c ∈ (o p).peerSet := by
    intro ho
    obtain ⟨b, hb, eb, ob⟩ := L.cell p i hi
    have := L.inj hc hb (ei.symm.trans eb)
    subst this
    rcases L.coherent.master p i hi with h | ⟨h1, -⟩
    · exact absurd (ob.symm.trans h) ho
    · rwa [ob] at h1
  -- the pattern
  have hpat : (runRound (fun p => (o p).peerSet) τ2 syncCopy p).pattern i j ↔ ∃ x, Entry g a c c' x := by
    rw [r1, (b2 p).pattern, localPattern_iff L hN hi hj hc hc' ei ej]
    constructor
    · rintro (⟨-, h⟩ | ⟨q, hq, ⟨e1, e2⟩, he, h1, h2⟩)
      · exact h
      · rw [globalToDomestic_iff L hi ei] at h1
        rw [globalToDomestic_iff L hj ej] at h2
        dsimp only at h1 h2
        subst h1; subst h2
        exact ((sent_iff (i := i) (j := j) L hN ((L.coherent.symm p q).1 hq) hi hc hc' ei).1 he).2
    · intro h
      by_cases ho : g.owner c = p
      · exact Or.inl ⟨ho, h⟩
      · right
        refine ⟨g.owner c, hpeer ho, (number c, number c'),
          (sent_iff (i := i) (j := j) L hN ((L.coherent.symm p _).1 (hpeer ho)) hi hc hc' ei).2 ⟨rfl, h⟩, ?_, ?_⟩
        · exact (globalToDomestic_iff L hi ei _).2 rfl
        · exact (globalToDomestic_iff L hj ej _).2 rfl
  -- the values
  have hval : ∀ x, Entry g a c c' x → (runRound (fun p => (o p).peerSet) τ2 syncCopy p).value i j = x := by
    intro x hx
    have hown : (τ2 (g.owner c)).entry ((o (g.owner c)).globalToDomestic (number c), (o (g.owner c)).globalToDomestic (number c')) = x := by
      obtain ⟨n, m, e1, e2, hm, ev⟩ := id hx
      obtain ⟨l, hl⟩ := L.own _ n c e1 rfl
      obtain ⟨hln, b, hb, -, hd⟩ := (L.native _ n l).1 hl
      rw [e1] at hb; injection hb with hb; subst hb
      obtain ⟨k, hk⟩ := column_some L (g.owner c) m (((hN _).2 n).2 m hm)
      obtain ⟨hkn, b', hb', hd'⟩ := (column_iff L _ m k).1 hk
      rw [e2] at hb'; injection hb' with hb'; subst hb'
      rw [(globalToDomestic_iff L hln hd _).2 rfl, (globalToDomestic_iff L hkn hd' _).2 rfl]
      exact nativeValue_own L hN hln hkn hc hc' hd hd' rfl hx
    obtain ⟨k1, k2⟩ := r2 i j x fun q hq z hz ez => by
      obtain ⟨rfl, -, e⟩ := hk q hq z hz ez
      rw [e, hown]
    by_cases ho : g.owner c = p
    · rw [k2 fun q hq z hz ez => ?_]
      · exact nativeValue_own L hN hi hj hc hc' ei ej ho hx
      · have := (hk q hq z hz ez).1
        rw [ho] at this
        subst this
        exact L.coherent.irrefl p hq
    · apply k1
      refine ⟨g.owner c, hpeer ho, _, List.mem_map.2 ⟨(number c, number c'),
        (sent_iff (i := i) (j := j) L hN ((L.coherent.symm p _).1 (hpeer ho)) hi hc hc' ei).2 ⟨rfl, x, hx⟩, rfl⟩, ?_⟩
      rw [Prod.mk.injEq, globalToDomestic_iff L hi ei, globalToDomestic_iff L hj ej]
      exact ⟨rfl, rfl⟩
  constructor
  · rintro ⟨h1, rfl⟩
    obtain ⟨x, hx⟩ := hpat.1 h1
    rw [hval x hx]
    exact hx
  · intro hx
    exact ⟨hpat.2 ⟨x, hx⟩, hval x hx⟩

end

section
variable {g : Grid P G} {d : Fin P → Overlap.Native P} {overlapSize : ℕ} {a : Fin P → NativeMatrix K}

/-- **C176** (for grids distributed by cells; for vertices see below.)  With `assignCopy`, too, each process gets its part of the matrix
of the whole grid: for any two cells of its overlap it has an entry exactly if the master of the row has one, with the same value.  This
holds however the processes are scheduled, whatever the MPI library buffers and whatever the values were before; and processes
do not wait forever. -/
theorem C176_copy_partial [Zero K] (v : Overlap.Valid g d) (hs : 0 < overlapSize) (anyIdx : Fin P → Domestic P) (hN : Native g a)
    (s : System (Fin P) (Process P) (AnyMsg P)) (h : Reach (start (construct d overlapSize) fun p => Process.start (d p) (anyIdx p)) s)
    (hf : Finished s) (any : Fin P → ℕ → ℕ → K) (w : System (Fin P) (Matrix P K) (Msg K))
    (hw : Reach (start (copyProgram (answers d s.state) (blackMaps s.state) a) fun p =>
      Matrix.start (answers d s.state p) (blackMaps s.state p) (a p) (any p)) w) :
    (Finished w → ∃ number : G → ℕ, Set.InjOn number g.all ∧ Constructed g d overlapSize number s.state ∧
      Distributed g number (answers d s.state) a w.state) ∧ (¬Finished w → ∃ t, Step true w t) := by
  obtain ⟨count, number, τ, hτ, hbij, hc, hfor⟩ := settles_constructed v hs anyIdx
  obtain ⟨h1, -⟩ := hτ.correct s h
  have es : s.state = τ := funext (h1 hf)
  rw [es] at hw ⊢
  have L := labelled_of_constructed v hs hbij.injOn hc hfor
  obtain ⟨k1, k2⟩ := (settles_copy L.coherent any).correct w hw
  refine ⟨fun hfin => ⟨number, hbij.injOn, hc, ?_⟩, k2⟩
  rw [show w.state = _ from funext (k1 hfin)]
  exact copied_of_buffers L hN _ (buildIndices_buffers any)

/-- The hypotheses are met: such matrices can be computed. -/
example (anyIdx : Fin 3 → Domestic 3) (any : Fin 3 → ℕ → ℕ → ℤ) :
    ∃ s w, Reach (start (construct rowMesh.native 2) fun p => Process.start (rowMesh.native p) (anyIdx p)) s ∧ Finished s ∧
      Reach (start (copyProgram (answers rowMesh.native s.state) (blackMaps s.state) rowMatrix) fun p =>
        Matrix.start (answers rowMesh.native s.state p) (blackMaps s.state p) (rowMatrix p) (any p)) w ∧ Finished w := by
  obtain ⟨count, number, τ, hτ, hbij, hc, hfor⟩ := settles_constructed rowMesh_correct (overlapSize := 2) (by decide) anyIdx
  obtain ⟨s, hr, hf, es⟩ := hτ.exists_finished
  have L := labelled_of_constructed rowMesh_correct (by decide) hbij.injOn hc hfor
  have hμ := settles_copy (a := rowMatrix) (black := blackMaps τ) L.coherent any
  rw [← es] at hμ
  obtain ⟨w, hw, hfw, -⟩ := hμ.exists_finished
  exact ⟨s, w, hr, hf, hw, hfw⟩

end

/-! ### Vertices -/

namespace Vertex

open Verif.Overlap.Vertex

section
variable {verts : Fin P → List G} {d : Fin P → Overlap.Native P} {overlapSize : ℕ} {number : G → ℕ}
  {o : Fin P → Sync.Overlap P} {black : Fin P → ℕ → Option ℕ} {a : Fin P → NativeMatrix K}

/-- What a process gets for two of its vertices if there is one other process which has assembled something for them -/
theorem copied_value [Zero K] (L : Labelled verts d overlapSize number o black) (hN : Native verts d a) (τ1 : Fin P → Matrix P K)
    (b1 : ∀ p, Buffers o black a p (τ1 p)) {p q : Fin P} (hqp : q ≠ p) {i j : ℕ} {u v : G} (hi : i < (o p).numDomestic)
    (hj : j < (o p).numDomestic) (hu : u ∈ all verts) (hv : v ∈ all verts) (ei : (o p).domesticToGlobal i = number u)
    (ej : (o p).domesticToGlobal j = number v) {x : K} (hx : Part verts a q u v x)
    (hother : ∀ r, r ≠ p → (∃ y, Part verts a r u v y) → r = q) :
    (runRound (fun p => (o p).peerSet) (fun p => assignFromNative (o p) (black p) (a p) (τ1 p)) syncCopy p).value i j = x := by
  set τ2 : Fin P → Matrix P K := fun p => assignFromNative (o p) (black p) (a p) (τ1 p) with hτ2
  have b2 : ∀ p, Buffers o black a p (τ2 p) := fun p => ⟨(b1 p).send, (b1 p).recv, (b1 p).pattern⟩
  obtain ⟨-, r2⟩ := syncCopy_round L.coherent τ2 b2 p
  have hov := inOverlap L hi hu ei
  obtain ⟨hq, hp⟩ := peer_of_part L hqp hov hx
  obtain ⟨k1, -⟩ := r2 i j x fun r hr z hz ez => by
    unfold added at hz
    obtain ⟨e, he, rfl⟩ := List.mem_map.1 hz
    rw [Prod.mk.injEq, globalToDomestic_iff L hi ei, globalToDomestic_iff L hj ej] at ez
    obtain ⟨e1, e2⟩ := e
    dsimp only at ez
    obtain ⟨rfl, rfl⟩ := ez
    have hrp : r ≠ p := fun e => L.coherent.irrefl p (e ▸ hr)
    obtain ⟨-, hy⟩ := (sent_iff L ((L.coherent.symm p r).1 hr) hu hv).1 he
    have := hother r hrp hy
    subst this
    exact (sent_value L hN hy).trans (part_eq L hx)
  apply k1
  refine ⟨q, hq, _, List.mem_map.2 ⟨(number u, number v), (sent_iff L hp hu hv).2 ⟨hov, x, hx⟩, rfl⟩, ?_⟩
  rw [Prod.mk.injEq, globalToDomestic_iff L hi ei, globalToDomestic_iff L hj ej]
  exact ⟨rfl, rfl⟩

end

/-- Two processes which share a vertex -/
def twoVerts : Fin 2 → List ℕ := ![[0], [0]]

def twoCols : Fin 2 → ℕ → List ℕ := fun _ _ => [0]

theorem two_valid : Valid twoVerts (ofGrid twoVerts twoCols) := ofGrid_valid twoVerts twoCols (by decide) (by decide)

/-- The process 0 has assembled the value 1, the process 1 the value 2. -/
def twoMatrix (p : Fin 2) : NativeMatrix ℤ := { numRows := 1, cols := fun _ => [0], value := fun _ _ => p + 1 }

theorem twoMatrix_native : Native twoVerts (ofGrid twoVerts twoCols) twoMatrix := by
  intro p
  refine ⟨?_, fun n => ⟨by simp [twoMatrix], rfl⟩⟩
  fin_cases p <;> decide

/-- **C176, violated** With vertices which are shared, `assignCopy` does not copy the entries of the master: each process takes what it
receives from its peers, the master as well.  Here the process 0 is the master of the vertex and has assembled the value 1.  It gets the value 2 of
the process 1, and that one the value of the master: the two have swapped their values. -/
theorem C176_swap_violated (anyIdx : Fin 2 → Domestic 2) (overlapSize : ℕ) (any : Fin 2 → ℕ → ℕ → ℤ)
    (s : System (Fin 2) (Process 2) (AnyMsg 2))
    (h : Reach (start (constructWith (ofGrid twoVerts twoCols) overlapSize (peers twoVerts (ofGrid twoVerts twoCols) overlapSize)) fun p =>
      Process.start (ofGrid twoVerts twoCols p) (anyIdx p)) s) (hf : Finished s) (w : System (Fin 2) (Matrix 2 ℤ) (Msg ℤ))
    (hw : Reach (start (copyProgram (answers (ofGrid twoVerts twoCols) s.state) (blackMaps s.state) twoMatrix) fun p =>
        Matrix.start (answers (ofGrid twoVerts twoCols) s.state p) (blackMaps s.state p) (twoMatrix p) (any p)) w) (hfw : Finished w) :
    (∀ p, 0 < (answers (ofGrid twoVerts twoCols) s.state p).numDomestic ∧ (answers (ofGrid twoVerts twoCols) s.state p).masterRank 0 = 0) ∧
      (twoMatrix 0).value 0 0 = 1 ∧ (w.state 0).value 0 0 = 2 ∧ (w.state 1).value 0 0 = 1 := by
  obtain ⟨count, number, τ, hτ, hbij, hc⟩ := settles_constructed (overlapSize := overlapSize) two_valid anyIdx
  obtain ⟨h1, -⟩ := hτ.correct s h
  have es : s.state = τ := funext (h1 hf)
  rw [es] at hw ⊢
  have L := labelled_of_constructed two_valid hbij.injOn hc
  obtain ⟨k1, -⟩ := (settles_copy L.coherent any).correct w hw
  have hv : ∀ p : Fin 2, (twoVerts p)[0]? = some 0 := by decide
  have hpart : ∀ p : Fin 2, Part twoVerts twoMatrix p 0 0 (p + 1) := fun p => ⟨0, 0, hv p, hv p, by simp [twoMatrix], rfl⟩
  have hval : ∀ p q : Fin 2, q ≠ p → (w.state p).value 0 0 = q + 1 := by
    intro p q hqp
    rw [k1 hfw p]
    obtain ⟨hn, en⟩ := local_index L (hv p)
    refine copied_value L twoMatrix_native _ (buildIndices_buffers any) hqp hn hn (owned (hv p)) (owned (hv p)) en en (hpart q) ?_
    intro r hr _
    omega
  refine ⟨fun p => ?_, rfl, hval 0 1 (by decide), hval 1 0 (by decide)⟩
  obtain ⟨hn, en⟩ := local_index L (hv p)
  refine ⟨hn, ?_⟩
  obtain ⟨u, hu, eu, hl⟩ := L.vertex p 0 hn
  have := L.inj (owned (hv p)) hu (en.symm.trans eu)
  subst this
  exact le_antisymm (hl.2 0 (by decide)) (Fin.zero_le _)

/-- There are such matrices. -/
example (anyIdx : Fin 2 → Domestic 2) (any : Fin 2 → ℕ → ℕ → ℤ) :
    ∃ s w, Reach (start (constructWith (ofGrid twoVerts twoCols) 1 (peers twoVerts (ofGrid twoVerts twoCols) 1)) fun p =>
      Process.start (ofGrid twoVerts twoCols p) (anyIdx p)) s ∧ Finished s ∧
      Reach (start (copyProgram (answers (ofGrid twoVerts twoCols) s.state) (blackMaps s.state) twoMatrix) fun p =>
        Matrix.start (answers (ofGrid twoVerts twoCols) s.state p) (blackMaps s.state p) (twoMatrix p) (any p)) w ∧ Finished w := by
  obtain ⟨count, number, τ, hτ, hbij, hc⟩ := settles_constructed (overlapSize := 1) two_valid anyIdx
  obtain ⟨s, hr, hf, es⟩ := hτ.exists_finished
  have L := labelled_of_constructed two_valid hbij.injOn hc
  have hμ := settles_copy (a := twoMatrix) (black := blackMaps τ) L.coherent any
  rw [← es] at hμ
  obtain ⟨w, hw, hfw, -⟩ := hμ.exists_finished
  exact ⟨s, w, hr, hf, hw, hfw⟩

end Vertex

end Verif.OverlapMatrix
