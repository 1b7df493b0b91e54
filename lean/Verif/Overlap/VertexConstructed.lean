import Verif.Overlap.VertexDomestic

/-
The constructor sets up the right overlaps of vertices.
-/

set_option autoImplicit false
set_option linter.unusedSectionVars false

namespace Verif.Overlap.Vertex

open Verif.Mpi Verif.GlobalIdx Verif.Overlap

variable {P : ℕ} {G : Type} {verts : Fin P → List G} {d : Fin P → Native P} {overlapSize : ℕ}

/-- What a process receives -/
noncomputable def received (verts : Fin P → List G) (d : Fin P → Native P) (overlapSize : ℕ) (s : Fin P → Domestic P) (p : Fin P) :
    List (Fin P × ℕ × ℕ) :=
  (peers verts d overlapSize p).flatMap fun q => (sendIndices (d q) (found d overlapSize q) p (s q)).map fun x => (q, x)

theorem mem_sendIndices (v : Valid verts d) {number : Option G → ℕ} {q : Fin P} {s : Domestic P}
    (ht : ∀ k < (verts q).length, s.toGlobal k = some (number (verts q)[k]?)) (p : Fin P) (x : ℕ × ℕ) :
    x ∈ sendIndices (d q) (found d overlapSize q) p s ↔
      p ≠ q ∧ ∃ y ∈ verts q, ∃ m ≤ overlapSize, Dist verts d p m y ∧ x = (number (some y), m) := by
  unfold sendIndices
  rw [List.mem_map]
  constructor
  · rintro ⟨l, hl, rfl⟩
    obtain ⟨hl, hm⟩ := mem_foreignWith.1 hl
    obtain ⟨m, hm⟩ := Option.isSome_iff_exists.1 hm
    obtain ⟨h1, h2, y, hy, hd⟩ := (found_byLocal v q p l m).1 hm
    refine ⟨h1, y, List.mem_of_getElem? hy, m, h2, hd, ?_⟩
    rw [ht l (lt_of_get hy), hm, hy]
    rfl
  · rintro ⟨h1, y, hy, m, h2, hd, rfl⟩
    obtain ⟨l, hl⟩ := exists_get hy
    have hm := (found_byLocal (overlapSize := overlapSize) v q p l m).2 ⟨h1, h2, y, hl, hd⟩
    refine ⟨l, mem_foreignWith.2 ⟨by rw [numLocal v]; exact lt_of_get hl, by rw [hm]; rfl⟩, ?_⟩
    rw [ht l (lt_of_get hl), hm, hl]
    rfl

theorem mem_received (v : Valid verts d) {number : Option G → ℕ} {s : Fin P → Domestic P}
    (ht : ∀ q, ∀ k < (verts q).length, (s q).toGlobal k = some (number (verts q)[k]?)) (p : Fin P) (e : Fin P × ℕ × ℕ) :
    e ∈ received verts d overlapSize s p ↔ p ≠ e.1 ∧ ∃ y ∈ verts e.1, ∃ m ≤ overlapSize, Dist verts d p m y ∧
      e.2 = (number (some y), m) := by
  unfold received
  rw [List.mem_flatMap]
  constructor
  · rintro ⟨q, hq, h⟩
    obtain ⟨x, hx, rfl⟩ := List.mem_map.1 h
    exact (mem_sendIndices v (ht q) p x).1 hx
  · intro h
    obtain ⟨h1, y, hy, m, hm, hd, -⟩ := id h
    refine ⟨e.1, ?_, List.mem_map.2 ⟨e.2, (mem_sendIndices v (ht e.1) p e.2).2 h, rfl⟩⟩
    rw [peers_symm v, mem_peers]
    exact ⟨h1, y, hy, m, hm, hd.1⟩

open Classical in
/-- The distance of the vertex with a number -/
noncomputable def distOf (verts : Fin P → List G) (d : Fin P → Native P) (number : Option G → ℕ) (p : Fin P) (n : ℕ) : ℕ :=
  if h : ∃ m, ∃ y ∈ all verts, number (some y) = n ∧ Dist verts d p m y then h.choose else 0

theorem number_inj (v : Valid verts d) {number : Option G → ℕ}
    (hinj : Set.InjOn number (present (parts verts d overlapSize) (dof verts))) {x y : G} (hx : x ∈ all verts) (hy : y ∈ all verts)
    (e : number (some x) = number (some y)) : x = y :=
  Option.some.inj (hinj ((present_iff v _).2 ⟨x, hx, rfl⟩) ((present_iff v _).2 ⟨y, hy, rfl⟩) e)

theorem distOf_eq (v : Valid verts d) {number : Option G → ℕ}
    (hinj : Set.InjOn number (present (parts verts d overlapSize) (dof verts))) {p : Fin P} {m : ℕ} {y : G} (hy : y ∈ all verts)
    (hd : Dist verts d p m y) : distOf verts d number p (number (some y)) = m := by
  unfold distOf
  have h : ∃ m, ∃ z ∈ all verts, number (some z) = number (some y) ∧ Dist verts d p m z := ⟨m, y, hy, rfl, hd⟩
  rw [dif_pos h]
  obtain ⟨z, hz, e, hd'⟩ := h.choose_spec
  have := number_inj v hinj hz hy e
  subst this
  exact dist_unique hd' hd

/-- The state after the constructor, given the global indices -/
noncomputable def final (verts : Fin P → List G) (d : Fin P → Native P) (overlapSize : ℕ) (t : Fin P → State) (p : Fin P) : Process P :=
  { foreign := found d overlapSize p
    globals := t p
    domestic := (received verts d overlapSize (fun p => Domestic.init (d p) (t p)) p).foldl (fun s e => receiveIndex e.1 s e.2)
      (Domestic.init (d p) (t p)) }

theorem foldl_build (p : Fin P) (σ : Fin P → Process P) (f : Foreign P) (hf : ∀ q, (σ q).foreign = found d overlapSize q)
    (l : List (Fin P)) (t : Domestic P) :
    l.foldl (fun t q => (buildDomesticOverlap d fun _ => f).recv p q
      ((buildDomesticOverlap d fun _ => (σ q).foreign).send q p (σ q).domestic) t) t =
      (l.flatMap fun q => (sendIndices (d q) (found d overlapSize q) p (σ q).domestic).map fun x => (q, x)).foldl
        (fun s e => receiveIndex e.1 s e.2) t := by
  induction l generalizing t with
  | nil => rfl
  | cons q l ih =>
    rw [List.foldl_cons, ih, List.flatMap_cons, List.foldl_append]
    congr 1
    simp only [buildDomesticOverlap, hf, List.foldl_map]

theorem settles_final (v : Valid verts d) (any : Fin P → Domestic P) {t : Fin P → State}
    (ht : Settles (fun p => GlobalIdx.program overlapSize (parts verts d overlapSize p) p) (fun _ => State.empty) t) :
    Settles (constructWith d overlapSize (peers verts d overlapSize)) (fun p => Process.start (d p) (any p))
      (final verts d overlapSize t) := by
  have : Nonempty (AnyMsg P) := ⟨.seeds []⟩
  have h1 := Settles.lift (get := Process.foreign) (put := fun f s => { s with foreign := f }) (wrap := AnyMsg.seeds)
    (unwrap := AnyMsg.toSeeds) (fun _ _ => rfl) (fun _ _ _ => rfl) (fun _ => rfl) (fun _ => rfl)
    (σ' := fun p => Process.start (d p) (any p)) (settles_foreign (overlapSize := overlapSize) v)
  have h2 := Settles.lift (M' := AnyMsg P) (get := Process.globals) (put := fun f s => { s with globals := f }) (wrap := AnyMsg.number)
    (unwrap := AnyMsg.toNumber) (fun _ _ => rfl) (fun _ _ _ => rfl) (fun _ => rfl) (fun _ => rfl)
    (σ' := fun p => { Process.start (d p) (any p) with foreign := found d overlapSize p }) ht
  have h3 := Settles.compute (M := AnyMsg P)
    (σ := fun p => { Process.start (d p) (any p) with foreign := found d overlapSize p, globals := t p })
    (fun p s => { s with domestic := Domestic.init (d p) s.globals })
  have h4 := settles_round (peers_nodup (verts := verts) (d := d) (overlapSize := overlapSize)) (peers_symm v) peers_irrefl
    (liftDomestic (buildDomesticOverlap d)) (fun p => { foreign := found d overlapSize p, globals := t p, domestic := Domestic.init (d p) (t p) })
  have h5 : Settles (roundProgram (fun p => (d p).blackPeers) (liftDomestic fun _ => updateNativeToDomesticMap d))
      (final verts d overlapSize t) (final verts d overlapSize t) := by
    have e : roundProgram (fun p => (d p).blackPeers) (liftDomestic fun _ => updateNativeToDomesticMap d) = fun _ => [] := by
      funext p
      unfold roundProgram
      simp only [v.blackPeers p]
      rfl
    rw [e]
    exact Settles.nil
  have e : runRound (peers verts d overlapSize)
      (fun p => { foreign := found d overlapSize p, globals := t p, domestic := Domestic.init (d p) (t p) })
      (liftDomestic (buildDomesticOverlap d)) = final verts d overlapSize t := by
    funext p
    rw [runRound_domestic, foldl_build p _ _ (fun _ => rfl)]
    rfl
  rw [e] at h4
  exact (((h1.append h2).append h3).append h4).append h5

/-! ### Masters -/

theorem foldl_min_spec (l : List (Fin P)) (a : Fin P) :
    (l.foldl min a = a ∨ l.foldl min a ∈ l) ∧ l.foldl min a ≤ a ∧ ∀ x ∈ l, l.foldl min a ≤ x := by
  induction l generalizing a with
  | nil => exact ⟨Or.inl rfl, le_rfl, by simp⟩
  | cons x l ih =>
    rw [List.foldl_cons]
    obtain ⟨h1, h2, h3⟩ := ih (min a x)
    refine ⟨?_, le_trans h2 (min_le_left _ _), ?_⟩
    · rcases h1 with h1 | h1
      · rcases min_choice a x with h | h
        · exact Or.inl (h1.trans h)
        · exact Or.inr (by rw [h1, h]; exact List.mem_cons_self)
      · exact Or.inr (List.mem_cons_of_mem _ h1)
    · intro y hy
      rcases List.mem_cons.1 hy with rfl | hy
      · exact le_trans h2 (min_le_right _ _)
      · exact h3 y hy

theorem minRank_spec (l : List (Fin P)) (hne : l ≠ []) : ∃ m, minRank l = some m ∧ m ∈ l ∧ ∀ x ∈ l, m ≤ x := by
  cases l with
  | nil => exact absurd rfl hne
  | cons a l =>
    have key : ∀ (l : List (Fin P)) (a : Fin P), l.foldl (fun m q => some ((m : Option (Fin P)).elim q (min q))) (some a) =
        some (l.foldl min a) := by
      intro l
      induction l with
      | nil => intro a; rfl
      | cons x l ih =>
        intro a
        rw [List.foldl_cons, List.foldl_cons]
        show l.foldl _ (some (min x a)) = _
        rw [ih, min_comm]
    obtain ⟨h1, h2, h3⟩ := foldl_min_spec l a
    refine ⟨l.foldl min a, ?_, ?_, ?_⟩
    · unfold minRank
      rw [List.foldl_cons]
      exact key l a
    · rcases h1 with h1 | h1
      · rw [h1]; exact List.mem_cons_self
      · exact List.mem_cons_of_mem _ h1
    · intro x hx
      rcases List.mem_cons.1 hx with rfl | hx
      · exact h2
      · exact h3 x hx

theorem local_master (v : Valid verts d) {p : Fin P} {l : ℕ} {x : G} (hx : (verts p)[l]? = some x) :
    IsLowest verts x (masterRank (d p) (found d overlapSize p) p l) := by
  have hz : ∀ q, (found d overlapSize p).byLocal l q = some 0 ↔ q ≠ p ∧ x ∈ verts q := by
    intro q
    rw [found_byLocal v]
    constructor
    · rintro ⟨h1, -, y, hy, hd⟩
      rw [hx] at hy
      injection hy with hy
      subst hy
      exact ⟨h1, (dist_zero _ _).1 hd⟩
    · rintro ⟨h1, h2⟩
      exact ⟨h1, Nat.zero_le _, x, hx, (dist_zero _ _).2 h2⟩
  unfold masterRank
  split_ifs with hb
  · obtain ⟨h1, h2, h3⟩ := foldl_min_spec ((List.finRange P).filter fun q => decide ((found d overlapSize p).byLocal l q = some 0)) p
    refine ⟨?_, ?_⟩
    · rcases h1 with h1 | h1
      · rw [h1]; exact List.mem_of_getElem? hx
      · rw [List.mem_filter, decide_eq_true_eq, hz] at h1
        exact h1.2.2
    · intro q hq
      by_cases hqp : q = p
      · rw [hqp]; exact h2
      · exact h3 q (List.mem_filter.2 ⟨List.mem_finRange _, by rw [decide_eq_true_eq, hz]; exact ⟨hqp, hq⟩⟩)
  · refine ⟨List.mem_of_getElem? hx, fun q hq => ?_⟩
    by_contra hlt
    apply hb
    rw [isBorder_iff v]
    refine ⟨x, q, hx, ?_, hq⟩
    rintro rfl
    exact hlt le_rfl

/-! ### The result -/

theorem final_constructed (v : Valid verts d) {t : Fin P → State} {number : Option G → ℕ}
    (hinj : Set.InjOn number (present (parts verts d overlapSize) (dof verts)))
    (ht : ∀ p, (∀ k, (t p).toGlobal k = ((locals (parts verts d overlapSize p))[k]?).map fun i => number (dof verts p i)) ∧
      ∀ n k, (t p).toDomestic n = some k ↔ (t p).toGlobal k = some n) :
    Constructed verts d overlapSize (fun x => number (some x)) (final verts d overlapSize t) := by
  set s : Fin P → Domestic P := fun p => Domestic.init (d p) (t p) with hsdef
  set own : Fin P → List ℕ := fun p => (verts p).map fun x => number (some x) with hown
  have hog : ∀ p k, (s p).toGlobal k = (own p)[k]? := by
    intro p k
    show (t p).toGlobal k = _
    rw [(ht p).1, parts, locals_eq v, hown]
    simp only [List.getElem?_map]
    by_cases hk : k < (verts p).length
    · rw [List.getElem?_range hk, List.getElem?_eq_getElem hk]
      simp [dof, List.getElem?_eq_getElem hk]
    · rw [List.getElem?_eq_none (by simpa using hk), List.getElem?_eq_none (by simpa using hk)]
      rfl
  have hst : ∀ q, ∀ k < (verts q).length, (s q).toGlobal k = some (number (verts q)[k]?) := by
    intro q k hk
    rw [hog, hown]
    simp only [List.getElem?_map]
    rw [List.getElem?_eq_getElem hk]
    rfl
  have hown_mem : ∀ p n, n ∈ own p ↔ ∃ x ∈ verts p, number (some x) = n := by
    intro p n
    rw [hown]
    simp only [List.mem_map]
  set R := received verts d overlapSize s with hR
  have hrec : ∀ p e, e ∈ R p ↔ p ≠ e.1 ∧ ∃ y ∈ verts e.1, ∃ m ≤ overlapSize, Dist verts d p m y ∧ e.2 = (number (some y), m) :=
    fun p e => mem_received v hst p e
  set D : Fin P → Domestic P := fun p => (R p).foldl (fun s e => receiveIndex e.1 s e.2) (s p) with hD
  have B : ∀ p, Built (own p) (distOf verts d number p) (R p) (D p) := by
    intro p
    have h0 : Built (own p) (distOf verts d number p) [] (s p) := by
      refine ⟨⟨[], ?_, ?_, ?_, ?_⟩, (ht p).2, ?_, ?_, ?_, rfl⟩
      · rw [List.append_nil, hown]
        refine List.Nodup.map_on ?_ (v.nodup p)
        intro x hx y hy e
        exact number_inj v hinj ⟨p, hx⟩ ⟨p, hy⟩ e
      · show (d p).numLocal = _
        rw [numLocal v, hown]; simp
      · intro i; rw [List.append_nil]; exact hog p i
      · intro n; simp
      · intro q i; simp [hsdef, Domestic.init]
      · intro q; simp [hsdef, Domestic.init]
      · intro i
        show (if i < (d p).numLocal then some 0 else none) = _
        rw [numLocal v]
        split_ifs with hi
        · rw [hst p i hi]
          obtain ⟨x, hx⟩ := exists_vert hi
          rw [hx, Option.map_some, distOf_eq v hinj ⟨p, List.mem_of_getElem? hx⟩ ((dist_zero _ _).2 (List.mem_of_getElem? hx))]
        · rw [hog, hown, List.getElem?_eq_none (by simpa using hi)]
          rfl
    have := built_all (R p) h0 (by
      intro e he
      obtain ⟨-, y, hy, m, -, hd, e2⟩ := (hrec p e).1 he
      rw [e2]
      exact (distOf_eq v hinj ⟨_, hy⟩ hd).symm)
    rwa [List.nil_append] at this
  have hlt : ∀ p i n, (D p).toGlobal i = some n → i < (D p).numDomestic := by
    intro p i n h
    obtain ⟨extra, -, h2, h3, -⟩ := (B p).list
    rw [h3] at h
    rw [h2]
    exact lt_of_get h
  -- which numbers there are
  have hhas : ∀ p n, (∃ i, (D p).toGlobal i = some n) ↔ ∃ x ∈ all verts, number (some x) = n ∧ InOverlap verts d overlapSize p x := by
    intro p n
    obtain ⟨extra, -, -, h3, h4⟩ := (B p).list
    have : (∃ i, (D p).toGlobal i = some n) ↔ n ∈ own p ++ extra := by
      constructor
      · rintro ⟨i, hi⟩; rw [h3] at hi; exact List.mem_of_getElem? hi
      · intro h
        obtain ⟨i, hi, e⟩ := List.getElem_of_mem h
        exact ⟨i, by rw [h3, List.getElem?_eq_getElem hi, e]⟩
    rw [this, h4, hown_mem]
    constructor
    · rintro (⟨x, hx, rfl⟩ | ⟨e, he, rfl⟩)
      · exact ⟨x, ⟨p, hx⟩, rfl, 0, Nat.zero_le _, Walk.start x hx⟩
      · obtain ⟨-, y, hy, m, hm, hd, e2⟩ := (hrec p e).1 he
        exact ⟨y, ⟨_, hy⟩, by rw [e2], m, hm, hd.1⟩
    · rintro ⟨x, ⟨q, hq⟩, rfl, k, hk, hw⟩
      by_cases hqp : p = q
      · subst hqp; exact Or.inl ⟨x, hq, rfl⟩
      · obtain ⟨m, hm, hd⟩ := walk_dist hw
        exact Or.inr ⟨(q, number (some x), m), (hrec p _).2 ⟨hqp, x, hq, m, by omega, hd, rfl⟩, rfl⟩
  have hsome : ∀ p i, i < (D p).numDomestic → ∃ n, (D p).toGlobal i = some n := by
    intro p i hi
    obtain ⟨extra, -, h2, h3, -⟩ := (B p).list
    rw [h2] at hi
    exact ⟨_, by rw [h3, List.getElem?_eq_getElem hi]⟩
  have hglob : ∀ p i, i < (D p).numDomestic → ∀ n, ((D p).toGlobal i).getD 0 = n ↔ (D p).toGlobal i = some n := by
    intro p i hi n
    obtain ⟨m, e⟩ := hsome p i hi
    rw [e]
    simp
  have hlocal : ∀ p i, i < (verts p).length → (D p).toGlobal i = some (number (verts p)[i]?) := by
    intro p i hi
    obtain ⟨extra, -, -, h3, -⟩ := (B p).list
    rw [h3, List.getElem?_append_left (by rw [hown]; simpa using hi), ← hog, hst p i hi]
  have hfor : ∀ p q l, l ∈ foreignWith (d p) (found d overlapSize p) q ↔ q ≠ p ∧ ∃ x, (verts p)[l]? = some x ∧
      InOverlap verts d overlapSize q x := by
    intro p q l
    rw [mem_foreignWith, numLocal v]
    constructor
    · rintro ⟨hl, hm⟩
      obtain ⟨m, hm⟩ := Option.isSome_iff_exists.1 hm
      obtain ⟨h1, h2, x, hx, hd⟩ := (found_byLocal v p q l m).1 hm
      exact ⟨h1, x, hx, m, h2, hd.1⟩
    · rintro ⟨h1, x, hx, k, hk, hw⟩
      obtain ⟨m, hm, hd⟩ := walk_dist hw
      refine ⟨lt_of_get hx, ?_⟩
      rw [(found_byLocal v p q l m).2 ⟨h1, by omega, x, hx, hd⟩]
      rfl
  refine ⟨found_peerSet v, ?_, ?_, ?_, ?_, ?_, hfor, ?_, ?_, fun p i => congrFun (B p).black i⟩
  · intro p x hx
    have : (∃ i, (D p).toGlobal i = some (number (some x))) ↔ InOverlap verts d overlapSize p x := by
      rw [hhas]
      constructor
      · rintro ⟨y, hy, e, h⟩
        have := number_inj v hinj hy hx e
        subst this
        exact h
      · intro h; exact ⟨x, hx, rfl, h⟩
    rw [← this]
    constructor
    · rintro ⟨i, hi, e⟩; exact ⟨i, (hglob p i hi _).1 e⟩
    · rintro ⟨i, e⟩; exact ⟨i, hlt p i _ e, (hglob p i (hlt p i _ e) _).2 e⟩
  · intro p n i
    show (D p).toDomestic n = some i ↔ i < (D p).numDomestic ∧ ((D p).toGlobal i).getD 0 = n
    rw [(B p).toDomestic]
    constructor
    · intro e; exact ⟨hlt p i _ e, (hglob p i (hlt p i _ e) _).2 e⟩
    · rintro ⟨hi, e⟩; exact (hglob p i hi _).1 e
  · intro p i hi
    obtain ⟨n, hn⟩ := hsome p i hi
    obtain ⟨x, hx, rfl, hov⟩ := (hhas p n).1 ⟨i, hn⟩
    refine ⟨x, hx, (hglob p i hi _).2 hn, ?_⟩
    show IsLowest verts x (domesticMasterRank (d p) (found d overlapSize p) (D p) p i)
    unfold domesticMasterRank
    rw [numLocal v]
    split_ifs with hil
    · obtain ⟨y, hy⟩ := exists_vert hil
      have := hlocal p i hil
      rw [hn, hy] at this
      have := number_inj v hinj hx ⟨p, List.mem_of_getElem? hy⟩ (Option.some.inj this)
      subst this
      exact local_master v hy
    · have hnp : x ∉ verts p := by
        intro hxp
        obtain ⟨j, hj⟩ := exists_get hxp
        have hjg := hlocal p j (lt_of_get hj)
        rw [hj] at hjg
        have h1 := ((B p).toDomestic _ _).2 hjg
        have h2 := ((B p).toDomestic _ _).2 hn
        rw [h1] at h2
        have := Option.some.inj h2
        subst this
        exact hil (lt_of_get hj)
      have hw : ∀ q, q ∈ (found d overlapSize p).peerSet.filter (fun q => decide (i ∈ (D p).withPeer q)) ↔ x ∈ verts q := by
        intro q
        rw [List.mem_filter, decide_eq_true_eq, (B p).withPeer, found_peerSet v]
        constructor
        · rintro ⟨-, e, he, rfl, h2⟩
          obtain ⟨-, y, hy, m, -, -, e2⟩ := (hrec p e).1 he
          rw [hn, e2] at h2
          have := number_inj v hinj hx ⟨_, hy⟩ (Option.some.inj h2)
          subst this
          exact hy
        · intro hq
          have hqp : q ≠ p := by rintro rfl; exact hnp hq
          obtain ⟨k, hk, hwk⟩ := hov
          obtain ⟨m, hm, hd⟩ := walk_dist hwk
          refine ⟨?_, (q, number (some x), m), (hrec p _).2 ⟨hqp.symm, x, hq, m, by omega, hd, rfl⟩, rfl, hn⟩
          rw [peers_symm v, mem_peers]
          exact ⟨hqp.symm, x, hq, k, hk, hwk⟩
      obtain ⟨q0, hq0⟩ := hx
      obtain ⟨m, hm, hmem, hmin⟩ := minRank_spec _ (List.ne_nil_of_mem ((hw q0).2 hq0))
      rw [hm]
      exact ⟨(hw m).1 hmem, fun q hq => hmin q ((hw q).2 hq)⟩
  · intro p i l
    show (d p).nativeToLocal i = some l ↔ l < (D p).numDomestic ∧ ∃ x, (verts p)[i]? = some x ∧
      ((D p).toGlobal l).getD 0 = number (some x)
    rw [toLocal v]
    constructor
    · rintro ⟨rfl, hi⟩
      obtain ⟨x, hx⟩ := exists_vert hi
      have hg := hlocal p l hi
      rw [hx] at hg
      exact ⟨hlt p l _ hg, x, hx, (hglob p l (hlt p l _ hg) _).2 hg⟩
    · rintro ⟨hl, x, hx, e⟩
      rw [hglob p l hl] at e
      have hg := hlocal p i (lt_of_get hx)
      rw [hx] at hg
      have h1 := ((B p).toDomestic _ _).2 hg
      have h2 := ((B p).toDomestic _ _).2 e
      rw [h1] at h2
      exact ⟨(Option.some.inj h2).symm, lt_of_get hx⟩
  · intro p i l
    show (d p).localToNative l = some i ↔ (d p).nativeToLocal i = some l
    exact (toLocal_iff i l).symm
  · intro p i hi x hx e m
    show (D p).borderDistance i = some m ↔ _
    have hg := (hglob p i hi _).1 e
    rw [(B p).dist, hg, Option.map_some]
    obtain ⟨y, hy, e', k, hk, hw⟩ := (hhas p _).1 ⟨i, hg⟩
    have := number_inj v hinj hy hx e'
    subst this
    obtain ⟨k', -, hd⟩ := walk_dist hw
    rw [distOf_eq v hinj hy hd]
    constructor
    · intro h; rw [← Option.some.inj h]; exact hd
    · intro h; rw [dist_unique h hd]
  · intro p q hq
    show ((D p).withPeer q).length = (foreignWith (d q) (found d overlapSize q) p).length
    rw [(B p).withPeerLength, hR]
    unfold received
    rw [List.filter_flatMap, List.length_flatMap]
    have hz : ∀ q' ∈ peers verts d overlapSize p, (((sendIndices (d q') (found d overlapSize q') p (s q')).map fun x => (q', x)).filter
        fun e => decide (e.1 = q)).length = if q' = q then (foreignWith (d q) (found d overlapSize q) p).length else 0 := by
      intro q' _
      split_ifs with h
      · subst h
        rw [List.filter_eq_self.2]
        · unfold sendIndices
          simp
        · intro e he
          obtain ⟨x, -, rfl⟩ := List.mem_map.1 he
          simp
      · rw [List.length_eq_zero_iff, List.filter_eq_nil_iff]
        intro e he
        obtain ⟨x, -, rfl⟩ := List.mem_map.1 he
        simpa using h
    rw [List.map_congr_left hz]
    have hsum : ∀ (l : List (Fin P)), l.Nodup → q ∈ l → ∀ n : ℕ, (l.map fun q' => if q' = q then n else 0).sum = n := by
      intro l
      induction l with
      | nil => intro _ h; simp at h
      | cons a l ih =>
        intro hnd hm n
        rw [List.map_cons, List.sum_cons]
        rw [List.nodup_cons] at hnd
        by_cases ha : a = q
        · subst ha
          rw [if_pos rfl]
          have : (l.map fun q' => if q' = a then n else 0).sum = 0 := by
            apply List.sum_eq_zero
            intro x hx
            obtain ⟨y, hy, rfl⟩ := List.mem_map.1 hx
            rw [if_neg]
            rintro rfl
            exact hnd.1 hy
          omega
        · rw [if_neg ha, ih hnd.2 ((List.mem_cons.1 hm).resolve_left (Ne.symm ha)), Nat.zero_add]
    exact hsum _ (peers_nodup p) hq _

theorem settles_constructed (v : Valid verts d) (any : Fin P → Domestic P) :
    ∃ (count : ℕ) (number : G → ℕ) (τ : Fin P → Process P),
      Settles (constructWith d overlapSize (peers verts d overlapSize)) (fun p => Process.start (d p) (any p)) τ ∧
      Set.BijOn number (all verts) {n | n < count} ∧ Constructed verts d overlapSize number τ := by
  obtain ⟨t, ht, count, number, hbij, hn⟩ := settles_globals (overlapSize := overlapSize) v
  refine ⟨count, fun c => number (some c), final verts d overlapSize t, settles_final v any ht, ⟨?_, ?_, ?_⟩,
    final_constructed v hbij.injOn hn⟩
  · intro c hc
    exact hbij.mapsTo ((present_iff v _).2 ⟨c, hc, rfl⟩)
  · intro c hc c' hc' e
    exact number_inj v hbij.injOn hc hc' e
  · intro n hn
    obtain ⟨x, hx, rfl⟩ := hbij.surjOn hn
    obtain ⟨c, hc, rfl⟩ := (present_iff v x).1 hx
    exact ⟨c, hc, rfl⟩

/-- What `Coherent` and `Complete` need -/
theorem coherent_of_constructed (v : Valid verts d) {number : G → ℕ} (hinj : Set.InjOn number (all verts))
    {s : Fin P → Process P} (c : Constructed verts d overlapSize number s) :
    Sync.Coherent (fun p => (s p).answers (d p) p) ∧ Sync.Complete (fun p => (s p).answers (d p) p) := by
  have hpeers : ∀ p, ((s p).answers (d p) p).peerSet = peers verts d overlapSize p := c.peers
  have hloc : ∀ p i x, (verts p)[i]? = some x → i < ((s p).answers (d p) p).numDomestic ∧
      ((s p).answers (d p) p).domesticToGlobal i = number x := by
    intro p i x hx
    have : ((s p).answers (d p) p).nativeToDomestic i = some i := (toLocal v p i i).2 ⟨rfl, lt_of_get hx⟩
    obtain ⟨h1, y, hy, e⟩ := (c.native p i i).1 this
    rw [hx] at hy
    injection hy with hy
    subst hy
    exact ⟨h1, e⟩
  constructor
  · constructor
    · intro p; rw [hpeers]; exact peers_nodup p
    · intro p q; rw [hpeers, hpeers]; exact peers_symm v p q
    · intro p; rw [hpeers]; exact peers_irrefl p
    · exact c.index
    · intro p q hq
      refine ⟨List.Nodup.filter _ List.nodup_range, fun l hl => ?_⟩
      obtain ⟨-, x, hx, hov⟩ := (c.foreign p q l).1 hl
      obtain ⟨h1, e⟩ := hloc p l x hx
      refine ⟨h1, ?_⟩
      rw [e]
      exact (c.holds q x ⟨p, List.mem_of_getElem? hx⟩).2 hov
    · intro p q i hi j hj e
      obtain ⟨x, hx, e1, m1⟩ := c.vertex p i hi
      obtain ⟨y, hy, e2, m2⟩ := c.vertex q j hj
      have := hinj hx hy (e1.symm.trans (e.trans e2))
      subst this
      exact le_antisymm (m1.2 _ m2.1) (m2.2 _ m1.1)
    · intro p i hi
      obtain ⟨x, hx, e1, m1⟩ := c.vertex p i hi
      generalize ((s p).answers (d p) p).masterRank i = r at m1
      by_cases hr : r = p
      · exact Or.inl hr
      · right
        have hov := (c.holds p x hx).1 ⟨i, hi, e1⟩
        obtain ⟨l, hl⟩ := exists_get m1.1
        refine ⟨?_, l, (c.foreign r p l).2 ⟨Ne.symm hr, x, hl, hov⟩, ?_⟩
        · rw [hpeers, peers_symm v, mem_peers]
          exact ⟨Ne.symm hr, x, m1.1, hov⟩
        · rw [(hloc r l x hl).2, e1]
  · intro p q hpq i hi
    dsimp only
    rw [hpeers, c.foreign]
    constructor
    · rintro ⟨h1, h2⟩
      obtain ⟨j, hj⟩ := Option.isSome_iff_exists.1 h1
      have hj' := (c.back p j i).1 hj
      obtain ⟨rfl, hlt⟩ := (toLocal v p j i).1 hj'
      obtain ⟨x, hx⟩ := exists_vert hlt
      rw [(hloc p i x hx).2] at h2
      have hov := (c.holds q x ⟨p, List.mem_of_getElem? hx⟩).1 h2
      exact ⟨(mem_peers _ _).2 ⟨hpq.symm, x, List.mem_of_getElem? hx, hov⟩, hpq.symm, x, hx, hov⟩
    · rintro ⟨-, -, x, hx, hov⟩
      refine ⟨Option.isSome_iff_exists.2 ⟨i, (c.back p i i).2 ((toLocal v p i i).2 ⟨rfl, lt_of_get hx⟩)⟩, ?_⟩
      rw [(hloc p i x hx).2]
      exact (c.holds q x ⟨p, List.mem_of_getElem? hx⟩).2 hov

end Verif.Overlap.Vertex
