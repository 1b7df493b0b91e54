import Verif.Flows.Lemmas
import Verif.Tpfa.Props
import Verif.TpfaLife.Props
import Mathlib.Algebra.BigOperators.Group.List.Lemmas
import Mathlib.Algebra.BigOperators.Ring.Finset
import Mathlib.Order.Bounds.Basic

/-
C154: reported flows are those of the residual.
-/

set_option autoImplicit false
set_option linter.unusedSectionVars false

namespace Verif.Flows

variable {V C : Type}

/-- Elements are listed in the order of their indices, boundary faces are faces of elements, each at most once. -/
structure Setting (elems : List (Elem C)) (boundary : List (Bnd V)) : Prop where
  order : ∀ (i : ℕ) (e : Elem C), elems[i]? = some e → e.index = i
  face : ∀ f ∈ boundary, ∃ e, elems[f.cell]? = some e ∧ f.bfIndex < e.bfaces.length
  once : (boundary.map fun f => (f.cell, f.bfIndex)).Nodup

/-- `b.range c` lists the partners of the cell with the Cartesian index `c` in the list `nnc` of connections, with the positions in this
list. -/
def Finds (b : Labels C) (nnc : List (ℕ × ℕ)) : Prop := ∀ c it, it ∈ b.range c ↔ nnc[it.2]? = some (c, it.1)

/-- **C154** The table which is created has a row for each element, with one entry for each interior face and one for each boundary face.
Entries are zero. Those of connections which are in the list `nnc` refer to it, the others carry the direction of their face. -/
theorem C154_create [Zero V] (b : Labels C) (nnc : List (ℕ × ℕ)) (hb : Finds b nnc) (elems : List (Elem C)) (anyFlores dispersion : Bool)
    (i : ℕ) (e : Elem C) (he : elems[i]? = some e) (ho : e.index = i) :
    ∃ r : List (Entry V), (createFlows true anyFlores dispersion b elems { flows := [], flores := [], velocity := [] }).flows[i]? = some r ∧
      r.length = e.nbs.length + e.bfaces.length ∧ (∀ x ∈ r, x.flow = 0) ∧
      (∀ (k : ℕ) (nb : ℕ × C), e.nbs[k]? = some nb → ∃ x : Entry V, r[k]? = some x ∧
        ((∃ m : ℕ, nnc[m]? = some (b.cart i, b.cart nb.1)) → x.faceId = -2 ∧ nnc[x.nncId]? = some (b.cart i, b.cart nb.1)) ∧
        ((¬∃ m : ℕ, nnc[m]? = some (b.cart i, b.cart nb.1)) → x.faceId = b.dirId nb.2)) ∧
      ∀ (m : ℕ) (d : ℤ), e.bfaces[m]? = some d → ∃ x : Entry V, r[e.nbs.length + m]? = some x ∧ x.faceId = d := by
  have hc : (createFlows (V := V) true anyFlores dispersion b elems { flows := [], flores := [], velocity := [] }).flows = rows b elems 0 := by
    simp [createFlows]
  obtain ⟨n, hn⟩ := rows_get (V := V) b elems 0 i e he
  rw [hc, hn]
  have hl := interiorEntries_length (V := V) b e.index e.nbs n
  refine ⟨_, rfl, ?_, ?_, ?_, ?_⟩
  · simp [row, hl]
  · intro x hx
    rcases List.mem_append.1 hx with hx | hx
    · exact interiorEntries_flow b e.index e.nbs n x hx
    · obtain ⟨d, -, rfl⟩ := List.mem_map.1 hx
      rfl
  · intro k nb hk
    obtain ⟨m, x, hx, hf⟩ := interiorEntries_face (V := V) b e.index e.nbs n k nb hk
    have hlt : k < e.nbs.length := (List.getElem?_eq_some_iff.1 hk).1
    rw [ho] at hf
    have hxe := Prod.mk.inj hf
    obtain ⟨h1, h2⟩ := faceOf_spec (b.range (b.cart i)) (b.cart nb.1) (b.dirId nb.2) m
    refine ⟨x, ?_, ?_, ?_⟩
    · show ((interiorEntries (V := V) b e.index e.nbs n).1 ++ _)[k]? = some x
      rw [List.getElem?_append_left (by rw [hl]; exact hlt)]
      exact hx
    · rintro ⟨q, hq⟩
      obtain ⟨h3, h4⟩ := h1 ⟨(b.cart nb.1, q), (hb _ (b.cart nb.1, q)).2 hq, rfl⟩
      refine ⟨hxe.1.trans h3, ?_⟩
      rw [hxe.2]
      exact (hb _ _).1 h4
    · intro hq
      refine hxe.1.trans (h2 ?_)
      rintro ⟨it, hit, hi⟩
      refine hq ⟨it.2, ?_⟩
      rw [← hi]
      exact (hb _ it).1 hit
  · intro m d hd
    refine ⟨{ faceId := d, flow := 0, nncId := (interiorEntries (V := V) b e.index e.nbs n).2 }, ?_, rfl⟩
    show ((interiorEntries (V := V) b e.index e.nbs n).1 ++ _)[e.nbs.length + m]? = _
    rw [List.getElem?_append_right (by rw [hl]; omega), hl, Nat.add_sub_cancel_left, List.getElem?_map, hd]
    rfl

/-- All places of the table of a grid -/
theorem flowAt_rows [Zero V] (b : Labels C) (elems : List (Elem C)) (i k : ℕ) (e : Elem C) (he : elems[i]? = some e)
    (hk : k < e.nbs.length + e.bfaces.length) : flowAt (rows (V := V) b elems 0) i k = some 0 := by
  obtain ⟨n, hn⟩ := rows_get (V := V) b elems 0 i e he
  have hl : (row (V := V) b e n).1.length = e.nbs.length + e.bfaces.length := by simp [row, interiorEntries_length]
  rw [flowAt, hn, Option.bind_some, List.getElem?_eq_getElem (by omega), Option.map_some]
  congr 1
  have hx : (row (V := V) b e n).1[k] ∈ (row (V := V) b e n).1 := List.getElem_mem _
  rcases List.mem_append.1 hx with hx | hx
  · exact interiorEntries_flow b e.index e.nbs n _ hx
  · obtain ⟨d, -, hd⟩ := List.mem_map.1 hx
    rw [← hd]

/-- **C154** An update succeeds in whatever order the threads write. Afterwards the entries of interior faces are the fluxes over them,
those of boundary faces with a condition the fluxes over these, and those of other boundary faces and all identifiers are what they
were. -/
theorem C154_update [Zero V] (b : Labels C) (elems : List (Elem C)) (boundary : List (Bnd V)) (h : Setting elems boundary)
    (fluxVal : ℕ → ℕ × C → V) (t : List (List (Entry V))) (ht : faces t = faces (rows (V := V) b elems 0)) :
    ∃ ws, allCellWrites (neighborInfo elems) fluxVal elems.length = some ws ∧ ∀ order, order.Perm ws →
      ∃ t', update (neighborInfo elems) boundary order t = some t' ∧ faces t' = faces t ∧
        (∀ e ∈ elems, ∀ (k : ℕ) (nb : ℕ × C), e.nbs[k]? = some nb → flowAt t' e.index k = some (fluxVal e.index nb)) ∧
        (∀ f ∈ boundary, f.none = false → ∀ e, elems[f.cell]? = some e → flowAt t' f.cell (e.nbs.length + f.bfIndex) = some f.flow) ∧
        ∀ e ∈ elems, ∀ m, (∀ f ∈ boundary, f.cell = e.index → f.bfIndex = m → f.none = true) →
          flowAt t' e.index (e.nbs.length + m) = flowAt t e.index (e.nbs.length + m) := by
  obtain ⟨ws, h1, h2, h3⟩ := allCellWrites_spec (neighborInfo elems) fluxVal elems.length (by simp [neighborInfo])
  refine ⟨ws, h1, fun order hord => ?_⟩
  have nbAt : ∀ (i : ℕ) (e : Elem C), elems[i]? = some e → (neighborInfo elems)[i]? = some e.nbs := by
    intro i e he
    rw [neighborInfo, List.getElem?_map, he]
    rfl
  have lt_of : ∀ (i : ℕ) (e : Elem C), elems[i]? = some e → i < elems.length := fun i e he => (List.getElem?_eq_some_iff.1 he).1
  have elemAt : ∀ (i : ℕ) (r : List (ℕ × C)), (neighborInfo elems)[i]? = some r → ∃ e, elems[i]? = some e ∧ r = e.nbs := by
    intro i r hr
    rw [neighborInfo, List.getElem?_map, Option.map_eq_some_iff] at hr
    obtain ⟨e, he, rfl⟩ := hr
    exact ⟨e, he, rfl⟩
  have bw : ∀ w, w ∈ boundaryWrites (neighborInfo elems) boundary ↔ ∃ f ∈ boundary, f.none = false ∧
      ∃ e, elems[f.cell]? = some e ∧ w = (f.cell, e.nbs.length + f.bfIndex, f.flow) := by
    intro w
    rw [boundaryWrites, List.mem_map]
    constructor
    · rintro ⟨f, hf, rfl⟩
      obtain ⟨hf1, hf2⟩ := List.mem_filter.1 hf
      obtain ⟨e, he, -⟩ := h.face f hf1
      exact ⟨f, hf1, by simpa using hf2, e, he, by rw [nbAt _ e he]; rfl⟩
    · rintro ⟨f, hf, hn, e, he, rfl⟩
      exact ⟨f, List.mem_filter.2 ⟨hf, by simp [hn]⟩, by rw [nbAt _ e he]; rfl⟩
  obtain ⟨t', g1, g2, g3, g4⟩ := writes_spec (order ++ boundaryWrites (neighborInfo elems) boundary) t (by
      intro w hw
      rw [flowAt_isSome_faces ht]
      rcases List.mem_append.1 hw with hw | hw
      · obtain ⟨-, r, nb, hr, hk, -⟩ := (h2 w).1 (hord.mem_iff.1 hw)
        obtain ⟨e, he, rfl⟩ := elemAt _ r hr
        have := (List.getElem?_eq_some_iff.1 hk).1
        rw [flowAt_rows b elems _ _ e he (by omega)]
        rfl
      · obtain ⟨f, hf, -, e, he, rfl⟩ := (bw w).1 hw
        obtain ⟨e', he', hlt⟩ := h.face f hf
        rw [he] at he'
        cases he'
        rw [flowAt_rows b elems _ _ e he (by simp only; omega)]
        rfl) (by
      rw [List.map_append, List.nodup_append]
      refine ⟨(hord.map _).nodup_iff.2 h3, ?_, ?_⟩
      · rw [boundaryWrites, List.map_map]
        have hnd : ((boundary.filter fun f => !f.none).map fun f => (f.cell, f.bfIndex)).Nodup :=
          h.once.sublist ((List.filter_sublist (l := boundary)).map _)
        refine (List.nodup_map_iff_inj_on (List.Nodup.of_map _ hnd)).2 ?_
        intro f hf g hg hfg
        simp only [Function.comp, Prod.mk.injEq] at hfg
        have hb : f.bfIndex = g.bfIndex := by
          obtain ⟨h5, h6⟩ := hfg
          rw [h5] at h6
          omega
        exact List.inj_on_of_nodup_map hnd hf hg (Prod.ext hfg.1 hb)
      · intro a ha c hc hac
        subst hac
        obtain ⟨w, hw, rfl⟩ := List.mem_map.1 ha
        obtain ⟨w', hw', he⟩ := List.mem_map.1 hc
        obtain ⟨-, r, nb, hr, hk, -⟩ := (h2 w).1 (hord.mem_iff.1 hw)
        obtain ⟨f, hf, -, e, hel, rfl⟩ := (bw w').1 hw'
        obtain ⟨e', he', rfl⟩ := elemAt _ r hr
        have h5 := (List.getElem?_eq_some_iff.1 hk).1
        simp only [Prod.mk.injEq] at he
        rw [he.1] at hel
        rw [hel] at he'
        cases he'
        omega)
  refine ⟨t', g1, g2, ?_, ?_, ?_⟩
  · intro e he k nb hk
    obtain ⟨i, hi⟩ := List.mem_iff_getElem?.1 he
    have ho := h.order i e hi
    subst ho
    exact g3 (e.index, k, fluxVal e.index nb) (List.mem_append_left _ (hord.mem_iff.2
      ((h2 _).2 ⟨lt_of _ e hi, e.nbs, nb, nbAt _ e hi, hk, rfl⟩)))
  · intro f hf hn e he
    exact g3 (f.cell, e.nbs.length + f.bfIndex, f.flow) (List.mem_append_right _ ((bw _).2 ⟨f, hf, hn, e, he, rfl⟩))
  · intro e he m hm
    obtain ⟨i, hi⟩ := List.mem_iff_getElem?.1 he
    have ho := h.order i e hi
    subst ho
    apply g4
    intro w hw heq
    simp only [Prod.mk.injEq] at heq
    rcases List.mem_append.1 hw with hw | hw
    · obtain ⟨-, r, nb, hr, hk, -⟩ := (h2 w).1 (hord.mem_iff.1 hw)
      have h5 := (List.getElem?_eq_some_iff.1 hk).1
      rw [← heq.1, nbAt _ e hi, Option.some.injEq] at hr
      rw [← hr] at h5
      omega
    · obtain ⟨f, hf, hn, e', he', rfl⟩ := (bw w).1 hw
      simp only at heq
      rw [← heq.1, hi] at he'
      cases he'
      have := hm f hf heq.1.symm (by omega)
      rw [hn] at this
      cases this

/-- One call of `updateFlowsInfo`: the fluxes, the boundary and the order of writes -/
structure Call (V C : Type) where
  fluxVal : ℕ → ℕ × C → V
  boundary : List (Bnd V)
  order : List (ℕ × ℕ × V)

/-- The table after some calls -/
def after (elems : List (Elem C)) (t : List (List (Entry V))) (calls : List (Call V C)) : Option (List (List (Entry V))) :=
  calls.foldlM (fun t c => update (neighborInfo elems) c.boundary c.order t) t

/-- **C154** After any number of updates the table shows the fluxes of the last one; boundary faces which never had a condition are
zero. -/
theorem C154_run [Zero V] (b : Labels C) (elems : List (Elem C)) (calls : List (Call V C)) (last : Call V C)
    (h : ∀ c ∈ calls ++ [last], Setting elems c.boundary)
    (ho : ∀ c ∈ calls ++ [last], ∀ ws, allCellWrites (neighborInfo elems) c.fluxVal elems.length = some ws → c.order.Perm ws) :
    ∃ t, after elems (rows b elems 0) (calls ++ [last]) = some t ∧ faces t = faces (rows (V := V) b elems 0) ∧
      (∀ e ∈ elems, ∀ (k : ℕ) (nb : ℕ × C), e.nbs[k]? = some nb → flowAt t e.index k = some (last.fluxVal e.index nb)) ∧
      (∀ f ∈ last.boundary, f.none = false → ∀ e, elems[f.cell]? = some e → flowAt t f.cell (e.nbs.length + f.bfIndex) = some f.flow) ∧
      ∀ e ∈ elems, ∀ m < e.bfaces.length, (∀ c ∈ calls ++ [last], ∀ f ∈ c.boundary, f.cell = e.index → f.bfIndex = m → f.none = true) →
        flowAt t e.index (e.nbs.length + m) = some 0 := by
  have key : ∀ calls : List (Call V C), (∀ c ∈ calls, Setting elems c.boundary) →
      (∀ c ∈ calls, ∀ ws, allCellWrites (neighborInfo elems) c.fluxVal elems.length = some ws → c.order.Perm ws) →
      ∀ t : List (List (Entry V)), faces t = faces (rows (V := V) b elems 0) → ∃ t', after elems t calls = some t' ∧ faces t' = faces t ∧
        ∀ e ∈ elems, ∀ m, (∀ c ∈ calls, ∀ f ∈ c.boundary, f.cell = e.index → f.bfIndex = m → f.none = true) →
          flowAt t' e.index (e.nbs.length + m) = flowAt t e.index (e.nbs.length + m) := by
    intro calls
    induction calls with
    | nil => intro _ _ t _; exact ⟨t, rfl, rfl, fun _ _ _ _ => rfl⟩
    | cons c l ih =>
      intro h1 h2 t ht
      obtain ⟨ws, g1, g2⟩ := C154_update b elems c.boundary (h1 c (List.mem_cons_self ..)) c.fluxVal t ht
      obtain ⟨t1, k1, k2, -, -, k5⟩ := g2 c.order (h2 c (List.mem_cons_self ..) ws g1)
      obtain ⟨t2, m1, m2, m3⟩ := ih (fun c hc => h1 c (List.mem_cons_of_mem _ hc)) (fun c hc => h2 c (List.mem_cons_of_mem _ hc)) t1
        (k2.trans ht)
      refine ⟨t2, ?_, m2.trans k2, ?_⟩
      · rw [after, List.foldlM_cons, k1]
        exact m1
      · intro e he m hm
        rw [m3 e he m fun c hc => hm c (List.mem_cons_of_mem _ hc), k5 e he m (hm c (List.mem_cons_self ..))]
  obtain ⟨t1, k1, k2, k3⟩ := key calls (fun c hc => h c (List.mem_append_left _ hc)) (fun c hc => ho c (List.mem_append_left _ hc)) _ rfl
  have hl : last ∈ calls ++ [last] := List.mem_append_right _ (List.mem_singleton_self _)
  obtain ⟨ws, g1, g2⟩ := C154_update b elems last.boundary (h last hl) last.fluxVal t1 k2
  obtain ⟨t2, m1, m2, m3, m4, m5⟩ := g2 last.order (ho last hl ws g1)
  refine ⟨t2, ?_, m2.trans k2, m3, m4, ?_⟩
  · rw [after, List.foldlM_append]
    rw [after] at k1
    rw [k1]
    simp only [List.foldlM_cons, List.foldlM_nil, Option.bind_eq_bind, Option.bind_some, m1]
    rfl
  · intro e he m hm hn
    rw [m5 e he m fun f hf => hn last hl f hf, k3 e he m fun c hc => hn c (List.mem_append_left _ hc)]
    obtain ⟨i, hi⟩ := List.mem_iff_getElem?.1 he
    rw [(h last hl).order i e hi]
    exact flowAt_rows b elems i _ e hi (by omega)

/-! ### The residual -/

/-- The sum of the flows of a row -/
def rowSum [AddCommMonoid V] (t : List (List (Entry V))) (i : ℕ) : V := ((t[i]?.getD []).map fun x => x.flow).sum

/-- The sum of the flows of the first entries of a row which lead to the cell `j` -/
def rowTo [AddCommMonoid V] (t : List (List (Entry V))) (e : Elem C) (j : ℕ) : V :=
  ((e.nbs.zipIdx.filter fun x => x.1.1 = j).map fun x => (flowAt t e.index x.2).getD 0).sum

/-- A row of known length is summed by position -/
theorem rowSum_eq [AddCommMonoid V] (t : List (List (Entry V))) (i n : ℕ) (r : List (Entry V)) (hr : t[i]? = some r) (hn : r.length = n) :
    rowSum t i = ((List.range n).map fun k => (flowAt t i k).getD 0).sum := by
  subst hn
  rw [rowSum, hr, Option.getD_some]
  congr 1
  apply List.ext_getElem?
  intro k
  rw [List.getElem?_map, List.getElem?_map]
  by_cases hk : k < r.length
  · rw [List.getElem?_eq_getElem hk, List.getElem?_range hk]
    simp [flowAt, hr, hk]
  · rw [List.getElem?_eq_none (by omega), List.getElem?_eq_none (by simp; omega)]
    rfl

/-- A list of things with distinct keys has at most one with a given key -/
theorem sum_key [AddCommMonoid V] {β : Type} (key : β → ℕ) (act : β → Prop) [DecidablePred act] (val : β → V) (g : ℕ → V) (n : ℕ)
    (l : List β) (hl : ∀ f ∈ l, act f → key f < n) (hnd : ((l.filter fun f => act f).map key).Nodup)
    (hg : ∀ f ∈ l, act f → g (key f) = val f) (h0 : ∀ m < n, (∀ f ∈ l, act f → key f ≠ m) → g m = 0) :
    ((List.range n).map g).sum = (l.map fun f => if act f then val f else 0).sum := by
  have e1 : (l.map fun f => if act f then val f else 0).sum = ((l.filter fun f => act f).map val).sum := by
    clear hl hnd hg h0
    induction l with
    | nil => rfl
    | cons a l ih => by_cases h : act a <;> simp [h, ih]
  have e2 : ((l.filter fun f => act f).map val).sum = (((l.filter fun f => act f).map key).map g).sum := by
    rw [List.map_map]
    congr 1
    apply List.map_congr_left
    intro f hf
    obtain ⟨h1, h2⟩ := List.mem_filter.1 hf
    exact (hg f h1 (by simpa using h2)).symm
  rw [e1, e2, ← List.sum_toFinset g hnd, ← List.sum_toFinset g List.nodup_range]
  symm
  apply Finset.sum_subset
  · intro m hm
    rw [List.mem_toFinset, List.mem_map] at hm
    obtain ⟨f, hf, rfl⟩ := hm
    obtain ⟨h1, h2⟩ := List.mem_filter.1 hf
    rw [List.mem_toFinset, List.mem_range]
    exact hl f h1 (by simpa using h2)
  · intro m hm hn
    rw [List.mem_toFinset, List.mem_range] at hm
    refine h0 m hm fun f hf ha he => hn ?_
    rw [List.mem_toFinset, List.mem_map]
    exact ⟨f, List.mem_filter.2 ⟨hf, by simpa using ha⟩, he⟩

section
variable {K M : Type} [Field K] [AddCommGroup V] [Module K V] [AddCommGroup M] [Module K M]

/-- The boundary faces of the linearizer with their indices, as `updateFlowsInfo` sees them -/
def toBnd (x : Verif.Tpfa.BFace K V M × ℕ) : Bnd V := { cell := x.1.cell, bfIndex := x.2, none := x.1.none, flow := x.1.area • x.1.flux.1 }

/-- **C154** The flows which are reported for a cell, together with the change of what is stored and the source, are the residual of the
linearizer for the same solution: in particular, once the residual is zero, what flows out is what is lost and injected. This holds for the
table after any number of updates, as long as boundary faces do not lose their condition; they do not (`C154_keep`). -/
theorem C154_residual (b : Labels C) (elems : List (Elem C)) (p : Verif.Tpfa.Net K V M C) (s : Verif.Tpfa.System V M)
    (bfaces : List (Verif.Tpfa.BFace K V M × ℕ)) (hb : p.boundary = bfaces.map Prod.fst) (hn : p.numCells = elems.length)
    (hnb : ∀ (i : ℕ) (e : Elem C), elems[i]? = some e → p.nb i = e.nbs)
    (calls : List (Call V C)) (last : Call V C) (hf : last.fluxVal = fun i e => p.area e.2 • (p.flux i e.1 e.2).1)
    (hl : last.boundary = bfaces.map toBnd) (h : ∀ c ∈ calls ++ [last], Setting elems c.boundary)
    (ho : ∀ c ∈ calls ++ [last], ∀ ws, allCellWrites (neighborInfo elems) c.fluxVal elems.length = some ws → c.order.Perm ws)
    (hkeep : ∀ c ∈ calls, ∀ f ∈ c.boundary, f.none = false → ∃ g ∈ last.boundary, g.none = false ∧ g.cell = f.cell ∧ g.bfIndex = f.bfIndex) :
    ∃ t, after elems (rows b elems 0) (calls ++ [last]) = some t ∧ ∀ i < elems.length,
      rowSum t i + (p.volume i / p.dt) • ((p.storage i).1 - p.oldStorage i) - p.volume i • (p.source i).1 =
        (Verif.Tpfa.linearizeFull p s).res i := by
  obtain ⟨t, h1, h2, h3, h4, h5⟩ := C154_run b elems calls last h ho
  refine ⟨t, h1, fun i hi => ?_⟩
  have hset := h last (List.mem_append_right _ (List.mem_singleton_self _))
  rw [Verif.Tpfa.linearizeFull_res p s i (by omega), Verif.Tpfa.cellRes, Verif.Tpfa.boundaryRes]
  obtain ⟨e, he⟩ : ∃ e, elems[i]? = some e := ⟨elems[i], List.getElem?_eq_getElem hi⟩
  have hei := hset.order i e he
  have hem : e ∈ elems := List.mem_iff_getElem?.2 ⟨i, he⟩
  have hrow : ∃ r, t[i]? = some r ∧ r.length = e.nbs.length + e.bfaces.length := by
    obtain ⟨n, hr⟩ := rows_get (V := V) b elems 0 i e he
    have h6 := congrArg (fun l => (l[i]?).map List.length) h2
    simp only [faces, List.getElem?_map, hr, Option.map_some, Option.map_map] at h6
    obtain ⟨r, hr1, hr2⟩ := Option.map_eq_some_iff.1 h6
    refine ⟨r, hr1, ?_⟩
    simp only [Function.comp, List.length_map] at hr2
    rw [hr2]
    simp [row, interiorEntries_length]
  obtain ⟨r, hr1, hr2⟩ := hrow
  have e1 : rowSum t i = ((p.nb i).map fun e => p.area e.2 • (p.flux i e.1 e.2).1).sum +
      (p.boundary.map fun b => if i = b.cell ∧ b.none = false then b.area • b.flux.1 else 0).sum := by
    rw [rowSum_eq t i _ r hr1 hr2, List.range_add, List.map_append, List.sum_append, List.map_map]
    congr 1
    · rw [hnb i e he]
      congr 1
      apply List.ext_getElem?
      intro k
      rw [List.getElem?_map, List.getElem?_map]
      by_cases hk : k < e.nbs.length
      · rw [List.getElem?_range hk, List.getElem?_eq_getElem hk]
        have h7 := h3 e hem k _ (List.getElem?_eq_getElem hk)
        rw [hei] at h7
        simp only [Option.map_some, h7, Option.getD_some, hf]
      · rw [List.getElem?_eq_none (by simp; omega), List.getElem?_eq_none (by omega)]
        rfl
    · rw [hb, List.map_map]
      have hkey := sum_key (fun f : Bnd V => f.bfIndex) (fun f => i = f.cell ∧ f.none = false) (fun f => f.flow)
        ((fun k => (flowAt t i k).getD 0) ∘ fun x => e.nbs.length + x) e.bfaces.length last.boundary (by
          rintro f hf' ⟨hc, -⟩
          obtain ⟨e', he', hlt⟩ := hset.face f hf'
          rw [← hc, he] at he'
          cases he'
          exact hlt) (by
          have hnd : ((last.boundary.filter fun f => decide (i = f.cell ∧ f.none = false)).map fun f => (f.cell, f.bfIndex)).Nodup :=
            hset.once.sublist ((List.filter_sublist (l := last.boundary)).map _)
          refine (List.nodup_map_iff_inj_on (List.Nodup.of_map _ hnd)).2 ?_
          intro f hf1 g hg1 hfg
          refine List.inj_on_of_nodup_map hnd hf1 hg1 (Prod.ext ?_ hfg)
          have hf2 := (List.mem_filter.1 hf1).2
          have hg2 := (List.mem_filter.1 hg1).2
          simp only [decide_eq_true_eq] at hf2 hg2
          exact hf2.1.symm.trans hg2.1) (by
          rintro f hf' ⟨hc, hnone⟩
          have := h4 f hf' hnone e (by rw [← hc]; exact he)
          rw [← hc] at this
          simp only [Function.comp, this, Option.getD_some]) (by
          intro m hm hno
          have := h5 e hem m hm (by
            intro c hc f hf' hcell hbf
            by_contra hnn
            have hnn' : f.none = false := by simpa using hnn
            rcases List.mem_append.1 hc with hc | hc
            · obtain ⟨g, hg, hg1, hg2, hg3⟩ := hkeep c hc f hf' hnn'
              exact hno g hg ⟨by rw [hg2, hcell, hei], hg1⟩ (hg3.trans hbf)
            · rw [List.mem_singleton.1 hc] at hf'
              exact hno f hf' ⟨by rw [hcell, hei], hnn'⟩ hbf)
          rw [hei] at this
          simp only [Function.comp, this, Option.getD_some])
      rw [hkey, hl, List.map_map]
      rfl
  rw [e1]
  abel

/-- **C154** What is reported to flow from a cell to another one is the opposite of what is reported for the other direction. -/
theorem C154_opposite (b : Labels C) (elems : List (Elem C)) (p : Verif.Tpfa.Net K V M C) (rev : C → C) (hp : Verif.Tpfa.Network p rev)
    (hn : p.numCells = elems.length) (hnb : ∀ (i : ℕ) (e : Elem C), elems[i]? = some e → p.nb i = e.nbs)
    (calls : List (Call V C)) (last : Call V C) (hf : last.fluxVal = fun i e => p.area e.2 • (p.flux i e.1 e.2).1)
    (h : ∀ c ∈ calls ++ [last], Setting elems c.boundary)
    (ho : ∀ c ∈ calls ++ [last], ∀ ws, allCellWrites (neighborInfo elems) c.fluxVal elems.length = some ws → c.order.Perm ws) :
    ∃ t, after elems (rows b elems 0) (calls ++ [last]) = some t ∧ ∀ e ∈ elems, ∀ e' ∈ elems,
      rowTo t e e'.index = - rowTo t e' e.index := by
  obtain ⟨t, h1, h2, h3, h4, h5⟩ := C154_run b elems calls last h ho
  have hset := h last (List.mem_append_right _ (List.mem_singleton_self _))
  refine ⟨t, h1, ?_⟩
  have key : ∀ e ∈ elems, ∀ j, rowTo t e j = Verif.Tpfa.between p e.index j := by
    intro e he j
    obtain ⟨i, hi⟩ := List.mem_iff_getElem?.1 he
    have hei := hset.order i e hi
    rw [Verif.Tpfa.between, hei, hnb i e hi, rowTo]
    have e1 : (e.nbs.zipIdx.filter fun x => x.1.1 = j).map (fun x => (flowAt t e.index x.2).getD 0) =
        (e.nbs.zipIdx.filter fun x => x.1.1 = j).map fun x => p.area x.1.2 • (p.flux i x.1.1 x.1.2).1 := by
      apply List.map_congr_left
      intro x hx
      have h6 := List.mem_zipIdx_iff_getElem?.1 (List.mem_filter.1 hx).1
      rw [h3 e he x.2 x.1 h6, hf, hei]
      rfl
    rw [e1]
    congr 1
    have e2 : ∀ (l : List (ℕ × C)) (n : ℕ), ((l.zipIdx n).filter fun x => decide (x.1.1 = j)).map (fun x => p.area x.1.2 • (p.flux i x.1.1 x.1.2).1) =
        (l.filter fun x => decide (x.1 = j)).map fun x => p.area x.2 • (p.flux i x.1 x.2).1 := by
      intro l
      induction l with
      | nil => intro n; rfl
      | cons a l ih =>
        intro n
        rw [List.zipIdx_cons]
        by_cases ha : a.1 = j
        · rw [List.filter_cons_of_pos (by simpa using ha), List.filter_cons_of_pos (by simpa using ha), List.map_cons, List.map_cons, ih]
        · rw [List.filter_cons_of_neg (by simpa using ha), List.filter_cons_of_neg (by simpa using ha), ih]
    exact e2 e.nbs 0
  intro e he e' he'
  obtain ⟨i, hi⟩ := List.mem_iff_getElem?.1 he
  obtain ⟨j, hj⟩ := List.mem_iff_getElem?.1 he'
  have hi' := (List.getElem?_eq_some_iff.1 hi).1
  have hj' := (List.getElem?_eq_some_iff.1 hj).1
  rw [key e he, key e' he', hset.order i e hi, hset.order j e' hj]
  exact Verif.Tpfa.between_anti p rev hp j i (by omega) (by omega)

end

/-- **C154** Whatever conditions the problem has from time to time, a boundary face which once had a condition in the linearizer has one
ever after: this is the assumption `hkeep` of `C154_residual`. -/
theorem C154_keep {Face D : Type} (info : Verif.TpfaLife.Info Face D) (bcs more : List (Verif.TpfaLife.BC Face D)) (x : Face × Option D)
    (hx : x ∈ Verif.TpfaLife.after info bcs) (ha : x.2 ≠ none) :
    ∃ y ∈ Verif.TpfaLife.after info (bcs ++ more), y.2 ≠ none ∧ y.1 = x.1 := by
  induction more using List.reverseRecOn with
  | nil => exact ⟨x, by simpa using hx, ha, rfl⟩
  | append_singleton more bc ih =>
    obtain ⟨y, h1, h2, h3⟩ := ih
    rw [← List.append_assoc, Verif.TpfaLife.after_snoc, Verif.TpfaLife.updateInfo]
    refine ⟨_, List.mem_map.2 ⟨y, h1, rfl⟩, ?_, h3⟩
    cases h : bc y.1 with
    | none => simpa [h] using h2
    | some d => simp [h]

/-! ### What is violated -/

/-- **C154** If the grid iterates over its elements in another order than that of their indices, cells get the neighbours of others: here
the cell 0 is its own neighbour. -/
theorem C154_order_violated : ∃ elems : List (Elem Unit), (∀ e ∈ elems, ∀ nb ∈ e.nbs, nb.1 ≠ e.index) ∧ (elems.map Elem.index).Perm [0, 1] ∧
    (neighborInfo elems)[0]? = some [(0, ())] := by
  refine ⟨[⟨1, [(0, ())], []⟩, ⟨0, [(1, ())], []⟩], ?_, ?_, ?_⟩
  · simp
  · exact List.Perm.swap _ _ _
  · decide

/-- **C154** With degrees of freedom of auxiliary equations, the loop over all degrees of freedom runs beyond the end of the table of
neighbours. -/
theorem C154_auxiliary_violated (elems : List (Elem C)) (fluxVal : ℕ → ℕ × C → V) (numTotal : ℕ) (h : elems.length < numTotal) :
    allCellWrites (neighborInfo elems) fluxVal numTotal = none := by
  induction numTotal with
  | zero => omega
  | succ n ih =>
    rw [allCellWrites]
    by_cases hn : elems.length < n
    · rw [ih hn]
    · have : cellWrites (neighborInfo elems) fluxVal n = none := by
        rw [cellWrites, List.getElem?_eq_none (by simp [neighborInfo]; omega)]
        rfl
      rw [this]
      cases allCellWrites (neighborInfo elems) fluxVal n <;> rfl

/-! ### Dispersion -/

section
variable {K : Type} [Field K] [LinearOrder K] [IsStrictOrderedRing K]

theorem foldl_max_spec (l : List K) : ∀ a : K, IsGreatest ({x | x = a ∨ ∃ v ∈ l, x = |v|}) (l.foldl (fun m v => max m |v|) a) := by
  induction l with
  | nil => intro a; exact ⟨Or.inl rfl, by rintro x (rfl | ⟨v, hv, -⟩); exacts [le_refl _, absurd hv (by simp)]⟩
  | cons c l ih =>
    intro a
    obtain ⟨h1, h2⟩ := ih (max a |c|)
    refine ⟨?_, ?_⟩
    · rcases h1 with h1 | ⟨v, hv, h1⟩
      · rw [List.foldl_cons, h1]
        rcases max_choice a |c| with h | h
        · exact Or.inl h
        · exact Or.inr ⟨c, List.mem_cons_self .., h⟩
      · exact Or.inr ⟨v, List.mem_cons_of_mem _ hv, h1⟩
    · have hm : max a |c| ≤ l.foldl (fun m v => max m |v|) (max a |c|) := h2 (Or.inl rfl)
      rintro x (rfl | ⟨v, hv, rfl⟩)
      · exact le_trans (le_max_left _ _) hm
      · rcases List.mem_cons.1 hv with rfl | hv
        · exact le_trans (le_max_right _ _) hm
        · exact h2 (Or.inr ⟨v, hv, rfl⟩)

/-- **C154** After a linearization, the norm of the velocity of a cell is the greatest absolute value of the velocities over its faces, or
zero if there is none, whatever was there before. -/
theorem C154_velocity (nbInfo : List (List (ℕ × C))) (velocityVal : ℕ → ℕ × C → K) (i : ℕ) (r : List (ℕ × C)) (hr : nbInfo[i]? = some r)
    (memory : K) : ∃ v, normVelocity memory (velocities nbInfo velocityVal) i = some v ∧
      IsGreatest {x | x = 0 ∨ ∃ nb ∈ r, x = |velocityVal i nb|} v := by
  have hi := (List.getElem?_eq_some_iff.1 hr).1
  have hne : (velocities nbInfo velocityVal).isEmpty = false := by
    rw [velocities]
    cases nbInfo with
    | nil => simp at hi
    | cons a l => rfl
  refine ⟨(r.map (velocityVal i)).foldl (fun m v => max m |v|) 0, ?_, ?_⟩
  · rw [normVelocity, hne]
    simp [velocities, hr]
  · have h := foldl_max_spec (r.map (velocityVal i)) 0
    have he : {x : K | x = 0 ∨ ∃ v ∈ r.map (velocityVal i), x = |v|} = {x | x = 0 ∨ ∃ nb ∈ r, x = |velocityVal i nb|} := by
      ext x
      simp
    rw [he] at h
    exact h

/-- **C154** As long as no linearization has created the table, the norm is whatever was in memory. -/
theorem C154_velocity_unset_violated (i : ℕ) : ∀ x : K, ∃ memory, normVelocity memory [] i = some x := fun x => ⟨x, rfl⟩

end

/-! ### A case -/

/-- Two cells with one face between them, the first with a boundary face which has a condition -/
def pair : List (Elem ℤ) := [⟨0, [(1, 1)], [3]⟩, ⟨1, [(0, -1)], []⟩]

def pairCall : Call ℤ ℤ :=
  { fluxVal := fun _ e => 5 * e.2, boundary := [⟨0, 0, false, 7⟩], order := [(1, 0, -5), (0, 0, 5)] }

def pairLabels : Labels ℤ := ⟨fun i => 10 * i, fun c => if c = 0 then [(10, 0)] else [], fun _ => 1⟩

example : Setting pair pairCall.boundary := by
  refine ⟨?_, ?_, ?_⟩
  · intro i e he
    rcases i with _ | _ | i
    · simp [pair] at he; rw [← he]
    · simp [pair] at he; rw [← he]
    · simp [pair] at he
  · simp [pairCall, pair]
  · simp [pairCall]

example : ∀ ws, allCellWrites (neighborInfo pair) pairCall.fluxVal pair.length = some ws → pairCall.order.Perm ws := by
  intro ws h
  have h2 : allCellWrites (neighborInfo pair) pairCall.fluxVal pair.length = some [(0, 0, 5), (1, 0, -5)] := by decide
  rw [h2, Option.some.injEq] at h
  rw [← h]
  exact List.Perm.swap _ _ _

example : Finds pairLabels [(0, 10)] := by
  intro c it
  obtain ⟨a, m⟩ := it
  simp only [pairLabels]
  rcases m with _ | m
  · by_cases h : c = 0
    · simp [h, eq_comm]
    · simp [h, eq_comm]
  · by_cases h : c = 0 <;> simp [h]

example : (after pair (rows pairLabels pair 0) [pairCall, pairCall]).map (fun t => (rowSum t 0, rowSum t 1)) = some (12, -5) := by decide

end Verif.Flows
