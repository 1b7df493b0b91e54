import Verif.Reservoir.Props

/-
A reservoir with water and oil, where the order of cells matters, and on three processes.
-/

set_option autoImplicit false
set_option linter.unusedSectionVars false

namespace Verif.Reservoir

open Verif.Flux (Phase Options)
open Verif.TimeLoop Verif.Mpi Verif.Sync Verif.Overlap Verif.OverlapMatrix Verif.Criteria Verif.Newton Verif.ParNewton Verif.ParSolve.Block Verif.GridComm
open Verif.Hybrid (rowTask task derivative residual SameValues Pattern localNet)
open Verif.ParSim (Task Own Memory LocalTask Hooks SameHooks Same several one St)
open Verif.ParSolve (Enumerates Wide wide_one row_enumerates)

/-- Water and oil: the primary variables of a cell are the pressure and the saturation of water.  Both fluids are compressible. -/
def waterOilQuantities (v : Blk 2 ℚ) : Iq (Ev 2 ℚ) :=
  let p : Ev 2 ℚ := TrivSqZeroExt.inl (v 0) + TrivSqZeroExt.inr ![1, 0]
  let s : Ev 2 ℚ := TrivSqZeroExt.inl (v 1) + TrivSqZeroExt.inr ![0, 1]
  { pressure := fun _ => p, density := fun _ => 1, mobility := fun q => if q = .water then s else if q = .oil then 1 - s else 0
    saturation := fun q => if q = .water then s else if q = .oil then 1 - s else 0
    invB := fun _ => p, internalEnergy := fun _ => 0, enthalpy := fun _ => 0, rs := 0, rsw := 0, rv := 0, rvw := 0, porosity := 1, transMult := 1
    temperature := 1, conductivity := 0, rockFraction := 0, rockEnergy := 0 }

/-- A reservoir with water and oil on a grid with the given neighbours, where water is injected into the first cell -/
def waterOil (adj : ℕ → List ℕ) (rate : ℚ) : Model ℕ 2 ℚ (Blk 2 ℚ) ℚ where
  options := { active := fun p => p ≠ .gas, dissolvedGas := false, dissolvedGasInWater := false, vaporizedOil := false, vaporizedWater := false
               conserveSurfaceVolume := true, threePhaseIndices := false }
  scale := 1
  equation := ![some .water, some .oil]
  neighbours c := (adj c).map fun c' => (c', { trans := 1, faceArea := 1, dZg := 0, inAlpha := 0, outAlpha := 0 })
  volume _ := 1
  ref _ _ := 1
  quantities _ _ := waterOilQuantities
  source _ _ c _ := (if c = 0 then ![rate, 0] else 0, 0)
  boundary _ _ _ _ := []
  cutFace _ _ _ _ _ := (true, 1, 0)
  works _ dt _ _ := dt ≠ 0
  weight _ _ _ _ := 1
  update _ _ _ v w := v - w

theorem waterOil_sound {adj : ℕ → List ℕ} {cells : Set ℕ} (rate : ℚ) (h : ∀ c ∈ cells, ∀ n ∈ adj c, n ∈ cells) (hn : ∀ c, (adj c).Nodup)
    (hs : ∀ c c', c' ∈ adj c → c ∈ adj c') : Sound (waterOil adj rate) cells where
  inside c hc n hn := by
    obtain ⟨c', hc', rfl⟩ := List.mem_map.1 hn
    exact h c hc c' hc'
  paired c c' := by
    have key : ∀ a b : ℕ, ∀ l : List ℕ, l.Nodup → ∀ k : Nb ℚ, ((l.map fun x => (x, k)).filter fun n => n.1 = b).map Prod.snd =
        if b ∈ l then [k] else [] := by
      intro a b l hl k
      induction l with
      | nil => rfl
      | cons x l ih =>
        rw [List.nodup_cons] at hl
        rw [List.map_cons]
        by_cases hx : x = b
        · subst hx
          rw [List.filter_cons_of_pos (by simp), List.map_cons, ih hl.2, if_neg hl.1, if_pos (by simp)]
        · rw [List.filter_cons_of_neg (by simpa using hx), ih hl.2]
          by_cases hb : b ∈ l
          · rw [if_pos hb, if_pos (by simp [hb])]
          · rw [if_neg hb, if_neg (by simp [hb, Ne.symm hx])]
    have hrev : ∀ l : List (ℕ × Nb ℚ), (l.map fun n => n.2.reverse) = (l.map Prod.snd).map Nb.reverse := fun l => by simp
    show List.Perm ((((adj c).map fun c' => (c', ({ trans := 1, faceArea := 1, dZg := 0, inAlpha := 0, outAlpha := 0 } : Nb ℚ))).filter fun n => n.1 = c').map fun n => n.2.reverse) ((((adj c').map fun c' => (c', ({ trans := 1, faceArea := 1, dZg := 0, inAlpha := 0, outAlpha := 0 } : Nb ℚ))).filter fun n => n.1 = c).map Prod.snd)
    rw [hrev, key c c' _ (hn c), key c' c _ (hn c')]
    by_cases hm : c' ∈ adj c
    · rw [if_pos hm, if_pos (hs c c' hm)]
      simp [Nb.reverse]
    · rw [if_neg hm, if_neg fun h => hm (hs c' c h)]
      rfl
  active e q he := by
    fin_cases e <;> simp [waterOil] at he <;> subst he <;> rfl
  step _ _ _ := by simp [waterOil]

/-- Two cells -/
def pair (c : ℕ) : List ℕ := if c = 0 then [1] else if c = 1 then [0] else []

/-- The same pressure in both cells, water in the first one and oil in the second one -/
def front (c : ℕ) : Blk 2 ℚ := if c = 0 then ![1, 1] else ![1, 0]

/-- `w` is what the Newton method subtracts from the solution `Y` of the reservoir with two cells in a time step of size 1 which begins at `Y`, if
`index` are the indices of the cells. -/
def Subtracts (index : ℕ → ℕ) (Y w : ℕ → Blk 2 ℚ) : Prop :=
  ∀ c < 2, (derivative ((waterOil pair 1).flow index) 1 1 Y c 0).mulVec (w 0) + (derivative ((waterOil pair 1).flow index) 1 1 Y c 1).mulVec (w 1) =
    residual ((waterOil pair 1).flow index) 1 1 Y Y c

theorem pair_first (w : ℕ → Blk 2 ℚ) : Subtracts (fun c => [0, 1].idxOf c) front w ↔ w 0 = ![-2/3, 0] ∧ w 1 = ![-1/3, -1/3] := by
  have d00 : derivative ((waterOil pair 1).flow fun c => [0, 1].idxOf c) 1 1 front 0 0 = !![2, 1; 0, -1] := by decide +kernel
  have d01 : derivative ((waterOil pair 1).flow fun c => [0, 1].idxOf c) 1 1 front 0 1 = !![-1, 0; 0, 0] := by decide +kernel
  have d10 : derivative ((waterOil pair 1).flow fun c => [0, 1].idxOf c) 1 1 front 1 0 = !![-1, 0; 0, 0] := by decide +kernel
  have d11 : derivative ((waterOil pair 1).flow fun c => [0, 1].idxOf c) 1 1 front 1 1 = !![1, 1; 1, -1] := by decide +kernel
  have r0 : residual ((waterOil pair 1).flow fun c => [0, 1].idxOf c) 1 1 front front 0 = ![-1, 0] := by decide +kernel
  have r1 : residual ((waterOil pair 1).flow fun c => [0, 1].idxOf c) 1 1 front front 1 = ![0, 0] := by decide +kernel
  have hb : ∀ (x : Blk 2 ℚ) (a b : ℚ), x = ![a, b] ↔ x 0 = a ∧ x 1 = b := fun x a b => by
    rw [funext_iff, Fin.forall_fin_two]; rfl
  unfold Subtracts
  rw [show (∀ c < 2, _) ↔ (_ ∧ _) from Nat.forall_lt_succ_right.trans (and_congr_left fun _ => by rw [Nat.forall_lt_succ_right])]
  simp only [d00, d01, d10, d11, r0, r1, hb, Pi.add_apply, Matrix.mulVec, dotProduct, Fin.sum_univ_two, Matrix.of_apply, Matrix.cons_val_zero,
    Matrix.cons_val_one, Matrix.cons_val_fin_one]
  constructor
  · rintro ⟨⟨h1, h2⟩, h3, h4⟩
    refine ⟨⟨?_, ?_⟩, ?_, ?_⟩ <;> linarith
  · rintro ⟨⟨h1, h2⟩, h3, h4⟩
    rw [h1, h2, h3, h4]
    norm_num

theorem pair_second (w : ℕ → Blk 2 ℚ) : Subtracts (fun c => [1, 0].idxOf c) front w ↔ w 0 = ![-2/3, -1/3] ∧ w 1 = ![-1/3, 0] := by
  have d00 : derivative ((waterOil pair 1).flow fun c => [1, 0].idxOf c) 1 1 front 0 0 = !![1, 1; 1, -1] := by decide +kernel
  have d01 : derivative ((waterOil pair 1).flow fun c => [1, 0].idxOf c) 1 1 front 0 1 = !![0, 0; -1, 0] := by decide +kernel
  have d10 : derivative ((waterOil pair 1).flow fun c => [1, 0].idxOf c) 1 1 front 1 0 = !![0, 0; -1, 0] := by decide +kernel
  have d11 : derivative ((waterOil pair 1).flow fun c => [1, 0].idxOf c) 1 1 front 1 1 = !![0, 1; 2, -1] := by decide +kernel
  have r0 : residual ((waterOil pair 1).flow fun c => [1, 0].idxOf c) 1 1 front front 0 = ![-1, 0] := by decide +kernel
  have r1 : residual ((waterOil pair 1).flow fun c => [1, 0].idxOf c) 1 1 front front 1 = ![0, 0] := by decide +kernel
  have hb : ∀ (x : Blk 2 ℚ) (a b : ℚ), x = ![a, b] ↔ x 0 = a ∧ x 1 = b := fun x a b => by
    rw [funext_iff, Fin.forall_fin_two]; rfl
  unfold Subtracts
  rw [show (∀ c < 2, _) ↔ (_ ∧ _) from Nat.forall_lt_succ_right.trans (and_congr_left fun _ => by rw [Nat.forall_lt_succ_right])]
  simp only [d00, d01, d10, d11, r0, r1, hb, Pi.add_apply, Matrix.mulVec, dotProduct, Fin.sum_univ_two, Matrix.of_apply, Matrix.cons_val_zero,
    Matrix.cons_val_one, Matrix.cons_val_fin_one]
  constructor
  · rintro ⟨⟨h1, h2⟩, h3, h4⟩
    refine ⟨⟨?_, ?_⟩, ?_, ?_⟩ <;> linarith
  · rintro ⟨⟨h1, h2⟩, h3, h4⟩
    rw [h1, h2, h3, h4]
    norm_num

/-- **C185** (violated) The Newton method depends on how a process numbers its cells.  In a reservoir with two cells of the same volume and pressure,
one with water and one with oil, the first iteration moves water into the second cell if the first cell has the lower index, and
oil into the first cell if the second one has it. -/
theorem C185_numbering_violated : Sound (waterOil pair 1) {0, 1} ∧
    ∃ w w' : ℕ → Blk 2 ℚ, (∀ z, Subtracts (fun c => [0, 1].idxOf c) front z ↔ z 0 = w 0 ∧ z 1 = w 1) ∧
      (∀ z, Subtracts (fun c => [1, 0].idxOf c) front z ↔ z 0 = w' 0 ∧ z 1 = w' 1) ∧
      (front 0 - w 0) 1 = 1 ∧ (front 1 - w 1) 1 = 1 / 3 ∧ (front 0 - w' 0) 1 = 4 / 3 ∧ (front 1 - w' 1) 1 = 0 := by
  refine ⟨waterOil_sound 1 ?_ ?_ ?_, fun c => if c = 0 then ![-2/3, 0] else ![-1/3, -1/3], fun c => if c = 0 then ![-2/3, -1/3] else ![-1/3, 0],
    pair_first, pair_second, ?_⟩
  · rintro c (rfl | rfl) <;> decide
  · intro c
    unfold pair
    split_ifs <;> simp
  · intro c c' h
    unfold pair at h ⊢
    split_ifs at h with h1 h2 <;> simp_all
  · decide +kernel

/-- **C185** There is something to say: whatever the reservoir and the distribution of the grid are, if the columns of the matrices are the
neighbours, and whatever linear systems the threads assemble, the processes can simulate the reservoir with these linear systems. -/
theorem C185_exists {P N E : ℕ} {G K V X : Type} [DecidableEq G] [Field K] [LinearOrder K] [IsStrictOrderedRing K] [Inhabited V]
    {r : Model G E K V X} {settings : X → K → Memory K → Settings K} {g : Grid (P + 1) G} {cell : Fin N → G}
    {d : Fin (P + 1) → Overlap.Native (P + 1)} {overlapSize : ℕ} (hE : Enumerates g cell) (v : Valid g d)
    (hs : 0 < overlapSize) (hwide : ∀ own dt mem, Wide g d overlapSize (fun p => (d p).cols) (settings own dt mem).solver.order)
    (hp : Pattern (r.flow fun c => (List.ofFn cell).idxOf c) g fun p => (d p).cols)
    (lin : X → K → (Fin (P + 1) → ℕ → V) → ℕ → Fin (P + 1) → (ℕ → V) → Tpfa.System (Blk E K) (Mat E K))
    (hlin : ∀ own dt y n p x, ThreadSim.Assembled (localNet (r.flow fun c => (g.cells p).idxOf c) (g.cells p) own dt x (y p)) (lin own dt y n p x)) :
    ∃ machine, Performs r settings g cell machine ∧ ∀ own dt mem y n p x,
      (∀ (i : ℕ) c, (g.cells p)[i]? = some c → r.works own dt c (x i) = true) →
      ∃ a, (machine own dt mem y).linearize n p x = some (a, (lin own dt y n p x).res) :=
  Hybrid.exists_with (fp := fun p => r.flow fun c => (g.cells p).idxOf c) hE v hs hwide hp lin hlin

/-- Six cells in a row -/
def row (c : ℕ) : List ℕ := if c < 6 then rowMesh.neighbors c else []

theorem row_pattern : Pattern (P := 2) ((waterOil row 13).flow fun c => (List.ofFn fun k : Fin 6 => (k : ℕ)).idxOf c) rowMesh.toGrid
    fun p => (rowMesh.native p).cols where
  nodup := rowEquations_pattern.nodup
  range := rowEquations_pattern.range
  own p n c hc ho c' := by
    rw [← rowEquations_pattern.own p n c hc ho c']
    have hlt : c < 6 := by
      have : ∀ p : Fin 3, ∀ c ∈ rowMesh.cells p, c < 6 := by decide
      exact this p c (List.mem_of_getElem? hc)
    have key : ∀ c < 6, (∀ c' ∈ rowEquations.stencil c, c' = c ∨ c' ∈ row c) ∧ c ∈ rowEquations.stencil c ∧
        ∀ c' ∈ row c, c' ∈ rowEquations.stencil c := by decide
    obtain ⟨h1, h2, h3⟩ := key c hlt
    have e : (∃ k, (c', k) ∈ ((waterOil row 13).flow fun c => (List.ofFn fun k : Fin 6 => (k : ℕ)).idxOf c).neighbours c) ↔ c' ∈ row c := by
      simp [Model.flow, waterOil]
    rw [e]
    exact ⟨fun h => h.elim (fun h => h ▸ h2) (h3 c'), h1 c'⟩

theorem row_sound : Sound (waterOil row 13) (Set.range fun k : Fin 6 => (k : ℕ)) := by
  have hlt : ∀ c < 6, ∀ n ∈ row c, n < 6 := by decide
  refine waterOil_sound 13 ?_ ?_ ?_
  · rintro _ ⟨k, rfl⟩ n hn
    exact ⟨⟨n, hlt k k.2 n hn⟩, rfl⟩
  · intro c
    by_cases h : c < 6
    · have : ∀ c < 6, (row c).Nodup := by decide
      exact this c h
    · simp [row, h]
  · intro c c' h
    have hc : c < 6 := by
      by_contra hn
      simp [row, hn] at h
    have : ∀ c < 6, ∀ c' ∈ row c, c ∈ row c' := by decide
    exact this c hc c' h

theorem row_unsettled (own dt : ℚ) (Y : ℕ → Blk 2 ℚ) (flow : ℕ → Hybrid.Flow ℕ (Nb ℚ) 2 ℚ (Blk 2 ℚ) ℚ) :
    ParBalance.Unsettled (rowTask ((waterOil row 13).flow fun c => (List.ofFn fun k : Fin 6 => (k : ℕ)).idxOf c) flow (fun _ _ _ => rowSettings) 20)
      (fun k : Fin 6 => (k : ℕ)) 1 own dt Y := by
  by_contra hn
  simp only [ParBalance.Unsettled, not_exists, not_forall, not_lt] at hn
  have key : ∀ k : Fin 6, Hybrid.residual ((waterOil row 13).flow fun c => (List.ofFn fun k : Fin 6 => (k : ℕ)).idxOf c) own dt Y Y k 0 ≥ -1 := by
    intro k
    obtain ⟨r, J, h, hle⟩ := hn k 0
    simp only [rowTask] at h hle
    split_ifs at h
    simp only [Option.some.injEq, Prod.mk.injEq] at h
    rw [← h.1, show ((waterOil row 13).flow fun c => (List.ofFn fun k : Fin 6 => (k : ℕ)).idxOf c).weight own dt (k : ℕ) 0 = 1 from rfl,
      mul_one] at hle
    exact (abs_le.1 hle).1
  have anti : ∀ c c', flowing (waterOil row 13) own 0 c' c ⟨1, 1, 0, 0, 0⟩ (Y c') (Y c) = -flowing (waterOil row 13) own 0 c c' ⟨1, 1, 0, 0, 0⟩ (Y c) (Y c') := by
    intro c c'
    have := flowing_reverse (waterOil row 13) own 0 c c' ⟨1, 1, 0, 0, 0⟩ (Y c) (Y c')
    simpa [Nb.reverse] using this
  have hres : ∀ c, Hybrid.residual ((waterOil row 13).flow fun c => (List.ofFn fun k : Fin 6 => (k : ℕ)).idxOf c) own dt Y Y c 0 =
      ((row c).map fun c' => flowing (waterOil row 13) own 0 c c' ⟨1, 1, 0, 0, 0⟩ (Y c) (Y c')).sum - if c = 0 then 13 else 0 := by
    intro c
    unfold Hybrid.residual
    simp only [Pi.add_apply, Pi.sub_apply, Pi.smul_apply, smul_eq_mul, Hybrid.sum_apply, List.map_map, Function.comp_def, flux_value, sub_self]
    have e1 : ((waterOil row 13).flow fun c => (List.ofFn fun k : Fin 6 => (k : ℕ)).idxOf c).neighbours c =
      (row c).map fun c' => (c', ⟨1, 1, 0, 0, 0⟩) := rfl
    have e2 : (((waterOil row 13).flow fun c => (List.ofFn fun k : Fin 6 => (k : ℕ)).idxOf c).source own dt c (Y c)).1 0 = if c = 0 then 13 else 0 := by
      simp only [Model.flow, waterOil]
      split_ifs <;> rfl
    have e3 : ((waterOil row 13).flow fun c => (List.ofFn fun k : Fin 6 => (k : ℕ)).idxOf c).boundary own dt c (Y c) = [] := rfl
    rw [e1, e2, e3]
    simp [Function.comp_def, Model.flow, waterOil]
  have k0 := key 0
  have k1 := key 1
  have k2 := key 2
  have k3 := key 3
  have k4 := key 4
  have k5 := key 5
  simp only [hres] at k0 k1 k2 k3 k4 k5
  simp [row, rowMesh] at k0 k1 k2 k3 k4 k5
  have := anti 0 1
  have := anti 1 2
  have := anti 2 3
  have := anti 3 4
  have := anti 4 5
  linarith

open Classical in
/-- Three processes with two cells each, in a row; water is injected into the first cell.  The simulation is the one on a single process, and at
any time there is as much water in the reservoir as has been injected, and as much oil as at the beginning. -/
example (sim : Sim ℚ) (mem : Memory ℚ) (y0 : Fin 3 → ℕ → Blk 2 ℚ) (x0 : ℕ → Blk 2 ℚ)
    (e0 : HaveOwn (P := 2) rowMesh.toGrid (fun k : Fin 6 => (k : ℕ)) y0 x0) (n : ℕ) :
    ∃ machine, Performs (P := 2) (waterOil row 13) (fun _ _ _ => rowSettings) rowMesh.toGrid (fun k : Fin 6 => (k : ℕ)) machine ∧
      let t := task ((waterOil row 13).flow fun c => (List.ofFn fun k : Fin 6 => (k : ℕ)).idxOf c) (fun _ _ _ => rowSettings) 20
      let h : Hooks ℚ (Fin 3 → ℕ → Blk 2 ℚ) ℚ := ParSim.decayHooks fun y => y 0 0 0
      let c := fun j => run (several t machine h) j (start sim ⟨1, y0, y0, mem⟩)
      let steps := (Finset.range n).filter fun j => ParBalance.Integrates (several t machine h) (c j)
      Same rowMesh.toGrid (fun k : Fin 6 => (k : ℕ)) (c n)
        (run (one t (fun k : Fin 6 => (k : ℕ)) (ParSim.decayHooks fun x => x 0 0)) n (start sim ⟨1, x0, x0, mem⟩)) ∧
      |ParBalance.total rowMesh.toGrid (fun _ v => v 1 * v 0) (c n).prob.sol0 - ParBalance.total rowMesh.toGrid (fun _ v => v 1 * v 0) y0
          - ∑ j ∈ steps, (c (j + 1)).sim.dt * 13| ≤ ∑ j ∈ steps, |(c (j + 1)).sim.dt| * 6 ∧
      |ParBalance.total rowMesh.toGrid (fun _ v => (1 - v 1) * v 0) (c n).prob.sol0
          - ParBalance.total rowMesh.toGrid (fun _ v => (1 - v 1) * v 0) y0| ≤ ∑ j ∈ steps, |(c (j + 1)).sim.dt| * 6 := by
  have hexists : ∀ (own dt : ℚ) (y : Fin 3 → ℕ → Blk 2 ℚ) (m : ℕ) (p : Fin 3) (x : ℕ → Blk 2 ℚ), ∃ a,
      ThreadSim.Assembled (localNet ((waterOil row 13).flow fun c => (rowMesh.cells p).idxOf c) (rowMesh.cells p) own dt x (y p)) a := by
    intro own dt y m p x
    exact ⟨_, .locked ⟨fun _ => 0, fun _ _ => 0⟩ _ (List.reverse_perm _)⟩
  choose lin hlin using hexists
  obtain ⟨machine, hM, -⟩ := C185_exists (P := 2) (overlapSize := 1) (settings := fun _ _ _ => rowSettings) row_enumerates
    rowMesh_correct (by omega) (fun _ _ _ => wide_one rowMesh_correct (by decide) _) row_pattern lin hlin
  have hord : SameOrder (P := 2) (waterOil row 13) rowMesh.toGrid (fun k : Fin 6 => (k : ℕ)) := by
    intro c m hm _
    have hc : c < 6 := by
      by_contra hn
      simp [waterOil, row, hn] at hm
    obtain ⟨c', hc', rfl⟩ := List.mem_map.1 hm
    have key : ∀ c < 6, ∀ c' ∈ row c,
        (((rowMesh.cells (rowMesh.owner c)).idxOf c < (rowMesh.cells (rowMesh.owner c)).idxOf c' ↔
          (List.ofFn fun k : Fin 6 => (k : ℕ)).idxOf c < (List.ofFn fun k : Fin 6 => (k : ℕ)).idxOf c') ∧
        ((rowMesh.cells (rowMesh.owner c)).idxOf c' < (rowMesh.cells (rowMesh.owner c)).idxOf c ↔
          (List.ofFn fun k : Fin 6 => (k : ℕ)).idxOf c' < (List.ofFn fun k : Fin 6 => (k : ℕ)).idxOf c)) := by decide
    exact key c hc c' hc'
  have hfirst : ∀ (y : Fin 3 → ℕ → Blk 2 ℚ) (x : ℕ → Blk 2 ℚ), HaveOwn (P := 2) rowMesh.toGrid (fun k : Fin 6 => (k : ℕ)) y x → y 0 0 = x 0 :=
    fun y x h => h 0 0 0 (by decide) (by decide)
  have hfirst' : ∀ y y' : Fin 3 → ℕ → Blk 2 ℚ, ParBalance.SameOwn (P := 2) rowMesh.toGrid y y' → y 0 0 = y' 0 0 :=
    fun y y' h => h 0 0 0 (by decide) (by decide)
  have hh : ParBalance.OwnHooks (P := 2) rowMesh.toGrid (ParSim.decayHooks fun y : Fin 3 → ℕ → Blk 2 ℚ => y 0 0 0) := by
    refine ⟨?_, fun own y y' mem sim h => rfl⟩
    intro f hf own y y' mem sim h
    simp only [List.mem_cons, List.not_mem_nil, or_false, ParSim.decayHooks] at hf
    rcases hf with rfl | rfl | rfl | rfl | rfl | rfl | rfl | rfl <;> simp only [hfirst' y y' h]
  have esup : ∀ (e : Fin 2) (own dt : ℚ) (Y : ℕ → Blk 2 ℚ) (y : Fin 3 → ℕ → Blk 2 ℚ),
      ParBalance.total (P := 2) rowMesh.toGrid (fun x _ => Hybrid.supply ((waterOil row 13).flow fun c => (List.ofFn fun k : Fin 6 => (k : ℕ)).idxOf c)
        e own dt Y x) y = if e = 0 then 13 else 0 := by
    intro e own dt Y y
    obtain ⟨x, hx⟩ := ParBalance.exists_one (cell := fun k : Fin 6 => (k : ℕ)) rowMesh_correct.nodup y
    rw [ParBalance.total_eq row_enumerates rowMesh_correct.nodup rowMesh_correct.owned _ hx]
    fin_cases e <;> simp [Hybrid.supply, waterOil, Model.flow, Fin.sum_univ_succ]
  have e6 : ∑ k : Fin 6, (1 : ℚ) / 1 = 6 := by norm_num
  have hw : ∀ own c v, content (waterOil row 13) own 0 c v = v 1 * v 0 := by
    intro own c v
    simp [content, waterOil, waterOilQuantities, share, Phase.all]
  have ho : ∀ own c v, content (waterOil row 13) own 1 c v = (1 - v 1) * v 0 := by
    intro own c v
    simp [content, waterOil, waterOilQuantities, share, Phase.all]
  refine ⟨machine, hM, ?_, ?_, ?_⟩
  · refine C185_simulation_partial hM hord ?_ sim 1 mem e0 e0 n
    refine ⟨?_, ?_, ?_, ?_, ?_, ?_, ?_, ?_, ?_, rfl, rfl, rfl, rfl⟩ <;> intro own y x mem sim h <;>
      simp only [ParSim.decayHooks, hfirst y x h]
  · have := C185_balance_partial (fuel := 20) hM row_sound 0 hw hh rfl 1 zero_le_one (fun _ _ _ => rfl) (fun _ => 1) (fun _ _ _ => rfl)
      (fun _ => zero_lt_one) (fun _ => zero_lt_one) sim 1 mem y0 n fun j _ => row_unsettled _ _ _ _
    simp only [esup, e6, if_true, show ∀ c, (waterOil row 13).volume c = 1 from fun _ => rfl, one_mul] at this
    rw [task_eq hord] at this
    exact this
  · have := C185_balance_partial (fuel := 20) hM row_sound 1 ho hh rfl 1 zero_le_one (fun _ _ _ => rfl) (fun _ => 1) (fun _ _ _ => rfl)
      (fun _ => zero_lt_one) (fun _ => zero_lt_one) sim 1 mem y0 n fun j _ => row_unsettled _ _ _ _
    simp only [esup, e6, one_ne_zero, if_false, mul_zero, Finset.sum_const_zero, sub_zero, show ∀ c, (waterOil row 13).volume c = 1 from fun _ => rfl,
      one_mul] at this
    rw [task_eq hord] at this
    exact this

end Verif.Reservoir
