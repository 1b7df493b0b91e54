import Verif.BlackOil.Indices
import Mathlib.Data.List.Range
import Mathlib.Tactic.IntervalCases
import Mathlib.Tactic.Ring

/-
C55: the indices of the black-oil model.
-/

set_option autoImplicit false

namespace Verif.BlackOil

/-- All indices of primary variables which are in use -/
def Layout.primaryVars (l : Layout) : List ℤ :=
  [l.waterSwitchIdx, l.pressureSwitchIdx, l.compositionSwitchIdx, l.solventSaturationIdx, l.zFractionIdx,
    l.polymerConcentrationIdx, l.polymerMoleWeightIdx, l.microbialConcentrationIdx, l.oxygenConcentrationIdx,
    l.ureaConcentrationIdx, l.biofilmConcentrationIdx, l.calciteConcentrationIdx, l.foamConcentrationIdx,
    l.saltConcentrationIdx, l.temperatureIdx].filter (0 ≤ ·)

/-- All indices of equations which are in use; there is one for each phase from `conti0EqIdx` on -/
def Layout.equations (l : Layout) : List ℤ :=
  ((List.range l.numPhases).map (fun k : ℕ => l.conti0EqIdx + k) ++
    [l.contiSolventEqIdx, l.contiZfracEqIdx, l.contiPolymerEqIdx, l.contiPolymerMWEqIdx, l.contiMicrobialEqIdx,
      l.contiOxygenEqIdx, l.contiUreaEqIdx, l.contiBiofilmEqIdx, l.contiCalciteEqIdx, l.contiFoamEqIdx, l.contiBrineEqIdx,
      l.contiEnergyEqIdx]).filter (0 ≤ ·)

/-- The indices are pairwise different and are those of a vector with `numEq` entries which starts at `offset`. -/
def Fills (idx : List ℤ) (offset numEq : ℕ) : Prop :=
  idx.Nodup ∧ ∀ i : ℤ, i ∈ idx ↔ (offset : ℤ) ≤ i ∧ i < offset + numEq

/-- There are names for all variables: at most one solvent, one extended component, two polymer variables, five of MICP, and one
energy. -/
structure Config.Named (c : Config) : Prop where
  solvents : c.solvents ≤ 1
  extbos : c.extbos ≤ 1
  polymers : c.polymers ≤ 2
  energy : c.energy ≤ 1
  micps : c.micps ≤ 5

/-- `n` consecutive indices -/
def seg (a : ℤ) (n : ℕ) : List ℤ := (List.range n).map fun k : ℕ => a + k

theorem seg_append (a b : ℤ) (n m k : ℕ) (hb : b = a + n) (hk : k = n + m) : seg a n ++ seg b m = seg a k := by
  subst hb; subst hk
  unfold seg
  rw [List.range_add, List.map_append, List.map_map]
  congr 1
  apply List.map_congr_left
  intro i _
  simp [add_assoc]

theorem fills_seg (offset numEq : ℕ) : Fills (seg offset numEq) offset numEq := by
  refine ⟨List.nodup_range.map (f := fun k : ℕ => (offset : ℤ) + k) fun a b h => by simpa using h, fun i => ?_⟩
  simp only [seg, List.mem_map, List.mem_range]
  constructor
  · rintro ⟨k, hk, rfl⟩; omega
  · rintro ⟨h1, h2⟩
    exact ⟨(i - offset).toNat, by omega, by omega⟩

theorem block1 (n : ℕ) (hn : n ≤ 1) (a : ℤ) (ha : 0 ≤ a) : [if 0 < n then a else -1000].filter (0 ≤ ·) = seg a n := by
  interval_cases n <;> simp [seg, List.range, List.range.loop, ha]

theorem blockB (b : Bool) (n : ℕ) (hn : n = if b then 1 else 0) (a : ℤ) (ha : 0 ≤ a) :
    [if b then a else -1000].filter (0 ≤ ·) = seg a n := by
  cases b <;> simp_all [seg, List.range, List.range.loop]

theorem block2 (n : ℕ) (hn : n ≤ 2) (a b : ℤ) (ha : 0 ≤ a) (hb : b = a + 1) :
    [if 0 < n then a else -1000, if 1 < n then b else -1000].filter (0 ≤ ·) = seg a n := by
  have h1 : 0 ≤ a + 1 := by omega
  subst hb
  interval_cases n <;> simp [seg, List.range, List.range.loop, List.filter_cons, ha, h1]

theorem block5 (n : ℕ) (hn : n ≤ 5) (a b c d e : ℤ) (ha : 0 ≤ a) (hb : b = a + 1) (hc : c = a + 2) (hd : d = a + 3)
    (he : e = a + 4) :
    [if 0 < n then a else -1000, if 1 < n then b else -1000, if 2 < n then c else -1000, if 3 < n then d else -1000,
      if 4 < n then e else -1000].filter (0 ≤ ·) = seg a n := by
  have h1 : 0 ≤ a + 1 := by omega
  have h2 : 0 ≤ a + 2 := by omega
  have h3 : 0 ≤ a + 3 := by omega
  have h4 : 0 ≤ a + 4 := by omega
  subst hb hc hd he
  interval_cases n <;> simp [seg, List.range, List.range.loop, List.filter_cons, ha, h1, h2, h3, h4]

/-- Consecutive blocks of indices fill everything. -/
theorem blocks (A S X P M F B E : List ℤ) (a : ℤ) (n s x p m f b e k : ℕ) (hA : A.filter (0 ≤ ·) = seg a n)
    (hS : S.filter (0 ≤ ·) = seg (a + n) s) (hX : X.filter (0 ≤ ·) = seg (a + n + s) x)
    (hP : P.filter (0 ≤ ·) = seg (a + n + s + x) p) (hM : M.filter (0 ≤ ·) = seg (a + n + s + x + p) m)
    (hF : F.filter (0 ≤ ·) = seg (a + n + s + x + p + m) f) (hB : B.filter (0 ≤ ·) = seg (a + n + s + x + p + m + f) b)
    (hE : E.filter (0 ≤ ·) = seg (a + n + s + x + p + m + f + b) e) (hk : k = n + s + x + p + m + f + b + e) :
    (A ++ S ++ X ++ P ++ M ++ F ++ B ++ E).filter (0 ≤ ·) = seg a k := by
  simp only [List.filter_append, hA, hS, hX, hP, hM, hF, hB, hE]
  rw [seg_append a _ n s (n + s) (by ring) rfl, seg_append a _ _ x (n + s + x) (by push_cast; ring) rfl,
    seg_append a _ _ p (n + s + x + p) (by push_cast; ring) rfl, seg_append a _ _ m (n + s + x + p + m) (by push_cast; ring) rfl,
    seg_append a _ _ f (n + s + x + p + m + f) (by push_cast; ring) rfl,
    seg_append a _ _ b (n + s + x + p + m + f + b) (by push_cast; ring) rfl,
    seg_append a _ _ e k (by push_cast; ring) hk]

/-- What the layouts have in common -/
theorem layout_fills (c : Config) (hn : c.Named) (hx : c.extbos = 0) (hm : c.polymers = 0 ∨ c.micps = 0) (A : List ℤ) (n : ℕ)
    (hA : A.filter (0 ≤ ·) = seg c.offset n) (so z pc pw mi ox ur bf ca fo sa te : ℤ)
    (hso : so = if 0 < c.solvents then (c.offset : ℤ) + n else -1000)
    (hz : z = if 0 < c.extbos then (c.offset : ℤ) + n + c.solvents else -1000)
    (hpc : pc = if 0 < c.polymers then (c.offset : ℤ) + n + c.solvents else -1000)
    (hpw : pw = if 1 < c.polymers then (c.offset : ℤ) + n + c.solvents + 1 else -1000)
    (hmi : mi = if 0 < c.micps then (c.offset : ℤ) + n + c.solvents else -1000)
    (hox : ox = if 1 < c.micps then (c.offset : ℤ) + n + c.solvents + 1 else -1000)
    (hur : ur = if 2 < c.micps then (c.offset : ℤ) + n + c.solvents + 2 else -1000)
    (hbf : bf = if 3 < c.micps then (c.offset : ℤ) + n + c.solvents + 3 else -1000)
    (hca : ca = if 4 < c.micps then (c.offset : ℤ) + n + c.solvents + 4 else -1000)
    (hfo : fo = if c.foam then (c.offset : ℤ) + n + c.solvents + c.polymers + c.micps else -1000)
    (hsa : sa = if c.brine then (c.offset : ℤ) + n + c.solvents + c.polymers + c.micps + c.numFoam else -1000)
    (hte : te = if 0 < c.energy then (c.offset : ℤ) + n + c.solvents + c.polymers + c.micps + c.numFoam + c.numBrine else -1000) :
    Fills ((A ++ [so, z, pc, pw, mi, ox, ur, bf, ca, fo, sa, te]).filter (0 ≤ ·)) c.offset (c.numEq n) := by
  obtain ⟨h1, -, h3, h4, h5⟩ := hn
  have : (A ++ [so, z, pc, pw, mi, ox, ur, bf, ca, fo, sa, te]).filter (0 ≤ ·) = seg c.offset (c.numEq n) := by
    have := blocks A [so] [z] [pc, pw] [mi, ox, ur, bf, ca] [fo] [sa] [te] c.offset n c.solvents c.extbos c.polymers c.micps
      c.numFoam c.numBrine c.energy (c.numEq n) hA (by rw [hso]; exact block1 _ h1 _ (by omega))
      (by rw [hz, hx]; simp [seg]) (by rw [hpc, hpw, hx]; simp only [Nat.cast_zero, add_zero]; exact block2 _ h3 _ _ (by omega) rfl)
      (by
        rw [hmi, hox, hur, hbf, hca, hx]
        rcases hm with h | h
        · rw [h]
          simp only [Nat.cast_zero, add_zero]
          exact block5 _ h5 _ _ _ _ _ (by omega) rfl rfl rfl rfl
        · rw [h]; simp [seg])
      (by rw [hfo, hx]; simp only [Nat.cast_zero, add_zero]; exact blockB _ _ rfl _ (by omega))
      (by rw [hsa, hx]; simp only [Nat.cast_zero, add_zero]; exact blockB _ _ rfl _ (by omega))
      (by rw [hte, hx]; simp only [Nat.cast_zero, add_zero]; exact block1 _ h4 _ (by omega))
      (by simp only [Config.numEq]; omega)
    simpa using this
  rw [this]
  exact fills_seg _ _

/-- **C55** (part) Without the extended black-oil model, and without combining polymers and MICP, the primary variables of the
three-phase model have pairwise different indices which fill the vector. -/
theorem C55_threePhase_partial (c : Config) (hn : c.Named) (hx : c.extbos = 0) (hm : c.polymers = 0 ∨ c.micps = 0) :
    Fills (threePhase c).primaryVars c.offset (threePhase c).numEq ∧
      Fills (threePhase c).equations c.offset (threePhase c).numEq := by
  constructor
  · refine layout_fills c hn hx hm [_, _, _] 3 ?_ _ _ _ _ _ _ _ _ _ _ _ _ ?_ ?_ ?_ ?_ ?_ ?_ ?_ ?_ ?_ ?_ ?_ ?_
    · have p1 : (0 : ℤ) ≤ c.offset + 1 := by omega
      have p2 : (0 : ℤ) ≤ c.offset + 2 := by omega
      simp [threePhase, seg, List.range, List.range.loop, List.filter_cons, p1, p2]
    all_goals simp [threePhase, hx]
  · refine layout_fills c hn hx hm (seg _ 3) 3 ?_ _ _ _ _ _ _ _ _ _ _ _ _ ?_ ?_ ?_ ?_ ?_ ?_ ?_ ?_ ?_ ?_ ?_ ?_
    · have p1 : (0 : ℤ) ≤ c.offset + 1 := by omega
      have p2 : (0 : ℤ) ≤ c.offset + 2 := by omega
      simp [threePhase, seg, List.range, List.range.loop, List.filter_cons, p1, p2]
    all_goals simp [threePhase, hx]

/-- **C55** (part) The same for two phases -/
theorem C55_twoPhase_partial (c : Config) (hn : c.Named) (hx : c.extbos = 0) (hm : c.polymers = 0 ∨ c.micps = 0)
    (disabled : ℕ) (hd : disabled < 3) :
    Fills (twoPhase c disabled).primaryVars c.offset (twoPhase c disabled).numEq ∧
      Fills (twoPhase c disabled).equations c.offset (twoPhase c disabled).numEq := by
  constructor
  · refine layout_fills c hn hx hm [_, _, _] 2 ?_ _ _ _ _ _ _ _ _ _ _ _ _ ?_ ?_ ?_ ?_ ?_ ?_ ?_ ?_ ?_ ?_ ?_ ?_
    · interval_cases disabled <;> simp [twoPhase, seg, List.range, List.range.loop, List.filter_cons] <;> omega
    all_goals simp [twoPhase, hx]
  · refine layout_fills c hn hx hm (seg _ 2) 2 ?_ _ _ _ _ _ _ _ _ _ _ _ _ ?_ ?_ ?_ ?_ ?_ ?_ ?_ ?_ ?_ ?_ ?_ ?_
    · simp [twoPhase, seg, List.range, List.range.loop, List.filter_cons]; omega
    all_goals simp [twoPhase, hx]

/-- **C55** (part) The same for one phase -/
theorem C55_onePhase_partial (c : Config) (hn : c.Named) (hx : c.extbos = 0) (hm : c.polymers = 0 ∨ c.micps = 0) :
    Fills (onePhase c).primaryVars c.offset (onePhase c).numEq ∧
      Fills (onePhase c).equations c.offset (onePhase c).numEq := by
  constructor
  · refine layout_fills c hn hx hm [_, _, _] 1 ?_ _ _ _ _ _ _ _ _ _ _ _ _ ?_ ?_ ?_ ?_ ?_ ?_ ?_ ?_ ?_ ?_ ?_ ?_
    · simp [onePhase, seg, List.range, List.range.loop]
    all_goals simp [onePhase, hx]
  · refine layout_fills c hn hx hm (seg _ 1) 1 ?_ _ _ _ _ _ _ _ _ _ _ _ _ ?_ ?_ ?_ ?_ ?_ ?_ ?_ ?_ ?_ ?_ ?_ ?_
    · simp [onePhase, seg, List.range, List.range.loop]
    all_goals simp [onePhase, hx]

/-- With everything but the extended model and MICP enabled there are nine variables in three phases. -/
example : Fills (threePhase ⟨1, 0, 2, 1, true, true, 4, 0⟩).primaryVars 4 9 :=
  (C55_threePhase_partial ⟨1, 0, 2, 1, true, true, 4, 0⟩ ⟨by decide, by decide, by decide, by decide, by decide⟩ rfl (.inr rfl)).1

/-- **C55** fails: polymers and MICP together share their first variables and equations, and the last of them are missing. -/
theorem C55_polymer_micp_violated (c : Config) (hp : 0 < c.polymers) (hm : 0 < c.micps) :
    (threePhase c).polymerConcentrationIdx = (threePhase c).microbialConcentrationIdx ∧
      (threePhase c).contiPolymerEqIdx = (threePhase c).contiMicrobialEqIdx ∧
      ¬Fills (threePhase c).primaryVars c.offset (threePhase c).numEq := by
  refine ⟨by simp [threePhase, hp, hm], by simp [threePhase, hp, hm], ?_⟩
  rintro ⟨hn, -⟩
  have hs : List.Sublist [(threePhase c).polymerConcentrationIdx, (threePhase c).microbialConcentrationIdx]
      (threePhase c).primaryVars := by
    have e : [(threePhase c).polymerConcentrationIdx, (threePhase c).microbialConcentrationIdx] =
        [(threePhase c).polymerConcentrationIdx, (threePhase c).microbialConcentrationIdx].filter (0 ≤ ·) := by
      have : (0 : ℤ) ≤ c.offset + 3 + c.solvents := by omega
      simp [threePhase, hp, hm, this]
    rw [e]
    apply List.Sublist.filter
    refine .cons _ (.cons _ (.cons _ (.cons _ (.cons _ (.cons_cons _ (.cons _ (.cons_cons _ (List.nil_sublist _))))))))
  have := hn.sublist hs
  simp [threePhase, hp, hm] at this

/-- **C55** fails: with the extended black-oil model the first polymer variable is that of the extension. -/
theorem C55_extbo_polymer_violated (c : Config) (hx : 0 < c.extbos) (hp : 0 < c.polymers) :
    (threePhase c).zFractionIdx = (threePhase c).polymerConcentrationIdx ∧
      ¬Fills (threePhase c).primaryVars c.offset (threePhase c).numEq := by
  refine ⟨by simp [threePhase, hx, hp], ?_⟩
  rintro ⟨hn, -⟩
  have hs : List.Sublist [(threePhase c).zFractionIdx, (threePhase c).polymerConcentrationIdx]
      (threePhase c).primaryVars := by
    have e : [(threePhase c).zFractionIdx, (threePhase c).polymerConcentrationIdx] =
        [(threePhase c).zFractionIdx, (threePhase c).polymerConcentrationIdx].filter (0 ≤ ·) := by
      have : (0 : ℤ) ≤ c.offset + 3 + c.solvents := by omega
      simp [threePhase, hx, hp, this]
    rw [e]
    apply List.Sublist.filter
    refine .cons _ (.cons _ (.cons _ (.cons _ (.cons_cons _ (.cons_cons _ (List.nil_sublist _))))))
  have := hn.sublist hs
  simp [threePhase, hx, hp] at this

/-- **C55** fails: with the extended black-oil model and brine the index of the salt concentration is that of the temperature, or,
if energy is not conserved, beyond the end of the vector. -/
theorem C55_extbo_brine_violated (c : Config) (hx : c.extbos = 1) (hb : c.brine = true) :
    (0 < c.energy → (threePhase c).saltConcentrationIdx = (threePhase c).temperatureIdx) ∧
      (c.energy = 0 → (threePhase c).saltConcentrationIdx = c.offset + (threePhase c).numEq) := by
  constructor
  · intro he
    simp [threePhase, hx, hb, he, Config.numBrine]
    ring
  · intro he
    simp [threePhase, hx, hb, he, Config.numBrine, Config.numEq]
    ring

/-- **C55** fails: with the extended black-oil model in two phases foam takes the place of the extension. -/
theorem C55_extbo_foam_violated (c : Config) (disabled : ℕ) (hx : 0 < c.extbos) (hf : c.foam = true) (hp : c.polymers = 0)
    (hm : c.micps = 0) :
    (twoPhase c disabled).zFractionIdx = (twoPhase c disabled).foamConcentrationIdx ∧
      (twoPhase c disabled).contiZfracEqIdx = (twoPhase c disabled).contiFoamEqIdx := by
  constructor <;> simp [twoPhase, hx, hf, hp, hm]

/-- **C55** Components are numbered consistently in two-phase models: each active component gets a number below two from which it
can be read back, and each number is that of a component which is not the disabled one. -/
theorem C55_components (disabled : ℕ) (hd : disabled < 3) :
    (∀ comp < 3, comp ≠ disabled → ∃ a < 2, canonicalToActive disabled comp = some a ∧ activeToCanonical disabled a = some comp) ∧
      ∀ a < 2, ∃ comp < 3, comp ≠ disabled ∧ activeToCanonical disabled a = some comp ∧
        canonicalToActive disabled comp = some a := by
  interval_cases disabled <;> decide

end Verif.BlackOil
