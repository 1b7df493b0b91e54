import Verif.Pack.Model
import Mathlib.Data.List.Forall2
import Mathlib.Tactic.NormNum

set_option autoImplicit false
set_option linter.unusedSectionVars false
set_option linter.unusedSimpArgs false
/-
C158: what is packed by one process can be unpacked by another.
-/
namespace Verif.Pack

open BlackOil

variable {B K V P : Type}

/-! ### Vocabulary -/

/-- Whatever was packed is unpacked again, into any object, and nothing else is read. -/
def Lawful {α : Type} (c : Codec B α) : Prop := ∀ x old rest, c.unpack old (c.pack x ++ rest) = some (x, rest)

/-- The types which are not defined in the repository are packed without loss. -/
structure Basic.Lawful (c : Basic B K) : Prop where
  num : Pack.Lawful c.num
  int : Pack.Lawful c.int
  size : Pack.Lawful c.size
  water : Pack.Lawful c.water
  pressure : Pack.Lawful c.pressure
  gas : Pack.Lawful c.gas
  brine : Pack.Lawful c.brine
  solvent : Pack.Lawful c.solvent

/-- Two sets of primary variables which say the same. -/
def Same (x y : Pv K) : Prop :=
  x.values = y.values ∧ x.water = y.water ∧ x.pressure = y.pressure ∧ x.gas = y.gas ∧ x.brine = y.brine ∧ x.solvent = y.solvent ∧
    x.region = y.region

/-- Two solutions which say the same. -/
def SameSolution (x y : List (Pv K)) : Prop := List.Forall₂ Same x y

/-! ### Lemmas -/

theorem unpackItems_pack {α : Type} (c : Codec B α) (R : α → α → Prop) (Q : α → α → Prop)
    (h : ∀ x old rest, Q x old → ∃ y, c.unpack old (c.pack x ++ rest) = some (y, rest) ∧ R y x) :
    ∀ (xs old : List α) (rest : List B), List.Forall₂ Q xs old →
      ∃ ys, unpackItems c old (packItems c xs ++ rest) = some (ys, rest) ∧ List.Forall₂ R ys xs := by
  intro xs
  induction xs with
  | nil =>
    intro old rest hq
    cases hq
    exact ⟨[], rfl, .nil⟩
  | cons x xs ih =>
    intro old rest hq
    cases hq with
    | cons h1 h2 =>
      obtain ⟨y, hy, hr⟩ := h x _ (packItems c xs ++ rest) h1
      obtain ⟨ys, hys, hrs⟩ := ih _ rest h2
      refine ⟨y :: ys, ?_, .cons hr hrs⟩
      simp only [packItems, unpackItems, List.append_assoc, hy, Option.bind_some, hys, Option.map_some]

theorem forall₂_of_length {α β : Type} (Q : α → β → Prop) (h : ∀ x y, Q x y) :
    ∀ (xs : List α) (ys : List β), xs.length = ys.length → List.Forall₂ Q xs ys := by
  intro xs
  induction xs with
  | nil => intro ys hl; cases ys with | nil => exact .nil | cons => simp at hl
  | cons x xs ih =>
    intro ys hl
    cases ys with
    | nil => simp at hl
    | cons y ys => exact .cons (h x y) (ih ys (by simpa using hl))

theorem unpackItems_lawful {α : Type} {c : Codec B α} (h : Lawful c) (xs old : List α) (rest : List B)
    (hl : xs.length = old.length) : unpackItems c old (packItems c xs ++ rest) = some (xs, rest) := by
  obtain ⟨ys, h1, h2⟩ := unpackItems_pack c (· = ·) (fun _ _ => True) (fun x o r _ => ⟨x, h x o r, rfl⟩) xs old rest
    (forall₂_of_length _ (fun _ _ => trivial) _ _ hl)
  have h3 : ys = xs := by rw [List.forall₂_eq_eq_eq] at h2; exact h2
  rw [h1, h3]

theorem length_resize {α : Type} (d : α) (old : List α) (m : ℕ) : (resize d old m).length = m := by
  simp only [resize, List.length_append, List.length_take, List.length_replicate]; omega

theorem mem_resize {α : Type} {p : α → Prop} (d : α) (old : List α) (m : ℕ) (hd : p d) (ho : ∀ x ∈ old, p x) :
    ∀ x ∈ resize d old m, p x := by
  intro x hx
  simp only [resize, List.mem_append] at hx
  rcases hx with hx | hx
  · exact ho x (List.mem_of_mem_take hx)
  · rw [List.eq_of_mem_replicate hx]; exact hd

theorem forall₂_of_forall {α β : Type} (p : α → Prop) (q : β → Prop) :
    ∀ (xs : List α) (ys : List β), xs.length = ys.length → (∀ x ∈ xs, p x) → (∀ y ∈ ys, q y) →
      List.Forall₂ (fun x y => p x ∧ q y) xs ys := by
  intro xs
  induction xs with
  | nil => intro ys hl _ _; cases ys with | nil => exact .nil | cons => simp at hl
  | cons x xs ih =>
    intro ys hl hp hq
    cases ys with
    | nil => simp at hl
    | cons y ys =>
      exact .cons ⟨hp x (by simp), hq y (by simp)⟩
        (ih ys (by simpa using hl) (fun z hz => hp z (by simp [hz])) (fun z hz => hq z (by simp [hz])))

theorem equalRange_iff {α : Type} (eq : α → α → Bool) (R : α → α → Prop) (h : ∀ x y, eq x y = true ↔ R x y) :
    ∀ xs ys : List α, equalRange eq xs ys = true ↔ List.Forall₂ R xs ys := by
  intro xs
  induction xs with
  | nil =>
    intro ys
    cases ys with
    | nil => exact ⟨fun _ => .nil, fun _ => rfl⟩
    | cons y ys => exact ⟨fun h => by simp [equalRange] at h, fun h => by cases h⟩
  | cons x xs ih =>
    intro ys
    cases ys with
    | nil => exact ⟨fun h => by simp [equalRange] at h, fun h => by cases h⟩
    | cons y ys => simp only [equalRange, Bool.and_eq_true, List.forall₂_cons, h, ih]

/-! ### Primary variables -/

/-- C158: two sets of primary variables compare equal exactly if all their values, the meanings of these and the region agree. -/
theorem C158_equality [DecidableEq K] (x y : Pv K) : pvEq x y = true ↔ Same x y := by
  simp only [pvEq, Bool.and_eq_true, beq_iff_eq, Same, and_assoc]

/-- C158: primary variables can be packed and unpacked into any others (with the same number of values): the result compares equal to
what was packed, and what follows in the buffer is left for the next object. -/
theorem C158_primary_variables [DecidableEq K] {c : Basic B K} (hc : c.Lawful) (x old : Pv K) (rest : List B)
    (hl : x.values.length = old.values.length) :
    ∃ y, (pvCodec c).unpack old ((pvCodec c).pack x ++ rest) = some (y, rest) ∧ pvEq y x = true ∧ y.values = x.values ∧
      y.water = x.water ∧ y.pressure = x.pressure ∧ y.gas = x.gas ∧ y.brine = x.brine ∧ y.solvent = x.solvent ∧ y.region = x.region := by
  have h : (pvCodec c).unpack old ((pvCodec c).pack x ++ rest) = some ({ x with pcFactor := old.pcFactor }, rest) := by
    simp only [pvCodec, classCodec, packAll, unpackAll, member, fieldVectorCodec, List.append_assoc, List.append_nil,
      unpackItems_lawful hc.num _ _ _ hl, Option.map_some, Option.bind_some, List.nil_append,
      hc.water _ _ _, hc.pressure _ _ _, hc.gas _ _ _, hc.brine _ _ _, hc.solvent _ _ _, hc.size _ _ _]
  exact ⟨_, h, (C158_equality _ _).2 ⟨rfl, rfl, rfl, rfl, rfl, rfl, rfl⟩, rfl, rfl, rfl, rfl, rfl, rfl, rfl⟩

/-! ### Solutions -/

/-- C158: two solutions compare equal exactly if they have the same number of entries and all of them agree; two models if this holds for
the solutions of all time levels. -/
theorem C158_solution_equality [DecidableEq K] (x y : List (Pv K)) :
    blockEq x y = true ↔ x.length = y.length ∧ ∀ (i : ℕ) (p q : Pv K), x[i]? = some p → y[i]? = some q → Same p q := by
  rw [blockEq, equalRange_iff _ _ C158_equality]
  constructor
  · intro h
    refine ⟨h.length_eq, fun i p q hp hq => ?_⟩
    obtain ⟨hi, rfl⟩ := List.getElem?_eq_some_iff.1 hp
    obtain ⟨hj, rfl⟩ := List.getElem?_eq_some_iff.1 hq
    exact h.get hi hj
  · rintro ⟨hl, h⟩
    refine List.forall₂_iff_get.2 ⟨hl, fun i h1 h2 => h i _ _ ?_ ?_⟩
    · exact List.getElem?_eq_getElem h1
    · exact List.getElem?_eq_getElem h2

/-- C158: the solution of a time level is unpacked into one of any size. -/
theorem C158_solution [DecidableEq K] {c : Basic B K} (hc : c.Lawful) (numEq : ℕ) (dflt : Pv K) (hd : dflt.values.length = numEq)
    (x old : List (Pv K)) (hx : ∀ p ∈ x, p.values.length = numEq) (ho : ∀ p ∈ old, p.values.length = numEq) (rest : List B) :
    ∃ y, (blockCodec c dflt).unpack old ((blockCodec c dflt).pack x ++ rest) = some (y, rest) ∧ blockEq y x = true := by
  obtain ⟨y, h1, h2⟩ := unpackItems_pack (pvCodec c) (fun y x => Same y x)
    (fun a b => a.values.length = numEq ∧ b.values.length = numEq)
    (fun p o r hq => by
      obtain ⟨y, h, h', _⟩ := C158_primary_variables hc p o r (hq.1.trans hq.2.symm)
      exact ⟨y, h, (C158_equality _ _).1 h'⟩) x (resize dflt old x.length) rest
    (forall₂_of_forall _ _ _ _ (length_resize _ _ _).symm hx (mem_resize _ _ _ hd ho))
  refine ⟨y, ?_, (equalRange_iff _ _ C158_equality _ _).2 h2⟩
  simp only [blockCodec, vectorCodec, List.append_assoc, hc.size _ _ _, Option.bind_some]
  exact h1

/-- C158: all time levels are restored, whatever the sizes of the solutions were before. -/
theorem C158_model [DecidableEq K] {c : Basic B K} (hc : c.Lawful) (numEq : ℕ) (dflt : Pv K) (hd : dflt.values.length = numEq)
    (x old : List (List (Pv K))) (hl : x.length = old.length) (hx : ∀ l ∈ x, ∀ p ∈ l, p.values.length = numEq)
    (ho : ∀ l ∈ old, ∀ p ∈ l, p.values.length = numEq) (rest : List B) :
    ∃ y, (modelCodec c dflt).unpack old ((modelCodec c dflt).pack x ++ rest) = some (y, rest) ∧ modelEq y x = true ∧
      y.length = x.length ∧
      ∀ (t i : ℕ) (l m : List (Pv K)) (p q : Pv K), y[t]? = some l → x[t]? = some m → l[i]? = some p → m[i]? = some q → Same p q := by
  obtain ⟨y, h1, h2⟩ := unpackItems_pack (blockCodec c dflt) (fun y x => blockEq y x = true)
    (fun a b => (∀ p ∈ a, p.values.length = numEq) ∧ ∀ p ∈ b, p.values.length = numEq)
    (fun p o r hq => C158_solution hc numEq dflt hd p o hq.1 hq.2 r) x old rest (forall₂_of_forall _ _ _ _ hl hx ho)
  refine ⟨y, h1, (equalRange_iff blockEq _ (fun _ _ => Iff.rfl) _ _).2 h2, h2.length_eq, ?_⟩
  intro t i l m p q hy hx' hp hq
  obtain ⟨hi, rfl⟩ := List.getElem?_eq_some_iff.1 hy
  obtain ⟨hj, rfl⟩ := List.getElem?_eq_some_iff.1 hx'
  exact ((C158_solution_equality _ _).1 (h2.get hi hj)).2 i p q hp hq

/-! ### The simulator -/

/-- C158 (partial): a simulator which is unpacked into another one of the same kind gets the vanguard, the solutions, the problem and the
clock of the packed one.  What is missing: time step size, end time and the flag which tells that the simulation is finished, which
must agree already. -/
theorem C158_simulator_partial [DecidableEq K] {c : Basic B K} (hc : c.Lawful) {cv : Codec B V} {cp : Codec B P} (hv : Lawful cv)
    (hp : Lawful cp) (numEq : ℕ) (dflt : Pv K) (hd : dflt.values.length = numEq) (x old : Simulator K V P)
    (hl : x.model.length = old.model.length) (hx : ∀ l ∈ x.model, ∀ p ∈ l, p.values.length = numEq)
    (ho : ∀ l ∈ old.model, ∀ p ∈ l, p.values.length = numEq) (rest : List B) :
    ∃ y, (simulatorCodec c dflt cv cp).unpack old ((simulatorCodec c dflt cv cp).pack x ++ rest) = some (y, rest) ∧
      y.vanguard = x.vanguard ∧ y.problem = x.problem ∧ modelEq y.model x.model = true ∧
      y.sim.time = x.sim.time ∧ y.sim.startTime = x.sim.startTime ∧ y.sim.timeStepIdx = x.sim.timeStepIdx ∧
      y.sim.episodeIdx = x.sim.episodeIdx ∧ y.sim.episodeStart = x.sim.episodeStart ∧ y.sim.episodeLength = x.sim.episodeLength ∧
      (old.sim.endTime = x.sim.endTime → old.sim.dt = x.sim.dt → old.sim.finishedFlag = x.sim.finishedFlag → y.sim = x.sim) := by
  obtain ⟨m, hm, he, -⟩ := C158_model hc numEq dflt hd x.model old.model hl hx ho
    (cp.pack x.problem ++ (c.int.pack x.sim.episodeIdx ++ (c.num.pack x.sim.episodeStart ++ (c.num.pack x.sim.episodeLength ++
      (c.num.pack x.sim.startTime ++ (c.num.pack x.sim.time ++ (c.int.pack x.sim.timeStepIdx ++ rest)))))))
  have h : (simulatorCodec c dflt cv cp).unpack old ((simulatorCodec c dflt cv cp).pack x ++ rest) =
      some (⟨x.vanguard, m, x.problem, Restart.restore (Restart.save x.sim) old.sim⟩, rest) := by
    simp only [simulatorCodec, classCodec, packAll, unpackAll, member, List.append_assoc, List.append_nil, Option.map_some,
      Option.bind_some, List.nil_append, hv _ _ _, hm, hp _ _ _, hc.int _ _ _, hc.num _ _ _, Restart.restore, Restart.save]
  refine ⟨_, h, rfl, rfl, he, rfl, rfl, rfl, rfl, rfl, rfl, ?_⟩
  intro h1 h2 h3
  obtain ⟨_, _, _, ⟨_, _, _, _, _, _, _, _, _⟩⟩ := x
  simp only at h1 h2 h3
  simp only [Restart.restore, Restart.save, h1, h2, h3]

/-! ### An instance -/

/-- A codec which uses one element of the buffer, an integer. -/
def single {α : Type} (f : α → ℤ) (g : ℤ → Option α) : Codec ℤ α :=
  { pack := fun x => [f x]
    unpack := fun _ b => match b with | [] => none | a :: b => (g a).map fun x => (x, b) }

theorem single_lawful {α : Type} (f : α → ℤ) (g : ℤ → Option α) (h : ∀ x, g (f x) = some x) : Lawful (single f g) := by
  intro x old rest; simp [single, h]

/-- Buffers of integers. -/
def ints : Basic ℤ ℤ :=
  { num := single id some, int := single id some, size := single (fun k => (k : ℤ)) (fun z => some z.toNat)
    water := single (fun | .Sw => 0 | .Rvw => 1 | .Rsw => 2 | .Disabled => 3)
      (fun z => if z = 0 then some .Sw else if z = 1 then some .Rvw else if z = 2 then some .Rsw else some .Disabled)
    pressure := single (fun | .Po => 0 | .Pg => 1 | .Pw => 2)
      (fun z => if z = 0 then some .Po else if z = 1 then some .Pg else some .Pw)
    gas := single (fun | .Sg => 0 | .Rs => 1 | .Rv => 2 | .Disabled => 3)
      (fun z => if z = 0 then some .Sg else if z = 1 then some .Rs else if z = 2 then some .Rv else some .Disabled)
    brine := single (fun | .Cs => 0 | .Sp => 1 | .Disabled => 2)
      (fun z => if z = 0 then some .Cs else if z = 1 then some .Sp else some .Disabled)
    solvent := single (fun | .Ss => 0 | .Rsolw => 1 | .Disabled => 2)
      (fun z => if z = 0 then some .Ss else if z = 1 then some .Rsolw else some .Disabled) }

theorem ints_lawful : ints.Lawful :=
  { num := single_lawful _ _ fun _ => rfl
    int := single_lawful _ _ fun _ => rfl
    size := single_lawful _ _ fun _ => by simp
    water := single_lawful _ _ fun x => by cases x <;> rfl
    pressure := single_lawful _ _ fun x => by cases x <;> rfl
    gas := single_lawful _ _ fun x => by cases x <;> rfl
    brine := single_lawful _ _ fun x => by cases x <;> rfl
    solvent := single_lawful _ _ fun x => by cases x <;> rfl }

/-- Two sets of primary variables. -/
def pv (a b : ℤ) (g : GasMeaning) : Pv ℤ := ⟨[a, b], .Sw, .Po, g, .Disabled, .Ss, 3, 17⟩

/-- The hypotheses of the theorems can be met: two time levels, of one and of two entries, are unpacked into two of other sizes. -/
example : ∃ y, (modelCodec ints (pv 0 0 .Disabled)).unpack [[], [pv 9 9 .Sg, pv 9 9 .Sg, pv 9 9 .Sg]]
    ((modelCodec ints (pv 0 0 .Disabled)).pack [[pv 1 2 .Rs], [pv 3 4 .Sg, pv 5 6 .Rv]] ++ [100]) = some (y, [100]) ∧
      modelEq y [[pv 1 2 .Rs], [pv 3 4 .Sg, pv 5 6 .Rv]] = true := by
  obtain ⟨y, h1, h2, -⟩ := C158_model ints_lawful 2 (pv 0 0 .Disabled) rfl [[pv 1 2 .Rs], [pv 3 4 .Sg, pv 5 6 .Rv]]
    [[], [pv 9 9 .Sg, pv 9 9 .Sg, pv 9 9 .Sg]] rfl (by simp [pv]) (by simp [pv]) [100]
  exact ⟨y, h1, h2⟩

/-- A simulator with one value per cell. -/
def simulator (t dt : ℤ) : Simulator ℤ ℤ ℤ := ⟨1, [[pv t 2 .Rs]], 2, ⟨0, t, 100, dt, 5, 1, 0, 50, false⟩⟩

example : ∃ y, (simulatorCodec ints (pv 0 0 .Disabled) ints.num ints.num).unpack (simulator 0 1)
    ((simulatorCodec ints (pv 0 0 .Disabled) ints.num ints.num).pack (simulator 40 1) ++ []) = some (y, []) ∧
      y.sim = (simulator 40 1).sim := by
  obtain ⟨y, h1, -, -, -, -, -, -, -, -, -, h2⟩ := C158_simulator_partial ints_lawful ints_lawful.num ints_lawful.num 2
    (pv 0 0 .Disabled) rfl (simulator 40 1) (simulator 0 1) rfl (by simp [pv, simulator]) (by simp [pv, simulator]) []
  exact ⟨y, h1, h2 rfl rfl rfl⟩

/-- C158, violated: the size of the next time step is not restored. -/
theorem C158_time_step_size_violated : ∃ (x old y : Simulator ℤ ℤ ℤ),
    (simulatorCodec ints (pv 0 0 .Disabled) ints.num ints.num).unpack old
      ((simulatorCodec ints (pv 0 0 .Disabled) ints.num ints.num).pack x) = some (y, []) ∧ y.sim.dt ≠ x.sim.dt :=
  ⟨simulator 40 7, simulator 0 1, simulator 40 1, rfl, by decide⟩

/-! ### Cached quantities -/

/-- C158 (partial): if the caller invalidates the cache of a time level after unpacking, everybody gets the quantities which belong to the
unpacked solution. -/
theorem C158_cache_partial {PV IQ : Type} (c : Cache.Cfg) (upd : PV → IQ) (s : Cache.State PV IQ) (new : ℕ → ℕ → PV) (t d : ℕ) :
    (Cache.access c upd (Cache.invalidate c (load s new) t) t d).1 = upd (new t d) := by
  by_cases h : Cache.store c = true
  · simp [Cache.access, Cache.cached, Cache.invalidate, load, h, Cache.setRow]
  · have hc : c.cache = false := by
      cases hcc : c.cache
      · rfl
      · exact absurd (by simp [Cache.store, hcc]) h
    simp [Cache.access, Cache.cached, Cache.invalidate, load, h, hc]

/-- C158, violated: otherwise the quantities which were cached before are those of another solution. -/
theorem C158_cache_violated : ∃ (s : Cache.State ℚ ℚ) (new : ℕ → ℕ → ℚ),
    Cache.UpToDate (Cache.euler false) (fun x => x + 1) s 0 ∧
      ¬ Cache.UpToDate (Cache.euler false) (fun x => x + 1) (load s new) 0 := by
  refine ⟨(Cache.access (Cache.euler false) (fun x => x + 1) Cache.blank 0 0).2, fun _ _ => 5, ?_, fun h => ?_⟩
  · intro d
    by_cases hd : d = 0
    · subst hd; decide +kernel
    · simp [Cache.access, Cache.cached, Cache.updateCached, Cache.euler, Cache.blank, Cache.store, hd]
  · exact absurd (h 0) (by decide +kernel)

end Verif.Pack
