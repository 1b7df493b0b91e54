import Verif.Pvtsol.Model

/-
What the tables of the extended black-oil model should contain.
-/

set_option autoImplicit false

namespace Verif.Pvtsol

variable {K : Type} [Field K] [LinearOrder K]

/-- The value of a column in the row before row `i`, with a start value for the first row -/
def before (f : Row K → K) (start : K) (rows : List (Row K)) (i : ℕ) : K :=
  match i with
  | 0 => start
  | j + 1 => match rows[j]? with
    | some r => f r
    | none => start

/-- Rows with their shifts -/
def shifted (i : ℕ) : List (Row K) → List (Row K)
  | [] => []
  | r :: l => r.shift i :: shifted (i + 1) l

/-- What is kept of rows of which the first `k` have increasing formation volume factors -/
structure Kept (z : K) (rows : List (Row K)) (i : ℕ) (bo0 po0 : K) (c : Column K) (k : ℕ) : Prop where
  le : k ≤ rows.length
  inc : ∀ j, j < k → ∀ r, rows[j]? = some r → before Row.bo bo0 rows j < r.bo
  stop : ∀ r, rows[k]? = some r → ¬ before Row.bo bo0 rows k < r.bo
  bubble : c.bubble = shifted i (rows.take k)
  samples : c.samples = shifted i (rows.take k) ++
    (match rows[k]? with
      | some r => if r.bo = before Row.bo bo0 rows k then [r.shift (i + k)] else []
      | none => [])
  decays : c.decays = true ↔ ∃ r, rows[k]? = some r ∧ r.bo < before Row.bo bo0 rows k
  oil : c.oil = match rows[k]? with
    | some r => if r.bo < before Row.bo bo0 rows k then divide (r.bo - before Row.bo bo0 rows k) (r.p - before Row.p po0 rows k) else some (-4 / 10 ^ 9)
    | none => some (-4 / 10 ^ 9)
  gas : c.gas = match rows[k]?, rows[k + 1]? with
    | some r, some n => if r.bo = before Row.bo bo0 rows k ∧ z < 1 then divide (n.bg - r.bg) (n.rv - r.rv) else some (-8 / 100)
    | _, _ => some (-8 / 100)

/-- The formation volume factors of oil of the first `m` rows are positive and increasing. -/
def Increasing (rows : List (Row K)) (m : ℕ) : Prop := ∀ j, j < m → ∀ r, rows[j]? = some r → before Row.bo 0 rows j < r.bo

/-- The formation volume factors of the rows increase and then decay. -/
def Decays (rows : List (Row K)) : Prop :=
  ∃ m r, Increasing rows m ∧ rows[m]? = some r ∧ r.bo < before Row.bo 0 rows m

/-- The tables of a region hold what is to be kept of its columns `cols`: fractions of solvent with rows. -/
structure Tabulated (cols : List (K × List (Row K))) (g : Region K) : Prop where
  /-- Positions are the fractions of solvent. -/
  xs : g.xs = cols.map Prod.fst
  /-- Sampling points belong to a position. -/
  samples : ∀ e ∈ g.samples, e.1 < cols.length
  bubble : ∀ e ∈ g.bubble, e.1 < cols.length
  /-- At each position, sampling points and compressibilities are from the rows for it. -/
  kept : ∀ (j : ℕ) (z : K) (rows : List (Row K)), cols[j]? = some (z, rows) → ∃ c k, Kept z rows 0 0 0 c k ∧
    (g.samples.filter (fun e => e.1 = j)).map Prod.snd = c.samples ∧ (g.bubble.filter (fun e => e.1 = j)).map Prod.snd = c.bubble ∧
    g.oilCmp[j]? = some (z, c.oil) ∧ g.gasCmp[j]? = some (z, c.gas)
  /-- The limit is the last fraction whose formation volume factors start to decay, or the default. -/
  zLim : (∃ (j : ℕ) (z : K) (rows : List (Row K)), cols[j]? = some (z, rows) ∧ Decays rows ∧ g.zLim = z ∧
      ∀ (j' : ℕ) (z' : K) (rows' : List (Row K)), j < j' → cols[j']? = some (z', rows') → ¬ Decays rows') ∨
    ((∀ c ∈ cols, ¬ Decays c.2) ∧ g.zLim = 7 / 10)

/-- Positions and sampling points are in ascending order, as the tables ask for. -/
structure Ascending (g : Region K) : Prop where
  xs : g.xs.Pairwise (· < ·)
  samples : ∀ j, ((g.samples.filter (fun e => e.1 = j)).map Prod.snd).Pairwise (fun a b => a.p < b.p)
  rs : ∀ j, ((g.bubble.filter (fun e => e.1 = j)).map Prod.snd).Pairwise (fun a b => a.rs < b.rs)
  rv : ∀ j, ((g.bubble.filter (fun e => e.1 = j)).map Prod.snd).Pairwise (fun a b => a.rv < b.rv)

end Verif.Pvtsol
