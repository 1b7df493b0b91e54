import Mathlib.Algebra.Order.Field.Basic
import Mathlib.Algebra.BigOperators.Group.List.Basic

set_option autoImplicit false
/-
Model of the discrete fracture model (opm/models/discretefracture): which edges of a two-dimensional grid are fractures, the volume of
the fractures within a sub-control volume, storage and fluxes, saturations in matrix and fractures, and the assignment of primary
variables.  There are two phases, 0 is wetting.  Only values, no derivatives (the code uses finite differences).
-/
namespace Verif.Fracture

/-- `FractureMapper`, opm/models/discretefracture/fracturemapper.hh lines 44-103. -/
structure Mapper where
  edges : List (ℕ × ℕ)
  vertices : List ℕ

/-- A mapper without fractures. -/
def Mapper.empty : Mapper := ⟨[], []⟩

/-- The constructor of `FractureEdge`, opm/models/discretefracture/fracturemapper.hh lines 48-51. -/
def mkEdge (a b : ℕ) : ℕ × ℕ := (min a b, max a b)

/-- `addFractureEdge`, opm/models/discretefracture/fracturemapper.hh lines 73-78. -/
def Mapper.add (m : Mapper) (a b : ℕ) : Mapper := ⟨mkEdge a b :: m.edges, b :: a :: m.vertices⟩

/-- `isFractureVertex`, opm/models/discretefracture/fracturemapper.hh lines 85-86. -/
def Mapper.isVertex (m : Mapper) (v : ℕ) : Bool := decide (v ∈ m.vertices)

/-- `isFractureEdge`, opm/models/discretefracture/fracturemapper.hh lines 94-98. -/
def Mapper.isEdge (m : Mapper) (a b : ℕ) : Bool := decide (mkEdge a b ∈ m.edges)

variable {K : Type} [Field K] [LinearOrder K]

/-- `fractureVolume_` of the sub-control volume of the vertex `v` in an element with the vertices `dofs` (global indices),
opm/models/discretefracture/discretefractureintensivequantities.hh lines 93-146; width and length of the edges are given by their
vertices. -/
def fractureVolume (m : Mapper) (width len : ℕ → ℕ → K) (dofs : List ℕ) (v : ℕ) : K :=
  if m.isVertex v = false then 0
  else dofs.foldl (fun s w => if v = w ∨ m.isEdge v w = false then s else s + width v w / 2 * (len v w / 2)) 0

/-! ### saturations -/

/-- The fluids of matrix and fracture: wetting saturations and the two pressures. -/
structure State (K : Type) where
  matrixSw : K
  matrixSn : K
  fractureSw : K
  fractureSn : K
  pw : K
  pn : K

/-- The capillary pressure curve of a material, and its inverse as it is used by `MaterialLaw::saturations`. -/
structure Law (K : Type) where
  pc : K → K
  sw : K → K

/-- `update` for a vertex with a fracture (opm/models/immiscible/immiscibleintensivequantities.hh lines 106-127, then
opm/models/discretefracture/discretefractureintensivequantities.hh lines 101-107 and 152-178): pressures come from the saturation of
the primary variables, then the matrix saturation is limited from above and the one of the fracture from below. -/
def update (matrix fracture : Law K) (p0 sw : K) : State K :=
  let pw := p0
  let pn := p0 + (matrix.pc sw - 0)
  let matrixSw := min 1 sw
  let fractureSw := max 0 (fracture.sw (pn - pw))
  ⟨matrixSw, 1 - matrixSw, fractureSw, 1 - fractureSw, pw, pn⟩

/-- `assignNaiveFromFracture`, opm/models/discretefracture/discretefractureprimaryvariables.hh lines 88-120, and `assignNaive`
(opm/models/immiscible/immiscibleprimaryvariables.hh lines 193-203): the pressure of the wetting phase and its saturation according to
`law`. -/
def assignFromFracture (law : Law K) (pw pn : K) : K × K := (pw, law.sw (pn - pw))

/-! ### storage -/

/-- `addPhaseStorage`, opm/models/discretefracture/discretefracturelocalresidual.hh lines 68-107, of the mass of a phase: porosity,
saturation and density of matrix and fracture, volumes of fracture and sub-control volume. -/
def phaseStorage (isVertex : Bool) (phi s rho phiF sF rhoF vF v : K) : K :=
  if isVertex = false then phi * s * rho
  else phi * s * rho * (1 - vF / v) + phiF * sF * rhoF * vF / v

/-! ### fluxes -/

/-- Vectors of the plane. -/
abbrev V2 (K : Type) := Fin 2 → K

/-- `mv`. -/
def mulVec (k : Fin 2 → Fin 2 → K) (x : V2 K) : V2 K := fun i => k i 0 * x 0 + k i 1 * x 1

/-- The scalar product. -/
def dot (x y : V2 K) : K := x 0 * y 0 + x 1 * y 1

/-- `harmonicMean` (opm-common). -/
def harmonic (x y : K) : K := if x * y ≤ 0 then 0 else 2 * x * y / (x + y)

/-- `fractureFaceIntrinsicPermeability`, opm/models/discretefracture/discretefractureproblem.hh lines 79-97. -/
def facePerm (k1 k2 : Fin 2 → Fin 2 → K) : Fin 2 → Fin 2 → K := fun i j => harmonic (k1 i j) (k2 i j)

/-- `distDirection`, opm/models/discretefracture/discretefractureextensivequantities.hh lines 86-88; `len` is the distance. -/
def direction (x y : V2 K) (len : K) : V2 K := fun i => (y i - x i) / len

/-- The gradient of a potential by two points, opm/models/discretization/common/fvbasegradientcalculator.hh lines 199-245, which is the
default for vertex-centred grids (opm/models/discretization/vcfv/vcfvdiscretization.hh line 94).  That the fracture model asks for it
(`UseTwoPointGradients`, opm/models/discretefracture/discretefracturemodel.hh lines 91-94) has no effect: the property is never read. -/
def twoPointGrad (x y : V2 K) (len psiX psiY : K) : V2 K := fun i => (psiY - psiX) / (len * len) * (y i - x i)

/-- `fractureVolumeFlux_`, opm/models/discretefracture/discretefractureextensivequantities.hh lines 95-115. -/
def fractureFlux (k : Fin 2 → Fin 2 → K) (grad dir : V2 K) (mobility width area : K) : K :=
  dot (fun i => mulVec k grad i * (- mobility)) dir * (width / 2) / area

/-- The exterior vertex is upstream (opm/models/common/darcyfluxmodule.hh lines 299-312); it is used for matrix and fracture. -/
def exteriorUp (grad normal : V2 K) : Bool := decide (0 < dot grad normal)

/-- The volume flux of the matrix per area (opm/models/common/darcyfluxmodule.hh lines 470-500). -/
def matrixFlux (k : Fin 2 → Fin 2 → K) (grad normal : V2 K) (mobility : K) : K :=
  dot (fun i => mulVec k grad i * (- mobility)) normal

/-- `computeFlux`, opm/models/discretefracture/discretefracturelocalresidual.hh lines 112-153, of the mass of a phase per area: flux
of the matrix, density in the upstream cell, and the fracture. -/
def massFlux (isEdge : Bool) (matrix fracture rho width area : K) : K :=
  if isEdge = false then matrix * rho else matrix * rho * (1 - width / (2 * area)) + fracture * rho

/-! ### storage cache -/

/-- A sub-control volume: its vertex, volume, and its storage term at the begin and the end of a time step. -/
structure Scv (K : Type) where
  vertex : ℕ
  volume : K
  old : K
  new : K

/-- The storage of the previous time step by vertex, after the first iteration
(opm/models/discretization/common/fvbaselocalresidual.hh lines 535-565 and `updateCachedStorage`). -/
def cached (scvs : List (Scv K)) : ℕ → K := scvs.foldl (fun c s => Function.update c s.vertex s.old) fun _ => 0

/-- The storage part of the residual of a vertex in later iterations with the storage cache
(opm/models/discretization/common/fvbaselocalresidual.hh lines 566-600). -/
def residualCached (dt : K) (scvs : List (Scv K)) (v : ℕ) : K :=
  ((scvs.filter fun s => s.vertex = v).map fun s => (s.new - cached scvs v) * s.volume / dt).sum

end Verif.Fracture
