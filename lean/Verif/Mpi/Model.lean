import Mathlib.Logic.Function.Basic
import Mathlib.Logic.Relation
import Mathlib.Data.Fintype.Basic

/-
Processes which exchange messages with MPI.

The operations which the code of this repository uses for messages between two processes: `MPI_Send` and `MPI_Recv` directly
(opm/simulators/linalg/globalindices.hh:138-175,212-250) and `MPI_Isend`, `MPI_Recv` and `MPI_Wait` by means of
`Opm::MpiBuffer` (opm/models/parallel/mpibuffer.hh:84-127).  All messages have the tag 0 and use `MPI_COMM_WORLD`, and
every receive names its sender; messages between two processes are received in the order in which they were sent.

How much an MPI library buffers is not specified by the MPI standard: a blocking send may return at once or only when the
message is received.  Both are possible steps here; steps which any library must be able to take are called forced.  A
theorem which says that there always is a forced step thus excludes deadlocks for every library.
-/

set_option autoImplicit false

namespace Verif.Mpi

/-- The operations of a process with the state `S`; messages are of the type `M` and processes are named by `I`. -/
inductive Op (I S M : Type) where
  /-- computations of the process -/
  | compute (f : S → S)
  /-- `MPI_Isend`: the message is computed from the state, and is not changed until it has been received -/
  | isend (dest : I) (f : S → M)
  /-- `MPI_Send` -/
  | send (dest : I) (f : S → M)
  /-- `MPI_Recv`, after which the process continues with the message -/
  | recv (source : I) (g : M → S → S)
  /-- `MPI_Wait` for the messages which were sent to a process -/
  | wait (dest : I)

/-- All processes: what each has still to do, its state, and the messages which are under way from one to another. -/
structure System (I S M : Type) where
  rest : I → List (Op I S M)
  state : I → S
  chan : I → I → List M

variable {I S M : Type} [DecidableEq I]

/-- The channels after the channel from `p` to `q` has changed. -/
def setChan (c : I → I → List M) (p q : I) (l : List M) : I → I → List M :=
  Function.update c p (Function.update (c p) q l)

/-- One step of one process, or of two which exchange a message.  The Boolean says whether it is forced. -/
inductive Step : Bool → System I S M → System I S M → Prop where
  | compute (s : System I S M) (p : I) (f : S → S) (r : List (Op I S M)) (h : s.rest p = .compute f :: r) :
    Step true s { s with rest := Function.update s.rest p r, state := Function.update s.state p (f (s.state p)) }
  | isend (s : System I S M) (p q : I) (f : S → M) (r : List (Op I S M)) (h : s.rest p = .isend q f :: r) :
    Step true s { s with rest := Function.update s.rest p r, chan := setChan s.chan p q (s.chan p q ++ [f (s.state p)]) }
  /-- a blocking send whose message is buffered by the library -/
  | buffered (s : System I S M) (p q : I) (f : S → M) (r : List (Op I S M)) (h : s.rest p = .send q f :: r) :
    Step false s { s with rest := Function.update s.rest p r, chan := setChan s.chan p q (s.chan p q ++ [f (s.state p)]) }
  /-- a blocking send and its receive at the same time -/
  | rendezvous (s : System I S M) (p q : I) (f : S → M) (g : M → S → S) (r r' : List (Op I S M)) (hpq : p ≠ q)
    (h : s.rest p = .send q f :: r) (h' : s.rest q = .recv p g :: r') (hc : s.chan p q = []) :
    Step true s { s with rest := Function.update (Function.update s.rest p r) q r'
                         state := Function.update s.state q (g (f (s.state p)) (s.state q)) }
  | recv (s : System I S M) (p q : I) (g : M → S → S) (r : List (Op I S M)) (m : M) (c : List M)
    (h : s.rest q = .recv p g :: r) (hc : s.chan p q = m :: c) :
    Step true s { rest := Function.update s.rest q r, state := Function.update s.state q (g m (s.state q))
                  chan := setChan s.chan p q c }
  /-- a wait returns before the messages have been received, because the library has buffered them -/
  | waitEarly (s : System I S M) (p q : I) (r : List (Op I S M)) (h : s.rest p = .wait q :: r) :
    Step false s { s with rest := Function.update s.rest p r }
  | wait (s : System I S M) (p q : I) (r : List (Op I S M)) (h : s.rest p = .wait q :: r) (hc : s.chan p q = []) :
    Step true s { s with rest := Function.update s.rest p r }

/-- Any step. -/
def Next (s t : System I S M) : Prop := ∃ forced, Step forced s t

/-- The systems which can be reached. -/
def Reach : System I S M → System I S M → Prop := Relation.ReflTransGen Next

/-- All processes have come to the end of their program. -/
def Finished (s : System I S M) : Prop := ∀ p, s.rest p = []

/-- The start of the programs `prog`: no messages are under way. -/
def start (prog : I → List (Op I S M)) (init : I → S) : System I S M :=
  { rest := prog, state := init, chan := fun _ _ => [] }

end Verif.Mpi
