import Mathlib.Logic.Function.Basic

/-!
The decorator `mpi_errchk` (python/virgo/mpi/errchk.py) in a program where all ranks take part in collective communication.

What a rank does is summed up by the number of collective calls it makes before its function ends, and by how the function ends. A collective call returns on a rank at some time after all ranks have made this call.
Ranks are interleaved in any order. `MPI.COMM_WORLD.Abort(1)` ends all ranks at once. What is written to the terminal (19-22) is left out.
-/

namespace Verif.Errchk

/-- How a function ends; `exit` stands for exceptions which are not derived from `Exception`, like `SystemExit`, except for `KeyboardInterrupt`. -/
inductive Ending
  | returns
  | exception
  | interrupt
  | exit
  deriving DecidableEq

/-- `except (Exception, KeyboardInterrupt)` (17) -/
def caught : Ending → Bool
  | .exception => true
  | .interrupt => true
  | _ => false

/-- Number of collective calls, and what comes after them -/
structure Prog where
  calls : Nat
  ending : Ending
  deriving DecidableEq

inductive RankState
  /-- outside of communication, with the number of calls which have returned -/
  | running (k : Nat)
  /-- in a call -/
  | waiting (k : Nat)
  /-- the function has returned, or its exception has left the wrapper -/
  | ended
  deriving DecidableEq

structure World where
  rank : Nat → RankState
  aborted : Bool

def World.init : World := ⟨fun _ => .running 0, false⟩

/-- The number of calls which a rank has made -/
def entered (prog : Nat → Prog) (w : World) (p : Nat) : Nat := match w.rank p with
  | .running k => k
  | .waiting k => k + 1
  | .ended => (prog p).calls

/-- The wrapper calls `Abort` (23): `wrapped` says whether the decorator is used. -/
def aborts (wrapped : Bool) (q : Prog) : Bool := wrapped && caught q.ending

/-- One step of a rank -/
inductive Step (P : Nat) (wrapped : Bool) (prog : Nat → Prog) : World → World → Prop
  /-- A collective call -/
  | enter (w : World) (p k : Nat) : p < P → w.aborted = false → w.rank p = .running k → k < (prog p).calls → Step P wrapped prog w ⟨Function.update w.rank p (.waiting k), false⟩
  /-- It returns, which needs all ranks. -/
  | leave (w : World) (p k : Nat) : p < P → w.aborted = false → w.rank p = .waiting k → (∀ q < P, k < entered prog w q) → Step P wrapped prog w ⟨Function.update w.rank p (.running (k + 1)), false⟩
  /-- The function returns (16), or its exception is not caught. -/
  | finish (w : World) (p : Nat) : p < P → w.aborted = false → w.rank p = .running (prog p).calls → aborts wrapped (prog p) = false → Step P wrapped prog w ⟨Function.update w.rank p .ended, false⟩
  /-- The exception is caught (17-23). -/
  | abort (w : World) (p : Nat) : p < P → w.aborted = false → w.rank p = .running (prog p).calls → aborts wrapped (prog p) = true → Step P wrapped prog w ⟨w.rank, true⟩

/-- A run with a number of steps -/
inductive Run (P : Nat) (wrapped : Bool) (prog : Nat → Prog) : Nat → World → Prop
  | nil : Run P wrapped prog 0 .init
  | cons (m : Nat) (w w' : World) : Run P wrapped prog m w → Step P wrapped prog w w' → Run P wrapped prog (m + 1) w'

end Verif.Errchk
