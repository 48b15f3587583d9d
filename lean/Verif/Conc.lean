import Verif.Exec
import Verif.TreeTable
/-!
# Model of parses that share a memo table

Several goroutines run `Exec` with one `*TreeTable`. Every method of the table that `Exec` calls holds the table's mutex (`memo/tree.go:26-28,46-48`), so
the calls of all threads happen one after the other in some order, and each gets the answer that the table gives in that order. Between two calls a thread
computes alone: what it does depends on the answers it got so far only. A thread is therefore the machine of `Vm` run with a table that logs the calls and
takes the answers from outside (`logTable`), and a concurrent run is a list of calls, each with the number of the thread that makes it, in which the calls
of every thread are those its machine makes (`Performs`), and every answer is the one of the table (`Serves`). Nothing is assumed about the schedule; calls
of other threads may come between any two calls of a thread, also those of a single instruction.

Captures are values here, as in `Vm`: what the code does to capture objects and slices of captures outside of the mutex (see C44 and C65) is not modelled.
-/
namespace Gpeg
variable {σ : Type}

/-- A call of `Get` (`memo/tree.go:25-31`) with its answer, or of `Put` (`memo/tree.go:33-49`). -/
inductive TEv
  | get (id : Int) (pos : Nat) (ans : Option MEntry)
  | put (id : Int) (pos : Nat) (len : Option Nat) (exam count : Nat) (capt : List Capture)

/-- What others answer to a thread: the answer to a call of `Get`, given the calls before. -/
abbrev Answers := List TEv → Int → Nat → Option MEntry

/-- The table as a thread sees it. -/
def logTable (ans : Answers) : TableOps (List TEv) where
  get L id pos := (ans L id pos, L ++ [.get id pos (ans L id pos)])
  put L id pos len exam count capt := L ++ [.put id pos len exam count capt]
  applyEdit L _ := L

/-- A thread: `Exec` (`vm/vm.go:31-44`) on `data` read in chunks of `bufsz` bytes, with its own checkers in state `st`. -/
structure Thread (σ : Type) where
  bufsz : Nat
  st : σ

/-- The configuration of a thread's machine. -/
abbrev Thread.cfg (chk : CheckFn σ) (ans : Answers) : Cfg Input (List TEv) σ := ⟨chunkedOps, logTable ans, chk, none⟩

/-- The state after at most `k` steps. -/
def after {ι τ : Type} (step : VM ι τ σ → Out ι τ σ) : Nat → VM ι τ σ → VM ι τ σ
  | 0, s => s
  | k + 1, s => match step s with
    | .next s' => after step k s'
    | .halt _ _ s' => s'
    | .panic => s

/-- `E` are the first calls that the thread makes, for some answers to `Get`. -/
def Thread.Performs (chk : CheckFn σ) (code : Code) (data : List UInt8) (t : Thread σ) (E : List TEv) : Prop :=
  ∃ ans k, E <+: (after (stepB (Thread.cfg chk ans) code) k (initVM (Thread.cfg chk ans) (Input.new t.bufsz data) [] t.st)).tbl

/-- `E` are all calls that the thread makes, and it stops with `r`. -/
def Thread.Finishes (chk : CheckFn σ) (code : Code) (data : List UInt8) (t : Thread σ) (E : List TEv) (r : XRes Input (List TEv) σ) : Prop :=
  ∃ ans, Execs (Thread.cfg chk ans) code (Input.new t.bufsz data) [] t.st r ∧ ∃ ok cap src errs st', r = .done ok cap src errs E st'

/-- `E` are all calls that the thread makes, and it panics. -/
def Thread.Panics (chk : CheckFn σ) (code : Code) (data : List UInt8) (t : Thread σ) (E : List TEv) : Prop :=
  ∃ ans k, runOut (stepB (Thread.cfg chk ans) code) k (initVM (Thread.cfg chk ans) (Input.new t.bufsz data) [] t.st) = some .panic ∧
    (after (stepB (Thread.cfg chk ans) code) k (initVM (Thread.cfg chk ans) (Input.new t.bufsz data) [] t.st)).tbl = E

/-- The table serves the calls one after the other (`memo/tree.go:25-49`): it gives the answers recorded, and is `T'` in the end. -/
inductive Serves (T : TreeTable) : List (Nat × TEv) → TreeTable → Prop
  | nil : Serves T [] T
  | get {h T1 T2 i id pos a} : Serves T h T1 → T1.get id pos = (a, T2) → Serves T (h ++ [(i, .get id pos a)]) T2
  | put {h T1 i id pos len exam count capt} : Serves T h T1 → Serves T (h ++ [(i, .put id pos len exam count capt)]) (T1.put id pos len exam count capt)

/-- The calls of thread `i`. -/
def callsOf (i : Nat) (h : List (Nat × TEv)) : List TEv := (h.filter (·.1 == i)).map (·.2)

/-- A concurrent run of `threads` with the table `T`, up to any moment: `h` are the calls made so far. -/
structure Concurrent (chk : CheckFn σ) (code : Code) (data : List UInt8) (threads : List (Thread σ)) (T : TreeTable) (h : List (Nat × TEv)) (T' : TreeTable) :
    Prop where
  serves : Serves T h T'
  known : ∀ c ∈ h, c.1 < threads.length
  perf : ∀ (i : Nat) (t : Thread σ), threads[i]? = some t → t.Performs chk code data (callsOf i h)

end Gpeg
