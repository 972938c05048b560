import Verif.Model.Output
import Verif.Model.Load
import Verif.Model.Stop

/-!
# The programs in tools/benchmark

`goroutines.go` hands the lines of a book to a pool of goroutines through a channel; `benchmark.go` does the same work in one goroutine and
may write the result to a file. Left out: profiling, logging and measuring the time.
-/

namespace Gse

section
variable [U : Unicode]

/-- `fmt.Sscanf(line, "%s", &text)` (Go standard library) on a line without `\n`: blanks are skipped, the characters up to the next blank are
stored, malformed bytes as U+FFFD; on a blank line the error is ignored and `text` stays "". -/
def sscanfWord (line : Bytes) : Bytes :=
  match Segmenter.skipSpace (runes line) with
  | .word ws => encode (ws.takeWhile fun r => !U.isSpace r)
  | _ => []

/-- tools/benchmark/goroutines/goroutines.go:31-52 `openBook` and tools/benchmark/benchmark.go:59-80 `openFile`, on the content of the file:
the size and the lines. -/
def openBook (content : Bytes) : Nat × List Bytes :=
  (StopMap.scanLines (splitStr content (str "\n"))).foldl
    (fun r text => (r.1 + (sscanfWord text).length, r.2 ++ [sscanfWord text])) (0, [])

/-- tools/benchmark/goroutines/goroutines.go:72-76 and tools/benchmark/benchmark.go:141-142: the two nested loops over the lines. -/
def benchTasks (numRuns : Nat) (lines : List Bytes) : List Bytes := (List.range numRuns).flatMap fun _ => lines

end

/-- Where a goroutine of the pool is in `worker` (tools/benchmark/goroutines/goroutines.go:24-29): before a receive, inside `seg.Segment(line)`, before `done <- true`,
at its end. -/
inductive Worker where
  | idle
  | busy (line : Bytes)
  | leaving
  | ended

/-- The state of goroutines.go. `main` is in its sending loop while `rest` is not empty or the channel is open, then in its loop of
receives, until it has returned. The goroutines are there from the beginning: one that has not been started yet can do nothing else
than one that has, because nothing has been sent before all are started. -/
structure Pool where
  /-- The lines `main` has still to send. -/
  rest : List Bytes
  /-- The channel `task`: what is in its buffer, and whether it has been closed. -/
  queue : List Bytes
  closed : Bool
  workers : List Worker
  /-- How many values are in the buffer of the channel `done`, and how many `main` has received. -/
  dones : Nat
  got : Nat
  returned : Bool
  /-- A panic in a goroutine ends the program. -/
  crashed : Bool
  /-- For the theorems: the lines in the order they were received, and the calls that have returned, with what they returned. -/
  taken : List Bytes
  log : List (Bytes × List Seg)

/-- tools/benchmark/goroutines/goroutines.go:62-65: the pool after starting `n` goroutines. -/
def Pool.start (n : Nat) (tasks : List Bytes) : Pool :=
  { rest := tasks, queue := [], closed := false, workers := List.replicate n .idle, dones := 0, got := 0, returned := false, crashed := false,
    taken := [], log := [] }

/-- One step of one goroutine (tools/benchmark/goroutines/goroutines.go:24-29, 72-89), for `n` goroutines and a channel `task` of capacity `cap`. Sending to a full and
receiving from an empty channel wait, so there is no such step; receiving from a closed and empty one ends the loop. A call of
`Segment` is one step: Props/Conc.lean (C53, C68) shows that calls do not interfere. -/
inductive PoolStep (seg : Bytes → Option (List Seg)) (n cap : Nat) : Pool → Pool → Prop
  /-- tools/benchmark/goroutines/goroutines.go:74 `task <- l`. -/
  | send (p : Pool) (l : Bytes) (ls : List Bytes) : p.crashed = false → p.rest = l :: ls → p.queue.length < cap →
      PoolStep seg n cap p { p with rest := ls, queue := p.queue ++ [l] }
  /-- tools/benchmark/goroutines/goroutines.go:77 `close(task)`. -/
  | close (p : Pool) : p.crashed = false → p.rest = [] → p.closed = false → PoolStep seg n cap p { p with closed := true }
  /-- tools/benchmark/goroutines/goroutines.go:25: a receive. -/
  | receive (p : Pool) (i : Nat) (l : Bytes) (ls : List Bytes) : p.crashed = false → p.workers[i]? = some .idle → p.queue = l :: ls →
      PoolStep seg n cap p { p with queue := ls, workers := p.workers.set i (.busy l), taken := p.taken ++ [l] }
  /-- tools/benchmark/goroutines/goroutines.go:26 `seg.Segment(line)`. -/
  | segment (p : Pool) (i : Nat) (l : Bytes) (segs : List Seg) : p.crashed = false → p.workers[i]? = some (.busy l) → seg l = some segs →
      PoolStep seg n cap p { p with workers := p.workers.set i .idle, log := p.log ++ [(l, segs)] }
  /-- tools/benchmark/goroutines/goroutines.go:26, when `Segment` panics. -/
  | panic (p : Pool) (i : Nat) (l : Bytes) : p.crashed = false → p.workers[i]? = some (.busy l) → seg l = none →
      PoolStep seg n cap p { p with crashed := true }
  /-- tools/benchmark/goroutines/goroutines.go:25: the loop over a closed channel ends when it is empty. -/
  | leave (p : Pool) (i : Nat) : p.crashed = false → p.workers[i]? = some .idle → p.queue = [] → p.closed = true →
      PoolStep seg n cap p { p with workers := p.workers.set i .leaving }
  /-- tools/benchmark/goroutines/goroutines.go:28 `done <- true`. -/
  | done (p : Pool) (i : Nat) : p.crashed = false → p.workers[i]? = some .leaving → p.dones < n →
      PoolStep seg n cap p { p with workers := p.workers.set i .ended, dones := p.dones + 1 }
  /-- tools/benchmark/goroutines/goroutines.go:81 `<-done`. -/
  | wait (p : Pool) : p.crashed = false → p.rest = [] → p.closed = true → p.got < n → 0 < p.dones →
      PoolStep seg n cap p { p with dones := p.dones - 1, got := p.got + 1 }
  /-- tools/benchmark/goroutines/goroutines.go:80-90: the loop of receives is over and `main` returns. -/
  | exit (p : Pool) : p.crashed = false → p.rest = [] → p.closed = true → p.got = n → p.returned = false →
      PoolStep seg n cap p { p with returned := true }

/-- Executions of tools/benchmark/goroutines/goroutines.go: `task` has room for `40` lines for every goroutine (tools/benchmark/goroutines/goroutines.go:19). -/
inductive PoolRun (seg : Bytes → Option (List Seg)) (n : Nat) : Pool → Nat → Pool → Prop
  | nil (p : Pool) : PoolRun seg n p 0 p
  | snoc {p q r : Pool} {k : Nat} : PoolRun seg n p k q → PoolStep seg n (n * 40) q r → PoolRun seg n p (k + 1) r

section
variable [Unicode] {F D : Type} [F64 F] [F32 D]

/-- tools/benchmark/benchmark.go:141-149: what is written to the output file; `numRuns` is 20. -/
def benchOutput (cfg : SplitCfg) (d : Dictionary F D) (fuel numRuns : Nat) (lines : List Bytes) : Option Bytes :=
  (mapOpt (fun l => (internalSegment cfg (some d) l false).bind fun segs => (toString' d fuel segs false).map (· ++ str "\n"))
    (benchTasks numRuns lines)).map List.flatten

end
end Gse
