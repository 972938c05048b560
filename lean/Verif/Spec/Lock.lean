import Verif.Spec.Calls
import Verif.Props.PosConc

/-!
# Goroutines that share a segmenter and one `sync.RWMutex`

gse has no lock of its own. Here every goroutine makes a list of calls, each between `RLock` and `RUnlock` if it uses the dictionary, between `Lock` and `Unlock` if it changes it. Anybody may go on at any time,
as long as the lock allows it; a real `RWMutex` also lets a waiting writer keep new readers out, and a plain `Mutex` keeps them apart altogether, so that their executions are among these.
-/

namespace Gse

variable {F D : Type}

namespace Spec

/-- A call on the segmenter, or on a tagger or text ranker made with it: one that uses the dictionary, or one that changes it, with the place of its text. -/
inductive AnyCall (F : Type)
  | use (u : TagCall F)
  | change (text : Slice) (op : DictOp F)

def AnyCall.Reads : AnyCall F → Prop
  | .use _ => True
  | .change _ _ => False

/-- What happens: goroutine `i` gets the lock for a call, makes an access, gives the lock back with the result of the call. -/
inductive Event (F : Type)
  | lock (i : Nat) (x : AnyCall F)
  | access (i : Nat) (e : Access)
  | unlock (i : Nat) (x : AnyCall F) (r : TagAnswer F ⊕ Bool)

/-- The changes, in the order in which they got the lock. -/
def changes (evs : List (Event F)) : List (DictOp F) := evs.filterMap fun
  | .lock _ (.change _ op) => some op
  | _ => none

/-- Memory and the goroutines; the calls each of them has yet to make; the call for which it has the lock. -/
structure Shared (F D : Type) where
  conf : Config F D (TagAnswer F ⊕ Bool)
  todo : List (List (AnyCall F))
  now : List (Option (AnyCall F))

/-- The lock may be had: together with other readers, or alone. -/
def AnyCall.Admitted (now : List (Option (AnyCall F))) : AnyCall F → Prop
  | .use _ => ∀ (j : Nat) y, now[j]? = some (some y) → y.Reads
  | .change _ _ => ∀ (j : Nat) y, now[j]? ≠ some (some y)

variable [F64 F] [F32 D] [Narrow F D] [Unicode]

/-- The call as a program. -/
def AnyCall.prog (c : HmmConst F) : AnyCall F → Prog F D (TagAnswer F ⊕ Bool)
  | .use u => (u.prog c).bind fun a => .ret (.inl a)
  | .change r op => (op.prog r).bind fun e => .ret (.inr e)

/-- One step of a goroutine. -/
inductive LStep (c : HmmConst F) : Shared F D → Event F → Shared F D → Prop
  | lock {s : Shared F D} {i : Nat} {x : AnyCall F} {rest : List (AnyCall F)} : s.todo[i]? = some (x :: rest) → s.now[i]? = some none → x.Admitted s.now →
      LStep c s (.lock i x) ⟨⟨s.conf.mem, s.conf.threads.set i (x.prog c)⟩, s.todo.set i rest, s.now.set i (some x)⟩
  | access {s : Shared F D} {i : Nat} {x : AnyCall F} {e : Access} {c' : Config F D (TagAnswer F ⊕ Bool)} : s.now[i]? = some (some x) → Step s.conf i e c' →
      LStep c s (.access i e) ⟨c', s.todo, s.now⟩
  | unlock {s : Shared F D} {i : Nat} {x : AnyCall F} {r : TagAnswer F ⊕ Bool} : s.now[i]? = some (some x) → s.conf.threads[i]? = some (.ret r) →
      LStep c s (.unlock i x r) ⟨s.conf, s.todo, s.now.set i none⟩

/-- An execution, with what happened. -/
inductive LExec (c : HmmConst F) : Shared F D → List (Event F) → Shared F D → Prop
  | refl (s) : LExec c s [] s
  | step {s evs s' ev s''} : LExec c s evs s' → LStep c s' ev s'' → LExec c s (evs ++ [ev]) s''

/-- At the start nobody has the lock. -/
def startGuarded (m : Mem F D) (calls : List (List (AnyCall F))) : Shared F D :=
  ⟨⟨m, calls.map fun _ => .ret (.inr false)⟩, calls, calls.map fun _ => none⟩

/-- The change, with the place of its text. -/
def AnyCall.change? : AnyCall F → Option (Slice × DictOp F)
  | .change r op => some (r, op)
  | .use _ => none

/-- The changes among the calls. -/
def changesOf (calls : List (List (AnyCall F))) : List (Slice × DictOp F) := calls.flatten.filterMap AnyCall.change?

/-- Memory holds the segmenter with room for every word to be added, the HMM model, and the texts of the calls; no call brings patterns of its own, and a tagger has good tables and does not overflow on the text. -/
structure GuardedOK (m : Mem F D) (cfg : SplitCfg) (d : Dictionary F D) (em : EmitModel F) (calls : List (List (AnyCall F))) : Prop where
  history : HistoryOK m cfg d (changesOf calls)
  emit : m .emit = some (.emit em)
  inputs : ∀ u, .use u ∈ calls.flatten → u.HasInput m ∧ u.Good
  below : ∃ n, m.Below n

/-- The result is the one the call has when the calls are made one after another in the order in which they got the lock: `evs` is what happened before the call gave the lock back. -/
def Right (cfg : SplitCfg) (d : Dictionary F D) (c : HmmConst F) (em : EmitModel F) (m : Mem F D) (evs : List (Event F)) : AnyCall F → TagAnswer F ⊕ Bool → Prop
  | .use u, .inl a => ∃ d', runOps cfg (changes evs) d = some d' ∧ u.Alone cfg d' c em m a
  | .change _ op, .inr e => ∃ pre d1 d2, changes evs = pre ++ [op] ∧ runOps cfg pre d = some d1 ∧ op.result cfg d1 = some (d2, e)
  | _, _ => False

/-- Between two accesses lies what makes the first happen before the second: goroutine `i` gives the lock back, then `j` gets it, and one of the two calls is a change, or a change gets the lock in between. -/
def OrderedByLock (i j : Nat) (b : List (Event F)) : Prop :=
  ∃ p x r q y t, b = p ++ .unlock i x r :: q ++ .lock j y :: t ∧ (¬ x.Reads ∨ ¬ y.Reads ∨ ∃ k z, ¬ z.Reads ∧ .lock k z ∈ q)

end Spec
end Gse
