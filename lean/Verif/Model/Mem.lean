import Verif.Model.Hmm

/-!
# Memory, goroutines and interleavings

The functional model of `Segment` (Model/Segmenter.lean) has no memory, so it says nothing about goroutines that run
it at the same time. This file gives a memory with named locations, programs that reach it one access at a time, and
the interleaving of any number of such programs. Model/SegMem.lean writes `Segment` as such a program.

Trusted here: the Go memory model gives race-free programs interleaving semantics (theorem C68 shows that these
programs are race free), and the allocator returns memory that nobody uses.
-/

namespace Gse

/-- A Go slice header: array, offset and length (capacities are never used by the modelled code). -/
structure Slice where
  arr : Nat
  off : Nat
  len : Nat
deriving DecidableEq, Repr

/-- The slice expression `s[i:j]`. -/
def Slice.sub (s : Slice) (i j : Nat) : Slice := ⟨s.arr, s.off + i, j - i⟩

/-- `*Token` at run time: the address of an entry of `Dict.Tokens`, or of a token made by segmenter.go:150-151 whose
text is the one given slice. A made token is never written again, so the pointer stands for it. -/
inductive MRef
  | idx (i : Nat)
  | pseudo (s : Slice)
deriving DecidableEq, Repr

/-- dictionary.go:25, an entry of `Dict.Tokens` (token.go:70-91) without the two fields that `CalcToken` writes. -/
structure MTok (F : Type) where
  text : List Bytes
  freq : F
  pos : Bytes

/-- segmenter.go:63-66 `jumper` in memory. -/
structure MJumper (D : Type) where
  minDistance : D
  token : Option MRef

/-- token.go:35-46 `Segment` in memory; the pointer is nil at first. -/
structure MSeg where
  start : Nat
  stop : Nat
  tok : Option MRef
deriving DecidableEq, Repr

/-- Locations. The segmenter's switches and `ToLower` count as one location, cedar's arrays as one; a table entry, and
a cell of an allocated array, each as one. Coarser locations make the absence of races a
stronger claim and its presence a weaker one: a race on the trie (C69, C77, C93) is one on cedar's arrays as a whole. -/
inductive Loc
  /-- `seg.Num`, `seg.Alpha`, `seg.AlphaNum` (segmenter.go:36-38) and `ToLower` (dict_util.go:34) -/
  | flags
  /-- `seg.Dict` (segmenter.go:25), nil or not -/
  | segDict
  /-- `dict.maxTokenLen` (dictionary.go:24) -/
  | maxLen
  /-- `dict.trie` (dictionary.go:23) with all it reaches -/
  | trie
  /-- the slice header `dict.Tokens` (dictionary.go:25) -/
  | tokHdr
  /-- `dict.Tokens[i]`: `text`, `freq` and `pos` -/
  | tok (i : Nat)
  /-- `dict.Tokens[i].distance` -/
  | dist (i : Nat)
  /-- the slice header `dict.Tokens[i].segments` -/
  | subs (i : Nat)
  /-- `dict.totalFreq` (dictionary.go:26) -/
  | totalFreq
  /-- the map `probEmit` (hmm/prob_emit.go:5) with the four maps in it, a global of package `hmm` -/
  | emit
  /-- `seg.StopWordMap` (segmenter.go:58): nil or the address of a map, whose entries are cell 0 of that address -/
  | stopVar
  /-- the map `StopWordMap` of package idf (hmm/idf/stop_words.go:8), with its entries -/
  | idfStop
  /-- cell `i` of the array at address `a` -/
  | cell (a i : Nat)
deriving DecidableEq, Repr

/-- What a location can hold. A pointer to a segment (`segPtr`) is nil or the address of a cell. -/
inductive Cell (F D : Type)
  | flags (c : SplitCfg)
  | bool (b : Bool)
  | nat (n : Nat)
  | trie (t : Trie)
  | token (t : MTok F)
  | dist (x : D)
  | subs (s : Slice)
  | freq (x : F)
  | emit (em : EmitModel F)
  | stops (p : Option Nat)
  | keys (l : List Bytes)
  | byte (b : UInt8)
  | word (s : Slice)
  | jumper (j : MJumper D)
  | ref (r : Option MRef)
  | seg (s : MSeg)
  | segPtr (p : Option (Nat × Nat))

/-- A program with result type `α`, seen as the accesses it makes to memory. `panic` is a run-time panic. -/
inductive Prog (F D α : Type)
  | ret (a : α)
  | panic
  | read (l : Loc) (k : Cell F D → Prog F D α)
  | write (l : Loc) (c : Cell F D) (k : Prog F D α)
  | alloc (cs : List (Cell F D)) (k : Nat → Prog F D α)

namespace Prog

variable {F D α β : Type}

/-- Sequencing. -/
def bind : Prog F D α → (α → Prog F D β) → Prog F D β
  | ret a, f => f a
  | panic, _ => panic
  | read l k, f => read l fun c => bind (k c) f
  | write l c k, f => write l c (bind k f)
  | alloc cs k, f => alloc cs fun a => bind (k a) f

instance : Monad (Prog F D) where
  pure := ret
  bind := bind

end Prog

/-- Contents of the memory; `none` is unused. -/
abbrev Mem (F D : Type) := Loc → Option (Cell F D)

/-- The memory with one location overwritten. -/
def Mem.put {F D : Type} (m : Mem F D) (l : Loc) (c : Cell F D) : Mem F D := fun l' => if l' = l then some c else m l'

/-- The memory with a new array. -/
def Mem.extend {F D : Type} (m : Mem F D) (a : Nat) (cs : List (Cell F D)) : Mem F D
  | .cell a' i => if a' = a then cs[i]? else m (.cell a' i)
  | l => m l

/-- No cell of the array at this address is in use. -/
def Mem.Unused {F D : Type} (m : Mem F D) (a : Nat) : Prop := ∀ i, m (.cell a i) = none

/-- A run-time state: the one shared memory, and what every goroutine has left to do. -/
structure Config (F D α : Type) where
  mem : Mem F D
  threads : List (Prog F D α)

/-- What a step did to memory. -/
inductive Access
  | rd (l : Loc)
  | wr (l : Loc)
  | al (a n : Nat)
deriving DecidableEq, Repr

/-- Goroutine `i` makes one access. The allocator may return any unused address. An access to unused memory ends
the goroutine with a panic. -/
inductive Step {F D α : Type} : Config F D α → Nat → Access → Config F D α → Prop
  | read {c i l k x} : c.threads[i]? = some (.read l k) → c.mem l = some x →
      Step c i (.rd l) ⟨c.mem, c.threads.set i (k x)⟩
  | readBad {c i l k} : c.threads[i]? = some (.read l k) → c.mem l = none →
      Step c i (.rd l) ⟨c.mem, c.threads.set i .panic⟩
  | write {c i l x k} : c.threads[i]? = some (.write l x k) → (c.mem l).isSome →
      Step c i (.wr l) ⟨c.mem.put l x, c.threads.set i k⟩
  | writeBad {c i l x k} : c.threads[i]? = some (.write l x k) → c.mem l = none →
      Step c i (.wr l) ⟨c.mem, c.threads.set i .panic⟩
  | alloc {c i cs k a} : c.threads[i]? = some (.alloc cs k) → c.mem.Unused a →
      Step c i (.al a cs.length) ⟨c.mem.extend a cs, c.threads.set i (k a)⟩

/-- An execution: any finite interleaving, with the accesses made, each with its goroutine. -/
inductive Exec {F D α : Type} : Config F D α → List (Nat × Access) → Config F D α → Prop
  | refl (c) : Exec c [] c
  | step {c tr c' i e c''} : Exec c tr c' → Step c' i e c'' → Exec c (tr ++ [(i, e)]) c''

end Gse
