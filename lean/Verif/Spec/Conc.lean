import Verif.Model.SegMem

/-!
# Specification of concurrent calls

What memory holds, in terms of the values that sequential code computes with.
-/

namespace Gse

variable {F D : Type}

/-- The slice `s` holds the bytes `bs`. -/
def HoldsBytes (m : Mem F D) (s : Slice) (bs : Bytes) : Prop :=
  bs.length = s.len ∧ ∀ k b, bs[k]? = some b → m (.cell s.arr (s.off + k)) = some (.byte b)

/-- The pointer stands for this token: the same table entry, or a one-word token of the same bytes. -/
inductive RefIs (m : Mem F D) : MRef → TokRef → Prop
  | idx (i : Nat) : RefIs m (.idx i) (.idx i)
  | pseudo (s : Slice) (w : Bytes) : HoldsBytes m s w → RefIs m (.pseudo s) (.pseudo w)

/-- The slice `r` holds these segments. -/
def HoldsSegs (m : Mem F D) (r : Slice) (segs : List Seg) : Prop :=
  r.len = segs.length ∧ ∀ k s, segs[k]? = some s →
    ∃ p, m (.cell r.arr (r.off + k)) = some (.seg ⟨s.start, s.stop, some p⟩) ∧ RefIs m p s.tok

/-- Memory holds a segmenter with these switches and this dictionary (`none` for nil), distances and sub-segments apart. -/
structure HoldsTable (m : Mem F D) (cfg : SplitCfg) (dict : Option (Dictionary F D)) : Prop where
  flags : m .flags = some (.flags cfg)
  segDict : m .segDict = some (.bool dict.isNone)
  maxLen : ∀ d, dict = some d → m .maxLen = some (.nat d.maxTokenLen)
  trie : ∀ d, dict = some d → m .trie = some (.trie d.trie)
  tokHdr : ∀ d, dict = some d → m .tokHdr = some (.nat d.tokens.length)
  tok : ∀ d, dict = some d → ∀ i t, d.tokens[i]? = some t → m (.tok i) = some (.token ⟨t.text, t.freq, t.pos⟩)

/-- And the distances. -/
structure HoldsSegmenter (m : Mem F D) (cfg : SplitCfg) (dict : Option (Dictionary F D)) : Prop extends HoldsTable m cfg dict where
  dist : ∀ d, dict = some d → ∀ i t, d.tokens[i]? = some t → m (.dist i) = some (.dist t.distance)

/-- Memory holds a segmenter with this dictionary as far as `Cut` needs it. -/
structure HoldsDict (m : Mem F D) (cfg : SplitCfg) (d : Dictionary F D) : Prop where
  segmenter : HoldsTable m cfg (some d)
  totalFreq : m .totalFreq = some (.freq d.totalFreq)

/-- The array of `Dict.Tokens` has room at index `n`. -/
structure HasRoom (m : Mem F D) (n : Nat) : Prop where
  tok : (m (.tok n)).isSome
  dist : (m (.dist n)).isSome
  subs : (m (.subs n)).isSome

/-- Two accesses conflict: the same location, and one of them writes. Allocation touches memory that nobody has used. -/
def Conflict : Access → Access → Prop
  | .wr l, .wr l' => l = l'
  | .wr l, .rd l' => l = l'
  | .rd l, .wr l' => l = l'
  | _, _ => False

/-- Without synchronisation, a data race is a pair of conflicting accesses by different goroutines. -/
def RaceFree (tr : List (Nat × Access)) : Prop :=
  ∀ i e j f, (i, e) ∈ tr → (j, f) ∈ tr → i ≠ j → ¬ Conflict e f

/-- A stand-in for the hidden Markov model that refuses texts with a Han character. -/
def refuseHan [U : Unicode] (t : Bytes) : Option (List Bytes) := if (runes t).any U.isHan then none else some []

end Gse
