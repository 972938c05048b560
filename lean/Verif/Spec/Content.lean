import Verif.Spec.Dict
import Verif.Model.Dag

/-!
# What can be seen of a dictionary
-/

namespace Gse.Spec
open Gse

variable {F D : Type} [F64 F] [F32 D] [Narrow F D] [Unicode]

/-- The frequencies of all words ever stored, added up in the order in which they were stored. -/
def AbsDict.spent (m : AbsDict F) : F := (m.stored.map (·.2)).foldl F64.add (F64.ofNat 0)

/-- The segments of a text as a caller sees them: positions, and text, frequency, tag and distance of the token. -/
def seen (cfg : SplitCfg) (d : Dictionary F D) (s : Bytes) (mode : Bool) : Option (List (Nat × Nat × Option (List Bytes × F × Bytes × D))) :=
  (internalSegment cfg (some d) s mode).map fun segs =>
    segs.map fun g => (g.start, g.stop, (d.deref g.tok).map fun t => (t.text, t.freq, t.pos, t.distance))

/-- The calls that look words up, or search a route, answer the same. -/
structure SameCuts (cfg : SplitCfg) (d d' : Dictionary F D) : Prop where
  find : ∀ w, d.find w = d'.find w
  cut : ∀ fuel hmm s b, cut cfg d fuel hmm s (some b) = cut cfg d' fuel hmm s (some b)
  cutAll : ∀ s, cutAll cfg d s = cutAll cfg d' s
  cutSearch : ∀ fuel hmm s b, cutSearch cfg d fuel hmm s (some b) = cutSearch cfg d' fuel hmm s (some b)
  suggest : ∀ ws, suggestFreq cfg d ws = suggestFreq cfg d' ws
  analyze : ∀ text t1 by', analyze cfg d text t1 by' = analyze cfg d' text t1 by'

/-- The calls that segment answer the same for the text `s`. -/
structure SameFor (cfg : SplitCfg) (d d' : Dictionary F D) (s : Bytes) : Prop where
  segment : ∀ mode, seen cfg d s mode = seen cfg d' s mode
  slice : ∀ fuel mode, segSlice cfg d fuel s mode = segSlice cfg d' fuel s mode
  string : ∀ fuel mode, segString cfg d fuel s mode = segString cfg d' fuel s mode
  pos : ∀ fuel mode, segPos cfg d fuel s mode = segPos cfg d' fuel s mode

/-- The calls that segment answer the same. -/
structure SameSegments (cfg : SplitCfg) (d d' : Dictionary F D) : Prop where
  segment : ∀ s mode, seen cfg d s mode = seen cfg d' s mode
  slice : ∀ fuel s mode, segSlice cfg d fuel s mode = segSlice cfg d' fuel s mode
  string : ∀ fuel s mode, segString cfg d fuel s mode = segString cfg d' fuel s mode
  pos : ∀ fuel s mode, segPos cfg d fuel s mode = segPos cfg d' fuel s mode

end Gse.Spec
