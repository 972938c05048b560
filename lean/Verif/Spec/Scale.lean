import Verif.Spec.Exact
import Verif.Spec.Content

/-!
# Frequencies times a factor
-/

namespace Gse.Spec
open Gse

/-- A call with its frequency multiplied by `k`. -/
noncomputable def scaleOp (k : ℝ) : DictOp EReal → DictOp EReal
  | .add t f p => .add t (k * f) p
  | .addForce t f p => .addForce t (k * f) p
  | .remove t => .remove t
  | .reAdd t f p => .reAdd t (k * f) p
  | .recalc => .recalc

section
variable {F D : Type} [F64 F] [F32 D] [Narrow F D] [Unicode]

/-- The segments of a text without the frequencies: positions, and text, tag and distance of the token. -/
def shape (cfg : SplitCfg) (d : Dictionary F D) (s : Bytes) (mode : Bool) : Option (List (Nat × Nat × Option (List Bytes × Bytes × D))) :=
  (internalSegment cfg (some d) s mode).map fun segs =>
    segs.map fun g => (g.start, g.stop, (d.deref g.tok).map fun t => (t.text, t.pos, t.distance))

/-- The calls that segment answer the same, frequencies aside. -/
structure SameShapes (cfg : SplitCfg) (d d' : Dictionary F D) : Prop where
  segment : ∀ s mode, shape cfg d s mode = shape cfg d' s mode
  slice : ∀ fuel s mode, segSlice cfg d fuel s mode = segSlice cfg d' fuel s mode
  string : ∀ fuel s mode, segString cfg d fuel s mode = segString cfg d' fuel s mode
  pos : ∀ fuel s mode, segPos cfg d fuel s mode = segPos cfg d' fuel s mode

/-- Every character of the text is stored or begins a stored word. -/
def KnownChars (cfg : SplitCfg) (d : Dictionary F D) (s : Bytes) : Prop := ∀ r ∈ dagText cfg s, StartsStored d (encode [r])

end
end Gse.Spec
