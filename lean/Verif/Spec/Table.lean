import Verif.Model.Table

/-! What reading a kept result is compared with. -/

namespace Gse.Spec

variable {F D : Type} [F64 F] [F32 D] [Narrow F D]

/-- Following the pointers of `segs` through the table with its addresses, `ToSlice`, `ToPos` and `ToString` give what they give for
the dictionary `d`, in which a pointer is an index. -/
structure ReadAs [Unicode] (tb : Table F D) (d : Dictionary F D) (segs : List PSeg) (fuel : Nat) (mode : Bool) : Prop where
  slice : tb.toSlice fuel segs mode = toSlice d fuel (segs.map PSeg.index) mode
  pos : tb.toPos fuel segs mode = toPos d fuel (segs.map PSeg.index) mode
  string : tb.toString' fuel segs mode = toString' d fuel (segs.map PSeg.index) mode

end Gse.Spec
