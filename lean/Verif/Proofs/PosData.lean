import Verif.Model.PosData

/-!
# What is checked of the tables of hmm/pos

The tables are finite data; the kernel evaluates the checks on all of them.
-/

namespace Gse

/-- The states that have a next state. -/
def liveStates : List Nat := [
  100, 101, 103, 104, 106, 107, 108, 110, 112, 114, 115, 116, 117, 118, 120, 121, 122, 124, 125, 127, 128, 129, 130,
  131, 132, 133, 134, 135, 136, 138, 140, 141, 142, 143, 145, 152, 153, 155, 156, 157, 160, 162, 200, 201, 203, 204,
  206, 207, 208, 210, 212, 214, 215, 216, 217, 218, 220, 221, 222, 224, 225, 227, 228, 229, 230, 231, 232, 233, 234,
  235, 236, 238, 240, 241, 242, 243, 245, 252, 253, 255, 256, 257, 260, 262, 300, 301, 304, 306, 307, 310, 312, 315,
  316, 317, 318, 320, 321, 322, 324, 325, 327, 328, 329, 330, 331, 332, 333, 334, 335, 338, 340, 342, 343, 345, 352,
  355, 356, 360, 362, 400, 401, 402, 403, 404, 405, 406, 407, 409, 410, 412, 413, 414, 417, 419, 422, 423, 425, 426,
  427, 431, 432, 433, 434, 435, 437, 438, 439, 443, 444, 445, 446, 447, 448, 449, 450, 451, 452, 454, 456, 459, 460,
  461, 463]

/-- The positions of two states may follow each other. -/
def legalStates (x y : Nat) : Bool :=
  match x / 100, y / 100 with
  | 1, 2 => true
  | 1, 3 => true
  | 3, 2 => true
  | 3, 3 => true
  | 2, 1 => true
  | 2, 4 => true
  | 4, 1 => true
  | 4, 4 => true
  | _, _ => false

/-- The state has a position and a tag. -/
def stateOK (y : Nat) : Bool := decide (100 ≤ y) && decide (y < 500) && decide (y % 100 < 64)

theorem live_check : (liveStates.all fun y => !((PosData.trans.lookup y).getD []).isEmpty) = true := by decide +kernel

theorem trans_check : (PosData.trans.all fun row => stateOK row.1 && row.2.all fun p =>
    legalStates row.1 p.1 && stateOK p.1 && liveStates.contains p.1 && decide (p.2.1 ≤ 2 ^ 334 * 10 ^ p.2.2)) = true := by decide +kernel

theorem start_check : (PosData.start.all fun p => decide (p.2.1 ≤ 2 ^ 334 * 10 ^ p.2.2)) = true := by decide +kernel

theorem chars_check : (PosData.chars.all fun e => (e.2.any fun y => liveStates.contains y) && e.2.all stateOK) = true := by decide +kernel

end Gse
