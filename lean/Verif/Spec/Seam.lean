import Verif.Spec.Dag

/-!
# Cutting a text in two

When may a text be cut into two parts that are segmented one after the other? No word of the dictionary may lie across the seam, and the
seam may not be inside a run of letters and digits, nor inside a character.
-/

namespace Gse.Spec
open Gse

variable {F D : Type} [F64 F] [F32 D]

/-- The text `b` does not begin inside a character. -/
def BeginsChar (b : Bytes) : Prop := ∀ c, b.head? = some c → ¬ (0x80 ≤ c.toNat ∧ c.toNat ≤ 0xBF)

/-- The seam between `a` and `b` is not inside a character nor inside a run of letters and digits. -/
def IsSeam [Unicode] (cfg : SplitCfg) (a b : Bytes) : Prop :=
  BeginsChar b ∧ (cfg.alphaNum = false → ∀ u v, (chars a).getLast? = some u → (chars b).head? = some v → ¬ (wordChar cfg u = true ∧ wordChar cfg v = true))

/-- No stored token lies across the seam between the words `l` and `r`. -/
def NoSpan (d : Dictionary F D) (l r : List Bytes) : Prop :=
  ∀ w t, storedTok d w = some t → ∀ x y, t.text = x ++ y → x ≠ [] → y ≠ [] → ¬ (x <:+ l ∧ y <+: r)

/-- No stored word of positive frequency lies across the seam between the characters `l` and `r`. -/
def NoSpanRunes (d : Dictionary F D) (l r : List Rune) : Prop :=
  ∀ x y, x ≠ [] → y ≠ [] → x <:+ l → y <+: r → posWord d (x ++ y) = false

/-- The seam is not between two ASCII letters or digits. -/
def NoEngSeam (l r : List Rune) : Prop := ∀ x y, l.getLast? = some x → r.head? = some y → ¬ (asciiAlnum x = true ∧ asciiAlnum y = true)

/-- A segment moved to the right. -/
def shiftSeg (n : Nat) (s : Seg) : Seg := { s with start := s.start + n, stop := s.stop + n }

end Gse.Spec

namespace Gse

/-- Distances without rounding: on the finite ones addition is that of numbers. -/
class F32Shift (D : Type) [F32 D] where
  fin : D → Prop
  fin_zero : fin F32.zero
  fin_c32 : fin F32.c32
  fin_add : ∀ {a b : D}, fin a → fin b → fin (F32.add a b)
  add_zero : ∀ {a : D}, fin a → F32.add a F32.zero = a
  zero_add : ∀ {a : D}, fin a → F32.add F32.zero a = a
  add_assoc : ∀ {a b c : D}, fin a → fin b → fin c → F32.add (F32.add a b) c = F32.add a (F32.add b c)
  gt_add : ∀ {a b c : D}, fin a → fin b → fin c → F32.gt (F32.add c a) (F32.add c b) = F32.gt a b

/-- Scores without rounding. -/
class F64Shift (F : Type) [F64 F] where
  fin : F → Prop
  fin_zero : fin (F64.ofNat 0)
  fin_add : ∀ {a b : F}, fin a → fin b → fin (F64.add a b)
  zero_add : ∀ {a : F}, fin a → F64.add (F64.ofNat 0) a = a
  add_zero : ∀ {a : F}, fin a → F64.add a (F64.ofNat 0) = a
  add_assoc : ∀ {a b c : F}, fin a → fin b → fin c → F64.add (F64.add a b) c = F64.add a (F64.add b c)
  lt_add : ∀ {a b c : F}, fin a → fin b → fin c → F64.lt (F64.add a c) (F64.add b c) = F64.lt a b

namespace Spec
variable {F D : Type} [F64 F] [F32 D]

/-- The distances of the stored tokens occurring in the words are finite. -/
def FinDist [F32Shift D] (d : Dictionary F D) (ws : List Bytes) : Prop :=
  ∀ w t, storedTok d w = some t → t.text <:+: ws → F32Shift.fin t.distance

/-- The scores of the pieces of every route through the text are finite. -/
def FinScoresBy [F64Shift F] (T : F) (d : Dictionary F D) (text : List Rune) : Prop :=
  ∀ ps, IsRoute d text ps → ∀ t ∈ ps, F64Shift.fin (pieceScoreBy T d t)

/-- The same for log-probabilities. -/
abbrev FinScores [F64Shift F] (d : Dictionary F D) (text : List Rune) : Prop := FinScoresBy (F64.log d.totalFreq) d text

end Spec
end Gse
