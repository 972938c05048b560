import Verif.Model.Unicode

/-!
# UTF-8 and blanks, from RFC 3629 and the Go documentation

Nothing here uses the decoder or the encoder of the model.
-/

namespace Gse.Spec

/-- RFC 3629, section 3: `bs` is the encoding of the character number `r`. The bits of `r` fill the patterns 0xxxxxxx,
110xxxxx 10xxxxxx, 1110xxxx 10xxxxxx 10xxxxxx and 11110xxx 10xxxxxx 10xxxxxx 10xxxxxx; the shortest pattern is used; surrogates and numbers
above 10FFFF have no encoding. -/
inductive Utf8 : Rune → Bytes → Prop
  | one (a : UInt8) : a.toNat < 0x80 → Utf8 a.toNat [a]
  | two (a b : UInt8) (x y : Nat) : x < 32 → y < 64 → a.toNat = 0xC0 + x → b.toNat = 0x80 + y →
      0x80 ≤ x * 64 + y → Utf8 (x * 64 + y) [a, b]
  | three (a b c : UInt8) (x y z : Nat) : x < 16 → y < 64 → z < 64 → a.toNat = 0xE0 + x → b.toNat = 0x80 + y → c.toNat = 0x80 + z →
      0x800 ≤ x * 4096 + y * 64 + z → ¬ (0xD800 ≤ x * 4096 + y * 64 + z ∧ x * 4096 + y * 64 + z ≤ 0xDFFF) →
      Utf8 (x * 4096 + y * 64 + z) [a, b, c]
  | four (a b c d : UInt8) (x y z w : Nat) : x < 8 → y < 64 → z < 64 → w < 64 →
      a.toNat = 0xF0 + x → b.toNat = 0x80 + y → c.toNat = 0x80 + z → d.toNat = 0x80 + w →
      0x10000 ≤ x * 262144 + y * 4096 + z * 64 + w → x * 262144 + y * 4096 + z * 64 + w ≤ 0x10FFFF →
      Utf8 (x * 262144 + y * 4096 + z * 64 + w) [a, b, c, d]

/-- No encoding stands at the front. -/
def NoCharAt (s : Bytes) : Prop := ∀ r bs, Utf8 r bs → ¬ bs <+: s

/-- The characters of a string as Go ranges over it: a byte that does not start an encoding counts as U+FFFD. -/
inductive CharsOf : Bytes → List Rune → Prop
  | nil : CharsOf [] []
  | char {r : Rune} {bs t : Bytes} {rs : List Rune} : Utf8 r bs → CharsOf t rs → CharsOf (bs ++ t) (r :: rs)
  | bad {b : UInt8} {t : Bytes} {rs : List Rune} : NoCharAt (b :: t) → CharsOf t rs → CharsOf (b :: t) (0xFFFD :: rs)

/-- A sequence of encoded blanks. -/
inductive Blanks [U : Unicode] : Bytes → Prop
  | nil : Blanks []
  | cons {r : Rune} {bs t : Bytes} : Utf8 r bs → U.isSpace r = true → Blanks t → Blanks (bs ++ t)

/-- `t` is `s` without the blanks at both ends. -/
def TrimmedOf [U : Unicode] (s t : Bytes) : Prop :=
  ∃ a b, s = a ++ t ++ b ∧ Blanks a ∧ Blanks b ∧ ∀ r bs, Utf8 r bs → U.isSpace r = true → ¬ bs <+: t ∧ ¬ bs <:+ t

end Gse.Spec
