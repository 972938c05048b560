import Verif.Spec.Load
import Verif.Spec.Dag
import Verif.Proofs.GoStr
import Verif.Model.Trim

/-!
# What stop words, trims and filters should be

The definitions speak about calls, texts, bytes and characters only.
-/

namespace Gse.Spec

open Gse

variable [U : Unicode]

/-- `w` is a non-empty line of `d`, without the space around it. -/
def StopText (d w : Bytes) : Prop := w ≠ [] ∧ ∃ ls, SplitAt [10] d ls ∧ ∃ l ∈ ls, w = trimSpace l

/-- `w` is a non-empty line of the file content `c`, without one trailing carriage return, and no line up to it has 65536 bytes
or more. -/
def StopFile (c w : Bytes) : Prop :=
  w ≠ [] ∧ ∃ ls, SplitAt [10] c ls ∧ ∃ a l b, ls = a ++ l :: b ∧ (∀ x ∈ a ++ [l], x.length < 65536) ∧
    ((l = w ++ [13]) ∨ (l = w ∧ ¬ [13] <:+ w))

/-- `w` is read from the named files before one cannot be opened. -/
def StopFiles (fs : Bytes → Option Bytes) (names : List Bytes) (w : Bytes) : Prop :=
  ∃ a f b c, names = a ++ f :: b ∧ (∀ x ∈ a, ∃ c, fs x = some c) ∧ fs f = some c ∧ StopFile c w

/-- The file names meant by the argument of `LoadStop`: a list separated by `", "`, where `zh` in front is a built-in list;
without an argument the built-in default. -/
def StopNames (join : Bytes → Bytes) (arg : Option Bytes) (names : List Bytes) : Prop :=
  ∃ n ns, SplitAt [44, 32] (arg.getD (join (str "dict/zh/stop_word.txt"))) (n :: ns) ∧
    ((n = str "zh" ∧ names = join (str "dict/zh/stop_tokens.txt") :: ns) ∨ (n ≠ str "zh" ∧ names = n :: ns))

/-- The call makes `w` a stop word. -/
def StopAdds (E : StopEnv) : StopOp → Bytes → Prop
  | .loadArr ws, w => w ∈ ws
  | .addArr ws, w => w ∈ ws
  | .add v, w => w = v
  | .remove _, _ => False
  | .empty, _ => False
  | .loadStr d, w => StopText d w
  | .loadEmbed none, w => StopText E.stopDict w
  | .loadEmbed (some d), w =>
    (¬ [44, 32] <:+: d ∧ StopText d w) ∨
    ([44, 32] <:+: d ∧ ¬ str "zh," <:+: d ∧ ∃ ps, SplitAt [44, 32] d ps ∧ ∃ p ∈ ps, StopText p w) ∨
    ([44, 32] <:+: d ∧ str "zh," <:+: d ∧ (StopText E.stopDict w ∨ ∃ p0 ps, SplitAt [44, 32] d (p0 :: ps) ∧ ∃ p ∈ ps, StopText p w))
  | .load fs arg, w => ∃ names, StopNames E.join arg names ∧ StopFiles fs names w

/-- The call takes `w` out of the stop words. -/
def StopRemoves : StopOp → Bytes → Prop
  | .remove v, w => v = w
  | .empty, _ => True
  | _, _ => False

/-- After the calls there is a stop list: one was created by a call other than `AddStop` and `RemoveStop`, and not given up by
`EmptyStop` later. -/
def HasStopList (ops : List StopOp) : Prop :=
  ∃ a c b, ops = a ++ c :: b ∧ (∀ w, c ≠ .add w) ∧ (∀ w, c ≠ .remove w) ∧ ∀ o ∈ c :: b, o ≠ .empty

/-- A character that is neither space nor punctuation. -/
def wordRune (r : Rune) : Bool := !U.isSpace r && !U.isPunct r

/-- A character that is neither symbol, space nor punctuation. -/
def plainRune (r : Rune) : Bool := !U.isSymbol r && !U.isSpace r && !U.isPunct r

/-- An HTML tag as removed by `FilterHtml`: from a `<` to the next `>`, the byte before which is a letter, digit, underscore,
`|`, `=` or `"`. -/
def IsTag (w : Bytes) : Prop :=
  ∃ x c, w = 60 :: x ++ [c, 62] ∧ (62 : UInt8) ∉ x ∧
    (c ∈ str "0123456789" ∨ c ∈ str "ABCDEFGHIJKLMNOPQRSTUVWXYZ" ∨ c ∈ str "abcdefghijklmnopqrstuvwxyz" ∨ c ∈ str "_|=\"")

/-- `out` is `text` without its tags, read from the left. -/
inductive WithoutTags : Bytes → Bytes → Prop
  | nil : WithoutTags [] []
  | tag {w rest out : Bytes} : IsTag w → WithoutTags rest out → WithoutTags (w ++ rest) out
  | keep {b : UInt8} {rest out : Bytes} : (∀ w, IsTag w → ¬ w <+: b :: rest) → WithoutTags rest out →
      WithoutTags (b :: rest) (b :: out)

/-- No tag anywhere in the text. -/
def NoTag (s : Bytes) : Prop := ∀ w, IsTag w → ¬ w <:+: s

/-- A decimal digit. -/
def IsDigit (b : UInt8) : Prop := b ∈ str "0123456789"

/-- `out` are the runs of digits and of other bytes of `text`. -/
structure NumRuns (text : Bytes) (out : List Bytes) : Prop where
  flat : out.flatten = text
  ne : ∀ w ∈ out, w ≠ []
  uniform : ∀ w ∈ out, (∀ b ∈ w, IsDigit b) ∨ (∀ b ∈ w, ¬ IsDigit b)
  alternate : ∀ a x y b, out = a ++ x :: y :: b → ((∀ c ∈ x, IsDigit c) ↔ ¬ ∀ c ∈ y, IsDigit c)

/-- The characters that `Cut` cuts: those of the normalised text without the flag, otherwise those of the lower-cased text. -/
def cutText [U : Unicode] (cfg : SplitCfg) (s : Bytes) : Option Bool → List Rune
  | none => runes (normText cfg s)
  | some _ => dagText cfg s

end Gse.Spec
