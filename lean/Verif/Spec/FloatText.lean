import Verif.Spec.Nearest

/-!
# Texts that denote numbers

The grammar of floating-point literals of the Go language specification ("Floating-point literals"), as a relation between texts and
values; `strconv.ParseFloat` is documented to accept these, also without point and exponent, with an optional sign.
-/

namespace Gse.Spec

open Gse

/-- `c` is the digit with the value `v`; the digits from ten on are letters of either case. -/
def DigitVal (base : Nat) (c : UInt8) (v : Nat) : Prop :=
  v < base ∧ (v < 10 ∧ c.toNat = 48 + v ∨ 10 ≤ v ∧ (c.toNat = 97 + (v - 10) ∨ c.toNat = 65 + (v - 10)))

/-- `decimal_digits` and `hex_digits`: one digit or more, each two separated by at most one underscore. -/
inductive Digits (base : Nat) : Bytes → List Nat → Prop
  | one {c v} : DigitVal base c v → Digits base [c] [v]
  | more {c v s vs} : DigitVal base c v → Digits base s vs → Digits base (c :: s) (v :: vs)
  | sep {c v s vs} : DigitVal base c v → Digits base s vs → Digits base (c :: 95 :: s) (v :: vs)

/-- The number with these digits. -/
def whole (base : Nat) (vs : List Nat) : Nat := vs.foldl (fun n v => n * base + v) 0

/-- The number with these digits after the point. -/
def fraction (base : Nat) (vs : List Nat) : ℚ := vs.foldr (fun v x => (v + x) / base) 0

/-- Digits with at most one point (46). -/
inductive Mantissa (base : Nat) : Bytes → ℚ → Prop
  | whole {s i} : Digits base s i → Mantissa base s (whole base i)
  | point {s i} : Digits base s i → Mantissa base (s ++ [46]) (Spec.whole base i)
  | both {s i t f} : Digits base s i → Digits base t f → Mantissa base (s ++ 46 :: t) (Spec.whole base i + fraction base f)
  | frac {t f} : Digits base t f → Mantissa base (46 :: t) (fraction base f)

/-- An optional sign; `true` for minus. -/
inductive Sign : Bytes → Bool → Prop
  | none : Sign [] false
  | plus : Sign [43] false
  | minus : Sign [45] true

/-- `decimal_exponent` and `hex_exponent`: the letter, a sign and digits. -/
inductive Exponent (low up : UInt8) : Bytes → Int → Prop
  | mk {c sg neg ds vs} : c = low ∨ c = up → Sign sg neg → Digits 10 ds vs →
      Exponent low up (c :: (sg ++ ds)) (if neg then -(whole 10 vs : Int) else whole 10 vs)

/-- A literal with the mantissa `q` and the exponent `x`, to be raised from `b`: its value is `q * b ^ x`. A hexadecimal one must have an exponent, and an underscore
may stand before its first digit. -/
inductive Literal : Bytes → (b : Nat) → (q : ℚ) → (x : Int) → Prop
  | plain {m q} : Mantissa 10 m q → Literal m 10 q 0
  | dec {m q e x} : Mantissa 10 m q → Exponent 101 69 e x → Literal (m ++ e) 10 q x
  | hex {c m q e x} : c = 120 ∨ c = 88 → Mantissa 16 m q → Exponent 112 80 e x → Literal (48 :: c :: (m ++ e)) 2 q x
  | hexSep {c m q e x} : c = 120 ∨ c = 88 → Mantissa 16 m q → (∀ t, m ≠ 46 :: t) → Exponent 112 80 e x →
      Literal (48 :: c :: 95 :: (m ++ e)) 2 q x

/-- A text that denotes the number `q * b ^ x`, negated if `neg`. -/
def Numeral (s : Bytes) (neg : Bool) (b : Nat) (q : ℚ) (x : Int) : Prop := ∃ sg t, Sign sg neg ∧ Literal t b q x ∧ s = sg ++ t

/-- That number. -/
def value (neg : Bool) (b : Nat) (q : ℚ) (x : Int) : ℚ := if neg then -(q * (b : ℚ) ^ x) else q * (b : ℚ) ^ x

/-- The size from which on a number does not fit: the greatest `float64` and half a unit in its last place. -/
def tooLarge : ℚ := f64.greatest + 2 ^ (f64.emax - f64.p) / 2

/-- The text is the word `w` of small letters, in any case. -/
def IgnoringCase (s w : Bytes) : Prop := List.Forall₂ (fun c l => c = l ∨ c + 32 = l) s w

/-- The text denotes an infinity. -/
def InfWord (s : Bytes) (neg : Bool) : Prop := ∃ sg t, Sign sg neg ∧ (IgnoringCase t (str "inf") ∨ IgnoringCase t (str "infinity")) ∧ s = sg ++ t

/-- The text denotes NaN. -/
def NanWord (s : Bytes) : Prop := IgnoringCase s (str "nan")

/-- What `strconv.ParseFloat` is documented to return for a text: the number, and whether there is an error. -/
inductive Parsed : Bytes → Datum → Bool → Prop
  | nan {t} : NanWord t → Parsed t .nan false
  | inf {t neg} : InfWord t neg → Parsed t (.inf neg) false
  | over {t neg b q x} : Numeral t neg b q x → tooLarge ≤ |value neg b q x| → Parsed t (.inf neg) true
  | fits {t neg b q x r} : Numeral t neg b q x → |value neg b q x| < tooLarge → Nearest f64 (value neg b q x) r → Parsed t (.fin neg r) false
  | other {t} : ¬ NanWord t → (∀ neg, ¬ InfWord t neg) → (∀ neg b q x, ¬ Numeral t neg b q x) → Parsed t (.fin false 0) true

/-- The frequency of a word for which a row of a dictionary has the text `t`, when the least frequency is `m`: `none` if the row is left out.
`short`: the word has fewer than two characters. -/
inductive RowNumber (m : ℚ) (short : Prop) : Bytes → Option Datum → Prop
  | nan {t} : NanWord t → ¬ short → RowNumber m short t (some .nan)
  | nanShort {t} : NanWord t → short → RowNumber m short t (some (.fin false 2))
  | inf {t} : InfWord t false → ¬ short → RowNumber m short t (some (.inf false))
  | infShort {t} : InfWord t false → short → RowNumber m short t (some (.fin false 2))
  | negInf {t} : InfWord t true → RowNumber m short t none
  /-- A number that does not fit is taken as an infinity, whatever its sign and the least frequency. -/
  | over {t neg b q x} : Numeral t neg b q x → tooLarge ≤ |value neg b q x| → RowNumber m short t (some (.inf neg))
  | low {t neg b q x r} : Numeral t neg b q x → |value neg b q x| < tooLarge → Nearest f64 (value neg b q x) r → r < m → RowNumber m short t none
  | two {t neg b q x r} : Numeral t neg b q x → |value neg b q x| < tooLarge → Nearest f64 (value neg b q x) r → m ≤ r → short →
      RowNumber m short t (some (.fin false 2))
  | zero {t neg b q x} : Numeral t neg b q x → |value neg b q x| < tooLarge → Nearest f64 (value neg b q x) 0 → m ≤ 0 → ¬ short → RowNumber m short t none
  | number {t neg b q x r} : Numeral t neg b q x → |value neg b q x| < tooLarge → Nearest f64 (value neg b q x) r → m ≤ r → ¬ short → r ≠ 0 →
      RowNumber m short t (some (.fin neg r))
  | other {t} : ¬ NanWord t → (∀ neg, ¬ InfWord t neg) → (∀ neg b q x, ¬ Numeral t neg b q x) → RowNumber m short t none

end Gse.Spec
