/-!
# Bytes, runes and UTF-8

Go strings and `[]byte` values are lists of bytes, runes are natural numbers.
The functions here model the Go standard library (`unicode/utf8`, the conversions `[]rune(s)`,
`string(r)`, `string(runes)` and `for _, r := range s`), which is not part of /repo; they are
part of the trusted base and are written from the Go documentation:
a malformed sequence decodes to U+FFFD with width 1.
-/

namespace Gse

abbrev Bytes := List UInt8
/-- Go `rune`. -/
notation "Rune" => Nat

/-- `utf8.RuneError` (Go standard library). -/
def runeError : Rune := 0xFFFD

/-- Go slice expression `s[a:b]` on bytes, words or runes (for `a ≤ b ≤ len(s)`, the range in which
Go does not panic). Used wherever /repo slices, e.g. segmenter.go:207-240, dag.go:139-156. -/
def slice {α : Type} (s : List α) (a b : Nat) : List α := (s.drop a).take (b - a)

/-- Lower bound of the second byte after lead byte `c0` (`utf8` accept ranges). -/
def sndLo (c0 : Nat) : Nat := if c0 = 0xE0 then 0xA0 else if c0 = 0xF0 then 0x90 else 0x80

/-- Upper bound of the second byte after lead byte `c0` (`utf8` accept ranges). -/
def sndHi (c0 : Nat) : Nat := if c0 = 0xED then 0x9F else if c0 = 0xF4 then 0x8F else 0xBF

/-- Continuation byte test of `unicode/utf8` (80..BF). -/
def isCont (c : Nat) : Bool := decide (0x80 ≤ c) && decide (c ≤ 0xBF)

/-- `utf8.DecodeRune` (Go standard library; called at segmenter.go:214): the first rune and its width. -/
def decodeRune : Bytes → Rune × Nat
  | [] => (runeError, 0)
  | b0 :: t =>
    if b0.toNat < 0x80 then (b0.toNat, 1)
    else if b0.toNat < 0xC2 || 0xF4 < b0.toNat then (runeError, 1)
    else match t with
      | [] => (runeError, 1)
      | b1 :: t1 =>
        if b1.toNat < sndLo b0.toNat || sndHi b0.toNat < b1.toNat then (runeError, 1)
        else if b0.toNat < 0xE0 then ((b0.toNat % 32) * 64 + b1.toNat % 64, 2)
        else match t1 with
          | [] => (runeError, 1)
          | b2 :: t2 =>
            if !isCont b2.toNat then (runeError, 1)
            else if b0.toNat < 0xF0 then
              ((b0.toNat % 16) * 4096 + (b1.toNat % 64) * 64 + b2.toNat % 64, 3)
            else match t2 with
              | [] => (runeError, 1)
              | b3 :: _ =>
                if !isCont b3.toNat then (runeError, 1)
                else ((b0.toNat % 8) * 262144 + (b1.toNat % 64) * 4096
                        + (b2.toNat % 64) * 64 + b3.toNat % 64, 4)

/-- Fuelled loop behind `[]rune(s)` and `for _, r := range s`; fuel `s.length` always suffices
(`runes_cons`, Proofs/Utf8.lean). -/
def runesAux : Nat → Bytes → List Rune
  | 0, _ => []
  | _ + 1, [] => []
  | n + 1, b :: t =>
    (decodeRune (b :: t)).1 :: runesAux n ((b :: t).drop (decodeRune (b :: t)).2)

/-- `[]rune(s)`, also the sequence of values of `for _, r := range s` (Go language spec). -/
def runes (s : Bytes) : List Rune := runesAux s.length s

/-- A rune that can be encoded: not a surrogate, at most U+10FFFF (`utf8.ValidRune`). -/
def validRune (r : Rune) : Bool := decide (r < 0xD800) || (decide (0xDFFF < r) && decide (r ≤ 0x10FFFF))

/-- `string(r)` for a rune (Go language spec); invalid runes become U+FFFD. -/
def encodeRune (r : Rune) : Bytes :=
  if r < 0x80 then [UInt8.ofNat r]
  else if r < 0x800 then [UInt8.ofNat (0xC0 + r / 64), UInt8.ofNat (0x80 + r % 64)]
  else if !validRune r then [0xEF, 0xBF, 0xBD]
  else if r < 0x10000 then
    [UInt8.ofNat (0xE0 + r / 4096), UInt8.ofNat (0x80 + r / 64 % 64), UInt8.ofNat (0x80 + r % 64)]
  else
    [UInt8.ofNat (0xF0 + r / 262144), UInt8.ofNat (0x80 + r / 4096 % 64),
     UInt8.ofNat (0x80 + r / 64 % 64), UInt8.ofNat (0x80 + r % 64)]

/-- `string(runes)` for a rune slice (Go language spec). -/
def encode (rs : List Rune) : Bytes := rs.flatMap encodeRune

/-- ASCII string literal as bytes (only used for constants such as `"x"` and in examples). -/
def str (s : String) : Bytes := s.toList.map fun c => UInt8.ofNat c.toNat

end Gse
