import Verif.Model.Unicode

/-!
# Go package `strings`

Functions of the Go standard library called in /repo, written from the documentation; part of the trusted base.
-/

namespace Gse

/-- Loop behind `strings.Split`: `cur` is the part being read. -/
def splitStrAux (sep : Bytes) : Nat → Bytes → Bytes → List Bytes
  | 0, cur, _ => [cur]
  | n + 1, cur, s =>
    if sep.isPrefixOf s then cur :: splitStrAux sep n [] (s.drop sep.length)
    else match s with
      | [] => [cur]
      | b :: t => splitStrAux sep n (cur ++ [b]) t

/-- `strings.Split(s, sep)` for a non-empty separator: cuts at the leftmost non-overlapping occurrences. -/
def splitStr (s sep : Bytes) : List Bytes := splitStrAux sep (s.length + 1) [] s

/-- `strings.Contains(s, sub)`. -/
def containsStr : Bytes → Bytes → Bool
  | [], sub => sub.isEmpty
  | b :: t, sub => sub.isPrefixOf (b :: t) || containsStr t sub

/-- Removing leading space characters, one decoded character at a time (`strings.TrimLeftFunc(s, unicode.IsSpace)`). -/
def trimLeft [U : Unicode] : Nat → Bytes → Bytes
  | 0, s => s
  | _ + 1, [] => []
  | n + 1, b :: t =>
    if U.isSpace (decodeRune (b :: t)).1 then trimLeft n ((b :: t).drop (decodeRune (b :: t)).2) else b :: t

/-- `utf8.DecodeLastRuneInString`: the last rune and its width. The last at most four bytes are searched backwards for a
byte that is not a continuation byte; the rune decoded there must reach the end. -/
def decodeLastRune (s : Bytes) : Rune × Nat :=
  if s = [] then (runeError, 0)
  else
    match [1, 2, 3, 4].find? fun k => decide (k ≤ s.length) && !isCont ((s.getD (s.length - k) 0).toNat) with
    | none => (runeError, 1)
    | some k =>
      let (r, n) := decodeRune (s.drop (s.length - k))
      if n = k then (r, n) else (runeError, 1)

/-- Removing trailing space characters (`strings.TrimRightFunc(s, unicode.IsSpace)`). -/
def trimRight [U : Unicode] : Nat → Bytes → Bytes
  | 0, s => s
  | n + 1, s =>
    if s = [] then []
    else if U.isSpace (decodeLastRune s).1 then trimRight n (s.take (s.length - (decodeLastRune s).2)) else s

/-- `strings.TrimSpace(s)`. -/
def trimSpace [Unicode] (s : Bytes) : Bytes :=
  let t := trimLeft s.length s
  trimRight t.length t

/-- `strings.Trim(s, "\n")`. -/
def trimNewlines (s : Bytes) : Bytes :=
  ((s.dropWhile (· == 10)).reverse.dropWhile (· == 10)).reverse

/-- `strings.ToLower(s)`: an ASCII string byte by byte, otherwise rune by rune (`strings.Map`), a malformed byte becoming
U+FFFD. -/
def strLower [U : Unicode] (s : Bytes) : Bytes :=
  if s.all fun b => decide (b.toNat < 128) then s.map fun b => if 65 ≤ b.toNat && b.toNat ≤ 90 then b + 32 else b
  else encode ((runes s).map U.toLower)

/-- `bytes.LastIndex(s, sub)`: the largest start of an occurrence of `sub`, `none` for -1. -/
def lastIndex (sub : Bytes) : Bytes → Option Nat
  | [] => if sub = [] then some 0 else none
  | b :: t =>
    match lastIndex sub t with
    | some i => some (i + 1)
    | none => if sub.isPrefixOf (b :: t) then some 0 else none

end Gse
