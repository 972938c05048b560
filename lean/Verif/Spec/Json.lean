import Verif.Model.Server

/-!
# A reader of JSON (RFC 8259)

Compact JSON with whole numbers, without `true`, `false` and surrogate pairs; none of these occur in the answers of the server.
-/

namespace Gse.Spec

open Gse

/-- The value of a hexadecimal digit. -/
def hexVal (b : UInt8) : Option Nat :=
  if 48 ≤ b.toNat ∧ b.toNat ≤ 57 then some (b.toNat - 48)
  else if 97 ≤ b.toNat ∧ b.toNat ≤ 102 then some (b.toNat - 87)
  else if 65 ≤ b.toNat ∧ b.toNat ≤ 70 then some (b.toNat - 55)
  else none

/-- Four hexadecimal digits. -/
def hex4 : Bytes → Option (Nat × Bytes)
  | a :: b :: c :: d :: t =>
    match hexVal a, hexVal b, hexVal c, hexVal d with
    | some a, some b, some c, some d => some (((a * 16 + b) * 16 + c) * 16 + d, t)
    | _, _, _, _ => none
  | _ => none

/-- An escape sequence after the backslash. -/
def readEscape : Bytes → Option (Bytes × Bytes)
  | 34 :: t => some ([34], t)
  | 92 :: t => some ([92], t)
  | 47 :: t => some ([47], t)
  | 98 :: t => some ([8], t)
  | 102 :: t => some ([12], t)
  | 110 :: t => some ([10], t)
  | 114 :: t => some ([13], t)
  | 116 :: t => some ([9], t)
  | 117 :: t => (hex4 t).bind fun r => if validRune r.1 then some (encodeRune r.1, r.2) else none
  | _ => none

/-- The characters of a string up to the closing quote. -/
def readChars : Nat → Bytes → Option (Bytes × Bytes)
  | 0, _ => none
  | _ + 1, [] => none
  | n + 1, b :: t =>
    if b = 34 then some ([], t)
    else if b = 92 then (readEscape t).bind fun r => (readChars n r.2).map fun r' => (r.1 ++ r'.1, r'.2)
    else if b.toNat < 32 then none
    else (readChars n t).map fun r => (b :: r.1, r.2)

/-- A string. -/
def readString : Bytes → Option (Bytes × Bytes)
  | 34 :: t => readChars t.length t
  | _ => none

/-- A digit. -/
def jsonDigit (b : UInt8) : Bool := decide (48 ≤ b.toNat) && decide (b.toNat ≤ 57)

/-- A member: a name, a colon and what `value` reads. -/
def readMember (value : Bytes → Option (JVal × Bytes)) (s : Bytes) : Option ((Bytes × JVal) × Bytes) :=
  match readString s with
  | some (k, 58 :: t) => (value t).map fun r => ((k, r.1), r.2)
  | _ => none

mutual
/-- A value, and what follows it. -/
def readVal : Nat → Bytes → Option (JVal × Bytes)
  | 0, _ => none
  | _ + 1, [] => none
  | n + 1, b :: t =>
    if b = 110 then if t.take 3 = str "ull" then some (.null, t.drop 3) else none
    else if b = 34 then (readString (b :: t)).map fun r => (.text r.1, r.2)
    else if b = 91 then
      if t.head? = some 93 then some (.arr .nil, t.tail)
      else (readVal n t).bind fun r => (readElems n r.2).map fun r' => (.arr (.cons r.1 r'.1), r'.2)
    else if b = 123 then
      if t.head? = some 125 then some (.obj .nil, t.tail)
      else (readMember (readVal n) t).bind fun r => (readMembers n r.2).map fun r' => (.obj (.cons r.1.1 r.1.2 r'.1), r'.2)
    else if jsonDigit b then some (.num ((b :: t).takeWhile jsonDigit), (b :: t).dropWhile jsonDigit)
    else none
/-- The elements of an array after the first. -/
def readElems : Nat → Bytes → Option (JArr × Bytes)
  | 0, _ => none
  | _ + 1, [] => none
  | n + 1, b :: t =>
    if b = 93 then some (.nil, t)
    else if b = 44 then (readVal n t).bind fun r => (readElems n r.2).map fun r' => (.cons r.1 r'.1, r'.2)
    else none
/-- The members of an object after the first. -/
def readMembers : Nat → Bytes → Option (JObj × Bytes)
  | 0, _ => none
  | _ + 1, [] => none
  | n + 1, b :: t =>
    if b = 125 then some (.nil, t)
    else if b = 44 then (readMember (readVal n) t).bind fun r => (readMembers n r.2).map fun r' => (.cons r.1.1 r.1.2 r'.1, r'.2)
    else none
end

/-- A JSON text: one value and nothing after it. -/
def readJson (s : Bytes) : Option JVal :=
  match readVal s.length s with
  | some (v, []) => some v
  | _ => none

/-- A text as JSON can carry it: malformed bytes become U+FFFD. -/
def utf8 (s : Bytes) : Bytes := encode (runes s)

mutual
/-- The value a client gets: strings as JSON can carry them. -/
def carried : JVal → JVal
  | .null => .null
  | .num ds => .num ds
  | .text s => .text (utf8 s)
  | .arr l => .arr (carriedArr l)
  | .obj l => .obj (carriedObj l)
/-- See `carried`. -/
def carriedArr : JArr → JArr
  | .nil => .nil
  | .cons v l => .cons (carried v) (carriedArr l)
/-- See `carried`. -/
def carriedObj : JObj → JObj
  | .nil => .nil
  | .cons k v l => .cons (utf8 k) (carried v) (carriedObj l)
end

mutual
/-- All numbers are written with at least one digit and nothing else. -/
def NumsOK : JVal → Prop
  | .null => True
  | .num ds => ds ≠ [] ∧ ∀ b ∈ ds, jsonDigit b = true
  | .text _ => True
  | .arr l => NumsOKArr l
  | .obj l => NumsOKObj l
/-- See `NumsOK`. -/
def NumsOKArr : JArr → Prop
  | .nil => True
  | .cons v l => NumsOK v ∧ NumsOKArr l
/-- See `NumsOK`. -/
def NumsOKObj : JObj → Prop
  | .nil => True
  | .cons _ v l => NumsOK v ∧ NumsOKObj l
end

end Gse.Spec
