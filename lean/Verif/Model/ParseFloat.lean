import Verif.Proofs.IeeeOps

/-!
# `strconv.ParseFloat(s, 64)`

The library function that reads the frequency of a dictionary line (dict_util.go:277) and of a request (tools/server/server.go:112),
modelled from the source of package strconv (atof.go, atoi.go). The scanner follows the source step by step. Simplification: the
digits are kept in full, where the source keeps 19 (16 in a hexadecimal number) and goes over the text again if these do not
decide; the number read is then rounded once, as the documentation of the function says ("the nearest floating-point number
rounded using IEEE754 unbiased rounding").
-/

namespace Gse

namespace ParseFloat

/-- atoi.go `lower`: `c | ('x' - 'X')`. -/
def lower (c : UInt8) : UInt8 := c ||| 32

/-- atof.go `commonPrefixLenIgnoreCase`; `prefix` is in lower case. -/
def commonPrefix : Bytes → Bytes → Nat
  | c :: s, p :: ps => if (if 65 ≤ c ∧ c ≤ 90 then c + 32 else c) = p then commonPrefix s ps + 1 else 0
  | _, _ => 0

/-- atof.go `special`, from the label `case 'i', 'I'` on: the infinity of sign `neg`, and how many bytes it takes after the sign. -/
def infinity (neg : Bool) (s : Bytes) : Option (Datum × Nat) :=
  let n := commonPrefix s (str "infinity")
  let n := if 3 < n ∧ n < 8 then 3 else n
  if n = 3 ∨ n = 8 then some (.inf neg, n) else none

/-- atof.go `special`: NaN and the infinities, with the number of bytes. -/
def special : Bytes → Option (Datum × Nat)
  | [] => none
  | c :: s =>
    if c = 43 ∨ c = 45 then (infinity (c = 45) s).map fun x => (x.1, x.2 + 1)
    else if c = 105 ∨ c = 73 then infinity false (c :: s)
    else if c = 110 ∨ c = 78 then if commonPrefix (c :: s) (str "nan") = 3 then some (.nan, 3) else none
    else none

/-- The variables of the loop over the digits in atof.go `readFloat`. `mant` is the mantissa of all digits, so that `ndMant` is `nd`. -/
structure Scan where
  mant : Nat := 0
  nd : Nat := 0
  dp : Int := 0
  sawdot : Bool := false
  sawdigits : Bool := false
  underscores : Bool := false

/-- One round of the loop over the digits; `none` leaves the loop. -/
def scanStep (hex : Bool) (st : Scan) (c : UInt8) : Option Scan :=
  if c = 95 then some { st with underscores := true }
  else if c = 46 then if st.sawdot then none else some { st with sawdot := true, dp := st.nd }
  else if 48 ≤ c ∧ c ≤ 57 then
    if c = 48 ∧ st.nd = 0 then some { st with sawdigits := true, dp := st.dp - 1 }
    else some { st with sawdigits := true, nd := st.nd + 1, mant := st.mant * (if hex then 16 else 10) + (c.toNat - 48) }
  else if hex = true ∧ 97 ≤ lower c ∧ lower c ≤ 102 then
    some { st with sawdigits := true, nd := st.nd + 1, mant := st.mant * 16 + ((lower c).toNat - 97 + 10) }
  else none

/-- The loop over the digits; the rest of the text is what has not been read. -/
def scan (hex : Bool) : Scan → Bytes → Scan × Bytes
  | st, [] => (st, [])
  | st, c :: s =>
    match scanStep hex st c with
    | none => (st, c :: s)
    | some st' => scan hex st' s

/-- The loop over the digits of the exponent: its value, whether there was an underscore, and the rest. -/
def scanExp : Nat → Bool → Bytes → Nat × Bool × Bytes
  | e, u, [] => (e, u, [])
  | e, u, c :: s =>
    if c = 95 then scanExp e true s
    else if 48 ≤ c ∧ c ≤ 57 then scanExp (if e < 10000 then e * 10 + (c.toNat - 48) else e) u s
    else (e, u, c :: s)

/-- The optional exponent with the letter `ch`; `need`: there has to be one. `none` is the return without `ok`. -/
def exponent (ch : UInt8) (need : Bool) (s : Bytes) : Option (Int × Bool × Bytes) :=
  match s with
  | [] => if need then none else some (0, false, [])
  | c :: s' =>
    if lower c = ch then
      match s' with
      | [] => none
      | d :: s'' =>
        let digits := if d = 43 ∨ d = 45 then s'' else s'
        match digits with
        | [] => none
        | b :: _ =>
          if b < 48 ∨ b > 57 then none
          else
            let r := scanExp 0 false digits
            some (if d = 45 then -(r.1 : Int) else r.1, r.2.1, r.2.2)
    else if need then none else some (0, false, c :: s')

/-- The loop of atoi.go `underscoreOK`; `saw` is the last character seen: 48 a digit or the base prefix, 95 an underscore, 33 another. -/
def underscoreLoop (hex : Bool) : UInt8 → Bytes → Bool
  | saw, [] => saw ≠ 95
  | saw, c :: s =>
    if (48 ≤ c ∧ c ≤ 57) ∨ (hex = true ∧ 97 ≤ lower c ∧ lower c ≤ 102) then underscoreLoop hex 48 s
    else if c = 95 then if saw ≠ 48 then false else underscoreLoop hex 95 s
    else if saw = 95 then false
    else underscoreLoop hex 33 s

/-- atoi.go `underscoreOK`. -/
def underscoreOK (s : Bytes) : Bool :=
  let s := match s with
    | c :: s' => if c = 43 ∨ c = 45 then s' else c :: s'
    | [] => []
  match s with
  | 48 :: c :: s' => if lower c = 98 ∨ lower c = 111 ∨ lower c = 120 then underscoreLoop (lower c = 120) 48 s' else underscoreLoop false 94 (48 :: c :: s')
  | s => underscoreLoop false 94 s

/-- atof.go `readFloat`, from the digits on (after the sign). The number, whether there was an underscore, and the rest. -/
def readDigits (s : Bytes) : Option (ℚ × Bool × Bytes) :=
  let hex := match s with
    | c :: x :: _ :: _ => decide (c = 48 ∧ lower x = 120)
    | _ => false
  let r := scan hex {} (if hex then s.drop 2 else s)
  if r.1.sawdigits = false then none
  else
    let dp : Int := if r.1.sawdot then r.1.dp else r.1.nd
    match exponent (if hex then 112 else 101) hex r.2 with
    | none => none
    | some (e, u, rest) =>
      some (if hex then r.1.mant * 2 ^ (dp * 4 + e - r.1.nd * 4) else r.1.mant * 10 ^ (dp + e - r.1.nd), r.1.underscores || u, rest)

/-- atof.go `readFloat`: the sign, the number, and the rest of the text. -/
def readFloat (s : Bytes) : Option (Bool × ℚ × Bytes) :=
  let neg : Bool := match s with
    | c :: _ => c = 45
    | [] => false
  let s' := match s with
    | c :: t => if c = 43 ∨ c = 45 then t else c :: t
    | [] => []
  (readDigits s').bind fun r =>
    if r.2.1 = true ∧ underscoreOK (s.take (s.length - r.2.2.length)) = false then none
    else some (neg, r.1, r.2.2)

/-- atof.go `ParseFloat(s, 64)`: the value and whether there is an error. A number out of range is an infinity with an error, a text
that is not a number 0 with an error. -/
def parseDatum (s : Bytes) : Datum × Bool :=
  match special s with
  | some (x, n) => if n = s.length then (x, false) else (.fin false 0, true)
  | none =>
    match readFloat s with
    | none => (.fin false 0, true)
    | some (neg, q, rest) =>
      if rest ≠ [] then (.fin false 0, true)
      else
        let x := Datum.make f64 neg (if neg then -q else q)
        (x, x = .inf neg)

end ParseFloat

end Gse
