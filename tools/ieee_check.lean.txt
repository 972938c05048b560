-- Compares Model/Ieee.lean with the machine's floats. Run: cp tools/ieee_check.lean.txt /tmp/c.lean; cd lean; lake env lean /tmp/c.lean
import Verif.Model.Ieee
open Gse
def toQ (x : Float) : Datum :=
  if x.isNaN then .nan else if x.isInf then .inf (x < 0) else
  let b := x.toBits.toNat
  let s := b >>> 63 == 1
  let e := (b >>> 52) % 2048
  let m : Nat := b % 2^52
  let q : Rat := if e == 0 then ((m : Nat) : Rat) / 2^1074 else ((m + 2^52 : Nat) : Rat) * (if e ≥ 1075 then 2^(e-1075) else 1 / 2^(1075 - e))
  .fin s (if s then -q else q)
def toQ32 (x : Float32) : Datum :=
  if x.isNaN then .nan else if x.isInf then .inf (x < 0) else
  let b := x.toBits.toNat
  let s := b >>> 31 == 1
  let e := (b >>> 23) % 256
  let m : Nat := b % 2^23
  let q : Rat := if e == 0 then ((m : Nat) : Rat) / 2^149 else ((m + 2^23 : Nat) : Rat) * (if e ≥ 150 then 2^(e-150) else 1 / 2^(150 - e))
  .fin s (if s then -q else q)
def step (s : UInt64) : UInt64 := s * 6364136223846793005 + 1442695040888963407
def mix (s : UInt64) : UInt64 := (s ^^^ (s >>> 31)) * (0x9E3779B97F4A7C15 : UInt64) ^^^ (s >>> 17)
def specials : Array Float := #[0, -0.0, 1, -1, 1/0, -1/0, 0/0, 1e308, 1.7976931348623157e308, 5e-324, 2.2250738585072014e-308, 0.1, 3, 9007199254740992, 9007199254740993, 3.4028235677973366e38, 3.4028235e38, 1e-45, 7e-46]
def gen (r : UInt64) (near : UInt64) : Float :=
  match r % 6 with
  | 0 => specials[((r >>> 8).toNat) % specials.size]!
  | 1 => Float.ofBits (mix r)
  | 2 => Float.ofBits (near ^^^ ((mix r) % 16))
  | 3 => (Float.ofNat ((mix r) % 4096).toNat) / 8
  | 4 => Float.ofBits ((mix r) % (1 <<< 53))
  | _ => Float.ofBits ((0x3FF0000000000000 : UInt64) ^^^ ((mix r) % (1 <<< 54)))
def bad (n : Nat) : IO Unit := do
  let mut s : UInt64 := 12345
  let mut fails := 0
  for _ in [0:n] do
    s := step s; let x := gen (mix s) 0x4000000000000000
    s := step s; let y := gen (mix s) x.toBits
    let a := toQ x; let b := toQ y
    let chk := [("add", toQ (x+y), Datum.add f64 a b), ("sub", toQ (x-y), Datum.add f64 a b.neg), ("mul", toQ (x*y), Datum.mul f64 a b), ("div", toQ (x/y), Datum.div f64 a b),
      ("conv", toQ32 x.toFloat32, Datum.convert f32 a), ("trunc", toQ (if x < 0 then x.ceil else x.floor), Datum.trunc f64 a),
      ("f32add", toQ32 (x.toFloat32 + y.toFloat32), Datum.add f32 (toQ32 x.toFloat32) (toQ32 y.toFloat32))]
    for (nm, u, v) in chk do
      if u ≠ v then
        fails := fails + 1
        if fails < 20 then IO.println s!"{nm} {x} {y} {repr x.toBits}"
    if (x < y) ≠ (Datum.lt a b) ∨ (x == y) ≠ Datum.eq a b then
      fails := fails + 1
      IO.println s!"cmp {x} {y}"
  IO.println s!"{n} pairs, {fails} fails"
#eval bad 20000
