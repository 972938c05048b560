import Verif.Spec.Conc

/-!
# Specification of what results share with the caller's buffer
-/

namespace Gse.Spec
open Gse

/-- The word of `s` that begins at byte `p` is copied (to lower its letters): the switch `ToLower` is on and the character
at `p` is a letter or number of one or two bytes that the switches `Alpha` and `Num` leave in words. -/
def Copied [U : Unicode] (cfg : SplitCfg) (s : Bytes) (p : Nat) : Bool :=
  cfg.toLower && decide ((decodeRune (s.drop p)).2 ≤ 2) &&
    ((U.isLetter (decodeRune (s.drop p)).1 && !cfg.alpha) || (U.isNumber (decodeRune (s.drop p)).1 && !cfg.num))

/-- A segment of `s` after the caller has written `new` over its input: an unknown word that was not copied now reads what
stands in its place. -/
def overwritten [Unicode] (cfg : SplitCfg) (s new : Bytes) (g : Seg) : Seg :=
  match g.tok with
  | .idx _ => g
  | .pseudo _ => if Copied cfg s g.start then g else { g with tok := .pseudo (slice new g.start g.stop) }

end Gse.Spec
