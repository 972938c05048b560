import Verif.Model.Load

/-!
# The constructors (gse.go, dict_1.16.go)
-/

namespace Gse.Segmenter

variable {F D : Type} [F64 F] [F32 D] [Narrow F D]

/-- gse.go:44-51 `New`; the Boolean is `err != nil`. `toLower` is the package variable `ToLower`. The result is also what the caller gets
with an error. -/
def new [Unicode] (mid : ScanErr) (join : Bytes → Bytes) (fs : Bytes → Option Bytes) (toLower : Bool) (files : List Bytes) :
    Option (Segmenter F D × Bool) :=
  let seg : Segmenter F D := { minTokenFreq := F64.ofNat 0, cfg := { toLower := toLower } }
  let seg := if files.length > 1 && files.getD 1 [] = str "alpha" then { seg with cfg := { seg.cfg with alphaNum := true } } else seg
  seg.loadDict mid join fs files.head?

/-- dict_1.16.go:21-28 `NewEmbed`; the error is always nil. -/
def newEmbed [Unicode] (E : Embedded) (toLower : Bool) (dict : List Bytes) : Option (Segmenter F D) :=
  let seg : Segmenter F D := { minTokenFreq := F64.ofNat 0, cfg := { toLower := toLower } }
  let seg := if dict.length > 1 && (dict.getD 1 [] = str "alpha" || dict.getD 1 [] = str "en") then
    { seg with cfg := { seg.cfg with alphaNum := true } } else seg
  seg.loadDictEmbed E dict.head?

end Gse.Segmenter
