import Verif.Spec.Ledger

/-!
# What the constructors are asked for
-/

namespace Gse.Spec
open Gse

variable {F D : Type} [F64 F] [F32 D] [Narrow F D]

/-- The settings of a segmenter that nobody has changed: words of frequency 2 and more, no words without a frequency. -/
def factory : LoadCfg F := ⟨F64.ofNat 2, str "2.0", false⟩

variable [Unicode]

/-- The entries of a file, columns being separated by blanks. -/
def fileWords (mid : Segmenter.ScanErr) (b : Bytes) : List (Entry F) :=
  rowsEntries factory [] ((scanRows mid ((runes b).length + 2) (runes b)).getD [])

/-- The entries of a text, columns being separated by one space. -/
def textWords (t : Bytes) : List (Entry F) := (splitStr t (str "\n")).filterMap fun line => lineEntry factory (splitStr line (str " "))

/-- The entries of the files up to the first one that cannot be opened. -/
def filesWords (mid : Segmenter.ScanErr) (fs : Bytes → Option Bytes) (paths : List Bytes) : List (Entry F) :=
  (paths.takeWhile fun f => (fs f).isSome).flatMap fun f => fileWords mid ((fs f).getD [])

/-- The calls that store entries. -/
def storeOps (es : List (Entry F)) : List (DictOp F) := es.map fun e => .add e.1 e.2.1 e.2.2

/-- A segmenter with the settings of the factory. -/
def made (load alphaNum toLower : Bool) (d : Dictionary F D) : Segmenter F D where
  dict := some d
  load := load
  minTokenFreq := F64.ofNat 2
  textFreq := str "2.0"
  cfg := ⟨alphaNum, false, false, toLower⟩

end Gse.Spec
