import Verif.Spec.TagMore

/-!
# What of the IDF table counts for a text
-/

namespace Gse.Spec
open Gse

variable {F D : Type} [F64 F]

/-- The words of the items that are no stop words and have two characters or more are the same for both tests. -/
def SameStops [Unicode] (items : List Bytes) (isStop isStop' : Bytes → Bool) : Prop :=
  ∀ x ∈ items, isStop (trimSpace x) = isStop' (trimSpace x)

/-- The two tables give every word of the items that may become a tag the same value. -/
def SameIdf [Unicode] (isStop : Bytes → Bool) (items : List Bytes) (median median' : F) (d d' : Dictionary F D) : Prop :=
  ∀ x ∈ items, TagWord isStop (trimSpace x) → idfOf median d (trimSpace x) = idfOf median' d' (trimSpace x)

/-- From the first table to the second the word `w` has gained: its value has not fallen, and that of no other word of the items has risen. -/
def GainsIdf [Unicode] (isStop : Bytes → Bool) (items : List Bytes) (w : Bytes) (median median' : F) (d d' : Dictionary F D) : Prop :=
  F64.lt (idfOf median' d' w) (idfOf median d w) = false ∧
  ∀ x ∈ items, TagWord isStop (trimSpace x) → trimSpace x ≠ w → F64.lt (idfOf median d (trimSpace x)) (idfOf median' d' (trimSpace x)) = false

end Gse.Spec
