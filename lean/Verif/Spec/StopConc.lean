import Verif.Spec.Conc
import Verif.Model.Stop

/-!
# Specification of stop words beside goroutines
-/

namespace Gse

variable {F D α : Type}

/-- Memory holds these stop words of the segmenter (`none` for the nil map); a map is at the address `a`. -/
def HoldsStop (m : Mem F D) (a : Nat) : StopMap → Prop
  | none => m .stopVar = some (.stops none)
  | some ks => m .stopVar = some (.stops (some a)) ∧ m (.cell a 0) = some (.keys ks)

/-- The word may count as a stop word while the words `added` are added and the words `removed` are removed: it is one at the start, or
is added. -/
def MayStop (start added : List Bytes) (w : Bytes) : Prop := w ∈ start ∨ w ∈ added

/-- The word may count as none: it is none at the start, or is removed. -/
def MayPass (start removed : List Bytes) (w : Bytes) : Prop := w ∉ start ∨ w ∈ removed

/-- The second list is the first without some items; those left out satisfy `out`, those kept satisfy `keep`. -/
inductive Sifted (out keep : α → Prop) : List α → List α → Prop
  | nil : Sifted out keep [] []
  | keep {x l r} : keep x → Sifted out keep l r → Sifted out keep (x :: l) (x :: r)
  | out {x l r} : out x → Sifted out keep l r → Sifted out keep (x :: l) r

/-- When every item can only be kept or only be left out, there is one such list. -/
theorem sifted_exact {out keep : α → Prop} (b : α → Bool) : ∀ {l r : List α}, (∀ x ∈ l, (keep x → b x = true) ∧ (out x → b x = false)) →
    Sifted out keep l r → r = l.filter b := by
  intro l r h hs
  induction hs with
  | nil => rfl
  | @keep x l r hk _ ih =>
    rw [List.filter_cons_of_pos ((h x (by simp)).1 hk), ih fun y hy => h y (by simp [hy])]
  | @out x l r ho _ ih =>
    rw [List.filter_cons_of_neg (by simp [(h x (by simp)).2 ho]), ih fun y hy => h y (by simp [hy])]

/-- Nothing is reordered or made up. -/
theorem Sifted.sublist {out keep : α → Prop} {l r : List α} (h : Sifted out keep l r) : r.Sublist l := by
  induction h with
  | nil => exact .slnil
  | keep _ _ ih => exact ih.cons_cons _
  | out _ _ ih => exact ih.cons _

end Gse
