import Verif.Model.Utf8

/-! Lemmas about the UTF-8 model. -/

namespace Gse

theorem decodeRune_size_pos (p : Bytes) (h : p ≠ []) : 1 ≤ (decodeRune p).2 := by
  unfold decodeRune
  (repeat' split) <;> simp_all

theorem decodeRune_size_le (p : Bytes) : (decodeRune p).2 ≤ p.length := by
  unfold decodeRune
  (repeat' split) <;> simp_all

/-- Decoding only looks at the bytes it consumes: truncating after the first rune does not change it. -/
theorem decodeRune_take_append (a b : Bytes) (h : (decodeRune (a ++ b)).2 ≤ a.length) (ha : a ≠ []) :
    decodeRune a = decodeRune (a ++ b) := by
  match a, ha with
  | [a0], _ =>
    cases b with
    | nil => rfl
    | cons b0 b => 
      revert h
      simp only [decodeRune, List.cons_append, List.nil_append]
      (repeat' split) <;> simp_all
  | [a0, a1], _ =>
    cases b with
    | nil => rfl
    | cons b0 b => 
      revert h
      simp only [decodeRune, List.cons_append, List.nil_append]
      (repeat' split) <;> simp_all
  | [a0, a1, a2], _ =>
    cases b with
    | nil => rfl
    | cons b0 b => 
      revert h
      simp only [decodeRune, List.cons_append, List.nil_append]
      (repeat' split) <;> simp_all
  | a0 :: a1 :: a2 :: a3 :: a', _ =>
    simp only [decodeRune, List.cons_append]

theorem runesAux_of_le (n m : Nat) (p : Bytes) (hn : p.length ≤ n) (hm : p.length ≤ m) :
    runesAux n p = runesAux m p := by
  induction n generalizing m p with
  | zero =>
    have : p = [] := by simpa using hn
    subst this; cases m <;> rfl
  | succ n ih =>
    cases p with
    | nil => cases m <;> rfl
    | cons b t =>
      cases m with
      | zero => simp at hm
      | succ m =>
        simp only [runesAux]
        have h1 := decodeRune_size_pos (b :: t) (by simp)
        congr 1
        apply ih <;> simp at * <;> omega

theorem runes_nil : runes [] = [] := rfl

theorem runes_cons (p : Bytes) (h : p ≠ []) :
    runes p = (decodeRune p).1 :: runes (p.drop (decodeRune p).2) := by
  cases p with
  | nil => exact absurd rfl h
  | cons b t =>
    have h1 := decodeRune_size_pos (b :: t) (by simp)
    unfold runes
    rw [show (b :: t).length = t.length + 1 from rfl]
    simp only [runesAux]
    congr 1
    apply runesAux_of_le <;> simp at * <;> omega

end Gse
