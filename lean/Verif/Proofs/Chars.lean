import Verif.Proofs.Utf8
import Verif.Spec.Text
import Mathlib.Data.List.Forall2

/-! Lemmas about `Spec.chars`. -/

namespace Gse
open Spec

theorem charsAux_of_le (n m : Nat) (p : Bytes) (hn : p.length ≤ n) (hm : p.length ≤ m) :
    charsAux n p = charsAux m p := by
  induction n generalizing m p with
  | zero =>
    have : p = [] := by simpa using hn
    subst this; cases m <;> rfl
  | succ n ih =>
    cases p with
    | nil => cases m <;> rfl
    | cons b t =>
      cases m with
      | zero => simp at hm
      | succ m =>
        simp only [charsAux]
        have h1 := decodeRune_size_pos (b :: t) (by simp)
        congr 1
        apply ih <;> simp at * <;> omega

@[simp] theorem chars_nil : chars [] = [] := rfl

theorem chars_cons (p : Bytes) (h : p ≠ []) :
    chars p = p.take (decodeRune p).2 :: chars (p.drop (decodeRune p).2) := by
  cases p with
  | nil => exact absurd rfl h
  | cons b t =>
    have h1 := decodeRune_size_pos (b :: t) (by simp)
    unfold chars
    rw [show (b :: t).length = t.length + 1 from rfl]
    simp only [charsAux]
    congr 1
    apply charsAux_of_le <;> (simp at *; try omega)

theorem take_size_ne_nil (p : Bytes) (hp : p ≠ []) : p.take (decodeRune p).2 ≠ [] := by
  have h1 := decodeRune_size_pos p hp
  simp [List.take_eq_nil_iff, hp]; omega

/-- Induction on a text character by character. -/
theorem chars_induction {P : Bytes → Prop} (nil : P [])
    (step : ∀ p, p ≠ [] → P (p.drop (decodeRune p).2) → P p) (p : Bytes) : P p := by
  generalize hn : p.length = n
  induction n using Nat.strongRecOn generalizing p with
  | ind n ih =>
    by_cases hp : p = []
    · subst hp; exact nil
    · apply step p hp
      have h1 := decodeRune_size_pos p hp
      have h2 := decodeRune_size_le p
      apply ih (p.drop (decodeRune p).2).length _ _ rfl
      simp; omega

theorem chars_flatten (p : Bytes) : (chars p).flatten = p := by
  induction p using chars_induction with
  | nil => rfl
  | step p hp ih => rw [chars_cons p hp, List.flatten_cons, ih, List.take_append_drop]

theorem chars_eq_nil {p : Bytes} : chars p = [] ↔ p = [] := by
  constructor
  · intro h
    by_cases hp : p = []
    · exact hp
    · rw [chars_cons p hp] at h; simp at h
  · rintro rfl; rfl

theorem chars_ne_nil {p u : Bytes} (h : u ∈ chars p) : u ≠ [] := by
  induction p using chars_induction with
  | nil => simp at h
  | step p hp ih =>
    rw [chars_cons p hp] at h
    rcases List.mem_cons.1 h with h | h
    · subst h
      exact take_size_ne_nil p hp
    · exact ih h

/-- decoding the first character of `a ++ b` -/
theorem decodeRune_of_take (p : Bytes) (hp : p ≠ []) :
    decodeRune (p.take (decodeRune p).2) = decodeRune p := by
  have h1 := decodeRune_size_pos p hp
  have h2 := decodeRune_size_le p
  have h3 := decodeRune_take_append (p.take (decodeRune p).2) (p.drop (decodeRune p).2)
    (by rw [List.take_append_drop]; simp; omega)
    (take_size_ne_nil p hp)
  rw [List.take_append_drop] at h3
  exact h3

/-- A byte string that is exactly one character. -/
def IsChar (u : Bytes) : Prop := u ≠ [] ∧ (decodeRune u).2 = u.length

theorem chars_isChar {p u : Bytes} (h : u ∈ chars p) : IsChar u := by
  induction p using chars_induction with
  | nil => simp at h
  | step p hp ih =>
    have hall := h
    rw [chars_cons p hp] at h
    rcases List.mem_cons.1 h with h | h
    · refine ⟨chars_ne_nil hall, ?_⟩
      rw [h, decodeRune_of_take p hp]
      have := decodeRune_size_le p
      simp; omega
    · exact ih h

theorem runes_eq_chars (p : Bytes) : runes p = (chars p).map charRune := by
  induction p using chars_induction with
  | nil => rfl
  | step p hp ih =>
    rw [chars_cons p hp, runes_cons p hp, List.map_cons, ih, charRune, decodeRune_of_take p hp]

theorem chars_append_left {p : Bytes} {a b : List Bytes} (h : chars p = a ++ b) : chars a.flatten = a := by
  induction p using chars_induction generalizing a with
  | nil =>
    have := congrArg List.length h; simp at this
    have ha : a = [] := List.length_eq_zero_iff.1 (by omega)
    subst ha; rfl
  | step p hp ih =>
    have hfl := congrArg List.flatten h
    rw [chars_flatten, List.flatten_append] at hfl
    rw [chars_cons p hp] at h
    cases a with
    | nil => rfl
    | cons u a =>
      simp only [List.cons_append, List.cons.injEq] at h
      obtain ⟨h1, h2⟩ := h
      have ih := ih h2
      have hu : u ≠ [] := by
        rw [← h1]; exact take_size_ne_nil p hp
      have hul : u.length = (decodeRune p).2 := by
        rw [← h1]; have := decodeRune_size_le p; simp; omega
      have hne : (u :: a).flatten ≠ [] := by simp [hu]
      have hd : decodeRune ((u :: a).flatten) = decodeRune p := by
        rw [hfl]
        apply decodeRune_take_append _ _ _ hne
        rw [← hfl, ← hul]; simp
      rw [chars_cons _ hne, hd, ← hul]
      simp [ih]

theorem chars_append_right {p : Bytes} {a b : List Bytes} (h : chars p = a ++ b) : chars b.flatten = b := by
  induction p using chars_induction generalizing a with
  | nil =>
    have := congrArg List.length h; simp at this
    have ha : b = [] := List.length_eq_zero_iff.1 (by omega)
    subst ha; rfl
  | step p hp ih =>
    cases a with
    | nil =>
      simp at h; rw [← h, chars_flatten]
    | cons u a =>
      rw [chars_cons p hp] at h
      simp only [List.cons_append, List.cons.injEq] at h
      exact ih h.2

theorem chars_infix {p : Bytes} {a b c : List Bytes} (h : chars p = a ++ b ++ c) : chars b.flatten = b := by
  rw [List.append_assoc] at h
  exact chars_append_left (chars_append_right h)

/-! ### Lower-casing single bytes does not move character boundaries -/

/-- `b'` is `b` or its ASCII lower case. -/
def LowEq (b b' : UInt8) : Prop := b' = b ∨ b' = lowerAscii b

theorem lowerAscii_toNat (b : UInt8) :
    (lowerAscii b).toNat = if 65 ≤ b.toNat ∧ b.toNat ≤ 90 then b.toNat + 32 else b.toNat := by
  unfold lowerAscii
  split
  · rw [UInt8.toNat_add]; simp; omega
  · rfl

theorem LowEq.toNat {b b' : UInt8} (h : LowEq b b') :
    b'.toNat = b.toNat ∨ (65 ≤ b.toNat ∧ b.toNat ≤ 90 ∧ b'.toNat = b.toNat + 32) := by
  rcases h with h | h
  · subst h; exact .inl rfl
  · subst h; rw [lowerAscii_toNat]; split <;> omega

theorem LowEq.of_ge {b b' : UInt8} (h : LowEq b b') (hb : 128 ≤ b.toNat) : b' = b := by
  apply UInt8.toNat_inj.1
  rcases h.toNat with h | h <;> omega

theorem LowEq.of_ge' {b b' : UInt8} (h : LowEq b b') (hb : 128 ≤ b'.toNat) : b' = b := by
  apply UInt8.toNat_inj.1
  rcases h.toNat with h | h <;> omega

theorem lowEq_isCont {b b' : UInt8} (h : LowEq b b') : isCont b'.toNat = isCont b.toNat := by
  rcases h.toNat with h | h
  · rw [h]
  · have : isCont b.toNat = false := by simp [isCont]; omega
    rw [this]; simp [isCont]; omega

theorem lowEq_snd {b b' : UInt8} (h : LowEq b b') (c : Nat) :
    (decide (b'.toNat < sndLo c) || decide (sndHi c < b'.toNat))
      = (decide (b.toNat < sndLo c) || decide (sndHi c < b.toNat)) := by
  rcases h.toNat with h | h
  · rw [h]
  · have h1 : 128 ≤ sndLo c := by unfold sndLo; split <;> (try split) <;> omega
    have : b.toNat < sndLo c := by omega
    have h2 : b'.toNat < sndLo c := by omega
    simp [this, h2]

/-- Lower-casing some bytes changes neither the width of the first character, nor its rune unless the
character is a single ASCII capital. -/
theorem decodeRune_lowEq {p p' : Bytes} (h : List.Forall₂ LowEq p p') :
    (decodeRune p').2 = (decodeRune p).2 ∧
    ((decodeRune p').1 = (decodeRune p).1 ∨
      (65 ≤ (decodeRune p).1 ∧ (decodeRune p).1 ≤ 90 ∧ (decodeRune p').1 = (decodeRune p).1 + 32 ∧
        (decodeRune p).2 = 1)) := by
  cases h with
  | nil => simp
  | @cons b0 b0' t t' h0 ht =>
    by_cases hb : b0.toNat < 128
    · have hb' : b0'.toNat < 128 := by rcases h0.toNat with h | h <;> omega
      simp only [decodeRune, hb, hb', if_true]
      refine ⟨trivial, ?_⟩
      rcases h0.toNat with h | h
      · exact .inl h
      · exact .inr ⟨h.1, h.2.1, h.2.2, trivial⟩
    · have he := h0.of_ge (by omega)
      subst he
      suffices decodeRune (b0' :: t') = decodeRune (b0' :: t) by rw [this]; simp
      cases ht with
      | nil => rfl
      | @cons b1 b1' t t' h1 ht =>
        have hs := lowEq_snd h1 b0'.toNat
        by_cases hok : b1.toNat < sndLo b0'.toNat || sndHi b0'.toNat < b1.toNat
        · have hok' : b1'.toNat < sndLo b0'.toNat || sndHi b0'.toNat < b1'.toNat := by rw [hs]; exact hok
          simp only [decodeRune, hok, hok', if_true]
        · have h1e : b1' = b1 := by
            have h1' : 128 ≤ sndLo b0'.toNat := by unfold sndLo; split <;> (try split) <;> omega
            apply h1.of_ge
            simp at hok; omega
          subst h1e
          cases ht with
          | nil => rfl
          | @cons b2 b2' t t' h2 ht =>
            by_cases hc : isCont b2.toNat
            · have h2e : b2' = b2 := by
                apply h2.of_ge; simp [isCont] at hc; omega
              subst h2e
              cases ht with
              | nil => rfl
              | @cons b3 b3' t t' h3 ht =>
                by_cases hc3 : isCont b3.toNat
                · have h3e : b3' = b3 := by
                    apply h3.of_ge; simp [isCont] at hc3; omega
                  subst h3e
                  simp only [decodeRune]
                · have hc3' : isCont b3'.toNat = false := by rw [lowEq_isCont h3]; simpa using hc3
                  have hc3 : isCont b3.toNat = false := by simpa using hc3
                  simp [decodeRune, hc3, hc3']
            · have hc' : isCont b2'.toNat = false := by rw [lowEq_isCont h2]; simpa using hc
              have hc : isCont b2.toNat = false := by simpa using hc
              simp [decodeRune, hc, hc']

theorem Forall₂_drop {α β} {R : α → β → Prop} {l l'} (n : Nat) (h : List.Forall₂ R l l') :
    List.Forall₂ R (l.drop n) (l'.drop n) := by
  induction h generalizing n with
  | nil => simp
  | cons h1 h2 ih => cases n with
    | zero => exact .cons h1 h2
    | succ n => simpa using ih n

theorem Forall₂_take {α β} {R : α → β → Prop} {l l'} (n : Nat) (h : List.Forall₂ R l l') :
    List.Forall₂ R (l.take n) (l'.take n) := by
  induction h generalizing n with
  | nil => simp
  | cons h1 h2 ih => cases n with
    | zero => simp
    | succ n => simpa using ⟨h1, ih n⟩

/-- Byte lists related by `LowEq` have pointwise related characters. -/
theorem chars_lowEq {p p' : Bytes} (h : List.Forall₂ LowEq p p') :
    List.Forall₂ (List.Forall₂ LowEq) (chars p) (chars p') := by
  induction p using chars_induction generalizing p' with
  | nil => cases h; exact .nil
  | step p hp ih =>
    have hp' : p' ≠ [] := by
      rintro rfl; cases h; exact hp rfl
    rw [chars_cons p hp, chars_cons p' hp', (decodeRune_lowEq h).1]
    exact .cons (Forall₂_take _ h) (ih (Forall₂_drop _ h))

end Gse
