import Verif.Proofs.Chars

/-! Encoding and decoding of runes. -/

namespace Gse
open Spec

theorem toNat_ofNat_lt {n : Nat} (h : n < 256) : (UInt8.ofNat n).toNat = n := by
  simp [UInt8.toNat_ofNat']; omega

/-- Decoding the encoding of a valid rune gives it back, whatever follows. -/
theorem decodeRune_encodeRune (r : Rune) (h : validRune r = true) (rest : Bytes) :
    decodeRune (encodeRune r ++ rest) = (r, (encodeRune r).length) := by
  simp only [validRune, Bool.or_eq_true, Bool.and_eq_true, decide_eq_true_eq] at h
  unfold encodeRune
  split
  · rename_i h1
    simp only [List.cons_append, List.nil_append, decodeRune, List.length_cons, List.length_nil]
    rw [toNat_ofNat_lt (by omega)]; simp [h1]
  split
  · simp only [List.cons_append, List.nil_append, decodeRune, List.length_cons, List.length_nil]
    rw [toNat_ofNat_lt (by omega), toNat_ofNat_lt (by omega)]
    have e1 : ¬ (192 + r / 64 < 128) := by omega
    have e2 : (decide (192 + r / 64 < 194) || decide (244 < 192 + r / 64)) = false := by simp; omega
    have l1 : sndLo (192 + r / 64) ≤ 128 + r % 64 := by unfold sndLo; (repeat' split) <;> omega
    have l2 : 128 + r % 64 ≤ sndHi (192 + r / 64) := by unfold sndHi; (repeat' split) <;> omega
    have e3 : (decide (128 + r % 64 < sndLo (192 + r / 64)) || decide (sndHi (192 + r / 64) < 128 + r % 64)) = false := by
      simp [l1, l2]
    have e4 : 192 + r / 64 < 224 := by omega
    simp [e1, e2, e3, e4]; omega
  split
  · rename_i h3; simp [validRune] at h3; omega
  split
  · simp only [List.cons_append, List.nil_append, decodeRune, List.length_cons, List.length_nil]
    rw [toNat_ofNat_lt (by omega), toNat_ofNat_lt (by omega), toNat_ofNat_lt (by omega)]
    have e1 : ¬ (224 + r / 4096 < 128) := by omega
    have e2 : (decide (224 + r / 4096 < 194) || decide (244 < 224 + r / 4096)) = false := by simp; omega
    have l1 : sndLo (224 + r / 4096) ≤ 128 + r / 64 % 64 := by unfold sndLo; (repeat' split) <;> omega
    have l2 : 128 + r / 64 % 64 ≤ sndHi (224 + r / 4096) := by unfold sndHi; (repeat' split) <;> omega
    have e3 : (decide (128 + r / 64 % 64 < sndLo (224 + r / 4096)) || decide (sndHi (224 + r / 4096) < 128 + r / 64 % 64)) = false := by
      simp [l1, l2]
    have e4 : ¬ (224 + r / 4096 < 224) := by omega
    have e5 : isCont (128 + r % 64) = true := by simp [isCont]; omega
    have e6 : 224 + r / 4096 < 240 := by omega
    simp [e1, e2, e3, e4, e5, e6]; omega
  · simp only [List.cons_append, List.nil_append, decodeRune, List.length_cons, List.length_nil]
    rw [toNat_ofNat_lt (by omega), toNat_ofNat_lt (by omega), toNat_ofNat_lt (by omega), toNat_ofNat_lt (by omega)]
    have e1 : ¬ (240 + r / 262144 < 128) := by omega
    have e2 : (decide (240 + r / 262144 < 194) || decide (244 < 240 + r / 262144)) = false := by simp; omega
    have l1 : sndLo (240 + r / 262144) ≤ 128 + r / 4096 % 64 := by unfold sndLo; (repeat' split) <;> omega
    have l2 : 128 + r / 4096 % 64 ≤ sndHi (240 + r / 262144) := by unfold sndHi; (repeat' split) <;> omega
    have e3 : (decide (128 + r / 4096 % 64 < sndLo (240 + r / 262144)) || decide (sndHi (240 + r / 262144) < 128 + r / 4096 % 64)) = false := by
      simp [l1, l2]
    have e4 : ¬ (240 + r / 262144 < 224) := by omega
    have e5 : isCont (128 + r / 64 % 64) = true := by simp [isCont]; omega
    have e6 : ¬ (240 + r / 262144 < 240) := by omega
    have e7 : isCont (128 + r % 64) = true := by simp [isCont]; omega
    simp [e1, e2, e3, e4, e5, e6, e7]; omega

theorem encodeRune_ne_nil (r : Rune) : encodeRune r ≠ [] := by
  unfold encodeRune; (repeat' split) <;> simp

theorem encodeRune_length (r : Rune) (h : validRune r = true) :
    (encodeRune r).length = if r < 0x80 then 1 else if r < 0x800 then 2 else if r < 0x10000 then 3 else 4 := by
  unfold encodeRune
  simp only [h]
  (repeat' split) <;> simp_all

@[simp] theorem encode_nil : encode [] = [] := rfl
@[simp] theorem encode_cons (r : Rune) (rs : List Rune) : encode (r :: rs) = encodeRune r ++ encode rs := rfl
theorem encode_append (a b : List Rune) : encode (a ++ b) = encode a ++ encode b := by
  simp [encode, List.flatMap_append]

theorem chars_encode (rs : List Rune) (h : ∀ r ∈ rs, validRune r = true) :
    chars (encode rs) = rs.map encodeRune := by
  induction rs with
  | nil => rfl
  | cons r rs ih =>
    have hd := decodeRune_encodeRune r (h r (by simp)) (encode rs)
    rw [encode_cons, chars_cons _ (by simp [encodeRune_ne_nil]), hd]
    simp [ih (fun r hr => h r (by simp [hr]))]

theorem runes_encode (rs : List Rune) (h : ∀ r ∈ rs, validRune r = true) : runes (encode rs) = rs := by
  rw [runes_eq_chars, chars_encode rs h, List.map_map]
  conv => rhs; rw [← List.map_id rs]
  apply List.map_congr_left
  intro r hr
  have := decodeRune_encodeRune r (h r hr) []
  simp at this
  simp [charRune, this]

/-- Every decoded rune is valid. -/
theorem decodeRune_valid (p : Bytes) : validRune (decodeRune p).1 = true := by
  unfold decodeRune
  split
  · decide
  · rename_i b0 t
    have hb0 := b0.toNat_lt
    split
    · simp [validRune]; omega
    split
    · decide
    rename_i h1 h2
    simp at h2
    split
    · decide
    · rename_i b1 t1
      split
      · decide
      rename_i h3
      simp only [Bool.or_eq_true, decide_eq_true_eq, not_or, Nat.not_lt] at h3
      have h4 := b1.toNat_lt
      split
      · simp [validRune]; omega
      split
      · decide
      · rename_i h5 _ b2 t2
        split
        · decide
        split
        · rename_i h6 h7
          simp [validRune]
          simp [isCont] at h6
          simp only [sndLo, sndHi] at h3
          by_cases hED : b0.toNat = 0xED
          · simp [hED] at *; omega
          · omega
        split
        · decide
        · rename_i h6 h7 _ b3 t3
          split
          · decide
          · simp [validRune]
            simp only [sndLo, sndHi] at h3
            simp [isCont] at *
            by_cases hF0 : b0.toNat = 0xF0
            · simp [hF0] at *; omega
            · by_cases hF4 : b0.toNat = 0xF4
              · simp [hF4] at *; omega
              · omega

theorem runes_valid (p : Bytes) : ∀ r ∈ runes p, validRune r = true := by
  induction p using chars_induction with
  | nil => simp [runes_nil]
  | step p hp ih =>
    rw [runes_cons p hp]
    intro r hr
    rcases List.mem_cons.1 hr with h | h
    · rw [h]; exact decodeRune_valid p
    · exact ih r h

end Gse
