import Verif.Model.GoStr
import Verif.Proofs.Encode

/-! # `strings.ToLower` -/

namespace Gse

set_option linter.unusedSectionVars false

theorem runes_ascii (s : Bytes) (h : ∀ b ∈ s, b.toNat < 128) : runes s = s.map (·.toNat) := by
  induction s with
  | nil => rfl
  | cons b t ih =>
    have hb : decodeRune (b :: t) = (b.toNat, 1) := by
      have := h b (by simp)
      simp [decodeRune, this]
    rw [runes_cons _ (by simp), hb]
    simp only [List.drop_succ_cons, List.drop_zero, List.map_cons]
    rw [ih fun c hc => h c (by simp [hc])]

theorem runes_strLower [U : Unicode] [UnicodeOK] (s : Bytes) : runes (strLower s) = (runes s).map U.toLower := by
  unfold strLower
  split
  · rename_i h
    have h : ∀ b ∈ s, b.toNat < 128 := by simpa using h
    have hn : ∀ b ∈ s, (if 65 ≤ b.toNat && b.toNat ≤ 90 then b + 32 else b).toNat = U.toLower b.toNat := by
      intro b hb
      rw [UnicodeOK.lower_ascii _ (h b hb)]
      by_cases h1 : 65 ≤ b.toNat <;> by_cases h2 : b.toNat ≤ 90 <;> simp [h1, h2]
      omega
    rw [runes_ascii s h, runes_ascii]
    · rw [List.map_map, List.map_map]
      exact List.map_congr_left hn
    · intro c hc
      rw [List.mem_map] at hc
      obtain ⟨b, hb, rfl⟩ := hc
      have := h b hb
      split
      · rename_i h'
        simp at h'
        rw [UInt8.toNat_add]
        simp
        omega
      · exact this
  · apply runes_encode
    intro r hr
    rw [List.mem_map] at hr
    obtain ⟨x, hx, rfl⟩ := hr
    exact UnicodeOK.lower_valid x (runes_valid s x hx)

theorem strLower_eq_nil [U : Unicode] (s : Bytes) : strLower s = [] ↔ s = [] := by
  constructor
  · intro h
    unfold strLower at h
    split at h
    · simpa using h
    · by_contra hne
      have : runes s ≠ [] := by rw [runes_cons s hne]; simp
      cases hr : runes s with
      | nil => exact this hr
      | cons r rs => rw [hr] at h; simp [encodeRune_ne_nil] at h
  · rintro rfl; rfl

end Gse
