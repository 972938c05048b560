import Verif.Proofs.Split

/-! ASCII case and splitting. -/

namespace Gse
open Spec

set_option linter.unusedSectionVars false

/-- The bytes of a multi-byte character are all non-ASCII. -/
theorem decodeRune_multi (p : Bytes) (h : 2 ≤ (decodeRune p).2) :
    ∀ b ∈ p.take (decodeRune p).2, 128 ≤ b.toNat := by
  revert h
  unfold decodeRune
  split
  · simp
  · rename_i b0 t
    split
    · simp
    split
    · simp
    rename_i h1 h2
    split
    · simp
    · rename_i b1 t1
      split
      · simp
      rename_i h3
      simp only [Bool.or_eq_true, decide_eq_true_eq, not_or, Nat.not_lt] at h3
      have hb1 : 128 ≤ b1.toNat := by
        have := h3.1
        unfold sndLo at this
        split at this
        · omega
        · split at this <;> omega
      split
      · simp; omega
      split
      · simp
      · rename_i b2 t2
        split
        · simp
        rename_i h5
        have hb2 : 128 ≤ b2.toNat := by simp [isCont] at h5; omega
        split
        · simp; omega
        split
        · simp
        · rename_i b3 t3
          split
          · simp
          rename_i h7
          have hb3 : 128 ≤ b3.toNat := by simp [isCont] at h7; omega
          simp; omega

theorem isChar_multi {u : Bytes} (h : IsChar u) (h2 : 2 ≤ u.length) : ∀ b ∈ u, 128 ≤ b.toNat := by
  have := decodeRune_multi u (by rw [h.2]; exact h2)
  rwa [h.2, List.take_length] at this

theorem lowerAscii_of_ge {b : UInt8} (h : 128 ≤ b.toNat) : lowerAscii b = b := by
  apply UInt8.toNat_inj.1
  rw [lowerAscii_toNat]; split <;> omega

variable [Unicode] [UnicodeOK]

/-- With `ToLower` on and `Alpha` off every character is normalised by lower-casing its bytes. -/
theorem normChar_lower (cfg : SplitCfg) (hl : cfg.toLower = true) (ha : cfg.alpha = false) {u : Bytes} (h : IsChar u) :
    normChar cfg u = u.map lowerAscii := by
  unfold normChar
  split
  · rfl
  · rename_i hw
    have hw : wordChar cfg u = false := by simpa [hl] using hw
    by_cases h2 : 2 ≤ u.length
    · have := isChar_multi h h2
      conv => lhs; rw [← List.map_id u]
      apply List.map_congr_left
      intro b hb
      simp [lowerAscii_of_ge (this b hb)]
    · match u, h with
      | [b], h =>
        have hb : ¬ (65 ≤ b.toNat ∧ b.toNat ≤ 90) := by
          intro hh
          have hr : charRune [b] = b.toNat := by
            simp [charRune, decodeRune]; split <;> [rfl; omega]
          have := (UnicodeOK.upper_letter _ hh.1 hh.2).1
          simp [wordChar, hr, ha, this] at hw
        simp [lowerAscii, hb]
      | [], h => exact absurd rfl h.1
      | _ :: _ :: _, h => simp at h2

theorem chars_map_lower (t : Bytes) : chars (t.map lowerAscii) = (chars t).map (List.map lowerAscii) := by
  have hf : ∀ u : Bytes, List.Forall₂ LowEq u (u.map lowerAscii) := by
    intro u
    induction u with
    | nil => exact .nil
    | cons b u ih => exact .cons (.inr rfl) ih
  have h2 := chars_lowEq (hf t)
  apply eq_of_flatten_lengths (forall2_comp_len _ (fun u _ => by simp) h2)
  rw [chars_flatten, ← List.map_flatten, chars_flatten]

theorem grpAll_map (cfg : SplitCfg) (f : Bytes → Bytes) (hf : ∀ u, wordChar cfg (f u) = wordChar cfg u)
    (us : List Bytes) : grpAll cfg (us.map f) = (grpAll cfg us).map (List.map f) := by
  have hok := grpAll_ok cfg us
  have h1 : GrOK cfg ((grpAll cfg us).map (List.map f)) := by
    constructor
    · intro g hg
      obtain ⟨g0, hg0, rfl⟩ := List.mem_map.1 hg
      rcases hok.kind g0 hg0 with ⟨u, rfl, hu⟩ | ⟨h1, h2, h3⟩
      · exact .inl ⟨f u, by simp, by rw [hf, hu]⟩
      · refine .inr ⟨by simpa using h1, ?_, by simpa using h3⟩
        intro u hu
        obtain ⟨u0, hu0, rfl⟩ := List.mem_map.1 hu
        rw [hf]; exact h2 u0 hu0
    · intro ha l g k r e hh
      obtain ⟨l0, r0, e1, e2, e3⟩ := List.map_eq_append_iff.1 e
      obtain ⟨g0, r1, e4, e5, e6⟩ := List.map_eq_cons_iff.1 e3
      obtain ⟨k0, r2, e7, e8, e9⟩ := List.map_eq_cons_iff.1 e6
      subst e5 e8 e7 e4
      refine hok.maximal ha l0 g0 k0 r2 e1 ⟨fun u hu => ?_, fun u hu => ?_⟩
      · rw [← hf]; exact hh.1 _ (List.mem_map_of_mem hu)
      · rw [← hf]; exact hh.2 _ (List.mem_map_of_mem hu)
  have h2 := grpAll_unique cfg _ h1
  rw [← List.map_flatten, grpAll_flatten] at h2
  exact h2

theorem split_lower (cfg : SplitCfg) (hl : cfg.toLower = true) (ha : cfg.alpha = false) (t : Bytes) :
    splitTextToWords cfg (t.map lowerAscii) = splitTextToWords cfg t := by
  rw [splitTextToWords_eq, splitTextToWords_eq, chars_map_lower]
  have hf : ∀ u : Bytes, wordChar cfg (u.map lowerAscii) = wordChar cfg u := by
    intro u
    apply wordChar_lowEq
    induction u with
    | nil => exact .nil
    | cons b u ih => exact .cons (.inr rfl) ih
  rw [grpAll_map cfg _ hf, List.map_map]
  apply List.map_congr_left
  intro g hg
  simp only [Function.comp_apply, emit, List.flatMap_map]
  have hmem : ∀ u ∈ g, u ∈ chars t := fun u hu => by
    rw [← grpAll_flatten cfg (chars t)]
    exact List.mem_flatten_of_mem hg hu
  have hmem' : ∀ u ∈ g, u.map lowerAscii ∈ chars (t.map lowerAscii) := fun u hu => by
    rw [chars_map_lower]
    exact List.mem_map_of_mem (hmem u hu)
  clear hg
  induction g with
  | nil => rfl
  | cons u g ih =>
    rw [List.flatMap_cons, List.flatMap_cons, ih (fun v hv => hmem v (by simp [hv])) (fun v hv => hmem' v (by simp [hv])),
      normChar_lower cfg hl ha (chars_isChar (hmem' u (by simp))), normChar_lower cfg hl ha (chars_isChar (hmem u (by simp)))]
    simp [lowerAscii_idem]

end Gse
