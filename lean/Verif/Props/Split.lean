import Verif.Proofs.Case

/-! # C01, C02, C03 and the splitting half of C43 -/

namespace Gse
open Spec

/-- C01: the words of a split concatenate to the text with every word character's ASCII capitals
lower-cased (if `ToLower`), and nothing else changed. -/
theorem C01_split_lossless [Unicode] (cfg : SplitCfg) (t : Bytes) :
    (splitTextToWords cfg t).flatten = normText cfg t := by
  rw [splitTextToWords_eq, normText]
  conv => rhs; rw [← grpAll_flatten cfg (chars t)]
  induction grpAll cfg (chars t) with
  | nil => rfl
  | cons g gs ih => simp [emit, ih]

/-- C01: byte for byte, an output byte is the input byte or its ASCII lower case; lengths agree. -/
theorem C01_split_bytes [Unicode] (cfg : SplitCfg) (t : Bytes) :
    (splitTextToWords cfg t).flatten.length = t.length ∧
    ∀ (i : Nat) (b : UInt8), t[i]? = some b → (splitTextToWords cfg t).flatten[i]? = some b ∨
      (cfg.toLower = true ∧ 65 ≤ b.toNat ∧ b.toNat ≤ 90 ∧ (splitTextToWords cfg t).flatten[i]? = some (b + 32)) := by
  have key : ∀ us : List Bytes, List.Forall₂ (fun b b' : UInt8 => b' = b ∨ (cfg.toLower = true ∧ 65 ≤ b.toNat ∧ b.toNat ≤ 90 ∧ b' = b + 32))
      us.flatten (us.flatMap (normChar cfg)) := by
    intro us
    induction us with
    | nil => exact .nil
    | cons u us ih =>
      simp only [List.flatten_cons, List.flatMap_cons]
      refine List.rel_append ?_ ih
      unfold normChar
      split
      · rename_i h; replace h := h.2
        induction u with
        | nil => exact .nil
        | cons b u ih =>
          refine .cons ?_ ih
          by_cases hb : 65 ≤ b.toNat ∧ b.toNat ≤ 90
          · exact .inr ⟨h, hb.1, hb.2, by simp [lowerAscii, hb]⟩
          · exact .inl (by simp [lowerAscii, hb])
      · rename_i h; clear h
        induction u with
        | nil => exact .nil
        | cons b u ih => exact .cons (.inl rfl) ih
  have h := key (chars t)
  rw [chars_flatten] at h
  rw [C01_split_lossless, normText]
  refine ⟨h.length_eq.symm, ?_⟩
  generalize (chars t).flatMap (normChar cfg) = o at h
  induction h with
  | nil => simp
  | cons h1 _ ih =>
    intro i b hb
    cases i with
    | zero => simp at hb ⊢; subst hb; exact h1
    | succ i => simpa using ih i b (by simpa using hb)

/-- C01: with `ToLower` off the split is exactly lossless. -/
theorem C01_split_exact [Unicode] (cfg : SplitCfg) (h : cfg.toLower = false) (t : Bytes) :
    (splitTextToWords cfg t).flatten = t := by
  rw [C01_split_lossless, normText]
  have : normChar cfg = id := by funext u; simp [normChar, h]
  rw [this]
  simp [List.flatMap_id, chars_flatten]

/-- C02: the result is the documented split. -/
theorem C02_split_spec [Unicode] (cfg : SplitCfg) (t : Bytes) : IsSplit cfg t (splitTextToWords cfg t) :=
  ⟨grpAll cfg (chars t), ⟨grpAll_flatten _ _, (grpAll_ok cfg _).kind, (grpAll_ok cfg _).maximal⟩,
    splitTextToWords_eq cfg t⟩

/-- C02: the documented split is unique, so the result is determined by the documentation. -/
theorem C02_split_unique [Unicode] (cfg : SplitCfg) (t : Bytes) (ws : List Bytes) :
    IsSplit cfg t ws ↔ ws = splitTextToWords cfg t := by
  constructor
  · rintro ⟨gs, hg, rfl⟩
    have := grpAll_unique cfg gs ⟨hg.kind, hg.maximal⟩
    rw [hg.cover] at this
    rw [splitTextToWords_eq, this]; rfl
  · rintro rfl; exact C02_split_spec cfg t

/-- C02: no word is empty. -/
theorem C02_words_nonempty [Unicode] (cfg : SplitCfg) (t w : Bytes) (h : w ∈ splitTextToWords cfg t) : w ≠ [] :=
  split_ne_nil cfg t w h

/-- C03: any consecutive words of a split re-split to themselves. -/
theorem C03_resplit [Unicode] [UnicodeOK] (cfg : SplitCfg) (t : Bytes) (l ws r : List Bytes)
    (h : splitTextToWords cfg t = l ++ ws ++ r) : splitTextToWords cfg ws.flatten = ws :=
  split_infix cfg t l ws r h

/-- C03: consecutive words of a text spelling the same bytes as a separately split entry are the words of
that entry. -/
theorem C03_coherent [Unicode] [UnicodeOK] (cfg : SplitCfg) (t entry : Bytes) (l ws r : List Bytes)
    (h : splitTextToWords cfg t = l ++ ws ++ r)
    (e : ws.flatten = (splitTextToWords cfg entry).flatten) : ws = splitTextToWords cfg entry :=
  split_coherent cfg t entry l ws r h e

/-- C43 (splitting): texts that differ only in ASCII letter case have the same split. -/
theorem C43_split_case [Unicode] [UnicodeOK] (cfg : SplitCfg) (hl : cfg.toLower = true) (ha : cfg.alpha = false)
    (t t' : Bytes) (h : t.map lowerAscii = t'.map lowerAscii) :
    splitTextToWords cfg t = splitTextToWords cfg t' := by
  rw [← split_lower cfg hl ha t, ← split_lower cfg hl ha t', h]

section examples
attribute [local instance] sampleUnicode sampleUnicodeOK

/-- "Go语a1 ?" with the lower-casing: `["go", "语", "a1", " ", "?"]`. -/
example : splitTextToWords {} [71, 111, 0xE8, 0xAF, 0xAD, 97, 49, 32, 63]
    = [[103, 111], [0xE8, 0xAF, 0xAD], [97, 49], [32], [63]] := by decide +kernel
/-- `Alpha` on: letters are split singly and keep their case. -/
example : splitTextToWords { alpha := true } (str "Ab12") = [str "A", str "b", str "12"] := by decide +kernel
/-- `AlphaNum` on. -/
example : splitTextToWords { alphaNum := true } (str "Ab1") = [str "a", str "b", str "1"] := by decide +kernel
/-- Malformed bytes are words of their own. -/
example : splitTextToWords {} [97, 0xE8, 0xAF, 98] = [[97], [0xE8], [0xAF], [98]] := by decide +kernel
/-- C03 used on a real infix. -/
example : splitTextToWords {} ([[0xE8, 0xAF, 0xAD], [97, 49]] : List Bytes).flatten = [[0xE8, 0xAF, 0xAD], [97, 49]] :=
  C03_resplit {} [71, 111, 0xE8, 0xAF, 0xAD, 97, 49, 32] [[103, 111]] _ [[32]] (by decide +kernel)
/-- C03 depends on fixed flags: the words of one setting are not stable under another. -/
example : splitTextToWords { alphaNum := true } (str "ab") ≠ splitTextToWords {} (str "ab") := by decide +kernel
example : splitTextToWords {} (str "HeLLo") = splitTextToWords {} (str "hEllO") :=
  C43_split_case {} rfl rfl _ _ (by decide +kernel)
/-- C43 fails with `Alpha` on. -/
example : splitTextToWords { alpha := true } (str "A") ≠ splitTextToWords { alpha := true } (str "a") := by decide +kernel
end examples

end Gse
