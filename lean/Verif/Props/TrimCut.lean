import Verif.Proofs.TrimCut
import Verif.Props.Trim

/-! # C62: cutting with trimming loses only tags, symbols, blanks and punctuation -/

namespace Gse
open Spec

set_option linter.unusedSectionVars false

section
variable [U : Unicode] {F D : Type} [F64 F] [F32 D] [Narrow F D]

/-- C62: in each mode of `Cut`, the items after `TrimSymbol` join to the characters of the text that are neither symbols nor
spaces nor punctuation, in order; none is empty. -/
theorem C62_trimSymbol [UnicodeOK] (cfg : SplitCfg) (ops : List (DictOp F)) (d : Dictionary F D)
    (hr : runOps cfg ops Dictionary.new = some d) (fuel : Nat) (c : HmmConst F) (em : EmitModel F) (s : Bytes) (mode : Option Bool) :
    ∃ out, cut cfg d fuel (fun t => hmmCut c em t []) s mode = some out ∧
      (trimSymbol out).flatten = encode ((cutText cfg s mode).filter plainRune) ∧ ∀ w ∈ trimSymbol out, w ≠ [] := by
  obtain ⟨out, h1, h2, h3⟩ := cut_runes hr fuel c em s mode
  refine ⟨out, h1, by rw [trimSymbol_flatten h2, filterSymbol_eq, h3], ?_⟩
  intro w hw
  rw [trimSymbol_eq, List.mem_filter] at hw
  simpa using hw.2

/-- C62: `CutTrimHtml` loses nothing but tags, symbols, spaces and punctuation. -/
theorem C62_html [UnicodeOK] (cfg : SplitCfg) (ops : List (DictOp F)) (d : Dictionary F D)
    (hr : runOps cfg ops Dictionary.new = some d) (fuel : Nat) (c : HmmConst F) (em : EmitModel F) (s t : Bytes)
    (ht : WithoutTags s t) (mode : Option Bool) :
    ∃ out, cutTrimHtml (fun x => cut cfg d fuel (fun t => hmmCut c em t []) x mode) s = some out ∧
      out.flatten = encode ((cutText cfg t mode).filter plainRune) ∧ ∀ w ∈ out, w ≠ [] := by
  rw [C40_exact] at ht
  subst ht
  obtain ⟨out, h1, h2, h3⟩ := C62_trimSymbol cfg ops d hr fuel c em (filterHtml s) mode
  exact ⟨trimSymbol out, by rw [cutTrimHtml, h1]; rfl, h2, h3⟩

/-- C62: `CutUrl`, with or without the flag, loses nothing but symbols, spaces and punctuation. -/
theorem C62_url [UnicodeOK] (cfg : SplitCfg) (ops : List (DictOp F)) (d : Dictionary F D)
    (hr : runOps cfg ops Dictionary.new = some d) (fuel : Nat) (c : HmmConst F) (em : EmitModel F) (s : Bytes) (num : Bool) :
    ∃ out, cutUrl (fun x => cut cfg d fuel (fun t => hmmCut c em t []) x none) s num = some out ∧
      out.flatten = encode ((cutText cfg s none).filter plainRune) ∧ ∀ w ∈ out, w ≠ [] := by
  cases num with
  | true =>
    obtain ⟨out, h1, h2, ne⟩ := C62_trimSymbol cfg ops d hr fuel c em s none
    exact ⟨trimSymbol out, by simp only [cutUrl, if_true, h1]; rfl, h2, ne⟩
  | false =>
    obtain ⟨out, h1, h2, ne⟩ := C62_trimSymbol cfg ops d hr fuel c em (splitNums s) none
    refine ⟨trimSymbol out, ?_, by rw [h2, cutText_splitNums], ne⟩
    simp only [cutUrl, Bool.false_eq_true, if_false, h1]; rfl

/-- An ASCII byte of an encoded text is one of its characters. -/
theorem mem_encode_ascii {rs : List Rune} {b : UInt8} (hb : b.toNat < 128) (h : b ∈ encode rs) : b.toNat ∈ rs := by
  induction rs with
  | nil => simp [encode] at h
  | cons r rs ih =>
    rw [encode_cons, List.mem_append] at h
    rcases h with h | h
    · have : b.toNat = r := by
        unfold encodeRune at h
        have hm : ∀ n, b = UInt8.ofNat n → 128 ≤ n → n < 256 → False := by
          rintro n rfl h1 h2
          rw [UInt8.toNat_ofNat', Nat.mod_eq_of_lt h2] at hb
          omega
        split at h
        · simp only [List.mem_singleton] at h
          rw [h, UInt8.toNat_ofNat']; omega
        · exfalso
          split at h
          · simp only [List.mem_cons, List.not_mem_nil, or_false] at h
            rcases h with h | h
            · exact hm _ h (by omega) (by omega)
            · exact hm _ h (by omega) (by omega)
          · split at h
            · simp only [List.mem_cons, List.not_mem_nil, or_false] at h
              rcases h with rfl | rfl | rfl <;> revert hb <;> decide
            · rename_i hv
              have hv : r < 0x110000 := by
                simp only [Bool.not_eq_true', Bool.not_eq_false] at hv
                unfold validRune at hv
                simp at hv
                omega
              split at h
              · simp only [List.mem_cons, List.not_mem_nil, or_false] at h
                rcases h with h | h | h
                all_goals exact hm _ h (by omega) (by omega)
              · simp only [List.mem_cons, List.not_mem_nil, or_false] at h
                rcases h with h | h | h | h
                all_goals exact hm _ h (by omega) (by omega)
      simp [this]
    · exact List.mem_cons_of_mem _ (ih h)

/-- C62: `CutTrimHtmls` and `CutUrls` join the items by blanks, and no item has one, so the items can be recovered. -/
theorem C62_joined [UnicodeOK] (cut : Bytes → Option (List Bytes)) (s : Bytes) (num : Bool) :
    (∀ l, cutTrimHtml cut s = some l → cutTrimHtmls cut s = some ((str " ").intercalate l) ∧ ∀ w ∈ l, (32 : UInt8) ∉ w) ∧
    (∀ l, cutUrl cut s num = some l → cutUrls cut s num = some ((str " ").intercalate l) ∧ ∀ w ∈ l, (32 : UInt8) ∉ w) := by
  have key : ∀ l : List Bytes, ∀ w ∈ trimSymbol l, (32 : UInt8) ∉ w := by
    intro l w hw h
    rw [trimSymbol_eq, List.mem_filter, List.mem_map] at hw
    obtain ⟨⟨x, _, rfl⟩, _⟩ := hw
    rw [filterSymbol_eq] at h
    have := mem_encode_ascii (by decide) h
    rw [List.mem_filter] at this
    have := this.2
    simp [plainRune, UnicodeOK.space_blank] at this
  constructor
  · intro l h
    refine ⟨by rw [cutTrimHtmls, h, Option.map_some, C38_cutStr], ?_⟩
    unfold cutTrimHtml at h
    obtain ⟨x, _, rfl⟩ := Option.map_eq_some_iff.1 h
    exact key x
  · intro l h
    refine ⟨by rw [cutUrls, h, Option.map_some, C38_cutStr], ?_⟩
    unfold cutUrl at h
    obtain ⟨x, _, rfl⟩ := Option.map_eq_some_iff.1 h
    exact key x

end

section examples
attribute [local instance] sampleUnicode sampleUnicodeOK sampleF64 sampleF32 sampleNarrow sampleLaws64

/-- Markup, blanks and punctuation go, everything else stays, in each mode. -/
example : cutTrimHtml (fun x => cut {} dagDict 10 (fun t => hmmCut hmmConst hmmEmit t []) x (some true)) (str "<p>ABcd, </p>" ++ hmmText) =
    some [str "ab", str "cd", encode [0x4E2D, 0x56FD], encode [0x4EBA]] := by decide +kernel

example : cutTrimHtmls (fun x => cut {} dagDict 10 (fun t => hmmCut hmmConst hmmEmit t []) x (some true)) (str "<p>AB,cd </p>") = some (str "ab cd") := by
  decide +kernel

end examples
end Gse
