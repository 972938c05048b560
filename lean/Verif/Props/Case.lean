import Verif.Props.Size
import Verif.Props.Idf
import Verif.Proofs.TrimCut

/-! # C43: letter case in `Cut` and the other calls on text -/

namespace Gse
open Spec

set_option linter.unusedSectionVars false

section
variable [U : Unicode] {F D : Type} [F64 F] [F32 D] [Narrow F D]

theorem charRune_lowerAscii [UnicodeOK] {u : Bytes} (h : IsChar u) : U.toLower (charRune (u.map lowerAscii)) = U.toLower (charRune u) := by
  by_cases h2 : 2 ≤ u.length
  · have : u.map lowerAscii = u := by
      conv => rhs; rw [← List.map_id u]
      exact List.map_congr_left fun b hb => lowerAscii_of_ge (isChar_multi h h2 b hb)
    rw [this]
  · match u, h with
    | [b], h =>
      by_cases hb : 128 ≤ b.toNat
      · rw [show ([b] : Bytes).map lowerAscii = [b] by simp [lowerAscii_of_ge hb]]
      · have e : ∀ c : UInt8, c.toNat < 128 → charRune [c] = c.toNat := by
          intro c hc; simp [charRune, decodeRune]; split <;> [rfl; omega]
        have hl := lowerAscii_toNat b
        have hlt : (lowerAscii b).toNat < 128 := by rw [hl]; split <;> omega
        show U.toLower (charRune [lowerAscii b]) = _
        rw [e _ hlt, e _ (by omega), UnicodeOK.lower_ascii _ hlt, UnicodeOK.lower_ascii _ (by omega), hl]
        split
        · rw [if_neg (by omega)]
        · rfl
    | [], h => exact absurd rfl h.1
    | _ :: _ :: _, h => simp at h2

/-- Texts that differ in ASCII case only have the same characters after lower-casing. -/
theorem runes_lowerAscii [UnicodeOK] (s s' : Bytes) (h : s.map lowerAscii = s'.map lowerAscii) :
    (runes s).map U.toLower = (runes s').map U.toLower := by
  have main : ∀ t : Bytes, (runes (t.map lowerAscii)).map U.toLower = (runes t).map U.toLower := by
    intro t
    rw [runes_eq_chars, runes_eq_chars, chars_map_lower, List.map_map, List.map_map, List.map_map]
    refine List.map_congr_left fun u hu => ?_
    exact charRune_lowerAscii (chars_isChar hu)
  rw [← main s, ← main s', h]

/-- C43: with `ToLower` on, `Cut` with a flag, `CutDAG`, `CutAll`, `CutSearch` with a flag and `ExtractTags` do not see
letter case at all: texts whose characters are the same after lower-casing (the whole of Unicode, not only ASCII) give the
same result, whatever the dictionary, `Alpha`, patterns and models. -/
theorem C43_cut [UnicodeOK] (cfg : SplitCfg) (hl : cfg.toLower = true) (s s' : Bytes) (h : (runes s).map U.toLower = (runes s').map U.toLower)
    (d : Dictionary F D) (c : HmmConst F) (em : EmitModel F) :
    (∀ fuel hc hmm, cut cfg d fuel hc s (some hmm) = cut cfg d fuel hc s' (some hmm)) ∧
    (∀ reg, cutDAGHmm cfg d c em s reg = cutDAGHmm cfg d c em s' reg) ∧ cutAll cfg d s = cutAll cfg d s' ∧
    (∀ fuel hc hmm, cutSearch cfg d fuel hc s (some hmm) = cutSearch cfg d fuel hc s' (some hmm)) ∧
    ∀ ch stop idf k, extractTags ch cfg d c em stop idf s k = extractTags ch cfg d c em stop idf s' k := by
  have e : dagRunes cfg s = dagRunes cfg s' := by rw [dagRunes_eq, dagRunes_eq]; simp only [dagText, hl, if_true, h]
  have h1 : ∀ fuel hc hmm, cut cfg d fuel hc s (some hmm) = cut cfg d fuel hc s' (some hmm) := by
    intro fuel hc hmm
    cases hmm
    · simp only [cut, cutDAGNoHMM, e]
    · simp only [cut, cutDAG, e]
  have h2 : ∀ reg, cutDAGHmm cfg d c em s reg = cutDAGHmm cfg d c em s' reg := by
    intro reg; simp only [cutDAGHmm, cutDAG, e]
  refine ⟨h1, h2, by simp only [cutAll, e], ?_, ?_⟩
  · intro fuel hc hmm
    simp only [cutSearch, cutForSearch, h1]
  · intro ch stop idf k
    simp only [extractTags, h2]

/-- C43: so with `ToLower` on and `Alpha` off none of the calls sees ASCII case: those above, and `Slice`, `Pos` and
`String` in both modes, with which `Cut` and `CutSearch` without a flag agree. -/
theorem C43_cut_ascii [UnicodeOK] (cfg : SplitCfg) (hl : cfg.toLower = true) (ha : cfg.alpha = false) (s s' : Bytes)
    (h : s.map lowerAscii = s'.map lowerAscii) (d : Dictionary F D) (fuel : Nat) (hc : Bytes → Option (List Bytes)) :
    (∀ flag, cut cfg d fuel hc s flag = cut cfg d fuel hc s' flag) ∧ (∀ flag, cutSearch cfg d fuel hc s flag = cutSearch cfg d fuel hc s' flag) ∧
    cutAll cfg d s = cutAll cfg d s' ∧ ∀ mode, segSlice cfg d fuel s mode = segSlice cfg d fuel s' mode ∧
      segPos cfg d fuel s mode = segPos cfg d fuel s' mode ∧ segString cfg d fuel s mode = segString cfg d fuel s' mode := by
  have hs := (C43_case_insensitive cfg hl ha s s' h d).1 (some d)
  have hr := runes_lowerAscii s s' h
  have e : dagRunes cfg s = dagRunes cfg s' := by rw [dagRunes_eq, dagRunes_eq]; simp only [dagText, hl, if_true, hr]
  have hout : ∀ mode, segSlice cfg d fuel s mode = segSlice cfg d fuel s' mode ∧
      segPos cfg d fuel s mode = segPos cfg d fuel s' mode ∧ segString cfg d fuel s mode = segString cfg d fuel s' mode := by
    intro mode; simp only [segSlice, segPos, segString, hs, and_self]
  have hcut : ∀ flag, cut cfg d fuel hc s flag = cut cfg d fuel hc s' flag := by
    rintro (_ | _ | _)
    · exact (hout false).1
    · simp only [cut, cutDAGNoHMM, e]
    · simp only [cut, cutDAG, e]
  refine ⟨hcut, ?_, by simp only [cutAll, e], hout⟩
  rintro (_ | flag)
  · exact (hout true).1
  · simp only [cutSearch, cutForSearch, hcut]

/-- C43: `ToLower` is another thing in `Cut` than in `AddToken` and `Segment`: those lower ASCII letters only, `Cut` with a
flag and `CutAll` lower every letter of the text but look words up as they were stored. So with `ToLower` on, a stored word with a
capital letter other than an ASCII one is never among their items. -/
theorem C43_capital_lost [UnicodeOK] (cfg : SplitCfg) (hl : cfg.toLower = true) (ops : List (DictOp F)) (d : Dictionary F D)
    (hr : runOps cfg ops Dictionary.new = some d) (c : HmmConst F) (em : EmitModel F) (fuel : Nat) (w : Bytes) (r : Rune) (hw : r ∈ runes w)
    (hcap : ∀ x, U.toLower x ≠ r) (s : Bytes) :
    (∀ hmm out, cut cfg d fuel (fun t => hmmCut c em t []) s (some hmm) = some out → w ∉ out) ∧ ∀ out, cutAll cfg d s = some out → w ∉ out := by
  have htext : r ∉ dagText cfg s := by
    intro hm
    simp only [dagText, hl, if_true, List.mem_map] at hm
    obtain ⟨x, _, hx⟩ := hm
    exact hcap x hx
  have hval : ∀ x ∈ dagText cfg s, validRune x = true := by
    rw [← dagRunes_eq]; exact fun x hx => runes_valid _ x hx
  constructor
  · intro hmm out ho hmem
    obtain ⟨out', h1, h2, _⟩ := C96_cut cfg ops d hr c em fuel s hmm
    rw [ho] at h1; cases h1
    have hflat : out.flatten = encode (dagText cfg s) := by
      cases hmm with
      | false =>
        obtain ⟨o, h1, h3, _⟩ := C26_lossless cfg ops d hr s
        rw [show cut cfg d fuel (fun t => hmmCut c em t []) s (some false) = cutDAGNoHMM cfg d s from rfl, h1] at ho
        cases ho; exact h3
      | true =>
        obtain ⟨o, h1, h3, _⟩ := C28_lossless cfg ops d hr c em fuel s
        rw [h1] at ho; cases ho; exact h3
    have hm : r ∈ runes out.flatten := by
      rw [runes_flatten_valid fun x hx => (h2 x hx).2]
      exact List.mem_flatMap.mpr ⟨w, hmem, hw⟩
    rw [hflat, runes_encode _ hval] at hm
    exact htext hm
  · intro out ho hmem
    obtain ⟨ranges, h1, _⟩ := C24_occurrences cfg ops d hr s
    rw [h1] at ho; cases ho
    obtain ⟨p, _, rfl⟩ := List.mem_map.mp hmem
    simp only [slice] at hw
    rw [runes_encode _ fun x hx => hval x (List.mem_of_mem_drop (List.mem_of_mem_take hx))] at hw
    exact htext (List.mem_of_mem_drop (List.mem_of_mem_take hw))

end

section examples

/-- `sampleUnicode` with the letters É (U+00C9) and é (U+00E9). -/
@[instance_reducible] def accentUnicode : Unicode where
  isLetter r := sampleLetter r || r == 0xC9 || r == 0xE9
  isNumber := sampleUnicode.isNumber
  isSpace := sampleUnicode.isSpace
  isPunct := sampleUnicode.isPunct
  isSymbol := sampleUnicode.isSymbol
  isKana := sampleUnicode.isKana
  isHan := sampleUnicode.isHan
  toLower r := if r = 0xC9 then 0xE9 else sampleUnicode.toLower r
  script := sampleUnicode.script

theorem accentUnicodeOK : @UnicodeOK accentUnicode := by
  have h := sampleUnicodeOK
  refine @UnicodeOK.mk accentUnicode ?_ ?_ (by decide) h.err_number h.err_han h.han_ascii h.space_blank h.space_newline ?_ ?_
  · intro r h1 h2
    have := h.upper_letter r h1 h2
    exact ⟨by show (sampleLetter r || _ || _) = true; rw [show sampleLetter r = true from this.1]; rfl, this.2⟩
  · intro r h1 h2
    have := h.lower_letter r h1 h2
    exact ⟨by show (sampleLetter r || _ || _) = true; rw [show sampleLetter r = true from this.1]; rfl, this.2⟩
  · intro r hr
    show validRune (if r = 0xC9 then 0xE9 else sampleUnicode.toLower r) = true
    split
    · decide
    · exact h.lower_valid r hr
  · intro r hr
    show (if r = 0xC9 then 0xE9 else sampleUnicode.toLower r) = _
    rw [if_neg (by omega)]
    exact h.lower_ascii r hr

attribute [local instance] accentUnicode accentUnicodeOK sampleF64 sampleF32 sampleNarrow

def capitalOps (r : Rune) : List (DictOp Int) := [.add (encode [r, 20013]) 900 (str "x"), .add (encode [20108]) 900 (str "x"), .recalc]
def capitalDict (r : Rune) : Dictionary Int Int := (runOps {} (capitalOps r) Dictionary.new).getD Dictionary.new

/-- C43: with the word `É中` stored, `Segment` finds it in a text, but `Cut(text, false)` and `CutAll` do not (by
`C43_capital_lost`, in no text); the other way round, a stored `é中` is found by `Cut` in the text `É中` and not by `Segment`. -/
theorem C43_capital_witness :
    ((runOps {} (capitalOps 0xC9) (Dictionary.new : Dictionary Int Int)).isSome ∧ (runOps {} (capitalOps 0xE9) (Dictionary.new : Dictionary Int Int)).isSome) ∧
    segSlice {} (capitalDict 0xC9) 3 (encode [0xC9, 20013]) false = some [encode [0xC9, 20013]] ∧
    cut {} (capitalDict 0xC9) 3 (fun _ => none) (encode [0xC9, 20013]) (some false) = some [encode [0xE9], encode [20013]] ∧
    cutAll {} (capitalDict 0xC9) (encode [0xC9, 20013]) = some [encode [0xE9], encode [20013]] ∧
    segSlice {} (capitalDict 0xE9) 3 (encode [0xC9, 20013]) false = some [encode [0xC9], encode [20013]] ∧
    cut {} (capitalDict 0xE9) 3 (fun _ => none) (encode [0xC9, 20013]) (some false) = some [encode [0xE9, 20013]] := by decide +kernel

/-- É is the lower case of no character. -/
example : ∀ x, (accentUnicode).toLower x ≠ 0xC9 := by
  intro x
  show (if x = 0xC9 then 0xE9 else if decide (65 ≤ x) && decide (x ≤ 90) then x + 32 else x) ≠ 0xC9
  split
  · decide
  · split
    · next h => simp at h; omega
    · assumption

/-- Texts with the same characters after lower-casing that differ in more than ASCII case. -/
example : (runes (encode [0xC9, 65])).map accentUnicode.toLower = (runes (encode [0xE9, 97])).map accentUnicode.toLower ∧
    (encode [0xC9, 65]).map lowerAscii ≠ (encode [0xE9, 97]).map lowerAscii := by decide +kernel
end examples
end Gse
