import Verif.Spec.Found
import Verif.Props.Size
import Verif.Props.Case
import Verif.Proofs.SeamHmm

/-! # C100: what one call finds in a query, CutAll finds in every text that contains the query -/

namespace Gse
open Spec

set_option linter.unusedSectionVars false

section
variable [U : Unicode] {F D : Type} [F64 F] [F32 D] [Narrow F D]

theorem slice_infix_of {T : List Rune} (a b : Nat) : slice T a b <:+: T := by
  unfold slice
  exact List.IsInfix.trans (List.take_prefix _ _).isInfix (List.drop_suffix _ _).isInfix

theorem dagText_infix {cfg : SplitCfg} {q s : Bytes} (h : runes q <:+: runes s) : dagText cfg q <:+: dagText cfg s := by
  unfold dagText
  split
  · exact h.map _
  · exact h

/-- C100: `CutAll` is an index: a word of two or more characters with a positive frequency is among the items exactly when
it occurs in the text, wherever, whatever else is stored and however the occurrences overlap. -/
theorem C100_index [UnicodeOK] (cfg : SplitCfg) (ops : List (DictOp F)) (hl : ops.length ≤ Trie.valueLimit) (d : Dictionary F D)
    (hr : runOps cfg ops Dictionary.new = some d) (s : Bytes) :
    ∃ out, cutAll cfg d s = some out ∧ ∀ w, Indexed (absRun cfg ops).content w → (w ∈ out ↔ runes w <:+: dagText cfg s) := by
  obtain ⟨ranges, h1, _, h3, h4, _⟩ := C24_occurrences cfg ops d hr s
  refine ⟨_, h1, ?_⟩
  rintro w ⟨hv, h2, hc⟩
  have hval : ∀ r ∈ dagText cfg s, validRune r = true := by rw [← dagRunes_eq]; exact dagRunes_valid cfg s
  constructor
  · intro hw
    obtain ⟨p, hp, rfl⟩ := List.mem_map.mp hw
    rw [runes_encode _ fun r hr => hval r ((slice_infix_of p.1 p.2).subset hr)]
    exact slice_infix_of _ _
  · rintro ⟨a, b, e⟩
    have es : slice (dagText cfg s) a.length (a.length + (runes w).length) = runes w := by
      rw [← e]; simp [slice]
    refine List.mem_map.mpr ⟨(a.length, a.length + (runes w).length), (h4 _ _ (by omega)).mpr ⟨?_, ?_⟩, ?_⟩
    · rw [← e]; simp
    · rw [es, C26_posWord cfg ops hl d hr, hv]; exact hc
    · show encode _ = w
      rw [es]; exact hv

theorem cut_infix [UnicodeOK] {cfg : SplitCfg} {ops : List (DictOp F)} {d : Dictionary F D}
    (hr : runOps cfg ops Dictionary.new = some d) (fuel : Nat) (c : HmmConst F) (em : EmitModel F) (q : Bytes) (hmm : Bool)
    {ws : List Bytes} (h : cut cfg d fuel (fun t => hmmCut c em t []) q (some hmm) = some ws) {w : Bytes} (hw : w ∈ ws) :
    runes w <:+: dagText cfg q := by
  obtain ⟨out, h1, h2, h3⟩ := cut_runes hr fuel c em q (some hmm)
  rw [h] at h1; cases h1
  have e : cutText cfg q (some hmm) = dagText cfg q := rfl
  rw [← e, ← h3, h2]
  obtain ⟨a, b, rfl⟩ := List.append_of_mem hw
  exact ⟨a.flatMap runes, b.flatMap runes, by simp⟩

/-- C100: a query found by `Cut` or `CutSearch` with either flag is found in every text that holds the query: each stored
word of two or more characters among the items of the query is among the items `CutAll` gives for the text. So it is for
the items of `CutAll` for the query. -/
theorem C100_query [UnicodeOK] (cfg : SplitCfg) (ops : List (DictOp F)) (hl : ops.length ≤ Trie.valueLimit) (d : Dictionary F D)
    (hr : runOps cfg ops Dictionary.new = some d) (fuel : Nat) (c : HmmConst F) (em : EmitModel F) (q s : Bytes)
    (hq : runes q <:+: runes s) :
    ∃ out, cutAll cfg d s = some out ∧ ∀ w, Indexed (absRun cfg ops).content w →
      (∀ hmm, ∃ ws, cut cfg d fuel (fun t => hmmCut c em t []) q (some hmm) = some ws ∧ (w ∈ ws → w ∈ out)) ∧
      (∀ hmm, ∃ ws, cutSearch cfg d fuel (fun t => hmmCut c em t []) q (some hmm) = some ws ∧ (w ∈ ws → w ∈ out)) ∧
      ∃ ws, cutAll cfg d q = some ws ∧ (w ∈ ws → w ∈ out) := by
  obtain ⟨out, h1, h2⟩ := C100_index cfg ops hl d hr s
  obtain ⟨oq, g1, g2⟩ := C100_index cfg ops hl d hr q
  have ht := dagText_infix (cfg := cfg) hq
  refine ⟨out, h1, fun w hw => ⟨fun hmm => ?_, fun hmm => ?_, oq, g1, fun h => (h2 w hw).mpr (((g2 w hw).mp h).trans ht)⟩⟩
  · obtain ⟨ws, k1, _⟩ := cut_runes hr fuel c em q (some hmm)
    exact ⟨ws, k1, fun h => (h2 w hw).mpr ((cut_infix hr fuel c em q hmm k1 h).trans ht)⟩
  · obtain ⟨ws, k1, _⟩ := cut_runes hr fuel c em q (some hmm)
    refine ⟨_, by rw [C32_search cfg ops d hr, k1]; rfl, fun h => (h2 w hw).mpr ?_⟩
    obtain ⟨v, hv, h⟩ := List.mem_flatMap.mp h
    have hin := (cut_infix hr fuel c em q hmm k1 hv).trans ht
    have hval : ∀ r ∈ runes v, validRune r = true := by
      intro r hr
      have h5 := hin.subset hr
      rw [← dagRunes_eq] at h5
      exact dagRunes_valid cfg s r h5
    have grams : ∀ n, w ∈ gramsOf d (runes v) n → runes w <:+: runes v := by
      intro n hg
      unfold gramsOf at hg
      split at hg
      · simp at hg
      · obtain ⟨i, _, rfl⟩ := List.mem_map.mp hg
        rw [runes_encode _ fun r hr => hval r ((slice_infix_of i (i + n)).subset hr)]
        exact slice_infix_of _ _
    simp only [List.mem_append, List.mem_singleton] at h
    rcases h with (h | h) | rfl
    · exact (grams 2 h).trans hin
    · exact (grams 3 h).trans hin
    · exact hin

theorem runes_infix {w t : Bytes} (hv : ValidText w) (hne : w ≠ []) (h : w <:+: t) : runes w <:+: runes t := by
  obtain ⟨a, b, rfl⟩ := h
  refine ⟨runes a, runes b, ?_⟩
  rw [List.append_assoc, List.append_assoc, runes_append_start, runes_valid_append hv]
  intro c hc
  refine head_valid hv c ?_
  cases w with
  | nil => exact absurd rfl hne
  | cons x w => simpa using hc

theorem normText_lower [UnicodeOK] (cfg : SplitCfg) (t : Bytes) : (normText cfg t).map lowerAscii = t.map lowerAscii := by
  unfold normText
  rw [List.map_flatMap]
  conv => rhs; rw [← chars_flatten t]
  rw [List.map_flatten]
  rw [List.flatMap]
  congr 1
  apply List.map_congr_left
  intro u _
  unfold normChar
  split
  · rw [List.map_map]; exact List.map_congr_left fun b _ => lowerAscii_idem b
  · rfl

/-- C100: the same for the calls that use the segmenter: `Slice`, and with it `Cut` and `CutSearch` without a flag, in both
modes. With `ToLower` on, `CutAll` lowers every letter while the segmenter lowers ASCII letters only, so the word must have
no letter left to lower (`C43_capital_lost` shows a word with a capital that `Slice` reports and `CutAll` does not). -/
theorem C100_slice [UnicodeOK] (cfg : SplitCfg) (ops : List (DictOp F)) (hl : ops.length ≤ Trie.valueLimit) (d : Dictionary F D)
    (hr : runOps cfg ops Dictionary.new = some d) (q s : Bytes) (hq : runes q <:+: runes s) (mode : Bool) (fuel : Nat)
    (hf : (splitTextToWords cfg q).length < fuel) :
    ∃ out ws, cutAll cfg d s = some out ∧ segSlice cfg d fuel q mode = some ws ∧
      ∀ w, Indexed (absRun cfg ops).content w → (cfg.toLower = true → ∀ r ∈ runes w, U.toLower r = r) → w ∈ ws → w ∈ out := by
  obtain ⟨out, h1, h2⟩ := C100_index cfg ops hl d hr s
  obtain ⟨o, k1, k2, _⟩ := C96_slice cfg ops d hr q mode
  refine ⟨out, _, h1, (k1 fuel hf).2, fun w hw hlow h => (h2 w hw).mpr (List.IsInfix.trans ?_ (dagText_infix (cfg := cfg) hq))⟩
  obtain ⟨x, hx, rfl⟩ := List.mem_map.mp h
  obtain ⟨g, hne, ⟨a, b, e⟩, hg⟩ := k2 x hx
  have hin : x.text <:+: normText cfg q := by
    rw [← C01_split_lossless cfg q, ← e, hg]
    exact ⟨a.flatten, b.flatten, by simp⟩
  have hne' : x.text ≠ [] := by
    intro e; have := hw.2.1; rw [e] at this; simp [runes_nil] at this
  have hin := runes_infix hw.1 hne' hin
  unfold dagText
  split
  · rename_i hlo
    rw [← runes_lowerAscii _ _ (normText_lower cfg q)]
    have := hin.map U.toLower
    rwa [List.map_congr_left (hlow hlo), List.map_id'] at this
  · rename_i hlo
    have : normText cfg q = q := by
      unfold normText
      conv => rhs; rw [← chars_flatten q]
      rw [List.flatMap]
      congr 1
      conv => rhs; rw [← List.map_id (chars q)]
      apply List.map_congr_left
      intro u _
      simp [normChar, hlo]
    rwa [this] at hin

end

/-! Concrete cases -/

section examples
attribute [local instance] sampleUnicode sampleF64 sampleF32 sampleNarrow sampleUnicodeOK

example : dagOps.length ≤ Trie.valueLimit ∧ runOps {} dagOps (Dictionary.new : Dictionary Int Int) = some dagDict ∧
    Indexed (absRun {} dagOps).content (str "abc") ∧ Indexed (absRun {} dagOps).content (str "cd") ∧
    runes (str "abc") <:+: runes (str "xabcd") ∧ (splitTextToWords {} (str "abc")).length < 2 := by
  refine ⟨by decide +kernel, dagDict_run, ⟨?_, by decide +kernel, 64, [], by decide +kernel, by decide +kernel⟩,
    ⟨?_, by decide +kernel, 256, str "v", by decide +kernel, by decide +kernel⟩, ⟨runes (str "x"), runes (str "d"), by decide +kernel⟩,
    by decide +kernel⟩ <;> (unfold ValidText; decide +kernel)

/-- The other calls are no index: "abc" is found as a query and occurs in "xabcd", but `Cut` and `CutSearch` with a flag
do not report it there; only `CutAll` does. -/
theorem C100_missed :
    cut {} dagDict 9 (fun _ => none) (str "abc") (some false) = some [str "abc"] ∧
    cut {} dagDict 9 (fun _ => none) (str "abcd") (some false) = some [str "ab", str "cd"] ∧
    cutSearch {} dagDict 9 (fun _ => none) (str "abcd") (some false) = some [str "ab", str "cd"] ∧
    cutAll {} dagDict (str "abcd") = some [str "ab", str "abc", str "cd"] := by
  refine ⟨?_, ?_, ?_, ?_⟩ <;> decide +kernel

/-- Two characters are needed: "d" is stored with frequency 4, is an item of the query "d" and occurs in "abcd", but is not
among the items of `CutAll`. -/
theorem C100_short :
    (absRun {} dagOps).content (str "d") = some (4, []) ∧ cut {} dagDict 9 (fun _ => none) (str "d") (some false) = some [str "d"] ∧
    cutAll {} dagDict (str "d") = some [str "d"] ∧ str "d" ∉ ((cutAll {} dagDict (str "abcd")).getD []) := by
  refine ⟨?_, ?_, ?_, ?_⟩ <;> decide +kernel

end examples

end Gse
