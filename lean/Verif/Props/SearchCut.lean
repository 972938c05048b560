import Verif.Spec.SearchCut
import Verif.Props.Found
import Verif.Props.Joined
import Verif.Props.Local
import Verif.Props.Print
import Verif.Props.SeamHmm

/-!
# Search mode and the cut it is made of

C123: what `CutSearch` with a flag answers determines what `Cut` answers and the text; it splits at a seam as `Cut` does; it depends on the
words that occur in the text only; and the HMM costs it no term of two or more characters.
-/

namespace Gse
open Spec

set_option linter.unusedSectionVars false

section
variable {F D : Type} [F64 F] [F32 D] [Narrow F D] [Unicode]

theorem flatMap_end_inj {α β : Type} (P : α → Prop) (g : α → List β) (e : α → β) (hi : ∀ x y, P x → P y → e x = e y → x = y) :
    ∀ n (a b : List α), a.length ≤ n → (∀ x ∈ a, P x) → (∀ x ∈ b, P x) → a.flatMap (fun w => g w ++ [e w]) = b.flatMap (fun w => g w ++ [e w]) → a = b
  | n, a, b, hn, ha, hb, h => by
    rcases List.eq_nil_or_concat a with rfl | ⟨a', x, rfl⟩ <;> rcases List.eq_nil_or_concat b with rfl | ⟨b', y, rfl⟩
    · rfl
    · simp at h
    · simp at h
    · simp only [List.concat_eq_append, List.flatMap_append, List.flatMap_cons, List.flatMap_nil, List.append_nil, ← List.append_assoc] at h
      have hx := hi x y (ha x (by simp)) (hb y (by simp)) (by simpa using List.append_inj_right' h rfl)
      subst hx
      have h2 := List.append_cancel_right (List.append_cancel_right h)
      match n, hn with
      | 0, hn => simp at hn
      | n + 1, hn =>
        rw [flatMap_end_inj P g e hi n a' b' (by simpa using hn) (fun z hz => ha z (by simp [hz])) (fun z hz => hb z (by simp [hz])) h2]

/-- C123: two texts for which `CutSearch` with a flag answers the same are cut the same by `Cut` with that flag: nothing is lost by adding
the terms. -/
theorem C123_cut (cfg : SplitCfg) (ops : List (DictOp F)) (d : Dictionary F D) (hr : runOps cfg ops Dictionary.new = some d)
    (fuel : Nat) (hmmCut : Bytes → Option (List Bytes)) (s s' : Bytes) (hmm hmm' : Bool)
    (h : cutSearch cfg d fuel hmmCut s (some hmm) = cutSearch cfg d fuel hmmCut s' (some hmm')) :
    cut cfg d fuel hmmCut s (some hmm) = cut cfg d fuel hmmCut s' (some hmm') := by
  rw [C32_search cfg ops d hr, C32_search cfg ops d hr] at h
  revert h
  generalize cut cfg d fuel hmmCut s (some hmm) = a
  generalize cut cfg d fuel hmmCut s' (some hmm') = b
  intro h
  cases a <;> cases b <;> simp at h ⊢
  exact flatMap_end_inj (fun _ => True) (fun w => gramsOf d (runes w) 2 ++ gramsOf d (runes w) 3) id (fun _ _ _ _ e => e) _ _ _ (Nat.le_refl _)
    (fun _ _ => trivial) (fun _ _ => trivial) (by simpa using h)

/-- C123: and they are the same text, up to invalid bytes and, with `ToLower`, letter case. -/
theorem C123_text [UnicodeOK] (cfg : SplitCfg) (ops : List (DictOp F)) (d : Dictionary F D) (hr : runOps cfg ops Dictionary.new = some d)
    (fuel : Nat) (c : HmmConst F) (em : EmitModel F) (s s' : Bytes) (hmm hmm' : Bool)
    (h : cutSearch cfg d fuel (fun t => hmmCut c em t []) s (some hmm) = cutSearch cfg d fuel (fun t => hmmCut c em t []) s' (some hmm')) :
    dagText cfg s = dagText cfg s' := by
  have h1 := C123_cut cfg ops d hr fuel _ s s' hmm hmm' h
  obtain ⟨o, k1, k2, k3⟩ := cut_runes hr fuel c em s (some hmm)
  obtain ⟨o', k1', k2', k3'⟩ := cut_runes hr fuel c em s' (some hmm')
  rw [k1, k1'] at h1
  cases h1
  exact k3.symm.trans k3'

theorem search_append [UnicodeOK] {cfg : SplitCfg} {ops : List (DictOp F)} {d : Dictionary F D} (hr : runOps cfg ops Dictionary.new = some d)
    {fuel : Nat} {hm : Bytes → Option (List Bytes)} {hmm : Bool} {s t : Bytes} {x y : List Bytes}
    (ht : cut cfg d fuel hm t (some hmm) = some y) (hs : cut cfg d fuel hm s (some hmm) = some (x ++ y)) :
    ∃ X Y, cutSearch cfg d fuel hm t (some hmm) = some Y ∧ cutSearch cfg d fuel hm s (some hmm) = some (X ++ Y) ∧
      (∀ u, cut cfg d fuel hm u (some hmm) = some x → cutSearch cfg d fuel hm u (some hmm) = some X) := by
  refine ⟨_, _, by rw [C32_search cfg ops d hr, ht]; rfl, by rw [C32_search cfg ops d hr, hs, Option.map_some, List.flatMap_append], ?_⟩
  intro u hu
  rw [C32_search cfg ops d hr, hu]
  rfl

/-- C123: what comes before a seam has no influence on what `CutSearch(str, false)` answers for the text after it; without rounding the
answer for both parts is that for the first followed by that for the second. -/
theorem C123_seam [UnicodeOK] [F64Laws F] (cfg : SplitCfg) (ops : List (DictOp F)) (d : Dictionary F D)
    (hr : runOps cfg ops Dictionary.new = some d) (hg : GoodScores d) (fuel : Nat) (hm : Bytes → Option (List Bytes)) (a b : Bytes)
    (hb : BeginsChar b) (hn : NoSpanRunes d (dagText cfg a) (dagText cfg b)) (he : NoEngSeam (dagText cfg a) (dagText cfg b)) :
    ∃ x y, cutSearch cfg d fuel hm b (some false) = some y ∧ cutSearch cfg d fuel hm (a ++ b) (some false) = some (x ++ y) ∧
      ([F64Shift F] → FinScores d (dagText cfg a) → FinScores d (dagText cfg b) → cutSearch cfg d fuel hm a (some false) = some x) := by
  obtain ⟨x, y, h1, h2, _⟩ := C87_cut cfg ops d hr hg a b hb hn he
  obtain ⟨X, Y, k1, k2, k3⟩ := search_append (fuel := fuel) (hm := hm) (hmm := false) hr h1 h2
  refine ⟨X, Y, k1, k2, ?_⟩
  intro _ fa fb
  obtain ⟨x', y', g1, g2, g3⟩ := C87_cut_exact cfg ops d hr hg a b hb hn he fa fb
  rw [h1] at g2; cases g2
  rw [h2] at g3
  cases List.append_cancel_right (Option.some.inj g3)
  exact k3 a g1

/-- C123: the same for `CutSearch(str, true)`, with the conditions of `Cut(str, true)`. -/
theorem C123_seam_hmm [UnicodeOK] [F64Laws F] (cfg : SplitCfg) (ops : List (DictOp F)) (d : Dictionary F D)
    (hr : runOps cfg ops Dictionary.new = some d) (hg : GoodScores d) (fuel : Nat) (c : HmmConst F) (em : EmitModel F) (a b : Bytes)
    (hb : BeginsChar b) (hk : KindSeamRunes (dagText cfg a) (dagText cfg b)) (hn : NoSpanRunes d (dagText cfg a) (dagText cfg b))
    (hn' : NoSpanKept d (dagText cfg a) (dagText cfg b)) (fb : StartFree d (dagText cfg b)) :
    ∃ x y, cutSearch cfg d fuel (fun t => hmmCut c em t []) b (some true) = some y ∧
      cutSearch cfg d fuel (fun t => hmmCut c em t []) (a ++ b) (some true) = some (x ++ y) ∧
      ([F64Shift F] → EndFree d (dagText cfg a) → FinScores d (dagText cfg a) → FinScores d (dagText cfg b) →
        cutSearch cfg d fuel (fun t => hmmCut c em t []) a (some true) = some x) := by
  obtain ⟨x, y, h1, h2, _⟩ := C88_cut cfg ops d hr hg c em a b hb hk hn hn' fb
  obtain ⟨X, Y, k1, k2, k3⟩ := search_append (fuel := fuel) (hm := fun t => hmmCut c em t []) (hmm := true) hr h1 h2
  refine ⟨X, Y, k1, k2, ?_⟩
  intro _ fa sa sb
  obtain ⟨x', y', g1, g2, g3⟩ := C88_cut_exact cfg ops d hr hg c em a b hb hk hn hn' fa fb sa sb
  rw [h1] at g2; cases g2
  rw [h2] at g3
  cases List.append_cancel_right (Option.some.inj g3)
  exact k3 a g1

theorem gramsOf_on {d d' : Dictionary F D} {rs xs : List Rune} (h : FreqOn d d' rs) (hx : xs <:+: rs) (n : Nat) : gramsOf d xs n = gramsOf d' xs n := by
  unfold gramsOf
  split
  · rfl
  · congr 1
    exact List.filter_congr fun i _ => h.posWord ((slice_infix_of i (i + n)).trans hx)

theorem search_of_cut [UnicodeOK] {cfg : SplitCfg} {s : Bytes} {ops ops' : List (DictOp F)} {d d' : Dictionary F D}
    (hr : runOps cfg ops Dictionary.new = some d) (hr' : runOps cfg ops' Dictionary.new = some d') (h : FreqOn d d' (dagText cfg s))
    (fuel : Nat) (c : HmmConst F) (em : EmitModel F) (b : Bool)
    (k2 : cut cfg d fuel (fun t => hmmCut c em t []) s (some b) = cut cfg d' fuel (fun t => hmmCut c em t []) s (some b)) :
    ∃ out, cutSearch cfg d fuel (fun t => hmmCut c em t []) s (some b) = some out ∧
      cutSearch cfg d' fuel (fun t => hmmCut c em t []) s (some b) = some out := by
  obtain ⟨ws, k1, _⟩ := cut_runes hr fuel c em s (some b)
  rw [k1] at k2
  refine ⟨_, by rw [C32_search cfg ops d hr, k1]; rfl, ?_⟩
  rw [C32_search cfg ops' d' hr', ← k2, Option.map_some]
  congr 1
  refine List.flatMap_congr fun w hw => ?_
  have hi := cut_infix hr fuel c em s b k1 hw
  rw [gramsOf_on h hi, gramsOf_on h hi]

/-- C123: two histories after which the words that occur in the text have the same entries, each single character of the text is found the
same way and the totals have the same logarithm: `CutSearch` answers the same, with and without the HMM. -/
theorem C123_local [UnicodeOK] (cfg : SplitCfg) (s : Bytes) (ops ops' : List (DictOp F)) (hl : ops.length ≤ Trie.valueLimit) (hl' : ops'.length ≤ Trie.valueLimit)
    (d d' : Dictionary F D) (hr : runOps cfg ops Dictionary.new = some d) (hr' : runOps cfg ops' Dictionary.new = some d')
    (hc : ∀ k, OccursRunes cfg s k → (absRun cfg ops).content k = (absRun cfg ops').content k)
    (hf : ∀ r ∈ dagText cfg s, d.find (encode [r]) = d'.find (encode [r])) (ht : F64.log d.totalFreq = F64.log d'.totalFreq)
    (fuel : Nat) (c : HmmConst F) (em : EmitModel F) (b : Bool) :
    ∃ out, cutSearch cfg d fuel (fun t => hmmCut c em t []) s (some b) = some out ∧
      cutSearch cfg d' fuel (fun t => hmmCut c em t []) s (some b) = some out := by
  exact search_of_cut hr hr' (freqOn_of_content hl hl' hr hr' hc) fuel c em b
    ((C94_cut cfg s ops ops' hl hl' d d' hr hr' hc).2 hf ht fuel (fun t => hmmCut c em t []) b)

/-- C123: removing a word that does not occur in the text and begins with no character of it changes nothing for `CutSearch`. -/
theorem C123_removed [UnicodeOK] (cfg : SplitCfg) (s w : Bytes) (hw : ¬ OccursRunes cfg s (normText cfg w)) (ops : List (DictOp F)) (hl : ops.length + 1 ≤ Trie.valueLimit)
    (d d' : Dictionary F D) (hr : runOps cfg ops Dictionary.new = some d) (h1 : (DictOp.remove w).step cfg d = some d')
    (hp : ∀ r ∈ dagText cfg s, ¬ encode [r] <+: normText cfg w) (fuel : Nat) (c : HmmConst F) (em : EmitModel F) (b : Bool) :
    ∃ out, cutSearch cfg d fuel (fun t => hmmCut c em t []) s (some b) = some out ∧
      cutSearch cfg d' fuel (fun t => hmmCut c em t []) s (some b) = some out := by
  have hr1 : runOps cfg (ops ++ [.remove w]) Dictionary.new = some d' := by
    rw [runOps_append, hr]
    simpa only [Option.bind_some, runOps, Option.bind_fun_some] using h1
  have hl1 : (ops ++ [DictOp.remove (F := F) w]).length ≤ Trie.valueLimit := by simpa using hl
  refine search_of_cut hr hr1 (freqOn_of_content (by omega) hl1 hr hr1 fun k hk => ?_) fuel c em b
    ((C94_removed_cut cfg s w hw ops hl d d' hr h1).2 hp fuel _ b)
  rw [absRun_snoc]
  exact (if_neg (c := k = normText cfg w) fun e => hw (e ▸ hk)).symm

theorem piece_by_text {d : Dictionary F D} {t t' : Token F D} (h : IsPiece d t) (h' : IsPiece d t') (e : t.text.flatten = t'.text.flatten) : t = t' := by
  rcases h.2 with h1 | ⟨w, rfl, h1⟩ <;> rcases h'.2 with h2 | ⟨w', rfl, h2⟩
  · rw [e, h2] at h1; exact (Option.some.inj h1).symm
  · simp only [unknownTok, List.flatten_cons, List.flatten_nil, List.append_nil] at e; rw [e, h2] at h1; cases h1
  · simp only [unknownTok, List.flatten_cons, List.flatten_nil, List.append_nil] at e; rw [← e, h1] at h2; cases h2
  · simp only [unknownTok, List.flatten_cons, List.flatten_nil, List.append_nil] at e; rw [e]

theorem slice_blocks {d : Dictionary F D} {fuel : Nat} {segs : List Seg} {ts : List (Token F D)}
    (h : List.Forall₂ (fun (g : Seg) t => d.deref g.tok = some t ∧ g.stop = g.start + t.text.flatten.length) segs ts) {o : List Bytes}
    (ho : toSlice d fuel segs true = some o) :
    o = ts.flatMap (fun t => (subLoop d (tokenToSlice d (fuel - 1)) t.segments true).getD [] ++ [t.text.flatten]) ∧
    toSlice d fuel segs false = some (ts.map fun t => t.text.flatten) := by
  simp only [toSlice, if_true, Bool.false_eq_true, if_false] at ho ⊢
  induction h generalizing o with
  | nil => simp [concatOpt] at ho ⊢; exact ho
  | @cons g t segs ts hg _ ih =>
    unfold concatOpt at ho ⊢
    cases ht : tokenToSlice d fuel g.tok with
    | none => simp [ht] at ho
    | some x =>
      cases hc : concatOpt (fun s => tokenToSlice d fuel s.tok) segs with
      | none => simp [ht, hc] at ho
      | some y =>
        obtain ⟨i1, i2⟩ := ih hc
        simp [ht, hc] at ho
        subst ho
        have hx : x = (subLoop d (tokenToSlice d (fuel - 1)) t.segments true).getD [] ++ [t.text.flatten] := by
          cases fuel with
          | zero => simp [tokenToSlice] at ht
          | succ n =>
            simp only [tokenToSlice, hg.1] at ht
            cases hs : subLoop d (tokenToSlice d n) t.segments true with
            | none => simp [hs] at ht
            | some z =>
              simp [hs, textSliceToString_eq] at ht
              simp [hs, ht]
        refine ⟨by rw [i1, hx, List.flatMap_cons], ?_⟩
        rw [i2]
        simp [hg.1, textSliceToString_eq]

/-- C123: the same for `Slice(str, true)`, which is `CutSearch(str)`: among texts that are not one word, two with the same answer are the same
text, up to letter case with `ToLower`, and are cut into the same words. -/
theorem C123_slice [UnicodeOK] (cfg : SplitCfg) (ops : List (DictOp F)) (d : Dictionary F D) (hr : runOps cfg ops Dictionary.new = some d)
    (fuel : Nat) (s s' : Bytes) (hs : (splitTextToWords cfg s).length ≠ 1) (hs' : (splitTextToWords cfg s').length ≠ 1) (o : List Bytes)
    (h : segSlice cfg d fuel s true = some o) (h' : segSlice cfg d fuel s' true = some o) :
    normText cfg s = normText cfg s' ∧ ∃ segs segs' ws, internalSegment cfg (some d) s true = some segs ∧
      internalSegment cfg (some d) s' true = some segs' ∧ toSlice d fuel segs false = some ws ∧ toSlice d fuel segs' false = some ws := by
  obtain ⟨segs, ts, a1, a2, a3, _⟩ := segment_tokens hr s true (fun x => hs x.2)
  obtain ⟨segs', ts', b1, b2, b3, _⟩ := segment_tokens hr s' true (fun x => hs' x.2)
  simp only [segSlice, a1, b1, Option.bind_some] at h h'
  obtain ⟨c1, c2⟩ := slice_blocks a2 h
  obtain ⟨e1, e2⟩ := slice_blocks b2 h'
  have : ts = ts' := flatMap_end_inj (IsPiece d) _ (fun t => t.text.flatten) (fun _ _ x y e => piece_by_text x y e) _ ts ts' (Nat.le_refl _) a3.2 b3.2
    (c1.symm.trans e1)
  subst this
  refine ⟨?_, segs, segs', _, a1, b1, c2, e2⟩
  rw [← C01_split_lossless cfg s, ← C01_split_lossless cfg s', ← a3.1, b3.1]

/-- C123: and for `String(str, true)`, unless a stored word holds a slash or a tag a blank. -/
theorem C123_string [UnicodeOK] (hu : SlashPlain) (cfg : SplitCfg) (ops : List (DictOp F)) (d : Dictionary F D) (hr : runOps cfg ops Dictionary.new = some d)
    (hp : ∀ op ∈ ops, OpPrints cfg op) (fuel : Nat) (s s' : Bytes) (hs : (splitTextToWords cfg s).length ≠ 1) (hs' : (splitTextToWords cfg s').length ≠ 1)
    (hf : (splitTextToWords cfg s).length < fuel) (hf' : (splitTextToWords cfg s').length < fuel)
    (h : segString cfg d fuel s true = segString cfg d fuel s' true) : normText cfg s = normText cfg s' := by
  have e := (C105_string hu cfg cfg ops ops d d hr hr hp hp s s' true true fuel hf hf' h).2
  obtain ⟨o, ho⟩ := C16_output_total cfg ops d hr s true
  obtain ⟨_, k, _⟩ := ho fuel hf
  exact (C123_slice cfg ops d hr fuel s s' hs hs' _ k (by rw [← e, k])).1

theorem oneChar_runes {w : Bytes} (h : OneChar w) : (runes w).length = 1 := by
  obtain ⟨r, rfl⟩ := h
  by_cases hv : validRune r = true
  · rw [runes_encode _ (by simpa using hv)]; rfl
  · have h8 : ¬ r < 0x800 := fun h => hv (by simp [validRune]; omega)
    have h7 : ¬ r < 0x80 := by omega
    have : encode [r] = [0xEF, 0xBF, 0xBD] := by simp [encode, encodeRune, h7, h8, hv]
    rw [this]
    decide +kernel

/-- C123: in a text without ASCII letters and digits the HMM costs the search mode no term of two or more characters: those of
`CutSearch(str, false)` are, in their order, among those of `CutSearch(str, true)`. -/
theorem C123_hmm [UnicodeOK] (cfg : SplitCfg) (ops : List (DictOp F)) (d : Dictionary F D) (hr : runOps cfg ops Dictionary.new = some d)
    (c : HmmConst F) (em : EmitModel F) (fuel : Nat) (s : Bytes) (hs : ∀ r ∈ dagText cfg s, asciiAlnum r = false) :
    ∃ out out', cutSearch cfg d fuel (fun t => hmmCut c em t []) s (some false) = some out ∧
      cutSearch cfg d fuel (fun t => hmmCut c em t []) s (some true) = some out' ∧ (longItems out).Sublist (longItems out') := by
  obtain ⟨o, o', h1, h2, gs, g1, g2, g3⟩ := C111_joins cfg ops d hr c em fuel s hs
  refine ⟨_, _, by rw [C32_search cfg ops d hr, h1]; rfl, by rw [C32_search cfg ops d hr, h2]; rfl, ?_⟩
  subst g1 g2
  clear h1 h2
  induction gs with
  | nil => simp [longItems]
  | cons g gs ih =>
    simp only [List.flatten_cons, List.map_cons, List.flatMap_append, List.flatMap_cons]
    unfold longItems
    rw [List.filter_append, List.filter_append]
    refine List.Sublist.append ?_ (ih fun x hx => g3 x (List.mem_cons_of_mem _ hx))
    rcases g3 g (List.mem_cons_self ..) with ⟨w, rfl⟩ | ⟨_, hw⟩
    · simp
    · have : ((g.flatMap fun w => gramsOf d (runes w) 2 ++ gramsOf d (runes w) 3 ++ [w]).filter fun w => decide (2 ≤ (runes w).length)) = [] := by
        rw [List.filter_eq_nil_iff]
        intro x hx
        obtain ⟨w, hm, hx⟩ := List.mem_flatMap.mp hx
        have hw1 := oneChar_runes (hw w hm)
        simp [gramsOf, hw1] at hx
        subst hx
        simp [hw1]
      rw [this]
      exact List.nil_sublist _

end

section examples
attribute [local instance] sampleUnicode sampleUnicodeOK sampleF64 sampleF32 sampleNarrow sampleLaws64

/-- Two texts with the same terms in another order: the answers differ, and so do the cuts. A word adds its stored parts in front. -/
example : cutSearch {} dagDict 9 (fun _ => none) (str "abc ab") (some false) = some [str "ab", str "abc", str " ", str "ab"] ∧
    cutSearch {} dagDict 9 (fun _ => none) (str "ab abc") (some false) = some [str "ab", str " ", str "ab", str "abc"] ∧
    cutSearch {} dagDict 9 (fun _ => none) (str "ABC ab") (some false) = cutSearch {} dagDict 9 (fun _ => none) (str "abc AB") (some false) ∧
    cut {} dagDict 9 (fun _ => none) (str "ABC ab") (some false) = some [str "abc", str " ", str "ab"] := by
  refine ⟨?_, ?_, ?_, ?_⟩ <;> decide +kernel

/-- C123: the exception is real: `Slice(str, true)` answers nothing for a text of one word, whichever word it is. -/
theorem C123_one_word : segSlice {} dagDict 9 (str "a") true = some [] ∧ segSlice {} dagDict 9 (str "b") true = some [] ∧
    normText {} (str "a") ≠ normText {} (str "b") := by
  refine ⟨?_, ?_, ?_⟩ <;> decide +kernel

/-- Two texts of four words that differ in letter case, with the same answer. -/
example : (splitTextToWords {} (encode [0x4E2D, 0x56FD, 32] ++ str "AB")).length = 4 ∧
    segSlice {} dagDict 9 (encode [0x4E2D, 0x56FD, 32] ++ str "AB") true = some [encode [0x4E2D], encode [0x56FD], str " ", str "ab"] ∧
    segSlice {} dagDict 9 (encode [0x4E2D, 0x56FD, 32] ++ str "aB") true = some [encode [0x4E2D], encode [0x56FD], str " ", str "ab"] := by
  refine ⟨?_, ?_, ?_⟩ <;> decide +kernel

def bothOps : List (DictOp Int) := [.add (str "ab") 4 [], .add (str "bc") 4 []]

/-- C123: `CutAll` does not determine the text: with "ab" and "bc" stored, "abc" and "abbc" have the same answer. -/
theorem C123_all : ∃ d : Dictionary Int Int, runOps {} bothOps Dictionary.new = some d ∧
    cutAll {} d (str "abc") = some [str "ab", str "bc"] ∧ cutAll {} d (str "abbc") = some [str "ab", str "bc"] := by
  obtain ⟨d, hd⟩ := Option.isSome_iff_exists.1
    (by decide +kernel : (runOps (D := Int) {} bothOps Dictionary.new).isSome = true)
  have h1 : ((runOps (D := Int) {} bothOps Dictionary.new).map fun d =>
    (cutAll {} d (str "abc"), cutAll {} d (str "abbc"))) = some (some [str "ab", str "bc"], some [str "ab", str "bc"]) := by decide +kernel
  rw [hd] at h1
  simp only [Option.map_some, Option.some.injEq, Prod.mk.injEq] at h1
  exact ⟨d, hd, h1.1, h1.2⟩

/-- The conditions of `C123_seam_hmm` are those of `seam_case`. -/
example : ∃ (d : Dictionary Int Int) (x y : List Bytes), runOps {} seamOps Dictionary.new = some d ∧
    cutSearch {} d 9 (fun t => hmmCut hmmConst hmmEmit t []) (encode [0x4EBA, 0x4E2D, 0x56FD]) (some true) = some y ∧
    cutSearch {} d 9 (fun t => hmmCut hmmConst hmmEmit t []) (encode [0x4E2D, 0x56FD, 0x4EBA, 0x4E2D, 0x56FD, 32] ++ encode [0x4EBA, 0x4E2D, 0x56FD])
      (some true) = some (x ++ y) := by
  obtain ⟨d, h1, h2, h3, h4, h5, h6, _, h7, _⟩ := seam_case
  obtain ⟨x, y, k1, k2, _⟩ := C123_seam_hmm {} seamOps d h1 h2 9 hmmConst hmmEmit _ _ h3 h4 h5 h6 h7
  exact ⟨d, x, y, h1, k1, k2⟩

/-- The conditions of `C123_seam` hold in the same case. -/
example : ∃ (d : Dictionary Int Int) (x y : List Bytes), runOps {} seamOps Dictionary.new = some d ∧
    cutSearch {} d 9 (fun _ => none) (encode [0x4EBA, 0x4E2D, 0x56FD]) (some false) = some y ∧
    cutSearch {} d 9 (fun _ => none) (encode [0x4E2D, 0x56FD, 0x4EBA, 0x4E2D, 0x56FD, 32] ++ encode [0x4EBA, 0x4E2D, 0x56FD])
      (some false) = some (x ++ y) := by
  obtain ⟨d, h1, h2, h3, h4, h5, _⟩ := seam_case
  have ea : dagText {} (encode [0x4E2D, 0x56FD, 0x4EBA, 0x4E2D, 0x56FD, 32]) = [0x4E2D, 0x56FD, 0x4EBA, 0x4E2D, 0x56FD, 32] := by decide +kernel
  obtain ⟨x, y, k1, k2, _⟩ := C123_seam {} seamOps d h1 h2 9 (fun _ => none) _ _ h3 h5 (by
    intro u v hu hv
    rw [ea] at hu
    cases hu
    rintro ⟨h, _⟩
    exact absurd h (by decide))
  exact ⟨d, x, y, h1, k1, k2⟩

/-- The conditions of `C123_removed`, and with them those of `C123_local`: 中国人 and 北京. -/
example : localOps.length + 1 ≤ Trie.valueLimit ∧ ¬ OccursRunes {} (encode [0x4E2D, 0x56FD, 0x4EBA]) (normText {} (encode [0x5317, 0x4EAC])) ∧
    (∀ r ∈ dagText {} (encode [0x4E2D, 0x56FD, 0x4EBA]), ¬ encode [r] <+: normText {} (encode [0x5317, 0x4EAC])) ∧
    ((runOps (D := Int) {} localOps Dictionary.new).bind fun d => (DictOp.remove (encode [0x5317, 0x4EAC])).step {} d).isSome = true := by
  refine ⟨by decide +kernel, by rw [occursRunes_iff]; decide +kernel, by decide +kernel, by decide +kernel⟩

/-- The HMM adds 中国 and keeps 人民. -/
example : (∀ r ∈ dagText {} (encode [0x4E2D, 0x56FD, 0x4EBA, 0x6C11]), asciiAlnum r = false) ∧
    (cutSearch {} joinDict 9 (fun t => hmmCut hmmConst hmmEmit t []) (encode [0x4E2D, 0x56FD, 0x4EBA, 0x6C11]) (some false)).map longItems =
      some [encode [0x4EBA, 0x6C11]] ∧
    (cutSearch {} joinDict 9 (fun t => hmmCut hmmConst hmmEmit t []) (encode [0x4E2D, 0x56FD, 0x4EBA, 0x6C11]) (some true)).map longItems =
      some [encode [0x4E2D, 0x56FD], encode [0x4EBA, 0x6C11]] := by
  refine ⟨?_, ?_, ?_⟩ <;> decide +kernel

/-- C123: with letters the HMM can cost a stored term: "ab" is reported without the HMM and not with it. -/
theorem C123_letters : ∃ d : Dictionary Int Int, runOps {} joinOps Dictionary.new = some d ∧
    (cutSearch {} d 9 (fun t => hmmCut hmmConst hmmEmit t []) (str "ab") (some false)).map longItems = some [str "ab"] ∧
    (cutSearch {} d 9 (fun t => hmmCut hmmConst hmmEmit t []) (str "ab") (some true)).map longItems = some [] := by
  refine ⟨joinDict, joinDict_run, ?_, ?_⟩ <;> decide +kernel

end examples

end Gse
