import Verif.Proofs.HmmRuns
import Verif.Props.Dag

/-! # C28–C31, C51, C55: cutting with the hidden Markov model -/

namespace Gse
open Spec

set_option linter.unusedSectionVars false

section
variable {F D : Type} [F64 F] [F32 D] [Narrow F D]

/-- C29: for every model and every sequence of characters `Viterbi` returns one tag per character, every step legal, the
last tag E or S, together with the accumulated score of these tags. No float law is needed. -/
theorem C29_tagging (c : HmmConst F) (em : EmitModel F) (obs : List Rune) (h : obs ≠ []) :
    ∃ v ts, viterbi c em obs = some (v, ts) ∧ IsTagging obs ts ∧ v = tagScore c em obs ts := viterbi_tagging c em obs h

/-- C29: without characters `Viterbi` panics. -/
theorem C29_empty (c : HmmConst F) (em : EmitModel F) : viterbi c em [] = none := rfl

/-- C29: the tags are the best tagging, ties going to the larger state byte. -/
theorem C29_best [F64Laws F] (c : HmmConst F) (em : EmitModel F) (g : GoodModel c em) (obs : List Rune) (v : F) (ts : List Tag)
    (h : viterbi c em obs = some (v, ts)) : IsBestTagging c em obs ts := viterbi_best g h

/-- C29: there is only one best tagging. -/
theorem C29_unique (c : HmmConst F) (em : EmitModel F) (obs : List Rune) (ts ts' : List Tag)
    (h : IsBestTagging c em obs ts) (h' : IsBestTagging c em obs ts') : ts = ts' := bestTagging_unique h h'

/-- C51: for tags that follow each other legally, whatever the first and the last, the words end after each E and S and
together are all the characters. -/
theorem C51_legal (rs : List Rune) (ts : List Tag) (hl : ts.length = rs.length) (hc : List.IsChain Legal ts) :
    ∃ ws, assemble rs ts = some (ws.map encode) ∧ TagWords rs ts ws ∧ ws.flatten = rs ∧ ∀ w ∈ ws, w ≠ [] := by
  obtain ⟨ws, h1, h2⟩ := assemble_legal rs ts hl hc
  exact ⟨ws, h2, h1, tagWords_flatten h1⟩

/-- C51: a single character after an open word loses the open word. -/
theorem C51_bs (a b : Rune) : assemble [a, b] [.B, .S] = some [encodeRune b] := rfl

/-- C51: a new word inside an open word loses what was open. -/
theorem C51_mb (a b x y : Rune) : assemble [a, b, x, y] [.B, .M, .B, .E] = some [encode [x, y]] := rfl

/-- C51: a word continued after its end is emitted again. -/
theorem C51_em (a b x y : Rune) : assemble [a, b, x, y] [.B, .E, .M, .E] = some [encode [a, b], encode [a, b, x, y]] := rfl

/-- C51: too few tags panic. -/
theorem C51_short (rs : List Rune) (r : Rune) : assemble (r :: rs) [] = none := rfl

/-- The rounds of the loop are enough. -/
theorem hmmCutWith_of_inv {c : HmmConst F} {em : EmitModel F} {word skip : Matcher} {P : Bytes → Prop} {R : Bytes → List Bytes → Prop}
    (I : CutInv (internalCut c em) word skip P R) (s : Bytes) (hP : P s) :
    ∃ out, hmmCutWith c em word skip s = some out ∧ R s out := by
  obtain ⟨out, h1, h2⟩ := hmmCutLoop_inv I (s.length + 1) s [] hP (by omega)
  exact ⟨out, by rw [hmmCutWith, h1]; simp, h2⟩

/-- C31: two patterns that never match the empty string: on every well-formed text `HMMCut` returns, the items join to
the text and none is empty. -/
theorem C31_patterns [Unicode] (c : HmmConst F) (em : EmitModel F) (skip word : Matcher) (hs : MatcherOK skip) (hw : MatcherOK word)
    (s : Bytes) (h : ValidText s) :
    ∃ out, hmmCut c em s [skip, word] = some out ∧ out.flatten = s ∧ ∀ w ∈ out, w ≠ [] := by
  refine hmmCutWith_of_inv (P := ValidText) (hmmCut_lossless c em ?_ ?_) s h
  · intro s a b hP h
    obtain ⟨h1, h2⟩ := hw.range s a b h
    obtain ⟨h3, h4⟩ := hw.aligned s a b hP h
    exact ⟨h1, h2, validText_drop hP h3, validText_drop hP h4, fun _ => h4⟩
  · intro s a b hP h
    obtain ⟨h1, h2⟩ := hs.range s a b h
    obtain ⟨h3, h4⟩ := hs.aligned s a b hP h
    exact ⟨h1, h2, validText_drop hP h3, validText_drop hP h4⟩

/-- C31: only a skip pattern that never matches the empty string: the same for every byte string. -/
theorem C31_skip [Unicode] [UnicodeOK] (c : HmmConst F) (em : EmitModel F) (skip : Matcher)
    (hs : ∀ s a b, skip s = some (a, b) → a < b ∧ b ≤ s.length) (s : Bytes) :
    ∃ out, hmmCut c em s [skip] = some out ∧ out.flatten = s ∧ ∀ w ∈ out, w ≠ [] := by
  refine hmmCutWith_of_inv (P := fun _ => True) (hmmCut_lossless c em ?_ ?_) s trivial
  · intro s a b _ h
    obtain ⟨h1, h2, h3⟩ := regHan_range s a b h
    exact ⟨h1, h2, trivial, trivial, h3⟩
  · intro s a b _ h
    exact ⟨(hs s a b h).1, (hs s a b h).2, trivial, trivial⟩

/-- C31: whenever the loop reaches text at whose front the skip pattern matches the empty string and the word pattern
does not match, it never ends: no number of rounds is enough. -/
theorem C31_skip_empty_hangs (c : HmmConst F) (em : EmitModel F) (word skip : Matcher) (s : Bytes) (hs : s ≠ [])
    (h1 : skip s = some (0, 0)) (h2 : ∀ b, word s ≠ some (0, b)) (n : Nat) (acc : List Bytes) :
    hmmCutLoop (internalCut c em) word skip n s acc = none := by
  induction n generalizing acc with
  | zero => rfl
  | succ n ih =>
    rw [hmmCutLoop, if_neg (by simp [hs]), if_neg (by
      intro e
      obtain ⟨⟨a, b⟩, e1, e2⟩ := Option.map_eq_some_iff.1 e
      simp only at e2; subst e2; exact h2 b e1), if_neg (by simp [hs]), if_pos (by simp [h1])]
    simp only [h1, Option.map_some, Option.getD_some, List.take_zero, ne_eq, not_true_eq_false, if_false, List.drop_zero, cutJudge]
    have : locJudge (word s) (some (0, 0)) = some (0, 0) := by
      cases word s with
      | none => rfl
      | some p => simp [locJudge]
    rw [this]
    simp [ih]

/-- C31: whenever the loop reaches text at whose front the word pattern matches the empty string, it panics. -/
theorem C31_word_empty_panics (c : HmmConst F) (em : EmitModel F) (word skip : Matcher) (s : Bytes)
    (h : word s = some (0, 0)) (n : Nat) (acc : List Bytes) :
    hmmCutLoop (internalCut c em) word skip (n + 1) s acc = some none := by
  rw [hmmCutLoop, if_neg (by simp [h]), if_pos (by simp [h])]
  simp [h, internalCut, runes_nil, viterbi]

/-- What a load writes: the maps given. -/
def Spec.HmmLoads (op : HmmOp F) (prob : List (Rune → Option F)) : Prop :=
  (∃ seg, op = .init seg false ∧ prob = []) ∨ (∃ seg, op = .load seg prob) ∨ ∃ seg text, op = .cutMod seg text prob

/-- C55: `loadModel` takes the first four maps as those of B, E, M and S; with fewer it is the default model. -/
theorem C55_load (dflt : EmitModel F) (prob : List (Rune → Option F)) :
    (∀ b e m s rest, prob = b :: e :: m :: s :: rest → loadModel dflt prob .B = b ∧ loadModel dflt prob .E = e ∧
      loadModel dflt prob .M = m ∧ loadModel dflt prob .S = s) ∧
    (prob.length < 4 → loadModel dflt prob = dflt) := by
  constructor
  · rintro b e m s rest rfl; exact ⟨rfl, rfl, rfl, rfl⟩
  · intro h
    match prob with
    | [] | [_] | [_, _] | [_, _, _] => rfl
    | _ :: _ :: _ :: _ :: _ => simp at h; omega

theorem hmmRun_append [Unicode] (c : HmmConst F) (dflt em : EmitModel F) (a b : List (HmmOp F)) :
    hmmRun c dflt em (a ++ b) = hmmRun c dflt em a ++ hmmRun c dflt (a.foldl (fun m op => op.next dflt m) em) b := by
  induction a generalizing em with
  | nil => rfl
  | cons op a ih => simp [hmmRun, ih]

theorem next_of_not_loads {dflt em : EmitModel F} {op : HmmOp F} (h : ∀ prob, ¬ HmmLoads op prob) : op.next dflt em = em := by
  cases op with
  | init seg nl =>
    cases nl with
    | true => rfl
    | false => exact absurd (Or.inl ⟨seg, rfl, rfl⟩) (h [])
  | load seg prob => exact absurd (Or.inr (Or.inl ⟨seg, rfl⟩)) (h prob)
  | cut seg t r => rfl
  | cutMod seg t prob => exact absurd (Or.inr (Or.inr ⟨seg, t, rfl⟩)) (h prob)

theorem next_of_loads {dflt em : EmitModel F} {op : HmmOp F} {prob : List (Rune → Option F)} (h : HmmLoads op prob) :
    op.next dflt em = loadModel dflt prob := by
  rcases h with ⟨seg, rfl, rfl⟩ | ⟨seg, rfl⟩ | ⟨seg, t, rfl⟩ <;> rfl

/-- C55: in every history a cut, through whatever segmenter, uses the model of the last load, through whatever segmenter. -/
theorem C55_last_load [Unicode] (c : HmmConst F) (dflt em : EmitModel F) (pre post rest : List (HmmOp F)) (l : HmmOp F)
    (prob : List (Rune → Option F)) (hl : HmmLoads l prob) (hp : ∀ op ∈ post, ∀ p, ¬ HmmLoads op p) (seg : Nat) (text : Bytes)
    (reg : List Matcher) :
    (hmmRun c dflt em (pre ++ l :: post ++ .cut seg text reg :: rest))[pre.length + 1 + post.length]? =
      some (some (hmmCut c (loadModel dflt prob) text reg)) := by
  have hpost : ∀ (post : List (HmmOp F)) (m : EmitModel F), (∀ op ∈ post, ∀ p, ¬ HmmLoads op p) →
      post.foldl (fun m op => op.next dflt m) m = m := by
    intro post
    induction post with
    | nil => intros; rfl
    | cons op post ih =>
      intro m h
      rw [List.foldl_cons, next_of_not_loads (h op (by simp))]
      exact ih m fun o ho => h o (by simp [ho])
  have hlen : ∀ (a : List (HmmOp F)) (m : EmitModel F), (hmmRun c dflt m a).length = a.length := by
    intro a
    induction a with
    | nil => intros; rfl
    | cons op a ih => intro m; simp [hmmRun, ih]
  rw [hmmRun_append, List.getElem?_append_right (by rw [hlen]; simp; omega), hlen]
  have : pre.length + 1 + post.length - (pre ++ l :: post).length = 0 := by simp; omega
  rw [this, List.foldl_append, List.foldl_cons, next_of_loads hl, hpost post _ hp]
  rfl

/-- C55: `HMMCutMod` cuts with the model it loads. -/
theorem C55_cutMod [Unicode] (c : HmmConst F) (dflt em : EmitModel F) (pre rest : List (HmmOp F)) (seg : Nat) (text : Bytes)
    (prob : List (Rune → Option F)) :
    (hmmRun c dflt em (pre ++ .cutMod seg text prob :: rest))[pre.length]? = some (some (hmmCut c (loadModel dflt prob) text [])) := by
  have hlen : ∀ (a : List (HmmOp F)) (m : EmitModel F), (hmmRun c dflt m a).length = a.length := by
    intro a
    induction a with
    | nil => intros; rfl
    | cons op a ih => intro m; simp [hmmRun, ih]
  rw [hmmRun_append, List.getElem?_append_right (by rw [hlen]), hlen, Nat.sub_self]
  rfl

variable [Unicode]

/-- C30: with the default patterns `HMMCut` returns for every byte string and every model; the items join to the string
and none is empty. -/
theorem C30_lossless [UnicodeOK] (c : HmmConst F) (em : EmitModel F) (s : Bytes) :
    ∃ out, hmmCut c em s [] = some out ∧ out.flatten = s ∧ ∀ w ∈ out, w ≠ [] := by
  refine hmmCutWith_of_inv (P := fun _ => True) (hmmCut_lossless c em ?_ ?_) s trivial
  · intro s a b _ h
    obtain ⟨h1, h2, h3⟩ := regHan_range s a b h
    exact ⟨h1, h2, trivial, trivial, h3⟩
  · intro s a b _ h
    have := (hmmCut_runs c em).rangeS s a b trivial h
    exact ⟨this.1, this.2, trivial, trivial⟩

/-- C30: the items are those of the runs of the text: words of the best tags of each run of Han characters; numbers,
words of ASCII letters and digits, and other text as they are. -/
theorem C30_runs [UnicodeOK] (c : HmmConst F) (em : EmitModel F) (s : Bytes) :
    ∃ runs outs, hmmCut c em s [] = some outs.flatten ∧ HmmRuns s runs ∧ List.Forall₂ (RunWords c em) runs outs := by
  obtain ⟨out, h, runs, outs, h1, h2, rfl⟩ := hmmCutWith_of_inv (hmmCut_runs c em) s trivial
  exact ⟨runs, outs, h, h1, h2⟩

theorem dagRunes_valid [UnicodeOK] (cfg : SplitCfg) (s : Bytes) : ∀ r ∈ dagRunes cfg s, validRune r = true := by
  rw [dagRunes_eq]
  unfold dagText
  split
  · intro r hr
    obtain ⟨x, hx, rfl⟩ := List.mem_map.1 hr
    exact UnicodeOK.lower_valid x (runes_valid s x hx)
  · exact runes_valid s

/-- `CutDAG` returns items that all satisfy a predicate true of encoded characters and of the items of the inner cut. -/
theorem cutDAG_items_of [UnicodeOK] (cfg : SplitCfg) {d : Dictionary F D} (hi : IdxOK d) (cut : Bytes → Option (List Bytes))
    (Q : Bytes → Prop) (hq : ∀ t : List Rune, t ≠ [] → (∀ r ∈ t, validRune r = true) → Q (encode t))
    (hc : ∀ t, ValidText t → ∃ o, cut t = some o ∧ o.flatten = t ∧ ∀ w ∈ o, Q w) (s : Bytes) :
    ∃ out, cutDAG cfg d cut s = some out ∧ out.flatten = encode (dagText cfg s) ∧ ∀ w ∈ out, Q w := by
  obtain ⟨R, h1, h2⟩ := calcRoutes_eq hi (dagRunes cfg s)
  obtain ⟨ps, e1, e2, _⟩ := walk_eq h2 (dagRunes cfg s).length 0 (by omega) (by omega)
  rw [List.drop_zero] at e2
  have hflat := isRoute_flatten e2
  have hvalid : ∀ g : List (List Rune), (∀ t ∈ g, t ∈ ps) → ValidText (encode g.flatten) := by
    intro g hg
    apply validText_encode
    intro r hr
    obtain ⟨t, ht, hrt⟩ := List.mem_flatten.1 hr
    apply dagRunes_valid cfg s
    rw [← hflat]
    exact List.mem_flatten.2 ⟨t, hg t ht, hrt⟩
  obtain ⟨gs, outs, g1, g2, g3⟩ := hmmLoop_runs hi cut ps [] (by simp)
    (fun t ht => (isRoute_pieces e2 t ht).1) (fun g _ hin _ => by
      obtain ⟨o, ho, _⟩ := hc _ (hvalid g fun t ht => by
        have := hin.subset ht; simpa using this)
      exact ⟨o, ho⟩)
  refine ⟨outs.flatten, ?_, ?_⟩
  · unfold cutDAG
    simp only [h1, e1, Option.bind_some]
    rw [← g3]; rfl
  · rw [List.nil_append] at g1
    have hsub : ∀ g ∈ gs, ∀ t ∈ g, t ∈ ps := by
      intro g hg t ht
      rw [← g1.flat]
      exact List.mem_flatten.2 ⟨g, hg, ht⟩
    have hgs : gs.flatten.flatten = dagText cfg s := by rw [g1.flat, hflat, dagRunes_eq]
    rw [← hgs]
    have hne : ∀ t ∈ ps, Q (encode t) := fun t ht => hq t (isRoute_pieces e2 t ht).1 fun r hr => by
      apply dagRunes_valid cfg s
      rw [← hflat]
      exact List.mem_flatten.2 ⟨t, ht, hr⟩
    clear hgs g1 g3
    induction g2 with
    | nil => simp
    | @cons g o gs outs h _ ih =>
      obtain ⟨i1, i2⟩ := ih fun g hg => hsub g (by simp [hg])
      have hg := hsub g (by simp)
      have key : o.flatten = encode g.flatten ∧ ∀ w ∈ o, Q w := by
        cases h with
        | word ht => exact ⟨by simp, by simpa using hne _ (hg _ (by simp))⟩
        | one ht => exact ⟨by simp, by simpa using hne _ (hg _ (by simp))⟩
        | known _ _ _ _ =>
          refine ⟨flatten_map_encode g, ?_⟩
          intro w hw
          obtain ⟨t, ht, rfl⟩ := List.mem_map.1 hw
          exact hne t (hg t ht)
        | hmm _ _ _ ho =>
          obtain ⟨o', ho', h3, h4⟩ := hc _ (hvalid g hg)
          rw [ho] at ho'
          cases ho'
          exact ⟨h3, h4⟩
      refine ⟨by simp [key.1, i1, encode_append], ?_⟩
      intro w hw
      rw [List.flatten_cons, List.mem_append] at hw
      rcases hw with hw | hw
      · exact key.2 w hw
      · exact i2 w hw

theorem cutDAG_items [UnicodeOK] (cfg : SplitCfg) (ops : List (DictOp F)) (d : Dictionary F D)
    (hr : runOps cfg ops Dictionary.new = some d) (cut : Bytes → Option (List Bytes))
    (Q : Bytes → Prop) (hq : ∀ t : List Rune, t ≠ [] → (∀ r ∈ t, validRune r = true) → Q (encode t))
    (hc : ∀ t, ValidText t → ∃ o, cut t = some o ∧ o.flatten = t ∧ ∀ w ∈ o, Q w) (s : Bytes) :
    ∃ out, cutDAG cfg d cut s = some out ∧ out.flatten = encode (dagText cfg s) ∧ ∀ w ∈ out, Q w :=
  cutDAG_items_of cfg (idxOK_of_run hr) cut Q hq hc s

/-- C28: a cut that gives back every well-formed text in non-empty items makes `CutDAG` total and lossless. -/
theorem C28_any [UnicodeOK] (cfg : SplitCfg) (ops : List (DictOp F)) (d : Dictionary F D)
    (hr : runOps cfg ops Dictionary.new = some d) (cut : Bytes → Option (List Bytes))
    (hc : ∀ t, ValidText t → ∃ o, cut t = some o ∧ o.flatten = t ∧ ∀ w ∈ o, w ≠ []) (s : Bytes) :
    ∃ out, cutDAG cfg d cut s = some out ∧ out.flatten = encode (dagText cfg s) ∧ ∀ w ∈ out, w ≠ [] :=
  cutDAG_items cfg ops d hr cut (· ≠ []) (fun _ ht _ => encode_ne_nil ht) hc s

/-- C28: `Cut(str, true)` returns for every text, every model and every floating point behaviour; the items join to the
lower-cased text (malformed bytes as U+FFFD) and none is empty. -/
theorem C28_lossless [UnicodeOK] (cfg : SplitCfg) (ops : List (DictOp F)) (d : Dictionary F D)
    (hr : runOps cfg ops Dictionary.new = some d) (c : HmmConst F) (em : EmitModel F) (fuel : Nat) (s : Bytes) :
    ∃ out, cut cfg d fuel (fun t => hmmCut c em t []) s (some true) = some out ∧ out.flatten = encode (dagText cfg s) ∧
      ∀ w ∈ out, w ≠ [] :=
  C28_any cfg ops d hr _ (fun t _ => C30_lossless c em t) s

/-- C28: the same for `CutDAG` with two patterns that never match the empty string. -/
theorem C28_patterns [UnicodeOK] (cfg : SplitCfg) (ops : List (DictOp F)) (d : Dictionary F D)
    (hr : runOps cfg ops Dictionary.new = some d) (c : HmmConst F) (em : EmitModel F) (skip word : Matcher) (hs : MatcherOK skip)
    (hw : MatcherOK word) (s : Bytes) :
    ∃ out, cutDAGHmm cfg d c em s [skip, word] = some out ∧ out.flatten = encode (dagText cfg s) ∧ ∀ w ∈ out, w ≠ [] :=
  C28_any cfg ops d hr _ (fun t ht => C31_patterns c em skip word hs hw t ht) s

/-- C28: the same for `CutDAG` with a skip pattern that never matches the empty string. -/
theorem C28_skip [UnicodeOK] (cfg : SplitCfg) (ops : List (DictOp F)) (d : Dictionary F D)
    (hr : runOps cfg ops Dictionary.new = some d) (c : HmmConst F) (em : EmitModel F) (skip : Matcher)
    (hs : ∀ s a b, skip s = some (a, b) → a < b ∧ b ≤ s.length) (s : Bytes) :
    ∃ out, cutDAGHmm cfg d c em s [skip] = some out ∧ out.flatten = encode (dagText cfg s) ∧ ∀ w ∈ out, w ≠ [] :=
  C28_any cfg ops d hr _ (fun t _ => C31_skip c em skip hs t) s

end

section examples
attribute [local instance] sampleUnicode sampleUnicodeOK sampleF64 sampleF32 sampleNarrow sampleLaws64

/-- Constants that favour two-character words. -/
def hmmConst : HmmConst Int where
  minFloat := -1000
  start := fun | .B => -1 | .S => -2 | _ => -1000
  trans _ _ := -1
/-- Emissions of three Han characters. -/
def hmmEmit : EmitModel Int := fun
  | .B, 0x4E2D => some (-1)
  | .E, 0x56FD => some (-1)
  | .S, 0x4EBA => some (-1)
  | _, _ => none

/-- "中国人" -/
def hmmText : Bytes := encode [0x4E2D, 0x56FD, 0x4EBA]

example : GoodModel hmmConst hmmEmit := ⟨trivial, fun _ => trivial, fun _ _ => trivial, fun _ _ _ _ => trivial⟩
example : (viterbi hmmConst hmmEmit [0x4E2D, 0x56FD, 0x4EBA]).map (·.2) = some [.B, .E, .S] := by decide +kernel
example : List.IsChain Legal [Tag.M, .E, .S, .B, .M] ∧ assemble [1, 2, 3, 4, 5] [Tag.M, .E, .S, .B, .M] = some [[1, 2], [3], [4, 5]] := by
  refine ⟨?_, by decide +kernel⟩
  repeat' constructor
example : hmmCut hmmConst hmmEmit (hmmText ++ str "1.5a-b!" ++ hmmText) [] =
    some [encode [0x4E2D, 0x56FD], encode [0x4EBA], str "1.5", str "a", str "-", str "b", str "!",
      encode [0x4E2D, 0x56FD], encode [0x4EBA]] := by decide +kernel

/-- The pattern `x`, found by its first byte. -/
def findX : Matcher := fun s => if 120 ∈ s then some (s.idxOf 120, s.idxOf 120 + 1) else none

theorem findX_range : ∀ s a b, findX s = some (a, b) → a < b ∧ b ≤ s.length ∧ s[a]? = some 120 ∧ b = a + 1 := by
  intro s a b h
  unfold findX at h
  split at h
  · rename_i hx
    simp only [Option.some.injEq, Prod.mk.injEq] at h
    obtain ⟨rfl, rfl⟩ := h
    have := List.idxOf_lt_length_of_mem hx
    refine ⟨by omega, by omega, ?_, rfl⟩
    rw [List.getElem?_eq_getElem this, List.getElem_idxOf]
  · simp at h

example : MatcherOK findX where
  range s a b h := ⟨(findX_range s a b h).1, (findX_range s a b h).2.1⟩
  aligned s a b hv h := by
    obtain ⟨_, _, h1, rfl⟩ := findX_range s a b h
    exact validText_take_ascii hv h1 (by decide)
example : ValidText hmmText := by show encode (runes hmmText) = hmmText; decide +kernel
example : hmmCut hmmConst hmmEmit (str "axb" ++ hmmText) [findX] =
    some [str "a", str "x", str "b", encode [0x4E2D, 0x56FD], encode [0x4EBA]] := by decide +kernel
example : (∀ b, regHan (str "ab") ≠ some (0, b)) := by
  have : regHan (str "ab") = none := by decide +kernel
  simp [this]
example : (cutDAGHmm {} dagDict hmmConst hmmEmit (str "abcd" ++ hmmText) []) =
    some [str "ab", str "cd", encode [0x4E2D, 0x56FD], encode [0x4EBA]] := by decide +kernel
example : HmmLoads (.load 7 [fun _ => some 3] : HmmOp Int) [fun _ => some 3] ∧ ∀ p, ¬ HmmLoads (.init 7 true : HmmOp Int) p := by
  refine ⟨Or.inr (Or.inl ⟨7, rfl⟩), ?_⟩
  rintro p (⟨_, h, _⟩ | ⟨_, h⟩ | ⟨_, _, h⟩) <;> cases h

end examples
end Gse
