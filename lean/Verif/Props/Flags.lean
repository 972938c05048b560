import Verif.Proofs.Flags
import Verif.Props.Dag

/-! # C82: the flags are changed while a dictionary is in use -/

namespace Gse
open Spec Trie

set_option linter.unusedSectionVars false

section
variable {F D : Type} [F64 F] [F32 D] [Narrow F D] [Unicode]

theorem loose_of_run {ops : List (SplitCfg × DictOp F)} {d : Dictionary F D} (hr : runMixed ops Dictionary.new = some d) : Loose d :=
  loose_run ops loose_new hr

/-- C82: the words stored by a history with changing flags, and what their entries were made of. -/
theorem C82_entries (ops : List (SplitCfg × DictOp F)) (hl : ops.length ≤ Trie.valueLimit) (d : Dictionary F D)
    (hr : runMixed ops Dictionary.new = some d) (k : Bytes) : (storedTok d k).map (fun t => (t.text, t.freq, t.pos)) = mixRun ops k := by
  have h : LRep d (mixRun ops) := lrep_run ops ⟨loose_new, by simp [Dictionary.new, value]⟩ (by simpa [Dictionary.numTokens, Dictionary.new] using hl) hr
  rw [← h.content k, storedTok, Option.map_bind]
  rfl

/-- C82: whatever flags the dictionary calls were made with, `Segment` and `ModeSegment` panic on a text exactly if some of its consecutive
words spell a stored word whose entry was made of more words than are left in the text (`ModeSegment` never if the text is one word). -/
theorem C82_panics_iff (ops : List (SplitCfg × DictOp F)) (d : Dictionary F D) (hr : runMixed ops Dictionary.new = some d) (cfg : SplitCfg) (s : Bytes)
    (sm : Bool) : internalSegment cfg (some d) s sm = none ↔
      Overshoots d (splitTextToWords cfg s) ∧ ¬ (sm = true ∧ (splitTextToWords cfg s).length = 1) := by
  rw [internalSegment_eq]
  by_cases hsm : sm = true ∧ (splitTextToWords cfg s).length = 1
  · rw [segmentWords, if_pos (by simpa using hsm)]
    simp [hsm]
  · rcases segmentWords_loose (loose_of_run hr) (split_ne_nil cfg s) sm hsm with ⟨h1, h2⟩ | ⟨h1, segs, ts, h2, _⟩
    · simp [h1, h2, hsm]
    · simp [h1, h2]

/-- C82: when it returns, the code took every token for as many words as its entry was made of: that is what the tokens and the byte ranges
follow, whether or not these are the words of the text. -/
theorem C82_result (ops : List (SplitCfg × DictOp F)) (d : Dictionary F D) (hr : runMixed ops Dictionary.new = some d) (cfg : SplitCfg) (s : Bytes)
    (sm : Bool) (hsm : ¬ (sm = true ∧ (splitTextToWords cfg s).length = 1)) (segs : List Seg) (h : internalSegment cfg (some d) s sm = some segs) :
    ∃ ts, segs.map (fun g => d.deref g.tok) = ts.map some ∧ LooseRoute d (splitTextToWords cfg s) ts ∧ Tiles 0 (wordsOf ts).flatten.length segs := by
  rw [internalSegment_eq] at h
  rcases segmentWords_loose (loose_of_run hr) (split_ne_nil cfg s) sm hsm with ⟨h1, _⟩ | ⟨_, segs', ts, h1, h2, h3, h4⟩
  · rw [h] at h1; cases h1
  · rw [h] at h1; obtain rfl := Option.some.inj h1
    exact ⟨ts, h3, h2, h4⟩

/-- C82: with the flags of the moment, `Segment` returns on every text exactly if no stored word that can be met under these flags was
stored as more words than it is met as. -/
theorem C82_safe_iff [UnicodeOK] (ops : List (SplitCfg × DictOp F)) (d : Dictionary F D) (hr : runMixed ops Dictionary.new = some d) (cfg : SplitCfg) :
    (∀ s, internalSegment cfg (some d) s false ≠ none) ↔
      ∀ k t, storedTok d k = some t → Meets cfg k → t.text.length ≤ (splitTextToWords cfg k).length := by
  have hd := loose_of_run hr
  constructor
  · intro h k t ht hk
    apply Nat.le_of_not_lt
    intro hlt
    refine h k ((C82_panics_iff ops d hr cfg k false).2 ⟨⟨[], splitTextToWords cfg k, [], t, by simp, ?_, by rw [hk]; exact ht, by simpa using hlt⟩, by simp⟩)
    intro e
    have hk' : k = [] := by rw [← hk, e]; rfl
    obtain ⟨v, hv, ht'⟩ := Option.bind_eq_some_iff.1 ht
    obtain ⟨t', g1, g2⟩ := hd.entry k v hv
    rw [ht'] at g1; obtain rfl := Option.some.inj g1
    rw [hk'] at g2
    have : t.text = [] := by
      cases ht2 : t.text with
      | nil => rfl
      | cons w ws =>
        have := hd.words t (List.mem_of_getElem? ht') w (by rw [ht2]; simp)
        rw [ht2] at g2; simp at g2; exact absurd g2.1 this
    rw [this] at hlt; simp at hlt
  · intro h s hn
    obtain ⟨⟨a, run, b, t, h1, h2, h3, h4⟩, _⟩ := (C82_panics_iff ops d hr cfg s false).1 hn
    have hs := split_infix cfg s a run b h1
    have := h run.flatten t h3 (by unfold Meets; rw [hs])
    rw [hs] at this
    rw [h1] at h4
    simp at h4
    omega

/-- C82: the same in terms of the calls. -/
theorem C82_safe_history [UnicodeOK] (ops : List (SplitCfg × DictOp F)) (hl : ops.length ≤ Trie.valueLimit) (d : Dictionary F D)
    (hr : runMixed ops Dictionary.new = some d) (cfg : SplitCfg) :
    (∀ s, internalSegment cfg (some d) s false ≠ none) ↔
      ∀ k ws f p, mixRun ops k = some (ws, f, p) → Meets cfg k → ws.length ≤ (splitTextToWords cfg k).length := by
  rw [C82_safe_iff ops d hr cfg]
  constructor
  · intro h k ws f p hk
    rw [← C82_entries ops hl d hr k, Option.map_eq_some_iff] at hk
    obtain ⟨t, h1, h2⟩ := hk
    cases h2
    exact h k t h1
  · intro h k t ht
    exact h k t.text t.freq t.pos (by rw [← C82_entries ops hl d hr k, ht]; rfl)

theorem split_length_le (cfg : SplitCfg) (k : Bytes) : (splitTextToWords cfg k).length ≤ (chars k).length := by
  rw [splitTextToWords_eq, List.length_map]
  have hf := grpAll_flatten cfg (chars k)
  have hk := (grpAll_ok cfg (chars k)).kind
  generalize grpAll cfg (chars k) = gs at hf hk
  rw [← hf]
  clear hf
  induction gs with
  | nil => simp
  | cons g gs ih =>
    have hg : g ≠ [] := by
      rcases hk g (by simp) with ⟨u, rfl, _⟩ | ⟨h, _⟩
      · simp
      · exact h
    have := List.length_pos_iff.2 hg
    have := ih fun g hg => hk g (by simp [hg])
    simp only [List.length_cons, List.flatten_cons, List.length_append]
    omega

/-- C82: with `AlphaNum` set, no earlier setting of the flags makes `Segment` panic: every character is a word of its own, and no entry was made
of more words than its characters. -/
theorem C82_alphaNum_safe [UnicodeOK] (ops : List (SplitCfg × DictOp F)) (d : Dictionary F D) (hr : runMixed ops Dictionary.new = some d) (cfg : SplitCfg)
    (ha : cfg.alphaNum = true) (s : Bytes) : internalSegment cfg (some d) s false ≠ none := by
  refine (C82_safe_iff ops d hr cfg).2 ?_ s
  intro k t ht _
  have hd := loose_of_run hr
  obtain ⟨v, hv, ht'⟩ := Option.bind_eq_some_iff.1 ht
  obtain ⟨t', g1, g2⟩ := hd.entry k v hv
  rw [ht'] at g1; obtain rfl := Option.some.inj g1
  obtain ⟨c, s', e⟩ := hd.split t (List.mem_of_getElem? ht')
  have h1 := split_infix c s' [] (splitTextToWords c s') [] (by simp)
  rw [← e, g2] at h1
  have h2 := split_length_le c k
  rw [h1] at h2
  rw [splitTextToWords_eq, grpAll, if_pos ha]
  simpa using h2

theorem Coherent.coh {cfg : SplitCfg} {d : Dictionary F D} (h : Coherent cfg d) (hd : Loose d) : d.Coh cfg :=
  ⟨hd.entry, fun k v t hv ht hk => h k t (by simp [storedTok, hv, ht]) hk, hd.maxLen⟩

/-- C82: if every stored word that can be met is met as the words it was stored as, the result is right: it covers the text and is made of
stored tokens and unknown words, however often the flags were changed. -/
theorem C82_coherent [UnicodeOK] (ops : List (SplitCfg × DictOp F)) (d : Dictionary F D) (hr : runMixed ops Dictionary.new = some d) (cfg : SplitCfg)
    (hc : Coherent cfg d) (s : Bytes) (sm : Bool) (hsm : ¬ (sm = true ∧ (splitTextToWords cfg s).length = 1)) :
    ∃ segs ts, internalSegment cfg (some d) s sm = some segs ∧
      List.Forall₂ (fun (g : Seg) t => d.deref g.tok = some t ∧ g.stop = g.start + t.text.flatten.length) segs ts ∧
      IsSegmentation d (splitTextToWords cfg s) ts ∧ Tiles 0 s.length segs := by
  obtain ⟨segs, ts, h1, h2, h3, h4, hpos, h6, h7, h8⟩ := segmentWords_spec (Coherent.coh hc (loose_of_run hr)) (split_isSplitText cfg s) hsm
  refine ⟨segs, ts, by rw [internalSegment_eq, h1], forall_deref h2 h3 h7, h4, ?_⟩
  have := (C01_split_bytes cfg s).1
  rwa [this] at h6

theorem overshoots_congr {d d' : Dictionary F D} (h : SameCore d d') (ws : List Bytes) : Overshoots d' ws → Overshoots d ws := by
  rintro ⟨a, run, b, t, h1, h2, h3, h4⟩
  obtain ⟨v, hv, ht⟩ := Option.bind_eq_some_iff.1 h3
  obtain ⟨t', g1, g2, _⟩ := h.symm.get_some ht
  rw [h.trie] at hv
  exact ⟨a, run, b, t', h1, h2, by simp [storedTok, hv, g1], by rw [g2]; exact h4⟩

/-- C82: `CalcToken` (so every load, and `AddTokenForce`) panics exactly if the same happens in the text of an entry of more than one word. -/
theorem C82_calc_panics_iff (ops : List (SplitCfg × DictOp F)) (d : Dictionary F D) (hr : runMixed ops Dictionary.new = some d) :
    calcToken d = none ↔ ∃ t ∈ d.tokens, t.text.length ≠ 1 ∧ Overshoots d t.text := by
  have hd := loose_of_run hr
  have hs := withDistances_same d
  have hd1 := hs.loose hd
  constructor
  · intro h
    apply Classical.byContradiction
    intro hno
    have : ∃ ts, mapOpt (fun t => do
        let segs ← segmentWords (some (withDistances d)) t.text true
        let kept ← filterOpt (keepSub (withDistances d)) segs
        some { t with segments := kept }) (withDistances d).tokens = some ts := by
      apply mapOpt_isSome
      intro t ht
      obtain ⟨segs, h1, h2⟩ : ∃ segs, segmentWords (some (withDistances d)) t.text true = some segs ∧ ∀ g ∈ segs, ∃ t, (withDistances d).deref g.tok = some t := by
        by_cases hl : t.text.length = 1
        · exact ⟨[], by rw [segmentWords, if_pos (by simpa using hl)], by simp⟩
        · rcases segmentWords_loose hd1 (hd1.words t ht) true (by simpa using hl) with ⟨_, h2⟩ | ⟨_, segs, ts, h1, _, h3, _⟩
          · obtain ⟨i, hi⟩ := List.mem_iff_getElem?.1 ht
            obtain ⟨t', g1, g2, _⟩ := hs.symm.get_some hi
            exact absurd ⟨t', List.mem_of_getElem? g1, by rw [g2]; exact hl, by rw [g2]; exact overshoots_congr hs _ h2⟩ hno
          · refine ⟨segs, h1, ?_⟩
            intro g hg
            have : (withDistances d).deref g.tok ∈ ts.map some := by rw [← h3]; exact List.mem_map.2 ⟨g, hg, rfl⟩
            obtain ⟨t, _, ht⟩ := List.mem_map.1 this
            exact ⟨t, ht.symm⟩
      obtain ⟨r, hr⟩ := filterOpt_total (p := keepSub (withDistances d)) (l := segs) (by
        intro g hg
        obtain ⟨t', ht'⟩ := h2 g hg
        unfold keepSub
        simp only [ht', Option.bind_eq_bind, Option.bind_some]
        split <;> exact ⟨_, rfl⟩)
      exact ⟨{ t with segments := r }, by simp [h1, hr]⟩
    obtain ⟨ts, hts⟩ := this
    simp only [calcToken, Option.bind_eq_bind] at h hts
    rw [hts] at h; cases h
  · rintro ⟨t, ht, hl, ho⟩
    cases hc : calcToken d with
    | none => rfl
    | some d' =>
      exfalso
      obtain ⟨i, hi⟩ := List.mem_iff_getElem?.1 ht
      obtain ⟨t', g1, g2, _⟩ := hs.get_some hi
      simp only [calcToken, Option.bind_eq_bind, Option.bind_eq_some_iff] at hc
      obtain ⟨ts, hts, _⟩ := hc
      obtain ⟨b, hb⟩ : ∃ b, (segmentWords (some (withDistances d)) t'.text true).bind (fun segs =>
          (filterOpt (keepSub (withDistances d)) segs).bind fun kept => some { t' with segments := kept }) = some b := by
        rcases mapOpt_get hts i with ⟨h2, _⟩ | ⟨a, b, h1, _, h3⟩
        · rw [g1] at h2; cases h2
        · rw [g1] at h1; obtain rfl := Option.some.inj h1; exact ⟨b, h3⟩
      obtain ⟨segs, h1, _⟩ := Option.bind_eq_some_iff.1 hb
      rcases segmentWords_loose hd1 (ws := t'.text) (hd1.words t' (List.mem_of_getElem? g1)) true (by rw [g2]; simpa using hl) with ⟨h2, _⟩ | ⟨h2, _⟩
      · rw [h1] at h2; cases h2
      · rw [g2] at h2; exact h2 (overshoots_congr hs.symm _ ho)

/-- C82: `AddTokenForce` panics exactly if this is so after the word is added. -/
theorem C82_force_panics_iff (ops : List (SplitCfg × DictOp F)) (d : Dictionary F D) (hr : runMixed ops Dictionary.new = some d) (cfg : SplitCfg)
    (t : Bytes) (f : F) (p : Bytes) : segAddTokenForce cfg d t f p = none ↔
      ∃ tok ∈ (segAddToken cfg d t f p).1.tokens, tok.text.length ≠ 1 ∧ Overshoots (segAddToken cfg d t f p).1 tok.text := by
  have h : runMixed (ops ++ [(cfg, .add t f p)]) Dictionary.new = some (segAddToken cfg d t f p).1 := by
    have : ∀ (ops : List (SplitCfg × DictOp F)) (d0 d : Dictionary F D), runMixed ops d0 = some d →
        runMixed (ops ++ [(cfg, .add t f p)]) d0 = some (segAddToken cfg d t f p).1 := by
      intro ops
      induction ops with
      | nil => intro d0 d h; simp [runMixed] at h; subst h; rfl
      | cons o ops ih =>
        intro d0 d h
        obtain ⟨c, op⟩ := o
        simp only [runMixed, List.cons_append, Option.bind_eq_some_iff] at h ⊢
        obtain ⟨d1, h1, h2⟩ := h
        exact ⟨d1, h1, ih d1 d h2⟩
    exact this ops _ d hr
  rw [← C82_calc_panics_iff _ _ h, segAddTokenForce]
  simp

/-- C82: `Cut` without HMM does not use the words of the entries: however the flags were changed, it returns, and what it returns is the
lower-cased text cut at stored words, single characters and alphanumeric runs. -/
theorem C82_cut [UnicodeOK] (ops : List (SplitCfg × DictOp F)) (d : Dictionary F D) (hr : runMixed ops Dictionary.new = some d) (cfg : SplitCfg) (s : Bytes) :
    ∃ ps gs, IsRoute d (dagText cfg s) ps ∧ IsRuns EngPiece ps gs ∧ cutDAGNoHMM cfg d s = some (gs.map fun g => encode g.flatten) :=
  noHmm_route (Dictionary.idx_of_entry (loose_of_run hr).entry) s

/-! ## Words the flags do not touch -/

theorem grp_plain (cfg : SplitCfg) (us : List Bytes) (h : ∀ u ∈ us, wordChar cfg u = false) : grp cfg [] us = us.map fun u => [u] := by
  induction us with
  | nil => rfl
  | cons u us ih => simp [grp, h u (by simp), ih fun v hv => h v (by simp [hv])]

/-- C82: a text without short letters and numbers is split into its characters under all flags. -/
theorem C82_plain (cfg : SplitCfg) (t : Bytes) (h : Flagless t) : splitTextToWords cfg t = chars t := by
  have hc : ∀ u ∈ chars t, wordChar cfg u = false := by
    intro u hu
    have := h u hu
    unfold wordChar at this ⊢
    cases cfg.alpha <;> cases cfg.num <;> simp_all
  rw [splitTextToWords_eq]
  have hg : grpAll cfg (chars t) = (chars t).map fun u => [u] := by
    unfold grpAll
    split
    · rfl
    · exact grp_plain cfg _ hc
  rw [hg, List.map_map]
  conv => rhs; rw [← List.map_id (chars t)]
  apply List.map_congr_left
  intro u hu
  exact emit_nonword cfg u (hc u hu)

/-- The word a call is about. -/
def DictOp.word : DictOp F → Option Bytes
  | .add t _ _ => some t
  | .addForce t _ _ => some t
  | .remove t => some t
  | .reAdd t _ _ => some t
  | .recalc => none

/-- C82: calls with other flags are the calls with the flags of now, if their words are split alike. -/
theorem C82_same_split (cfg : SplitCfg) (ops : List (SplitCfg × DictOp F))
    (h : ∀ p ∈ ops, ∀ w, p.2.word = some w → splitTextToWords p.1 w = splitTextToWords cfg w) (d : Dictionary F D) :
    runMixed ops d = runOps cfg (ops.map (·.2)) d := by
  induction ops generalizing d with
  | nil => rfl
  | cons p ops ih =>
    obtain ⟨c, op⟩ := p
    have hop : op.step c d = op.step cfg d := by
      have h0 := h (c, op) (by simp)
      cases op with
      | add t f p => have := h0 t rfl; simp only [DictOp.step, segAddToken, toToken] at this ⊢; rw [this]
      | addForce t f p => have := h0 t rfl; simp only [DictOp.step, segAddTokenForce, segAddToken, toToken] at this ⊢; rw [this]
      | remove t => have := h0 t rfl; simp only [DictOp.step, segRemoveToken, toToken] at this ⊢; rw [this]
      | reAdd t f p => have := h0 t rfl; simp only [DictOp.step, segReAddToken, toToken] at this ⊢; rw [this]
      | recalc => rfl
    simp only [runMixed, List.map_cons, runOps, hop]
    congr 1
    funext d'
    exact ih (fun p hp => h p (by simp [hp])) d'

/-- C82: so a dictionary of plain words is the same under all flags, and `Segment` covers every text. -/
theorem C82_plain_words [UnicodeOK] (ops : List (SplitCfg × DictOp F)) (hp : ∀ p ∈ ops, ∀ w, p.2.word = some w → Flagless w) (d : Dictionary F D)
    (hr : runMixed ops Dictionary.new = some d) (cfg : SplitCfg) :
    runOps cfg (ops.map (·.2)) Dictionary.new = some d ∧ ∀ s, ∃ segs, internalSegment cfg (some d) s false = some segs ∧ Tiles 0 s.length segs := by
  have h : runOps cfg (ops.map (·.2)) Dictionary.new = some d := by
    rw [← hr, C82_same_split cfg ops]
    intro p hp' w hw
    rw [C82_plain p.1 w (hp p hp' w hw), C82_plain cfg w (hp p hp' w hw)]
  exact ⟨h, C08_tiling cfg _ d h⟩

end

section examples
attribute [local instance] sampleUnicode sampleUnicodeOK sampleF64 sampleF32 sampleNarrow

/-- "ab" is added as two words, "w" and then the recalculation come after the flag was reset. -/
def mixedOps : List (SplitCfg × DictOp Int) := [({ alphaNum := true }, .add (str "ab") 5 []), ({}, .add (str "w") 9 []), ({}, .recalc)]

/-- The history of the theorems exists; its entries remember the flags. -/
example : ∃ d : Dictionary Int Int, runMixed mixedOps Dictionary.new = some d ∧ (storedTok d (str "ab")).map (·.text) = some [str "a", str "b"] := by
  have h : ((runMixed (D := Int) mixedOps Dictionary.new).map fun d => (storedTok d (str "ab")).map (·.text)) = some (some [str "a", str "b"]) := by decide +kernel
  obtain ⟨d, h1, h2⟩ := Option.map_eq_some_iff.1 h
  exact ⟨d, h1, h2⟩

example : mixRun mixedOps (str "ab") = some ([str "a", str "b"], 5, []) := by decide +kernel

/-- The text "w ab" ends in an overshooting word: panic. -/
example : ((runMixed (D := Int) mixedOps Dictionary.new).map fun d => internalSegment {} (some d) (str "w ab") false) = some none := by decide +kernel

example : ∃ d : Dictionary Int Int, runMixed mixedOps Dictionary.new = some d ∧ Overshoots d (splitTextToWords {} (str "w ab")) := by
  have h : ((runMixed (D := Int) mixedOps Dictionary.new).map fun d => internalSegment {} (some d) (str "w ab") false) = some none := by decide +kernel
  obtain ⟨d, h1, h2⟩ := Option.map_eq_some_iff.1 h
  exact ⟨d, h1, ((C82_panics_iff mixedOps d h1 {} _ false).1 h2).1⟩

/-- In the text "ab w" there is room: the token of "ab" swallows the blank. -/
example : ((runMixed (D := Int) mixedOps Dictionary.new).map fun d => internalSegment {} (some d) (str "ab w") false) =
    some (some [⟨0, 2, .idx 0⟩, ⟨2, 3, .idx 1⟩]) := by decide +kernel

/-- With the flag set again both texts are cut. -/
example : ((runMixed (D := Int) mixedOps Dictionary.new).map fun d => (internalSegment { alphaNum := true } (some d) (str "w ab") false).isSome) = some true := by
  decide +kernel

/-- A recalculation that panics: "x ab" is stored as the words "x", " ", "ab". -/
example : runMixed (F := Int) (D := Int) [({ alphaNum := true }, .add (str "ab") 5 []), ({}, .add (str "x ab") 9 []), ({}, .recalc)] Dictionary.new = none := by
  decide +kernel

/-- Flagless words: Chinese, added under two settings of the flags. -/
example : Flagless (encode [0x4E2D, 0x56FD]) := by
  have : (chars (encode [0x4E2D, 0x56FD])).all (fun u => !wordChar {} u) = true := by decide +kernel
  intro u hu
  simpa using List.all_eq_true.1 this u hu

/-- A coherent dictionary that two settings of the flags went into. -/
example : ∃ (ops : List (SplitCfg × DictOp Int)) (d : Dictionary Int Int), runMixed ops Dictionary.new = some d ∧ Coherent {} d ∧
    ops.map (·.1) = [{ num := true }, {}] ∧ (storedTok d (str "ab")).isSome ∧ (storedTok d (str "a1")).isSome := by
  refine ⟨[({ num := true }, .add (str "ab") 5 []), ({}, .add (str "a1") 5 [])], (segAddToken {} (segAddToken { num := true } Dictionary.new (str "ab") 5 []).1 (str "a1") 5 []).1,
    rfl, ?_, rfl, by decide +kernel, by decide +kernel⟩
  intro k t ht _
  have hr : runOps (F := Int) (D := Int) {} [.add (str "ab") 5 [], .add (str "a1") 5 []] Dictionary.new =
      some (segAddToken {} (segAddToken { num := true } Dictionary.new (str "ab") 5 []).1 (str "a1") 5 []).1 := by
    have := C82_same_split (D := Int) {} [({ num := true }, .add (str "ab") (5 : Int) []), ({}, .add (str "a1") 5 [])] (by
      intro p hp w hw
      simp only [List.mem_cons, List.not_mem_nil, or_false] at hp
      rcases hp with rfl | rfl
      · cases hw; decide +kernel
      · rfl) Dictionary.new
    exact this.symm
  have hc := (Reachable.wf ⟨_, hr⟩).coh
  obtain ⟨v, hv, ht'⟩ := Option.bind_eq_some_iff.1 ht
  exact hc.same k v t hv ht' (by assumption)

end examples
end Gse
