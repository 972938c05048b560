import Verif.Proofs.DagAll
import Verif.Proofs.Occs
import Verif.Proofs.Lower
import Verif.Props.Dict
import Mathlib.Algebra.Field.Basic
import Mathlib.Algebra.BigOperators.Group.List.Basic

/-! # C24–C27, C32–C34, C54: the DAG cuts, search mode, occurrences, frequency suggestions -/

namespace Gse
open Spec Trie

set_option linter.unusedSectionVars false
set_option linter.unusedSimpArgs false

section
variable {F D : Type} [F64 F] [F32 D] [Narrow F D] [Unicode]

theorem idxOK_of_run {cfg : SplitCfg} {ops : List (DictOp F)} {d : Dictionary F D} (hr : runOps cfg ops Dictionary.new = some d) :
    IdxOK d := (Reachable.wf ⟨ops, hr⟩).idx

theorem dagRunes_eq [UnicodeOK] (cfg : SplitCfg) (s : Bytes) : dagRunes cfg s = dagText cfg s := by
  unfold dagRunes dagText
  split
  · exact runes_strLower s
  · rfl

theorem flatten_encode (gs : List (List (List Rune))) : (gs.map fun g => encode g.flatten).flatten = encode gs.flatten.flatten := by
  induction gs with
  | nil => rfl
  | cons g gs ih => simp [ih, encode_append]

/-- The cut without HMM as a route and its runs. -/
theorem noHmm_route [UnicodeOK] {cfg : SplitCfg} {d : Dictionary F D} (hi : IdxOK d) (s : Bytes) :
    ∃ ps gs, IsRoute d (dagText cfg s) ps ∧ IsRuns EngPiece ps gs ∧
      cutDAGNoHMM cfg d s = some (gs.map fun g => encode g.flatten) := by
  obtain ⟨R, h1, h2⟩ := calcRoutes_eq hi (dagRunes cfg s)
  obtain ⟨ps, e1, e2, _⟩ := walk_eq h2 (dagRunes cfg s).length 0 (by omega) (by omega)
  obtain ⟨gs, g1, g2⟩ := noHmmLoop_runs ps [] (by simp)
  refine ⟨ps, gs, by rw [← dagRunes_eq]; simpa using e2, by simpa using g1, ?_⟩
  unfold cutDAGNoHMM
  simp only [h1, e1, Option.map_some]
  rw [← g2]; rfl

/-- C26: `Cut(str, false)` returns for every text; the items join to the lower-cased text (malformed bytes as U+FFFD),
none is empty, and each is a stored word of positive frequency, one character, or a run of ASCII letters and digits. -/
theorem C26_lossless [UnicodeOK] (cfg : SplitCfg) (ops : List (DictOp F)) (d : Dictionary F D)
    (hr : runOps cfg ops Dictionary.new = some d) (s : Bytes) :
    ∃ out : List Bytes, cutDAGNoHMM cfg d s = some out ∧ out.flatten = encode (dagText cfg s) ∧
      ∀ w ∈ out, w ≠ [] ∧ ∃ t : List Rune, w = encode t ∧
        (posWord d t = true ∨ t.length = 1 ∨ ∀ r ∈ t, asciiAlnum r = true) := by
  obtain ⟨ps, gs, h1, h2, h3⟩ := noHmm_route (cfg := cfg) (idxOK_of_run hr) s
  refine ⟨_, h3, ?_, ?_⟩
  · rw [flatten_encode, h2.flat, isRoute_flatten h1]
  · intro w hw
    rw [List.mem_map] at hw
    obtain ⟨g, hg, rfl⟩ := hw
    have hp := isRoute_pieces h1
    have hsub : ∀ t ∈ g, t ∈ ps := by
      intro t ht
      rw [← h2.flat]
      exact List.mem_flatten.2 ⟨g, hg, ht⟩
    rcases h2.kind g hg with ⟨x, rfl, _⟩ | ⟨hne, hall⟩
    · obtain ⟨a, b⟩ := hp x (hsub x (by simp))
      refine ⟨by simpa using encode_ne_nil a, x, by simp, ?_⟩
      rcases b with b | b
      · exact .inl b
      · exact .inr (.inl b)
    · refine ⟨?_, g.flatten, rfl, .inr (.inr ?_)⟩
      · cases g with
        | nil => exact absurd rfl hne
        | cons x g =>
          obtain ⟨r, rfl, _⟩ := hall x (by simp)
          simp [encodeRune_ne_nil]
      · intro r hrr
        obtain ⟨t, ht, hrt⟩ := List.mem_flatten.1 hrr
        obtain ⟨r', rfl, h⟩ := hall t ht
        simp at hrt
        subst hrt; exact h

/-- C26: a stored word of positive frequency is what the dictionary history says. -/
theorem C26_posWord (cfg : SplitCfg) (ops : List (DictOp F)) (hl : ops.length ≤ Trie.valueLimit) (d : Dictionary F D)
    (hr : runOps cfg ops Dictionary.new = some d) (t : List Rune) :
    posWord d t = true ↔ ∃ f p, (absRun cfg ops).content (encode t) = some (f, p) ∧ F64.lt (F64.ofNat 0) f = true := by
  obtain ⟨h1, h2⟩ := C04_find_history cfg ops hl d hr (encode t)
  unfold posWord
  cases hs : storedTok d (encode t) with
  | some tok =>
    have hf := find_stored hs
    cases hc : (absRun cfg ops).content (encode t) with
    | some e =>
      have := h1 e.1 e.2 hc
      rw [hf] at this
      simp at this
      simp [this.1, ← this.2]
      constructor
      · intro h; exact ⟨e.1, ⟨e.2, rfl⟩, h⟩
      · rintro ⟨f, ⟨p, rfl⟩, h⟩; exact h
    | none =>
      obtain ⟨b, hb⟩ := h2 hc
      rw [hf] at hb
      simp at hb
      simp [hb.1, F64.zero_lt_zero]
  | none =>
    cases hc : (absRun cfg ops).content (encode t) with
    | some e =>
      have hv := (storedTok_none (idxOK_of_run hr)).1 hs
      have := h1 e.1 e.2 hc
      exfalso
      have hrep : Rep cfg d (absRun cfg ops) := rep_run ops (rep_new cfg) (by simpa [Dictionary.numTokens, Dictionary.new] using hl) hr
      have := (hrep.value_none_iff (encode t)).1 hv
      rw [hc] at this; simp at this
    | none => simp

/-- C27: the items of `Cut(str, false)` are the best route through the text, runs of single ASCII letters and digits
being joined. -/
theorem C27_best [UnicodeOK] [F64Laws F] (cfg : SplitCfg) (ops : List (DictOp F)) (d : Dictionary F D)
    (hr : runOps cfg ops Dictionary.new = some d) (hg : GoodScores d) (s : Bytes) :
    ∃ ps gs, IsBestRoute d (dagText cfg s) ps ∧ IsRuns EngPiece ps gs ∧
      cutDAGNoHMM cfg d s = some (gs.map fun g => encode g.flatten) := by
  obtain ⟨R, h1, h2⟩ := calcRoutes_eq (idxOK_of_run hr) (dagRunes cfg s)
  obtain ⟨ps, e1, e2⟩ := walk_best (scoreLaws_of_good hg _) h2 (dagRunes cfg s).length 0 (by omega) (by omega)
  obtain ⟨gs, g1, g2⟩ := noHmmLoop_runs ps [] (by simp)
  refine ⟨ps, gs, by rw [← dagRunes_eq]; simpa using e2, by simpa using g1, ?_⟩
  unfold cutDAGNoHMM
  simp only [h1, e1, Option.map_some]
  rw [← g2]; rfl

/-- C27: the same route underlies `Cut(str, true)`: pieces of several characters are kept, a run of single characters is
given to the HMM unless it is one character or a stored word of non-zero frequency. `hc` says that the HMM cut
returns on the runs it is given. -/
theorem C27_best_hmm [UnicodeOK] [F64Laws F] (cfg : SplitCfg) (ops : List (DictOp F)) (d : Dictionary F D)
    (hr : runOps cfg ops Dictionary.new = some d) (hg : GoodScores d) (cut : Bytes → Option (List Bytes))
    (hc : ∀ t : List Rune, 2 ≤ t.length → ∃ o, cut (encode t) = some o) (s : Bytes) :
    ∃ ps gs outs, IsBestRoute d (dagText cfg s) ps ∧ IsRuns (fun t : List Rune => t.length = 1) ps gs ∧
      List.Forall₂ (RunOut d cut) gs outs ∧ cutDAG cfg d cut s = some outs.flatten := by
  obtain ⟨R, h1, h2⟩ := calcRoutes_eq (idxOK_of_run hr) (dagRunes cfg s)
  obtain ⟨ps, e1, e2⟩ := walk_best (scoreLaws_of_good hg _) h2 (dagRunes cfg s).length 0 (by omega) (by omega)
  obtain ⟨gs, outs, g1, g2, g3⟩ := hmmLoop_runs (idxOK_of_run hr) cut ps [] (by simp)
    (fun t ht => (isRoute_pieces e2.route t ht).1) (fun g hg _ hs => hc _ (by rw [(flatten_singles g hs).1]; exact hg))
  refine ⟨ps, gs, outs, by rw [← dagRunes_eq]; simpa using e2, by simpa using g1, g2, ?_⟩
  unfold cutDAG
  simp only [h1, e1, Option.bind_some]
  rw [← g3]; rfl

/-- C27: there is only one best route. -/
theorem C27_unique [F64Laws F] (d : Dictionary F D) (text : List Rune) (ps qs : List (List Rune))
    (h : IsBestRoute d text ps) (h' : IsBestRoute d text qs) : ps = qs := best_route_unique text ps qs h h'

/-- C24: the items of `CutAll` are ranges of characters, strictly ordered by start and then end (so none is repeated);
the ranges of two or more characters are exactly the occurrences of stored words of positive frequency; a single
character is emitted exactly when no such word starts at it and the last item before it has ended. -/
theorem C24_occurrences [UnicodeOK] (cfg : SplitCfg) (ops : List (DictOp F)) (d : Dictionary F D)
    (hr : runOps cfg ops Dictionary.new = some d) (s : Bytes) :
    ∃ ranges : List (Nat × Nat),
      cutAll cfg d s = some (ranges.map fun p => encode (slice (dagText cfg s) p.1 p.2)) ∧
      ranges.Pairwise Before ∧
      (∀ p ∈ ranges, p.1 < p.2 ∧ p.2 ≤ (dagText cfg s).length) ∧
      (∀ a b, a + 2 ≤ b → ((a, b) ∈ ranges ↔ b ≤ (dagText cfg s).length ∧ posWord d (slice (dagText cfg s) a b) = true)) ∧
      (∀ a, (a, a + 1) ∈ ranges ↔ a < (dagText cfg s).length ∧
        (∀ b, a + 2 ≤ b → b ≤ (dagText cfg s).length → posWord d (slice (dagText cfg s) a b) = false) ∧
        lastEnd (ranges.filter fun p => p.1 < a) 0 ≤ a) := by
  refine ⟨itemsFrom d (dagText cfg s) 0 0, ?_, items_sorted _ 0 0 (Nat.le_refl _), ?_, ?_, ?_⟩
  · rw [cutAll_eq (idxOK_of_run hr), dagRunes_eq]
  · intro p hp
    exact (items_mem _ 0 0 (Nat.le_refl _) p hp).2
  · intro a b hab
    rw [items_long _ 0 0 (Nat.le_refl _) a b hab]
    simp
  · intro a
    rw [items_single _ 0 0 (Nat.le_refl _) a]
    simp

/-- C25: every character lies inside an item of `CutAll`. -/
theorem C25_cover [UnicodeOK] (cfg : SplitCfg) (ops : List (DictOp F)) (d : Dictionary F D)
    (hr : runOps cfg ops Dictionary.new = some d) (s : Bytes) :
    ∃ ranges : List (Nat × Nat),
      cutAll cfg d s = some (ranges.map fun p => encode (slice (dagText cfg s) p.1 p.2)) ∧
      (∀ p ∈ ranges, p.1 < p.2 ∧ p.2 ≤ (dagText cfg s).length) ∧
      ∀ i, i < (dagText cfg s).length → ∃ p ∈ ranges, p.1 ≤ i ∧ i < p.2 := by
  refine ⟨itemsFrom d (dagText cfg s) 0 0, by rw [cutAll_eq (idxOK_of_run hr), dagRunes_eq],
    fun p hp => (items_mem _ 0 0 (Nat.le_refl _) p hp).2, ?_⟩
  intro i hi
  rcases items_cover (d := d) (rs := dagText cfg s) _ 0 0 (Nat.le_refl _) i (by omega) hi with h | h
  · omega
  · exact h

/-- C32: `CutSearch` with a flag puts in front of each word of `Cut` its stored proper 2-grams, then its stored proper
3-grams, from left to right. -/
theorem C32_search (cfg : SplitCfg) (ops : List (DictOp F)) (d : Dictionary F D)
    (hr : runOps cfg ops Dictionary.new = some d) (fuel : Nat) (hmmCut : Bytes → Option (List Bytes)) (s : Bytes) (hmm : Bool) :
    cutSearch cfg d fuel hmmCut s (some hmm) = (cut cfg d fuel hmmCut s (some hmm)).map fun ws =>
      ws.flatMap fun w => gramsOf d (runes w) 2 ++ gramsOf d (runes w) 3 ++ [w] := by
  show (cut cfg d fuel hmmCut s (some hmm)).bind _ = _
  generalize cut cfg d fuel hmmCut s (some hmm) = c
  cases c with
  | none => rfl
  | some ws =>
    simp only [Option.bind_some, Option.map_some]
    rw [mapOpt_eq_map fun w _ => searchWord_eq (idxOK_of_run hr) w]
    simp [List.flatMap]

/-- C32: `CutSearch` contains `Cut` as a subsequence, and without HMM it always returns. -/
theorem C32_subsequence [UnicodeOK] (cfg : SplitCfg) (ops : List (DictOp F)) (d : Dictionary F D)
    (hr : runOps cfg ops Dictionary.new = some d) (fuel : Nat) (hmmCut : Bytes → Option (List Bytes)) (s : Bytes) :
    (∀ hmm ws, cut cfg d fuel hmmCut s (some hmm) = some ws →
      ∃ out, cutSearch cfg d fuel hmmCut s (some hmm) = some out ∧ ws.Sublist out) ∧
    ∃ out, cutSearch cfg d fuel hmmCut s (some false) = some out := by
  have h1 : ∀ hmm ws, cut cfg d fuel hmmCut s (some hmm) = some ws →
      ∃ out, cutSearch cfg d fuel hmmCut s (some hmm) = some out ∧ ws.Sublist out := by
    intro hmm ws h
    refine ⟨_, by rw [C32_search cfg ops d hr, h]; rfl, ?_⟩
    clear h
    show ws.Sublist (ws.flatMap _)
    induction ws with
    | nil => simp
    | cons w ws ih =>
      rw [List.flatMap_cons]
      exact (List.Sublist.append (List.sublist_append_right _ [w]) ih)
  refine ⟨h1, ?_⟩
  obtain ⟨out, h, _⟩ := C26_lossless cfg ops d hr s
  obtain ⟨o, ho, _⟩ := h1 false out h
  exact ⟨o, ho⟩

/-- C33: for search strings that are not empty `FindAllOccs` returns, and the offsets of a search string are those found
by scanning from the right without overlap, once for each time it is asked for. -/
theorem C33_occurrences (data : Bytes) (searches : List Bytes) (h : ∀ s ∈ searches, s ≠ []) :
    ∃ m, findAllOccs data searches = some m ∧
      ∀ s ∈ searches, ∃ l, RightOccs data s data.length l ∧ occsOf m s = (List.replicate (searches.count s) l).flatten := by
  refine ⟨_, findAllOccs_eq data searches h, ?_⟩
  intro s hs
  exact ⟨occList data s, (occList_eq (h s hs)).2, occsOf_eq data searches s⟩

/-- C33: what such a scan reports: occurrences, decreasing and without overlap, and every occurrence overlaps one. -/
theorem C33_scan (data sub : Bytes) (hs : sub ≠ []) (l : List Nat) (h : RightOccs data sub data.length l) :
    (∀ m ∈ l, slice data m (m + sub.length) = sub) ∧ l.Pairwise (fun a b => b + sub.length ≤ a) ∧
    ∀ m, m + sub.length ≤ data.length → slice data m (m + sub.length) = sub → ∃ r ∈ l, m ≤ r ∧ r < m + sub.length := by
  refine ⟨?_, rightOccs_pairwise h, ?_⟩
  · intro m hm
    obtain ⟨⟨h1, h2⟩, h3⟩ := rightOccs_mem h m hm
    unfold slice
    rw [show m + sub.length - m = sub.length by omega]
    exact (List.prefix_iff_eq_take.1 h2).symm
  · intro m hm he
    refine rightOccs_complete h hs m ⟨by omega, ?_⟩ hm
    rw [List.prefix_iff_eq_take]
    unfold slice at he
    rw [show m + sub.length - m = sub.length by omega] at he
    exact he.symm

/-- C33: with an empty search string the loop never ends, however long it runs. -/
theorem C33_empty_hangs (data : Bytes) (searches : List Bytes) (h : [] ∈ searches) :
    findAllOccs data searches = none ∧ ∀ fuel index, occsFrom data [] fuel index = none := by
  refine ⟨?_, fun n i => occsFrom_empty data n i⟩
  unfold findAllOccs
  induction searches with
  | nil => simp at h
  | cons s ss ih =>
    by_cases hs : s = []
    · subst hs
      simp [mapOpt, occsFrom_empty]
    · have := ih (by simpa [Ne.symm hs] using h)
      simp only [mapOpt, Option.bind_eq_bind, this, Option.bind_none]
      cases (occsFrom data s (data.length + 2) data.length) <;> rfl

/-- C34: `Analyze` without a text: the tokens tile the words, counted in bytes or in characters. -/
theorem C34_no_text (cfg : SplitCfg) (ops : List (DictOp F)) (d : Dictionary F D)
    (hr : runOps cfg ops Dictionary.new = some d) (words : List Bytes) (hw : ∀ w ∈ words, w ≠ []) (byRunes : Bool) :
    ∃ az, analyze cfg d words [] byRunes = some az ∧ az.length = words.length ∧
      ∀ (i : Nat) (t : AnalyzeToken F), az[i]? = some t → t.position = i ∧ words[i]? = some t.text ∧
        (∃ b, d.find t.text = some (t.freq, t.pos, b)) ∧
        t.start = ((words.take i).map fun w => if byRunes then (runes w).length else w.length).sum ∧
        t.stop = t.start + (if byRunes then (runes t.text).length else t.text.length) := by
  have hi := idxOK_of_run hr
  have hlow : (if cfg.toLower then strLower ([] : Bytes) else []) = [] := by split <;> rfl
  cases words with
  | nil => exact ⟨[], rfl, rfl, by simp⟩
  | cons w rest =>
    obtain ⟨f, p, b, hf⟩ := find_total hi w
    obtain ⟨az, h1, h2, h3⟩ := analyze_empty_loop hi byRunes ((w :: rest).map fun s => (s, occList [] s)) rest 1 (by omega) [w] 0 (azLen byRunes w)
    have hb : AzBasic d 0 (w :: rest) (⟨0, 0, azLen byRunes w, w, f, p⟩ :: az) := AzBasic.cons h2 hf
    refine ⟨⟨0, 0, azLen byRunes w, w, f, p⟩ :: az, ?_, hb.1, ?_⟩
    · unfold analyze
      simp only [hlow, findAllOccs_eq [] (w :: rest) hw, Option.bind_some, if_true]
      unfold analyzeLoop
      simp [hf]
      simpa using h1
    · intro i t ht
      obtain ⟨a1, a2, a3⟩ := hb.2 i t ht
      refine ⟨by omega, a2, a3, ?_⟩
      cases i with
      | zero => simp at ht; subst ht; simp [azLen]
      | succ i =>
        obtain ⟨c1, c2⟩ := h3 i t (by simpa using ht)
        refine ⟨?_, c2⟩
        rw [c1]
        rw [List.take_succ_cons, List.map_cons, List.sum_cons]
        rfl

/-- C34: `Analyze` with a text returns for any words that are not empty, repeated or not. A word that occurs in the
(lower-cased) text gets a range of the text that reads the word, equal words taking the occurrences from the right in
turn; a word that does not occur keeps the start of the token before it. -/
theorem C34_text (cfg : SplitCfg) (ops : List (DictOp F)) (d : Dictionary F D)
    (hr : runOps cfg ops Dictionary.new = some d) (words : List Bytes) (hw : ∀ w ∈ words, w ≠ []) (text : Bytes) (ht : text ≠ [])
    (byRunes : Bool) :
    ∃ az, analyze cfg d words text byRunes = some az ∧ az.length = words.length ∧
      ∀ (i : Nat) (t : AnalyzeToken F), az[i]? = some t → t.position = i ∧ words[i]? = some t.text ∧
        (∃ b, d.find t.text = some (t.freq, t.pos, b)) ∧ t.stop = t.start + t.text.length ∧
        ∀ low, low = (if cfg.toLower then strLower text else text) →
          ((∃ m, OccAt low t.text m) → slice low t.start t.stop = t.text ∧
            ∃ l, RightOccs low t.text low.length l ∧ l[(words.take i).count t.text % l.length]? = some t.start) ∧
          ((∀ m, ¬ OccAt low t.text m) → t.start = if i = 0 then 0 else (az[i - 1]?.map (·.start)).getD 0) := by
  have hi := idxOK_of_run hr
  cases words with
  | nil => exact ⟨[], rfl, rfl, by simp⟩
  | cons w rest =>
    obtain ⟨low, hlow⟩ : ∃ low, low = (if cfg.toLower then strLower text else text) := ⟨_, rfl⟩
    have hne : low ≠ [] := by
      rw [hlow]; split
      · exact fun h => ht ((strLower_eq_nil text).1 h)
      · exact ht
    obtain ⟨az, h1, h2, h3⟩ := analyze_text_loop hi byRunes low hne (w :: rest) (w :: rest) 0 [] rfl 0 0
    refine ⟨az, ?_, h2.1, ?_⟩
    · unfold analyze
      simp only [← hlow, findAllOccs_eq low (w :: rest) hw, Option.bind_some, ht, if_false]
      exact h1
    · intro i t hti
      obtain ⟨a1, a2, a3⟩ := h2.2 i t hti
      obtain ⟨b1, b2⟩ := h3 i t hti
      refine ⟨by omega, a2, a3, b2, ?_⟩
      rintro low' rfl
      rw [← hlow]
      have htw : t.text ≠ [] := hw _ (List.mem_of_getElem? a2)
      obtain ⟨_, hocc⟩ := occList_eq (data := low) htw
      constructor
      · rintro ⟨m, hm⟩
        have hle : m + t.text.length ≤ low.length := by
          have := hm.2.length_le
          simp at this
          have := hm.1
          omega
        obtain ⟨r, hrm, _⟩ := rightOccs_complete hocc htw m hm hle
        have hlne : occList low t.text ≠ [] := List.ne_nil_of_mem hrm
        have hpos : 0 < (occList low t.text).length := List.length_pos_iff.2 hlne
        have hlt : ((w :: rest).take i).count t.text % (occList low t.text).length < (occList low t.text).length := Nat.mod_lt _ hpos
        have hstart : (occList low t.text)[((w :: rest).take i).count t.text % (occList low t.text).length]? = some t.start := by
          rw [b1]
          unfold startOf
          rw [if_neg hlne]
          simp [List.getD_eq_getElem?_getD, hlt]
        refine ⟨?_, _, hocc, hstart⟩
        rw [b2]
        exact (C33_scan low t.text htw _ hocc).1 _ (List.mem_of_getElem? hstart)
      · intro hno
        have : occList low t.text = [] := by
          rw [List.eq_nil_iff_forall_not_mem]
          intro r hrm
          exact hno r (rightOccs_mem hocc r hrm).1
        rw [b1]
        unfold startOf
        rw [if_pos this]

/-- C34: an empty word makes `Analyze` hang. -/
theorem C34_empty_word (cfg : SplitCfg) (d : Dictionary F D) (words : List Bytes) (h : [] ∈ words) (text : Bytes) (byRunes : Bool) :
    analyze cfg d words text byRunes = none := by
  cases words with
  | nil => simp at h
  | cons w rest =>
    unfold analyze
    simp only [(C33_empty_hangs _ _ h).1, Option.bind_none]

theorem suggestProd_total {d : Dictionary F D} (hi : IdxOK d) (total : F) (ws : List Bytes) (a : F) :
    ∃ r, suggestProd d total ws a = some r := by
  induction ws generalizing a with
  | nil => exact ⟨a, rfl⟩
  | cons w ws ih =>
    obtain ⟨f, p, b, hf⟩ := find_total hi w
    unfold suggestProd
    rw [hf]
    exact ih _

/-- C54: `SuggestFreq` of one word is not below the word's frequency, nor below 1 for an unknown word. -/
theorem C54_single [UnicodeOK] (hirr : ∀ a : F, F64.lt a a = false) (cfg : SplitCfg) (ops : List (DictOp F)) (d : Dictionary F D)
    (hr : runOps cfg ops Dictionary.new = some d) (w : Bytes) :
    ∃ r, suggestFreq cfg d [w] = some r ∧ ∃ f p b, d.find w = some (f, p, b) ∧
      F64.lt r (if b then f else F64.ofNat 1) = false := by
  obtain ⟨out, h1, _⟩ := C26_lossless cfg ops d hr w
  obtain ⟨x, h2⟩ := suggestProd_total (idxOK_of_run hr) d.totalFreq out (F64.ofNat 1)
  obtain ⟨f, p, b, h3⟩ := find_total (idxOK_of_run hr) w
  unfold suggestFreq
  simp only [h1, h2, h3, Option.bind_some, Option.map_some, Option.some.injEq, exists_eq_left']
  refine ⟨f, p, b, rfl, ?_⟩
  generalize (if b = true then f else _) = j
  split
  · exact hirr _
  · rename_i h; simpa using h

/-- C54: `SuggestFreq` of several words is not above the frequency of the joined word (0 when it is unknown). -/
theorem C54_several [UnicodeOK] (hirr : ∀ a : F, F64.lt a a = false) (cfg : SplitCfg) (ops : List (DictOp F)) (d : Dictionary F D)
    (hr : runOps cfg ops Dictionary.new = some d) (w v : Bytes) (ws : List Bytes) :
    ∃ r, suggestFreq cfg d (w :: v :: ws) = some r ∧ ∃ f p b, d.find (w :: v :: ws).flatten = some (f, p, b) ∧
      F64.lt (if b then f else F64.ofNat 0) r = false := by
  obtain ⟨x, h2⟩ := suggestProd_total (idxOK_of_run hr) d.totalFreq (w :: v :: ws) (F64.ofNat 1)
  obtain ⟨f, p, b, h3⟩ := find_total (idxOK_of_run hr) (w :: v :: ws).flatten
  unfold suggestFreq
  simp only [h2, h3, Option.bind_some, Option.map_some, Option.some.injEq, exists_eq_left']
  refine ⟨f, p, b, rfl, ?_⟩
  generalize (if b = true then f else _) = j
  split
  · exact hirr _
  · rename_i h; simpa using h

/-- C54: with no word it panics. -/
theorem C54_none (cfg : SplitCfg) (d : Dictionary F D) : suggestFreq cfg d [] = none := rfl

/-- The frequency a word enters the product with. -/
noncomputable def suggestFactor (d : Dictionary F D) (w : Bytes) : F := ((d.find w).map fun e => if e.2.2 then e.1 else F64.ofNat 1).getD (F64.ofNat 1)

theorem suggestProd_field [Field F] (hmul : ∀ a b : F, F64.mul a b = a * b) (hdiv : ∀ a b : F, F64.div a b = a / b)
    (hone : (F64.ofNat 1 : F) = 1) {d : Dictionary F D} (hi : IdxOK d) (total : F) (ws : List Bytes) (a : F) :
    suggestProd d total ws a = some (a * (ws.map (suggestFactor d)).prod / total ^ ws.length) := by
  induction ws generalizing a with
  | nil => simp [suggestProd]
  | cons w ws ih =>
    obtain ⟨f, p, b, hf⟩ := find_total hi w
    unfold suggestProd
    rw [hf]
    simp only [ih, hdiv, hmul]
    congr 1
    have : suggestFactor d w = if b then f else 1 := by simp [suggestFactor, hf, hone]
    rw [List.map_cons, List.prod_cons, this, List.length_cons, pow_succ]
    cases b with
    | true => simp only [if_true]; rw [div_mul_eq_mul_div, div_div, mul_assoc, mul_comm total]
    | false => simp only [Bool.false_eq_true, if_false, one_mul]; rw [div_mul_eq_mul_div, div_div, mul_comm total]

/-- C54: in exact arithmetic the suggestion for several words is the integer part of the total times the product of their
relative frequencies, capped by the frequency of the joined word; for one word the product runs over its cut and the
integer part plus one is raised to the word's frequency. -/
theorem C54_product [UnicodeOK] [Field F] (hmul : ∀ a b : F, F64.mul a b = a * b) (hdiv : ∀ a b : F, F64.div a b = a / b)
    (hone : (F64.ofNat 1 : F) = 1) (cfg : SplitCfg) (ops : List (DictOp F)) (d : Dictionary F D)
    (hr : runOps cfg ops Dictionary.new = some d) :
    (∀ w v ws f p b, d.find (w :: v :: ws).flatten = some (f, p, b) →
      suggestFreq cfg d (w :: v :: ws) =
        let x := F64.trunc (((w :: v :: ws).map (suggestFactor d)).prod / d.totalFreq ^ (ws.length + 2) * d.totalFreq)
        let j := if b then f else F64.ofNat 0
        some (if F64.lt j x then j else x)) ∧
    (∀ w out f p b, cutDAGNoHMM cfg d w = some out → d.find w = some (f, p, b) →
      suggestFreq cfg d [w] =
        let x := F64.add (F64.trunc ((out.map (suggestFactor d)).prod / d.totalFreq ^ out.length * d.totalFreq)) (F64.ofNat 1)
        let j := if b then f else F64.ofNat 1
        some (if F64.lt x j then j else x)) := by
  constructor
  · intro w v ws f p b h
    unfold suggestFreq
    simp only [h, suggestProd_field hmul hdiv hone (idxOK_of_run hr), hone, one_mul, hmul, Option.bind_some, Option.map_some,
      List.length_cons]
  · intro w out f p b h1 h2
    unfold suggestFreq
    simp only [h1, h2, suggestProd_field hmul hdiv hone (idxOK_of_run hr), hone, one_mul, hmul, Option.bind_some, Option.map_some]

end

section examples
attribute [local instance] sampleUnicode sampleF64 sampleF32 sampleNarrow
attribute [local instance] sampleUnicodeOK

/-- Integers satisfy the laws. -/
@[instance_reducible] def sampleLaws64 : F64Laws Int where
  good _ := True
  good_zero := trivial
  good_add _ _ := trivial
  lt_asymm := by intro a b _ _; simp [F64.lt]; omega
  lt_cotrans := by intro a b c _ _ _; simp [F64.lt]; omega
  add_mono := by intro a b c _ _ _; simp [F64.lt, F64.add]
  add_comm := by intro a b _ _; simp [F64.add]; omega
  eq_iff := by intro a b _ _; simp [F64.lt, F64.eq]; omega

attribute [local instance] sampleLaws64

/-- "ab", "abc", "cd", "d" and a word of frequency 0. -/
def dagOps : List (DictOp Int) :=
  [.add (str "ab") 16 (str "n"), .add (str "abc") 64 [], .add (str "cd") 256 (str "v"), .add (str "d") 4 [], .add (str "bx") 0 []]
def dagDict : Dictionary Int Int := (runOps {} dagOps Dictionary.new).getD Dictionary.new

theorem dagDict_run : runOps {} dagOps (Dictionary.new : Dictionary Int Int) = some dagDict := by
  have : (runOps {} dagOps (Dictionary.new : Dictionary Int Int)).isSome = true := by decide +kernel
  obtain ⟨d, hd⟩ := Option.isSome_iff_exists.1 this
  rw [dagDict, hd]; rfl

example : dagOps.length ≤ Trie.valueLimit ∧ GoodScores dagDict := ⟨by decide +kernel, fun _ _ _ => trivial⟩
example : cutDAGNoHMM {} dagDict (str "ABCDxy zbx") = some [str "ab", str "cd", str "xy", str " ", str "zbx"] ∧
    cutAll {} dagDict (str "abcdx") = some [str "ab", str "abc", str "cd", str "x"] ∧
    cutSearch {} dagDict 9 (fun _ => none) (str "abc") (some false) = some [str "ab", str "abc"] := by
  refine ⟨?_, ?_, ?_⟩ <;> decide +kernel
example : (∀ s ∈ [str "ab", str "b"], s ≠ []) ∧ (findAllOccs (str "ababb") [str "ab", str "b", str "ab"]).map (fun m => (occsOf m (str "ab"), occsOf m (str "b"))) =
    some ([2, 0, 2, 0], [4, 3, 1]) := by decide +kernel
example : (analyze {} dagDict [str "ab", str "zz", str "cd", str "ab", str "ab"] (str "AB-cdab") false).map (·.map fun t => (t.start, t.stop)) =
    some [(5, 7), (5, 7), (3, 5), (0, 2), (5, 7)] := by decide +kernel
example : (analyze {} dagDict [str "ab", str "zz", str "cd"] [] false).map (·.map fun t => (t.start, t.stop)) =
    some [(0, 2), (2, 4), (4, 6)] := by decide +kernel
example : (∀ a : Int, F64.lt a a = false) ∧ suggestFreq {} dagDict [str "abc"] = some 64 ∧ suggestFreq {} dagDict [str "ab", str "c"] = some 0 := by
  refine ⟨by intro a; simp [F64.lt], ?_, ?_⟩ <;> decide +kernel

end examples
end Gse
