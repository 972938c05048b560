import Verif.Spec.Local
import Verif.Proofs.Local
import Verif.Props.Content
import Verif.Props.Dag
import Verif.Props.Scale
import Verif.Props.Seam

/-!
# Words that do not occur in a text

C94: what a segmenter answers for a text is determined by the entries of the words that occur in it and by the total; other words act on it
through the total only.
-/

namespace Gse
open Spec

set_option linter.unusedSectionVars false

section
variable {F D : Type} [F64 F] [F32 D] [Narrow F D] [Unicode]

theorem occursIn_slice (cfg : SplitCfg) (s : Bytes) (c k : Nat) : OccursIn cfg s (slice (splitTextToWords cfg s) c k).flatten :=
  ⟨_, slice_isInfix _ _ _, rfl⟩

theorem occursIn_closed [UnicodeOK] {cfg : SplitCfg} {s k : Bytes} (h : OccursIn cfg s k) (c e : Nat) : OccursIn cfg s (slice (splitTextToWords cfg k) c e).flatten := by
  obtain ⟨ws, ⟨l, r, h1⟩, rfl⟩ := h
  rw [split_infix cfg s l ws r h1.symm]
  exact ⟨_, (slice_isInfix _ _ _).trans ⟨l, r, h1⟩, rfl⟩

/-- C94: two histories after which the words that occur in the text have the same entries, and whose totals have the same rounded logarithm:
after a recalculation, all calls that segment the text answer the same. -/
theorem C94_agree [UnicodeOK] (cfg : SplitCfg) (s : Bytes) (ops ops' : List (DictOp F)) (hl : ops.length ≤ Trie.valueLimit) (hl' : ops'.length ≤ Trie.valueLimit)
    (d0 d0' d d' : Dictionary F D) (hr : runOps cfg ops Dictionary.new = some d0) (hr' : runOps cfg ops' Dictionary.new = some d0')
    (hc : ∀ k, OccursIn cfg s k → (absRun cfg ops).content k = (absRun cfg ops').content k)
    (ht : (Narrow.narrow (F64.log2 d0.totalFreq) : D) = Narrow.narrow (F64.log2 d0'.totalFreq))
    (hd : calcToken d0 = some d) (hd' : calcToken d0' = some d') : SameFor cfg d d' s := by
  have h0 := agree_of_content (P := OccursIn cfg s) hl hl' hr hr' hc
  obtain ⟨h, h1, h2⟩ := calcToken_sim h0 (sameDist_withDistances h0 fun _ _ _ _ _ _ e => by rw [ht, e]) (fun k hk c e => occursIn_closed hk c e) hd hd'
  exact agree_for h h1 h2 s (occursIn_slice cfg s)

/-- C94: removing a word that does not occur in the text, with a recalculation before and after: nothing changes for the text. -/
theorem C94_removed [UnicodeOK] (cfg : SplitCfg) (s w : Bytes) (hw : ¬ OccursIn cfg s (normText cfg w)) (ops : List (DictOp F)) (hl : ops.length + 1 ≤ Trie.valueLimit)
    (d0 d1 d d' : Dictionary F D) (hr : runOps cfg ops Dictionary.new = some d0) (h1 : (DictOp.remove w).step cfg d0 = some d1)
    (hd : calcToken d0 = some d) (hd' : calcToken d1 = some d') : SameFor cfg d d' s := by
  have hr1 : runOps cfg (ops ++ [.remove w]) Dictionary.new = some d1 := by
    rw [runOps_append, hr]
    simpa only [Option.bind_some, runOps, Option.bind_fun_some] using h1
  have hl1 : (ops ++ [DictOp.remove (F := F) w]).length ≤ Trie.valueLimit := by simpa using hl
  refine C94_agree cfg s ops _ (by omega) hl1 d0 d1 d d' hr hr1 ?_ ?_ hd hd'
  · intro k hk
    rw [absRun_snoc]
    exact (if_neg fun e : k = normText cfg w => hw (e ▸ hk)).symm
  · rw [total_spent (by omega) hr, total_spent hl1 hr1, absRun_snoc]
    rfl

/-- C94: adding a word that does not occur in the text, with a recalculation before and after: nothing changes for the text unless the
rounded logarithm of the total does. -/
theorem C94_added [UnicodeOK] (cfg : SplitCfg) (s w : Bytes) (f : F) (p : Bytes) (hw : ¬ OccursIn cfg s (normText cfg w)) (ops : List (DictOp F))
    (hl : ops.length + 1 ≤ Trie.valueLimit) (d0 d d' : Dictionary F D) (hr : runOps cfg ops Dictionary.new = some d0)
    (ht : (Narrow.narrow (F64.log2 d0.totalFreq) : D) = Narrow.narrow (F64.log2 (F64.add d0.totalFreq f)))
    (hd : calcToken d0 = some d) (hd' : calcToken (segAddToken cfg d0 w f p).1 = some d') : SameFor cfg d d' s := by
  have hr1 : runOps cfg (ops ++ [.add w f p]) Dictionary.new = some (segAddToken cfg d0 w f p).1 := by
    rw [runOps_append, hr]
    rfl
  have hl1 : (ops ++ [DictOp.add w f p]).length ≤ Trie.valueLimit := by simpa using hl
  refine C94_agree cfg s ops _ (by omega) hl1 d0 _ d d' hr hr1 ?_ ?_ hd hd'
  · intro k hk
    rw [absRun_snoc, AbsDict.step, content_add, if_neg fun e : k = normText cfg w ∧ _ => hw (e.1 ▸ hk)]
  · unfold segAddToken Dictionary.addToken
    dsimp only
    split
    · rfl
    · split
      · rfl
      · exact ht

theorem occursIn_iff (cfg : SplitCfg) (s k : Bytes) : OccursIn cfg s k ↔ ∃ a ∈ List.range ((splitTextToWords cfg s).length + 1),
    ∃ b ∈ List.range ((splitTextToWords cfg s).length + 1), (slice (splitTextToWords cfg s) a b).flatten = k := by
  constructor
  · rintro ⟨ws, ⟨l, r, h⟩, rfl⟩
    refine ⟨l.length, ?_, l.length + ws.length, ?_, ?_⟩
    · rw [List.mem_range, ← h]; simp
    · rw [List.mem_range, ← h]; simp
    · rw [← h]; simp [slice]
  · rintro ⟨a, _, b, _, rfl⟩
    exact occursIn_slice cfg s a b

theorem occursRunes_iff (cfg : SplitCfg) (s k : Bytes) : OccursRunes cfg s k ↔ ∃ a ∈ List.range ((dagText cfg s).length + 1),
    ∃ b ∈ List.range ((dagText cfg s).length + 1), encode (slice (dagText cfg s) a b) = k := by
  constructor
  · rintro ⟨x, ⟨l, r, h⟩, rfl⟩
    refine ⟨l.length, ?_, l.length + x.length, ?_, ?_⟩
    · rw [List.mem_range, ← h]; simp
    · rw [List.mem_range, ← h]; simp
    · rw [← h]; simp [slice]
  · rintro ⟨a, _, b, _, rfl⟩
    exact ⟨_, slice_isInfix _ _ _, rfl⟩

/-! ### Without a recalculation -/

theorem keeps_add (cfg : SplitCfg) (d : Dictionary F D) (w : Bytes) (f : F) (p : Bytes) :
    Keeps d (d.addToken (toToken cfg w f p)).1 ∧ ∀ k, k ≠ normText cfg w → (d.addToken (toToken cfg w f p)).1.trie.value k = d.trie.value k := by
  unfold Dictionary.addToken
  dsimp only
  split
  · exact ⟨fun _ _ h => h, fun _ _ => rfl⟩
  · split
    · exact ⟨fun _ _ h => h, fun _ _ => rfl⟩
    · next h =>
      refine ⟨fun v t hv => List.getElem?_append_left (List.getElem?_eq_some_iff.1 hv).1 ▸ hv, fun k hk => ?_⟩
      rw [Trie.value_insert h, if_neg]
      rw [textSliceToBytes_eq]
      exact fun e => hk (e.trans (flatten_split cfg w))

theorem keeps_remove (cfg : SplitCfg) {d d' : Dictionary F D} {w p : Bytes} {f : F} {e : Bool} (h : d.removeToken (toToken cfg w f p) = some (d', e)) :
    Keeps d d' ∧ ∀ k, k ≠ normText cfg w → d'.trie.value k = d.trie.value k := by
  unfold Dictionary.removeToken at h
  split at h
  · cases h; exact ⟨fun _ _ h => h, fun _ _ => rfl⟩
  · next hd =>
    cases h
    refine ⟨fun _ _ h => h, fun k hk => ?_⟩
    rw [Trie.value_delete hd, if_neg]
    rw [textSliceToBytes_eq]
    exact fun e => hk (e.trans (flatten_split cfg w))
  · cases h

theorem keeps_step {cfg : SplitCfg} {s : Bytes} {op : DictOp F} (ho : Elsewhere cfg s op) {d d' : Dictionary F D} (h : op.step cfg d = some d') :
    Keeps d d' ∧ ∀ k, OccursIn cfg s k → d'.trie.value k = d.trie.value k := by
  have other : ∀ {w k : Bytes}, ¬ OccursIn cfg s (normText cfg w) → OccursIn cfg s k → k ≠ normText cfg w := fun h1 h2 e => h1 (e ▸ h2)
  cases op with
  | add w f p =>
    cases h
    obtain ⟨h1, h2⟩ := keeps_add cfg d w f p
    exact ⟨h1, fun k hk => h2 k (other ho hk)⟩
  | remove w =>
    obtain ⟨⟨x, e⟩, hx, rfl⟩ := Option.map_eq_some_iff.1 h
    obtain ⟨h1, h2⟩ := keeps_remove cfg hx
    exact ⟨h1, fun k hk => h2 k (other ho hk)⟩
  | reAdd w f p =>
    obtain ⟨⟨x, e⟩, hx, rfl⟩ := Option.map_eq_some_iff.1 h
    unfold segReAddToken at hx
    split at hx
    · cases hx
    · next hm =>
      cases hx
      obtain ⟨h1, h2⟩ := keeps_remove cfg hm
      exact ⟨h1, fun k hk => h2 k (other ho hk)⟩
    · next d1 hm =>
      obtain ⟨h1, h2⟩ := keeps_remove cfg hm
      obtain ⟨h3, h4⟩ := keeps_add cfg d1 w f p
      have e0 : (d1.addToken (toToken cfg w f p)).1 = x := congrArg Prod.fst (Option.some.inj hx)
      rw [e0] at h3 h4
      exact ⟨fun v t hv => h3 v t (h1 v t hv), fun k hk => (h4 k (other ho hk)).trans (h2 k (other ho hk))⟩
  | addForce w f p => exact ho.elim
  | recalc => exact ho.elim

theorem keeps_run {cfg : SplitCfg} {s : Bytes} : ∀ (more : List (DictOp F)) {d d' : Dictionary F D}, (∀ op ∈ more, Elsewhere cfg s op) → runOps cfg more d = some d' →
    Keeps d d' ∧ ∀ k, OccursIn cfg s k → d'.trie.value k = d.trie.value k
  | [], d, d', _, h => by cases h; exact ⟨fun _ _ h => h, fun _ _ => rfl⟩
  | op :: more, d, d', ho, h => by
    obtain ⟨d1, h1, h2⟩ := Option.bind_eq_some_iff.1 h
    obtain ⟨a1, a2⟩ := keeps_step (ho op (by simp)) h1
    obtain ⟨b1, b2⟩ := keeps_run more (fun o hm => ho o (by simp [hm])) h2
    exact ⟨fun v t hv => b1 v t (a1 v t hv), fun k hk => (b2 k hk).trans (a2 k hk)⟩

theorem internalSegment_refs [UnicodeOK] {cfg : SplitCfg} {ops : List (DictOp F)} {d : Dictionary F D} (hr : runOps cfg ops Dictionary.new = some d) (s : Bytes) (mode : Bool) :
    ∃ segs, internalSegment cfg (some d) s mode = some segs ∧ ∀ g ∈ segs, ∃ t, d.deref g.tok = some t := by
  by_cases hsm : mode = true ∧ (splitTextToWords cfg s).length = 1
  · refine ⟨[], ?_, by simp⟩
    rw [internalSegment_eq, segmentWords, if_pos (by simpa using hsm)]
  · obtain ⟨segs, ts, h1, h2, h3, h4, _⟩ := segment_tokens hr s mode hsm
    refine ⟨segs, h1, fun g hg => ?_⟩
    obtain ⟨t, ht, hd, _⟩ := tiles_text h2 (pre := []) rfl h4 g hg
    exact ⟨t, hd⟩

/-- C94: calls without recalculation on words that do not occur in the text change nothing for the text, whatever the dictionary. -/
theorem C94_unrecalculated [UnicodeOK] (cfg : SplitCfg) (s : Bytes) (ops more : List (DictOp F)) (d d' : Dictionary F D)
    (hr : runOps cfg ops Dictionary.new = some d) (hm : ∀ op ∈ more, Elsewhere cfg s op) (hr' : runOps cfg more d = some d') : SameFor cfg d d' s := by
  obtain ⟨h1, h2⟩ := keeps_run more hm hr'
  have hw := Reachable.wf ⟨ops, hr⟩
  have hv : ∀ k, OccursIn cfg s k → d.trie.value k = d'.trie.value k := fun k hk => (h2 k hk).symm
  have hsub := subInv_reachable hr
  obtain ⟨h3, h4⟩ := sameStore_keeps hw (wf_run more hw hr') hv h1
  have key : ∀ mode, ∃ segs, internalSegment cfg (some d) s mode = some segs ∧ internalSegment cfg (some d') s mode = some segs ∧ ∀ g ∈ segs, ∃ t, d.deref g.tok = some t := by
    intro mode
    obtain ⟨segs, e1, e2⟩ := internalSegment_refs hr s mode
    have := internalSegment_sim h3 h4 s (occursIn_slice cfg s) mode
    rw [e1] at this
    cases hb : internalSegment cfg (some d') s mode with
    | none => rw [hb] at this; cases this
    | some segs' =>
      rw [hb] at this
      cases this with
      | some hab => exact ⟨segs, e1, by rw [segs_keeps hv hab], e2⟩
  refine ⟨fun mode => ?_, fun fuel mode => ?_, fun fuel mode => ?_, fun fuel mode => ?_⟩
  all_goals obtain ⟨segs, e1, e2, e3⟩ := key mode
  · unfold seen
    rw [e1, e2]
    simp only [Option.map_some, Option.some.injEq]
    refine List.map_congr_left fun g hg => ?_
    obtain ⟨t, ht⟩ := e3 g hg
    rw [ht, h1.deref ht]
  · unfold segSlice
    rw [e1, e2]
    simp only [Option.bind_some, toSlice]
    split
    · exact concatOpt_congr fun g hg => tokenToSlice_keeps hsub h1 _ _ (e3 g hg)
    · refine concatOpt_congr fun g hg => ?_
      obtain ⟨t, ht⟩ := e3 g hg
      rw [ht, h1.deref ht]
  · unfold segString
    rw [e1, e2]
    simp only [Option.bind_some, toString']
    split
    · exact concatOpt_congr fun g hg => tokenToString_keeps hsub h1 _ _ (e3 g hg)
    · refine concatOpt_congr fun g hg => ?_
      obtain ⟨t, ht⟩ := e3 g hg
      rw [ht, h1.deref ht]
  · unfold segPos
    rw [e1, e2]
    simp only [Option.bind_some, toPos]
    split
    · exact concatOpt_congr fun g hg => tokenToPos_keeps hsub h1 _ _ (e3 g hg)
    · refine concatOpt_congr fun g hg => ?_
      obtain ⟨t, ht⟩ := e3 g hg
      rw [ht, h1.deref ht]

/-! ### Cut -/

theorem freqOn_of_content [UnicodeOK] {cfg : SplitCfg} {s : Bytes} {ops ops' : List (DictOp F)} (hl : ops.length ≤ Trie.valueLimit) (hl' : ops'.length ≤ Trie.valueLimit)
    {d d' : Dictionary F D} (hr : runOps cfg ops Dictionary.new = some d) (hr' : runOps cfg ops' Dictionary.new = some d')
    (hc : ∀ k, OccursRunes cfg s k → (absRun cfg ops).content k = (absRun cfg ops').content k) : FreqOn d d' (dagText cfg s) := by
  have h : Rep cfg d (absRun cfg ops) := rep_run ops (rep_new cfg) (by simpa [Dictionary.numTokens, Dictionary.new] using hl) hr
  have h' : Rep cfg d' (absRun cfg ops') := rep_run ops' (rep_new cfg) (by simpa [Dictionary.numTokens, Dictionary.new] using hl') hr'
  have key : ∀ {e : Dictionary F D} {m : AbsDict F}, Rep cfg e m → ∀ k, (storedTok e k).map (·.freq) = (m.content k).map (·.1) := by
    intro e m he k
    rw [← he.content k]
    unfold storedTok
    cases e.trie.value k <;> simp [Function.comp_def]
  intro x hx
  rw [key h, key h', hc _ ⟨x, hx, rfl⟩]

theorem charsOn_of_find {d d' : Dictionary F D} {rs : List Rune} (hi : IdxOK d) (hi' : IdxOK d') (h : ∀ r ∈ rs, d.find (encode [r]) = d'.find (encode [r])) :
    CharsOn d d' rs := by
  intro r hr
  obtain ⟨f, p, b, e1, e2, _⟩ := findRunes_spec (t := [r]) hi (by simp)
  obtain ⟨f', p', b', e1', e2', _⟩ := findRunes_spec (t := [r]) hi' (by simp)
  have : some (f, p, b) = some (f', p', b') := by rw [← e1, ← e1']; exact h r hr
  cases this
  rw [← e2, ← e2']

/-- C94: two histories after which the words that occur in the text have the same entries: `CutAll` answers the same. If also each single
character is found the same way, and the totals have the same logarithm, `Cut` answers the same, with and without the HMM. -/
theorem C94_cut [UnicodeOK] (cfg : SplitCfg) (s : Bytes) (ops ops' : List (DictOp F)) (hl : ops.length ≤ Trie.valueLimit) (hl' : ops'.length ≤ Trie.valueLimit)
    (d d' : Dictionary F D) (hr : runOps cfg ops Dictionary.new = some d) (hr' : runOps cfg ops' Dictionary.new = some d')
    (hc : ∀ k, OccursRunes cfg s k → (absRun cfg ops).content k = (absRun cfg ops').content k) :
    cutAll cfg d s = cutAll cfg d' s ∧
    ((∀ r ∈ dagText cfg s, d.find (encode [r]) = d'.find (encode [r])) → F64.log d.totalFreq = F64.log d'.totalFreq →
      ∀ fuel hmm b, cut cfg d fuel hmm s (some b) = cut cfg d' fuel hmm s (some b)) := by
  have hi := idxOK_of_run hr
  have hi' := idxOK_of_run hr'
  have h := freqOn_of_content hl hl' hr hr' hc
  rw [← dagRunes_eq] at h ⊢
  refine ⟨cutAll_on h hi hi', fun hf ht fuel hmm b => ?_⟩
  cases b
  · exact cutDAGNoHMM_on h (charsOn_of_find hi hi' hf) hi hi' ht
  · exact cutDAG_on h (charsOn_of_find hi hi' hf) hi hi' ht hmm

/-- C94: removing a word that does not occur in the text changes nothing for `CutAll`, and nothing for `Cut` if the word begins with no
character of the text. -/
theorem C94_removed_cut [UnicodeOK] (cfg : SplitCfg) (s w : Bytes) (hw : ¬ OccursRunes cfg s (normText cfg w)) (ops : List (DictOp F)) (hl : ops.length + 1 ≤ Trie.valueLimit)
    (d d' : Dictionary F D) (hr : runOps cfg ops Dictionary.new = some d) (h1 : (DictOp.remove w).step cfg d = some d') :
    cutAll cfg d s = cutAll cfg d' s ∧
    ((∀ r ∈ dagText cfg s, ¬ encode [r] <+: normText cfg w) → ∀ fuel hmm b, cut cfg d fuel hmm s (some b) = cut cfg d' fuel hmm s (some b)) := by
  have hr1 : runOps cfg (ops ++ [.remove w]) Dictionary.new = some d' := by
    rw [runOps_append, hr]
    simpa only [Option.bind_some, runOps, Option.bind_fun_some] using h1
  have hl1 : (ops ++ [DictOp.remove (F := F) w]).length ≤ Trie.valueLimit := by simpa using hl
  have hcont : ∀ k, k ≠ normText cfg w → (absRun cfg (ops ++ [DictOp.remove (F := F) w])).content k = (absRun cfg ops).content k := by
    intro k hk
    rw [absRun_snoc]
    exact if_neg hk
  obtain ⟨h2, h3⟩ := C94_cut cfg s ops _ (by omega) hl1 d d' hr hr1 (fun k hk => (hcont k fun e => hw (e ▸ hk)).symm)
  refine ⟨h2, fun hp => h3 (fun r hm => ?_) ?_⟩
  · obtain ⟨f, p, b, e1, e2, e3⟩ := C05_find_flag cfg ops (by omega) d hr (encode [r])
    obtain ⟨f', p', b', e1', e2', e3'⟩ := C05_find_flag cfg _ hl1 d' hr1 (encode [r])
    have hself : (absRun cfg (ops ++ [DictOp.remove (F := F) w])).content (encode [r]) = (absRun cfg ops).content (encode [r]) :=
      hcont _ fun e => hp r hm (e ▸ List.prefix_rfl)
    have hb : b = b' := by
      rw [Bool.eq_iff_iff, e3, e3', hself]
      refine or_congr_right (and_congr_right fun _ => ⟨?_, ?_⟩)
      · rintro ⟨k, hk, hpre⟩
        exact ⟨k, by rwa [hcont k fun e => hp r hm (e ▸ hpre)], hpre⟩
      · rintro ⟨k, hk, hpre⟩
        exact ⟨k, by rwa [hcont k fun e => hp r hm (e ▸ hpre)] at hk, hpre⟩
    cases hcn : (absRun cfg ops).content (encode [r]) with
    | none =>
      rw [e1, e1', (e2 hcn).1, (e2 hcn).2, (e2' (hself.trans hcn)).1, (e2' (hself.trans hcn)).2, hb]
    | some e =>
      rw [(C04_find_history cfg ops (by omega) d hr _).1 e.1 e.2 hcn, (C04_find_history cfg _ hl1 d' hr1 _).1 e.1 e.2 (hself.trans hcn)]
  · rw [total_spent (by omega) hr, total_spent hl1 hr1, absRun_snoc]
    rfl

end

/-! ### Exact arithmetic: a greater total favours fewer pieces -/

section
variable [ParseFn] [Unicode] {D : Type} [F32 D] [Narrow EReal D]

theorem isRoute_on {d d' : Dictionary EReal D} {rs : List Rune} (h : FreqOn d d' rs) {text : List Rune} {ps : List (List Rune)} (hp : IsRoute d text ps) (ht : text <:+: rs) :
    IsRoute d' text ps := by
  induction hp with
  | nil => exact .nil
  | @cons t rest ps h1 h2 _ ih =>
    have hpre : t <:+: rs := (List.prefix_append _ _).isInfix.trans ht
    refine .cons h1 (h2.imp (fun h3 => by rwa [← h.posWord hpre]) fun h3 => ⟨h3.1, fun ⟨u, u1, u2, u3⟩ => h3.2 ⟨u, u1, u2, ?_⟩⟩)
      (ih ((List.suffix_append _ _).isInfix.trans ht))
    rwa [h.posWord (u1.isInfix.trans ht)]

/-- The product of the frequencies of the pieces. -/
noncomputable def pieceProd (d : Dictionary EReal D) (ps : List (List Rune)) : ℝ := (ps.map fun t => (pieceFreq d t).toReal).prod

theorem likelihood_pieces (d : Dictionary EReal D) (ps : List (List Rune)) : likelihood d ps = pieceProd d ps / d.totalFreq.toReal ^ ps.length := by
  induction ps with
  | nil => simp [likelihood, pieceProd]
  | cons t ps ih =>
    unfold likelihood pieceProd at *
    rw [List.map_cons, List.prod_cons, ih, List.map_cons, List.prod_cons, List.length_cons, share, pow_succ', mul_div_mul_comm]

theorem pieceProd_on {d d' : Dictionary EReal D} {rs : List Rune} (h : FreqOn d d' rs) (hc : CharsOn d d' rs) {text : List Rune} {ps : List (List Rune)}
    (hp : IsRoute d text ps) (ht : text <:+: rs) : pieceProd d ps = pieceProd d' ps := by
  induction hp with
  | nil => rfl
  | @cons t rest ps h1 h2 _ ih =>
    have hpre : t <:+: rs := (List.prefix_append _ _).isInfix.trans ht
    have := ih ((List.suffix_append _ _).isInfix.trans ht)
    unfold pieceProd at *
    rw [List.map_cons, List.prod_cons, List.map_cons, List.prod_cons, this, h.pieceFreq hc hpre (h2.imp_right (·.1))]

/-- Of two products that each win under their own total, the one with the greater total has no more factors. -/
theorem fewer_factors {A A' T T' : ℝ} {n n' : ℕ} (hA : 0 < A) (hT : 0 < T) (hTT : T < T') (h1 : A' / T ^ n' ≤ A / T ^ n) (h2 : A / T' ^ n ≤ A' / T' ^ n') : n' ≤ n := by
  have hT' : 0 < T' := hT.trans hTT
  have p1 : 0 < T ^ n := pow_pos hT n
  have p2 : 0 < T ^ n' := pow_pos hT n'
  have p3 : 0 < T' ^ n := pow_pos hT' n
  have p4 : 0 < T' ^ n' := pow_pos hT' n'
  rw [div_le_div_iff₀ p2 p1] at h1
  rw [div_le_div_iff₀ p3 p4] at h2
  by_contra hlt
  push Not at hlt
  obtain ⟨m, rfl⟩ : ∃ m, n' = n + (m + 1) := ⟨n' - n - 1, by omega⟩
  have hm : T ^ (m + 1) < T' ^ (m + 1) := pow_lt_pow_left₀ hTT hT.le (by omega)
  rw [pow_add] at h1 h2
  have h1' : A' ≤ A * T ^ (m + 1) := by
    have : A' * T ^ n ≤ (A * T ^ (m + 1)) * T ^ n := by linarith
    exact le_of_mul_le_mul_right this p1
  have h2' : A * T' ^ (m + 1) ≤ A' := by
    have : (A * T' ^ (m + 1)) * T' ^ n ≤ A' * T' ^ n := by linarith
    exact le_of_mul_le_mul_right this p3
  nlinarith

theorem runs_length {ps : List (List Rune)} {gs : List (List (List Rune))} (h : IsRuns EngPiece ps gs) (hn : ∀ t ∈ ps, ¬ EngPiece t) : gs.length = ps.length := by
  rw [← h.flat, List.length_flatten]
  have : ∀ g ∈ gs, g.length = 1 := by
    intro g hg
    rcases h.kind g hg with ⟨x, rfl, _⟩ | ⟨h1, h2⟩
    · rfl
    · obtain ⟨x, hx⟩ := List.exists_mem_of_ne_nil g h1
      exact absurd (h2 x hx) (hn x (h.flat ▸ List.mem_flatten.2 ⟨g, hg, hx⟩))
  rw [List.map_congr_left this]
  simp

/-- C94: without rounding, words that do not occur in the text and raise the total make `Cut` without HMM write the text in no more pieces. The text
has no ASCII letters or digits, which are put together afterwards, and some way of writing it has a positive probability. -/
theorem C94_cut_fewer [UnicodeOK] (cfg : SplitCfg) (s : Bytes) (ops ops' : List (DictOp EReal)) (hl : ops.length ≤ Trie.valueLimit) (hl' : ops'.length ≤ Trie.valueLimit)
    (hf : FreqsExact ops) (hf' : FreqsExact ops') (d d' : Dictionary EReal D) (hr : runOps cfg ops Dictionary.new = some d) (hr' : runOps cfg ops' Dictionary.new = some d')
    (hc : ∀ k, OccursRunes cfg s k → (absRun cfg ops).content k = (absRun cfg ops').content k)
    (hs : ∀ r ∈ dagText cfg s, d.find (encode [r]) = d'.find (encode [r])) (h1 : 1 ≤ d.totalFreq) (ht : d.totalFreq ≤ d'.totalFreq)
    (ha : ∀ r ∈ dagText cfg s, asciiAlnum r = false) (hp : ∃ qs, IsRoute d (dagText cfg s) qs ∧ 0 < likelihood d qs) :
    ∃ o o', cutDAGNoHMM cfg d s = some o ∧ cutDAGNoHMM cfg d' s = some o' ∧ o'.length ≤ o.length := by
  obtain ⟨ps, gs, a1, a2, a3, a4⟩ := C27_exact cfg ops d hr hf h1 s
  obtain ⟨ps', gs', b1, b2, b3, b4⟩ := C27_exact cfg ops' d' hr' hf' (h1.trans ht) s
  have hi := idxOK_of_run hr
  have hi' := idxOK_of_run hr'
  have hfr := freqOn_of_content hl hl' hr hr' hc
  have hch := charsOn_of_find hi hi' hs
  refine ⟨_, _, a4, b4, ?_⟩
  have noEng : ∀ {e : Dictionary EReal D} {l : List (List Rune)}, IsRoute e (dagText cfg s) l → ∀ t ∈ l, ¬ EngPiece t := by
    rintro e l hl t htl ⟨r, rfl, hr⟩
    have : r ∈ dagText cfg s := by
      rw [← isRoute_flatten hl]
      exact List.mem_flatten.2 ⟨[r], htl, by simp⟩
    rw [ha r this] at hr
    cases hr
  rw [List.length_map, List.length_map, runs_length a3 (noEng a1), runs_length b3 (noEng b1)]
  obtain ⟨T, hT, eT⟩ := (counts_run hr hf).total
  obtain ⟨T', hT', eT'⟩ := (counts_run hr' hf').total
  have hT1 : 0 < T := by
    rw [eT] at h1
    have : (1 : ℝ) ≤ T := by exact_mod_cast h1
    linarith
  rcases eq_or_lt_of_le ht with he | hlt
  · have := (C94_cut cfg s ops ops' hl hl' d d' hr hr' hc).2 hs (by rw [he]) 0 (fun _ => none) false
    simp only [cut, a4, b4, Option.some.injEq] at this
    have := congrArg List.length this
    rw [List.length_map, List.length_map, runs_length a3 (noEng a1), runs_length b3 (noEng b1)] at this
    omega
  · have hTT : T < T' := by rw [eT, eT'] at hlt; exact_mod_cast hlt
    have hfr' : FreqOn d' d (dagText cfg s) := fun x hx => (hfr x hx).symm
    have hch' : CharsOn d' d (dagText cfg s) := fun r hr => (hch r hr).symm
    have c1 := a2 ps' (isRoute_on hfr' b1 List.infix_rfl)
    have c2 := b2 ps (isRoute_on hfr a1 List.infix_rfl)
    obtain ⟨qs, q1, q2⟩ := hp
    have c3 := q2.trans_le (a2 qs q1)
    rw [likelihood_pieces, eT, EReal.toReal_coe] at c3
    rw [likelihood_pieces, likelihood_pieces, eT, EReal.toReal_coe, ← pieceProd_on hfr' hch' b1 List.infix_rfl] at c1
    rw [likelihood_pieces, likelihood_pieces, eT', EReal.toReal_coe, ← pieceProd_on hfr hch a1 List.infix_rfl] at c2
    exact fewer_factors ((div_pos_iff_of_pos_right (pow_pos hT1 _)).1 c3) hT1 hTT c1 c2

end

section
variable [ParseFn] [Unicode]

/-- What a token counts before its share is taken: its frequency, or `2 ^ -32` for an unknown word. -/
noncomputable def tokenAmount (d : Dictionary EReal EReal) (t : Token EReal EReal) : ℝ :=
  open Classical in
  if storedTok d t.text.flatten = some t then t.freq.toReal else (2 ^ 32)⁻¹

theorem piece_stored {d : Dictionary EReal EReal} {t : Token EReal EReal} (h : IsPiece d t) : (storedTok d t.text.flatten).isSome = true ↔ storedTok d t.text.flatten = some t := by
  rcases h.2 with h1 | ⟨w, rfl, h1⟩
  · simp [h1]
  · have : (unknownTok w : Token EReal EReal).text.flatten = w := by simp [unknownTok]
    simp [this, h1]

theorem shares_amounts (d : Dictionary EReal EReal) : ∀ (ts : List (Token EReal EReal)), (∀ t ∈ ts, IsPiece d t) →
    (ts.map (tokenShare d)).prod = (ts.map (tokenAmount d)).prod / d.totalFreq.toReal ^ storedCount d ts
  | [], _ => by simp [storedCount]
  | t :: ts, h => by
    have ih := shares_amounts d ts fun u hu => h u (by simp [hu])
    rw [List.map_cons, List.prod_cons, ih, List.map_cons, List.prod_cons]
    unfold storedCount
    rw [List.countP_cons]
    by_cases hs : storedTok d t.text.flatten = some t
    · rw [if_pos ((piece_stored (h t (by simp))).2 hs), tokenShare, if_pos hs, tokenAmount, if_pos hs, pow_succ', mul_div_mul_comm]
    · rw [if_neg (mt (piece_stored (h t (by simp))).1 hs), tokenShare, if_neg hs, tokenAmount, if_neg hs, Nat.add_zero, mul_div_assoc]

/-- A segmentation of the text for one dictionary is one for the other, up to what is not its own. -/
theorem segmentation_on [UnicodeOK] {cfg : SplitCfg} {s : Bytes} {d d' : Dictionary EReal EReal} (h : SameStore cfg (OccursIn cfg s) Eq d d') :
    ∀ (ts : List (Token EReal EReal)), wordsOf ts <:+: splitTextToWords cfg s → (∀ t ∈ ts, IsPiece d t) →
      ∃ us, wordsOf us = wordsOf ts ∧ (∀ u ∈ us, IsPiece d' u) ∧ (us.map (tokenAmount d')).prod = (ts.map (tokenAmount d)).prod ∧ storedCount d' us = storedCount d ts
  | [], _, _ => ⟨[], rfl, by simp, rfl, rfl⟩
  | t :: ts, hw, hp => by
    have hw1 : t.text <:+: splitTextToWords cfg s := by
      refine List.IsInfix.trans ?_ hw
      exact (List.prefix_append t.text (wordsOf ts)).isInfix
    have hw2 : wordsOf ts <:+: splitTextToWords cfg s := by
      refine List.IsInfix.trans ?_ hw
      exact (List.suffix_append t.text (wordsOf ts)).isInfix
    obtain ⟨us, i1, i2, i3, i4⟩ := segmentation_on h ts hw2 fun u hu => hp u (by simp [hu])
    have hocc : OccursIn cfg s t.text.flatten := ⟨_, hw1, rfl⟩
    obtain ⟨u, j1, j2, j3, j4⟩ : ∃ u, u.text = t.text ∧ IsPiece d' u ∧ tokenAmount d' u = tokenAmount d t ∧
        (storedTok d' u.text.flatten).isSome = (storedTok d t.text.flatten).isSome := by
      obtain ⟨h1, h2⟩ := hp t (by simp)
      by_cases hst : storedTok d t.text.flatten = some t
      · obtain ⟨v, e1, e2⟩ := Option.bind_eq_some_iff.1 hst
        cases hv' : d'.trie.value t.text.flatten with
        | none => rw [(h.none_iff _ hocc).2 hv'] at e1; cases e1
        | some v' =>
          obtain ⟨u, e3, _⟩ := h.wf'.entry _ _ hv'
          have htx := h.text e1 hv' e2 e3
          have hst' : storedTok d' u.text.flatten = some u := by
            rw [← htx]
            unfold storedTok
            rw [hv']
            exact e3
          refine ⟨u, htx.symm, ⟨htx ▸ h1, .inl hst'⟩, ?_, by rw [hst', hst]; rfl⟩
          unfold tokenAmount
          rw [if_pos hst', if_pos hst, (h.entry _ _ _ _ _ hocc e1 hv' e2 e3).1]
      · obtain ⟨w, rfl, hn⟩ := h2.resolve_left hst
        have hf : (unknownTok w : Token EReal EReal).text.flatten = w := by simp [unknownTok]
        rw [hf] at hocc hst
        have hn' : storedTok d' w = none := by
          unfold storedTok
          rw [(h.none_iff w hocc).1 ((storedTok_none h.wf.idx).1 hn)]
          rfl
        refine ⟨unknownTok w, rfl, ⟨h1, .inr ⟨w, rfl, hn'⟩⟩, ?_, by rw [hf, hn, hn']⟩
        unfold tokenAmount
        rw [hf, hn, hn', if_neg (by simp)]
    refine ⟨u :: us, ?_, ?_, ?_, ?_⟩
    · unfold wordsOf at *
      rw [List.map_cons, List.flatten_cons, j1, i1, List.map_cons, List.flatten_cons]
    · intro x hx
      rcases List.mem_cons.1 hx with rfl | hx
      · exact j2
      · exact i2 x hx
    · rw [List.map_cons, List.prod_cons, i3, j3, List.map_cons, List.prod_cons]
    · unfold storedCount at *
      rw [List.countP_cons, List.countP_cons, i4, j4]

theorem storedCount_all [UnicodeOK] {cfg : SplitCfg} {s : Bytes} {d : Dictionary EReal EReal} {ts : List (Token EReal EReal)}
    (h : IsSegmentation d (splitTextToWords cfg s) ts) (hk : ∀ w ∈ splitTextToWords cfg s, storedTok d w ≠ none) : storedCount d ts = ts.length := by
  unfold storedCount
  rw [List.countP_eq_length]
  intro t ht
  rcases (h.2 t ht).2 with h1 | ⟨w, rfl, hn⟩
  · rw [h1]; rfl
  · refine absurd hn (hk w ?_)
    rw [← h.1]
    exact List.mem_flatten.2 ⟨_, List.mem_map_of_mem ht, by simp [unknownTok]⟩

/-- C94: without rounding, words that do not occur in the text and raise the total make `Segment` write the text with no more stored words, after
a recalculation; if each single word of the text is stored, with no more segments. As in C11, no stored word is the whole total; some
segmentation has a positive probability. -/
theorem C94_segment_fewer [UnicodeOK] (cfg : SplitCfg) (s : Bytes) (ops ops' : List (DictOp EReal)) (hl : ops.length + 1 ≤ Trie.valueLimit)
    (hl' : ops'.length + 1 ≤ Trie.valueLimit) (hf : FreqsExact ops) (hf' : FreqsExact ops') (d0 d0' d d' : Dictionary EReal EReal)
    (hr : runOps cfg ops Dictionary.new = some d0) (hr' : runOps cfg ops' Dictionary.new = some d0') (hd : calcToken d0 = some d) (hd' : calcToken d0' = some d')
    (hc : ∀ k, OccursIn cfg s k → (absRun cfg ops).content k = (absRun cfg ops').content k) (hpos : 0 < d.totalFreq) (ht : d.totalFreq ≤ d'.totalFreq)
    (hz : ∀ w t, storedTok d w = some t → t.freq ≠ d.totalFreq) (hz' : ∀ w t, storedTok d' w = some t → t.freq ≠ d'.totalFreq)
    (hp : ∃ us, IsSegmentation d (splitTextToWords cfg s) us ∧ 0 < (us.map (tokenShare d)).prod) :
    ∃ segs ts segs' ts', internalSegment cfg (some d) s false = some segs ∧ segs.map (fun g => d.deref g.tok) = ts.map some ∧
      internalSegment cfg (some d') s false = some segs' ∧ segs'.map (fun g => d'.deref g.tok) = ts'.map some ∧ storedCount d' ts' ≤ storedCount d ts ∧
      ((∀ w ∈ splitTextToWords cfg s, storedTok d w ≠ none) → segs'.length ≤ segs.length) := by
  have e0 := (calcToken_same hd).total
  have e0' := (calcToken_same hd').total
  obtain ⟨segs, ts, a1, a2, a3, a4⟩ := C11_exact cfg ops d0 d hr hf (by rwa [e0] at hpos) hd hz s
  obtain ⟨segs', ts', b1, b2, b3, b4⟩ := C11_exact cfg ops' d0' d' hr' hf' (by rw [e0] at hpos ht; rw [e0'] at ht; exact hpos.trans_le ht) hd' hz' s
  have hr1 : runOps cfg (ops ++ [.recalc]) Dictionary.new = some d := by rw [runOps_append, hr]; simpa [runOps, DictOp.step] using hd
  have hr1' : runOps cfg (ops' ++ [.recalc]) Dictionary.new = some d' := by rw [runOps_append, hr']; simpa [runOps, DictOp.step] using hd'
  have hstore : SameStore cfg (OccursIn cfg s) Eq d d' := agree_of_content (by simpa using hl) (by simpa using hl') hr1 hr1' (by
    intro k hk
    rw [absRun_snoc, absRun_snoc]
    exact hc k hk)
  have hstore' : SameStore cfg (OccursIn cfg s) Eq d' d := agree_of_content (by simpa using hl') (by simpa using hl) hr1' hr1 (by
    intro k hk
    rw [absRun_snoc, absRun_snoc]
    exact (hc k hk).symm)
  have hcount : storedCount d' ts' ≤ storedCount d ts := by
    obtain ⟨us, u1, u2, u3, u4⟩ := segmentation_on hstore ts (by rw [a3.1]) a3.2
    obtain ⟨us', w1, w2, w3, w4⟩ := segmentation_on hstore' ts' (by rw [b3.1]) b3.2
    have c1 := a4 us' ⟨w1.trans b3.1, w2⟩
    have c2 := b4 us ⟨u1.trans a3.1, u2⟩
    obtain ⟨qs, q1, q2⟩ := hp
    have c3 := q2.trans_le (a4 qs q1)
    obtain ⟨T, hT, eT⟩ := (counts_run hr1 (by
      intro op hop f hfop
      rcases List.mem_append.1 hop with h | h
      · exact hf op h f hfop
      · rw [List.mem_singleton.1 h] at hfop; cases hfop)).total
    obtain ⟨T', hT', eT'⟩ := (counts_run hr1' (by
      intro op hop f hfop
      rcases List.mem_append.1 hop with h | h
      · exact hf' op h f hfop
      · rw [List.mem_singleton.1 h] at hfop; cases hfop)).total
    have hT1 : 0 < T := by rw [eT] at hpos; exact_mod_cast hpos
    rw [shares_amounts d ts a3.2, eT, EReal.toReal_coe] at c3
    have hA : 0 < (ts.map (tokenAmount d)).prod := (div_pos_iff_of_pos_right (pow_pos hT1 _)).1 c3
    rcases eq_or_lt_of_le ht with he | hlt
    · have := C94_agree cfg s ops ops' (by omega) (by omega) d0 d0' d d' hr hr' hc (by rw [← e0, ← e0', he]) hd hd'
      have h5 := this.segment false
      unfold seen at h5
      rw [a1, b1, Option.map_some, Option.map_some, Option.some.injEq] at h5
      have hlists : ∀ {e : Dictionary EReal EReal} {gs : List Seg} {l : List (Token EReal EReal)}, gs.map (fun g => e.deref g.tok) = l.map some →
          (gs.map fun g => (g.start, g.stop, (e.deref g.tok).map fun t => (t.text, t.freq, t.pos, t.distance))).map (fun x => x.2.2.map (·.1)) = l.map fun t => some t.text := by
        intro e gs l hl
        rw [List.map_map]
        have : gs.map ((fun x : Nat × Nat × Option (List Bytes × EReal × Bytes × EReal) => x.2.2.map (·.1)) ∘ fun g =>
            (g.start, g.stop, (e.deref g.tok).map fun t => (t.text, t.freq, t.pos, t.distance))) = (gs.map fun g => e.deref g.tok).map (Option.map (·.text)) := by
          rw [List.map_map]
          refine List.map_congr_left fun g _ => ?_
          simp [Function.comp_def]
        rw [this, hl, List.map_map]
        rfl
      have h6 := hlists a2
      rw [h5, hlists b2] at h6
      have h7 : ts'.map (·.text) = ts.map (·.text) := by
        have := congrArg (List.filterMap id) h6
        simpa [List.filterMap_map] using this
      have hiff : ∀ k, OccursIn cfg s k → (storedTok d' k).isSome = (storedTok d k).isSome := by
        intro k hk
        have i1 := storedTok_none (w := k) hstore.wf.idx
        have i2 := storedTok_none (w := k) hstore.wf'.idx
        have i3 := hstore.none_iff k hk
        cases h8 : storedTok d k <;> cases h9 : storedTok d' k <;> simp_all
      have hcnt : ∀ (e : Dictionary EReal EReal) (l : List (Token EReal EReal)), storedCount e l = (l.map (·.text)).countP fun x => (storedTok e x.flatten).isSome := by
        intro e l
        rw [List.countP_map]
        rfl
      rw [hcnt, hcnt, h7]
      refine le_of_eq (List.countP_congr fun x hx => ?_)
      obtain ⟨t, htm, rfl⟩ := List.mem_map.1 hx
      rw [hiff t.text.flatten ⟨t.text, ?_, rfl⟩]
      rw [← a3.1]
      obtain ⟨l, r, rfl⟩ := List.append_of_mem htm
      refine ⟨wordsOf l, wordsOf r, ?_⟩
      simp [wordsOf]
    · have hTT : T < T' := by rw [eT, eT'] at hlt; exact_mod_cast hlt
      rw [shares_amounts d us' w2, shares_amounts d ts a3.2, eT, EReal.toReal_coe, w3, w4] at c1
      rw [shares_amounts d' us u2, shares_amounts d' ts' b3.2, eT', EReal.toReal_coe, u3, u4] at c2
      exact fewer_factors hA hT1 hTT c1 c2
  refine ⟨segs, ts, segs', ts', a1, a2, b1, b2, hcount, fun hk => ?_⟩
  have l1 : segs.length = ts.length := by simpa using congrArg List.length a2
  have l2 : segs'.length = ts'.length := by simpa using congrArg List.length b2
  have hk' : ∀ w ∈ splitTextToWords cfg s, storedTok d' w ≠ none := by
    intro w hw hn
    have hocc : OccursIn cfg s w := by
      obtain ⟨l, r, e⟩ := List.append_of_mem hw
      exact ⟨[w], ⟨l, r, by rw [e]; simp⟩, by simp⟩
    refine hk w hw ?_
    unfold storedTok
    rw [(hstore.none_iff w hocc).2 ((storedTok_none hstore.wf'.idx).1 hn)]
    rfl
  rw [l1, l2, ← storedCount_all a3 hk, ← storedCount_all b3 hk']
  exact hcount

end

/-! ### A case: 中国 among 北京 -/

section
variable [ParseFn]
attribute [local instance] sampleUnicode sampleUnicodeOK

/-- 中国 once, 中 and 国 four times. -/
noncomputable def pairEntries : List (Bytes × EReal × Bytes) :=
  [(zhong ++ guo, ((1 : ℝ) : EReal), []), (zhong, ((4 : ℝ) : EReal), []), (guo, ((4 : ℝ) : EReal), [])]

/-- 北京. -/
def beijing : Bytes := encode [0x5317, 0x4EAC]

/-- And 北京 ten times. -/
noncomputable def pairEntries' : List (Bytes × EReal × Bytes) := pairEntries ++ [(beijing, ((10 : ℝ) : EReal), [])]

/-- What the case needs to know of a dictionary. -/
structure PairDict (T : ℝ) (ops : List (DictOp EReal)) : Prop where
  few : ops.length + 1 ≤ Trie.valueLimit
  exact : FreqsExact ops
  both : (absRun {} ops).content (zhong ++ guo) = some (((1 : ℝ) : EReal), [])
  fst : (absRun {} ops).content zhong = some (((4 : ℝ) : EReal), [])
  snd : (absRun {} ops).content guo = some (((4 : ℝ) : EReal), [])
  total : (absRun {} ops).spent = (T : EReal)
  below : ∀ k f p, (absRun {} ops).content k = some (f, p) → f ≠ (T : EReal)
  run : ∃ d : Dictionary EReal EReal, runOps {} ops Dictionary.new = some d

theorem pair_norm : normText {} (zhong ++ guo) = zhong ++ guo ∧ normText {} zhong = zhong ∧ normText {} guo = guo ∧ normText {} beijing = beijing := by
  refine ⟨?_, ?_, ?_, ?_⟩ <;> decide +kernel

theorem pair_content (k : Bytes) : (absRun {} (adds pairEntries)).content k =
    if k = zhong ++ guo then some (((1 : ℝ) : EReal), []) else if k = zhong then some (((4 : ℝ) : EReal), []) else if k = guo then some (((4 : ℝ) : EReal), []) else none := by
  rw [(adds_run {} _ (by simp only [pairEntries, List.map_cons, List.map_nil]; decide +kernel)).1]
  obtain ⟨h1, h2, h3, _⟩ := pair_norm
  simp only [pairEntries, find_step, h1, h2, h3, List.find?_nil, Option.map_none]

theorem pair_content' (k : Bytes) : (absRun {} (adds pairEntries')).content k =
    if k = zhong ++ guo then some (((1 : ℝ) : EReal), []) else if k = zhong then some (((4 : ℝ) : EReal), []) else if k = guo then some (((4 : ℝ) : EReal), []) else
    if k = beijing then some (((10 : ℝ) : EReal), []) else none := by
  rw [(adds_run {} _ (by simp only [pairEntries', pairEntries, List.cons_append, List.nil_append, List.map_cons, List.map_nil]; decide +kernel)).1]
  obtain ⟨h1, h2, h3, h4⟩ := pair_norm
  simp only [pairEntries', pairEntries, List.cons_append, List.nil_append, find_step, h1, h2, h3, h4, List.find?_nil, Option.map_none]

theorem pair_amount : ∀ e ∈ pairEntries', Amount e.2.1 := by
  intro e he
  simp only [pairEntries', pairEntries, List.cons_append, List.nil_append, List.mem_cons, List.not_mem_nil, or_false] at he
  rcases he with rfl | rfl | rfl | rfl
  · exact ⟨1, by norm_num, rfl⟩
  · exact ⟨4, by norm_num, rfl⟩
  · exact ⟨4, by norm_num, rfl⟩
  · exact ⟨10, by norm_num, rfl⟩

theorem adds_exact {es : List (Bytes × EReal × Bytes)} (h : ∀ e ∈ es, Amount e.2.1) : FreqsExact (adds es) := by
  intro op hop f hf
  obtain ⟨e, he, rfl⟩ := List.mem_map.1 hop
  simp only [opFreq, Option.some.injEq] at hf
  subst hf
  exact h e he

theorem pairDict : PairDict 9 (adds pairEntries) where
  few := by simp [adds, pairEntries, Trie.valueLimit]
  exact := adds_exact fun e he => pair_amount e (by simp [pairEntries', he])
  both := by rw [pair_content, if_pos rfl]
  fst := by rw [pair_content, if_neg (by decide +kernel), if_pos rfl]
  snd := by rw [pair_content, if_neg (by decide +kernel), if_neg (by decide +kernel), if_pos rfl]
  total := by
    rw [AbsDict.spent, (adds_run {} _ (by simp only [pairEntries, List.map_cons, List.map_nil]; decide +kernel)).2]
    simp only [pairEntries, List.map_cons, List.map_nil, List.foldl_cons, List.foldl_nil, F64.add, F64.ofNat]
    norm_cast
  below k f p h := by
    rw [pair_content] at h
    split at h
    · cases h; norm_cast
    split at h
    · cases h; norm_cast
    split at h
    · cases h; norm_cast
    · cases h
  run := ⟨_, rfl⟩

theorem pairDict' : PairDict 19 (adds pairEntries') where
  few := by simp [adds, pairEntries', pairEntries, Trie.valueLimit]
  exact := adds_exact pair_amount
  both := by rw [pair_content', if_pos rfl]
  fst := by rw [pair_content', if_neg (by decide +kernel), if_pos rfl]
  snd := by rw [pair_content', if_neg (by decide +kernel), if_neg (by decide +kernel), if_pos rfl]
  total := by
    rw [AbsDict.spent, (adds_run {} _ (by simp only [pairEntries', pairEntries, List.cons_append, List.nil_append, List.map_cons, List.map_nil]; decide +kernel)).2]
    simp only [pairEntries', pairEntries, List.cons_append, List.nil_append, List.map_cons, List.map_nil, List.foldl_cons, List.foldl_nil, F64.add, F64.ofNat]
    norm_cast
  below k f p h := by
    rw [pair_content'] at h
    split at h
    · cases h; norm_cast
    split at h
    · cases h; norm_cast
    split at h
    · cases h; norm_cast
    split at h
    · cases h; norm_cast
    · cases h
  run := ⟨_, rfl⟩

theorem comp2 {α : Type} {x y : α} {l : List (List α)} (h : l.flatten = [x, y]) (hne : ∀ p ∈ l, p ≠ []) : l = [[x], [y]] ∨ l = [[x, y]] := by
  have key := comp3 (L := l ++ [[y]]) (a := x) (b := y) (c := y) (by simp [h]) (by
    intro p hp
    rcases List.mem_append.1 hp with hp | hp
    · exact hne p hp
    · rw [List.mem_singleton.1 hp]; simp)
  rcases key with e | e | e | e
  · exact .inl (List.append_left_inj [[y]] |>.1 (by simpa using e))
  · exact .inr (List.append_left_inj [[y]] |>.1 (by simpa using e))
  · have := congrArg List.getLast? e
    simp at this
  · have := congrArg List.getLast? e
    simp at this

theorem pair_get {T : ℝ} {ops : List (DictOp EReal)} (h : PairDict T ops) {d : Dictionary EReal EReal} (hr : runOps {} (ops ++ [.recalc]) Dictionary.new = some d ∨ runOps {} ops Dictionary.new = some d)
    {k : Bytes} {f : EReal} (hk : (absRun {} ops).content k = some (f, [])) : ∃ t, storedTok d k = some t ∧ t.freq = f := by
  have : (storedTok d k).map (fun t => (t.freq, t.pos)) = (absRun {} ops).content k := by
    have hf := h.few
    rcases hr with hr | hr
    · rw [storedTok_content (by simpa using hf) hr k, absRun_snoc]
      rfl
    · exact storedTok_content (by omega) hr k
  rw [hk] at this
  simp only [Option.map_eq_some_iff, Prod.mk.injEq] at this
  obtain ⟨t, h1, h2, _⟩ := this
  exact ⟨t, h1, h2⟩

/-- What `Cut` finds in 中国. -/
theorem pair_cut {T : ℝ} (hT1 : 1 ≤ T) {ops : List (DictOp EReal)} (h : PairDict T ops) {d : Dictionary EReal EReal} (hr : runOps {} ops Dictionary.new = some d) :
    (T < 16 → cutDAGNoHMM {} d (zhong ++ guo) = some [zhong, guo]) ∧ (16 < T → cutDAGNoHMM {} d (zhong ++ guo) = some [zhong ++ guo]) ∧
    ∃ qs, IsRoute d (dagText {} (zhong ++ guo)) qs ∧ 0 < likelihood d qs := by
  have hfew := h.few
  have hT : d.totalFreq = (T : EReal) := by rw [total_spent (by omega) hr, h.total]
  have h1 : 1 ≤ d.totalFreq := by rw [hT]; exact_mod_cast hT1
  obtain ⟨t1, s1, f1⟩ := pair_get h (.inr hr) h.both
  obtain ⟨t2, s2, f2⟩ := pair_get h (.inr hr) h.fst
  obtain ⟨t3, s3, f3⟩ := pair_get h (.inr hr) h.snd
  have k1 : zhong ++ guo = encode [0x4E2D, 0x56FD] := by decide +kernel
  have k2 : zhong = encode [0x4E2D] := by decide +kernel
  have k3 : guo = encode [0x56FD] := by decide +kernel
  have htext : dagText {} (zhong ++ guo) = [0x4E2D, 0x56FD] := by decide +kernel
  rw [k1] at s1
  rw [k2] at s2
  rw [k3] at s3
  have pos : ∀ t : Token EReal EReal, ∀ f : ℝ, 0 < f → t.freq = (f : EReal) → F64.lt (F64.ofNat 0) t.freq = true := by
    intro t f hf e
    rw [exact_lt_true, e]
    simpa [F64.ofNat] using hf
  have w1 : posWord d [0x4E2D, 0x56FD] = true := by simp only [posWord, s1, Option.any_some]; exact pos t1 _ (by norm_num) f1
  have w2 : posWord d [0x4E2D] = true := by simp only [posWord, s2, Option.any_some]; exact pos t2 _ (by norm_num) f2
  have w3 : posWord d [0x56FD] = true := by simp only [posWord, s3, Option.any_some]; exact pos t3 _ (by norm_num) f3
  have rA : IsRoute d [0x4E2D, 0x56FD] [[0x4E2D, 0x56FD]] := .cons (t := [0x4E2D, 0x56FD]) (rest := []) (by simp) (.inl w1) .nil
  have rB : IsRoute d [0x4E2D, 0x56FD] [[0x4E2D], [0x56FD]] :=
    .cons (t := [0x4E2D]) (by simp) (.inl w2) (.cons (t := [0x56FD]) (rest := []) (by simp) (.inl w3) .nil)
  have sh : ∀ t tok (f : ℝ), storedTok d (encode t) = some tok → tok.freq = (f : EReal) → share d t = f / T := by
    intro t tok f h1 h2
    unfold share pieceFreq
    rw [h1, hT]
    simp only [h2, EReal.toReal_coe]
  have lA : likelihood d [[0x4E2D, 0x56FD]] = 1 / T := by simp [likelihood, sh _ _ _ s1 f1]
  have lB : likelihood d [[0x4E2D], [0x56FD]] = 16 / T / T := by
    simp only [likelihood, List.map_cons, List.map_nil, List.prod_cons, List.prod_nil, sh _ _ _ s2 f2, sh _ _ _ s3 f3]
    ring
  have hT0 : 0 < T := by linarith
  obtain ⟨ps, gs, a1, a2, a3, a4⟩ := C27_exact {} ops d hr h.exact h1 (zhong ++ guo)
  rw [htext] at a1 a2
  have out : (gs.map fun g => encode g.flatten) = ps.map encode := runs_noEng (by
    rintro p hp ⟨r, rfl, ha⟩
    have : r ∈ [0x4E2D, 0x56FD] := by
      rw [← isRoute_flatten a1]
      exact List.mem_flatten.2 ⟨[r], hp, by simp⟩
    simp only [List.mem_cons, List.not_mem_nil, or_false] at this
    rcases this with rfl | rfl <;> revert ha <;> decide +kernel) a3
  rw [out] at a4
  rw [a4, htext]
  refine ⟨fun hlt => ?_, fun hlt => ?_, _, rA, by rw [lA]; positivity⟩
  · rcases comp2 (isRoute_flatten a1) (fun x hx => (isRoute_pieces a1 x hx).1) with rfl | rfl
    · simp only [List.map_cons, List.map_nil, ← k2, ← k3]
    · have := a2 _ rB
      rw [lA, lB, div_le_div_iff_of_pos_right hT0, div_le_one hT0] at this
      linarith
  · rcases comp2 (isRoute_flatten a1) (fun x hx => (isRoute_pieces a1 x hx).1) with rfl | rfl
    · have := a2 _ rA
      rw [lA, lB, div_le_div_iff_of_pos_right hT0, one_le_div hT0] at this
      linarith
    · simp only [List.map_cons, List.map_nil, ← k1]

/-- What `Segment` finds in 中国. -/
theorem pair_segment {T : ℝ} (hT0 : 0 < T) {ops : List (DictOp EReal)} (h : PairDict T ops) {d0 d : Dictionary EReal EReal} (hr : runOps {} ops Dictionary.new = some d0)
    (hd : calcToken d0 = some d) :
    (∀ w t, storedTok d w = some t → t.freq ≠ d.totalFreq) ∧ (∃ us, IsSegmentation d (splitTextToWords {} (zhong ++ guo)) us ∧ 0 < (us.map (tokenShare d)).prod) ∧
    (∀ w ∈ splitTextToWords {} (zhong ++ guo), storedTok d w ≠ none) ∧
    ∃ segs, internalSegment {} (some d) (zhong ++ guo) false = some segs ∧ (T < 16 → segs.length = 2) ∧ (16 < T → segs.length = 1) := by
  have hfew := h.few
  have hT : d0.totalFreq = (T : EReal) := by rw [total_spent (by omega) hr, h.total]
  have hTd : d.totalFreq = (T : EReal) := by rw [(calcToken_same hd).total, hT]
  have hrr : runOps {} (ops ++ [.recalc]) Dictionary.new = some d := by rw [runOps_append, hr]; simpa [runOps, DictOp.step] using hd
  have hwf : d.WF {} := wf_run _ (Dictionary.wf_new _) hrr
  obtain ⟨t1, s1, f1⟩ := pair_get h (.inl hrr) h.both
  obtain ⟨t2, s2, f2⟩ := pair_get h (.inl hrr) h.fst
  obtain ⟨t3, s3, f3⟩ := pair_get h (.inl hrr) h.snd
  have hsplit : splitTextToWords {} (zhong ++ guo) = [zhong, guo] := by decide +kernel
  have x1 : t1.text = [zhong, guo] := by rw [(storedTok_split hwf s1).1, hsplit]
  have x2 : t2.text = [zhong] := by rw [(storedTok_split hwf s2).1]; decide +kernel
  have x3 : t3.text = [guo] := by rw [(storedTok_split hwf s3).1]; decide +kernel
  have y1 : storedTok d t1.text.flatten = some t1 := by rw [x1]; simpa using s1
  have y2 : storedTok d t2.text.flatten = some t2 := by rw [x2]; simpa using s2
  have y3 : storedTok d t3.text.flatten = some t3 := by rw [x3]; simpa using s3
  have z : ∀ t : Token EReal EReal, ∀ f : ℝ, storedTok d t.text.flatten = some t → t.freq = (f : EReal) → tokenShare d t = f / T := by
    intro t f h1 h2
    unfold tokenShare
    rw [if_pos h1, h2, hTd, EReal.toReal_coe, EReal.toReal_coe]
  have p1 : IsSegmentation d [zhong, guo] [t1] := by
    refine ⟨by simp [wordsOf, x1], ?_⟩
    intro t ht
    rw [List.mem_singleton.1 ht]
    exact ⟨by simp [x1], .inl y1⟩
  have p2 : IsSegmentation d [zhong, guo] [t2, t3] := by
    refine ⟨by simp [wordsOf, x2, x3], ?_⟩
    intro t ht
    simp only [List.mem_cons, List.not_mem_nil, or_false] at ht
    rcases ht with rfl | rfl
    · exact ⟨by simp [x2], .inl y2⟩
    · exact ⟨by simp [x3], .inl y3⟩
  have e1 : ([t1].map (tokenShare d)).prod = 1 / T := by simp [z t1 1 y1 f1]
  have e2 : ([t2, t3].map (tokenShare d)).prod = 16 / T / T := by
    simp only [List.map_cons, List.map_nil, List.prod_cons, List.prod_nil, z t2 4 y2 f2, z t3 4 y3 f3]
    ring
  have hz : ∀ w t, storedTok d w = some t → t.freq ≠ d.totalFreq := by
    intro w t hw
    have := storedTok_content (by simpa using hfew) hrr w
    rw [hw, absRun_snoc] at this
    rw [hTd]
    exact h.below w _ _ this.symm
  obtain ⟨segs, ts, a1, a2, a3, a4⟩ := C11_exact {} ops d0 d hr h.exact (by rw [hT]; exact_mod_cast hT0) hd hz (zhong ++ guo)
  rw [hsplit] at a3 a4
  have known : ∀ t ∈ ts, ∀ k tk, storedTok d k = some tk → t.text.flatten = k → t = tk := by
    intro t ht k tk hk e
    rcases (a3.2 t ht).2 with h | ⟨u, hu, hn⟩
    · rw [e, hk] at h; cases h; rfl
    · have : u = k := by rw [← e, hu]; simp [unknownTok]
      rw [this, hk] at hn; cases hn
  have hlen : segs.length = ts.length := by simpa using congrArg List.length a2
  have hflat : (ts.map fun t : Token EReal EReal => t.text).flatten = [zhong, guo] := a3.1
  have only : ts = [t2, t3] ∨ ts = [t1] := by
    rcases comp2 hflat (by
      intro y hy
      obtain ⟨t, ht, rfl⟩ := List.mem_map.1 hy
      exact (a3.2 t ht).1) with h | h
    · left
      obtain ⟨u1, u2, rfl⟩ := List.length_eq_two.1 (by simpa using congrArg List.length h)
      simp only [List.map_cons, List.map_nil, List.cons.injEq, and_true] at h
      rw [known u1 (by simp) _ _ s2 (by simp [h.1]), known u2 (by simp) _ _ s3 (by simp [h.2])]
    · right
      obtain ⟨u1, rfl⟩ := List.length_eq_one_iff.1 (by simpa using congrArg List.length h)
      simp only [List.map_cons, List.map_nil, List.cons.injEq, and_true] at h
      rw [known u1 (by simp) _ _ s1 (by simp [h])]
  refine ⟨hz, ⟨[t1], hsplit ▸ p1, by rw [e1]; positivity⟩, ?_, segs, a1, fun hlt => ?_, fun hlt => ?_⟩
  · rw [hsplit]
    intro w hw
    simp only [List.mem_cons, List.not_mem_nil, or_false] at hw
    rcases hw with rfl | rfl
    · rw [s2]; simp
    · rw [s3]; simp
  · rcases only with rfl | rfl
    · simpa using hlen
    · have := a4 _ p2
      rw [e1, e2, div_le_div_iff_of_pos_right hT0, div_le_one hT0] at this
      linarith
  · rcases only with rfl | rfl
    · have := a4 _ p1
      rw [e1, e2, div_le_div_iff_of_pos_right hT0, one_le_div hT0] at this
      linarith
    · simpa using hlen

theorem pair_agree {k : Bytes} (hk : k ≠ beijing) : (absRun {} (adds pairEntries)).content k = (absRun {} (adds pairEntries')).content k := by
  rw [pair_content, pair_content', if_neg (c := k = beijing) hk]

/-- C94: the total does act on other texts, and the hypotheses of `C94_cut_fewer` and `C94_segment_fewer` can hold: with 中国 once, 中 and 国 four times,
`Cut` and `Segment` find 中 and 国 in 中国; with 北京 ten times besides, they find 中国. Without rounding. -/
theorem C94_total_acts : ∃ (d0 d0' d d' : Dictionary EReal EReal) (segs segs' : List Seg),
    runOps {} (adds pairEntries) Dictionary.new = some d0 ∧ runOps {} (adds pairEntries') Dictionary.new = some d0' ∧
    calcToken d0 = some d ∧ calcToken d0' = some d' ∧
    cutDAGNoHMM {} d0 (zhong ++ guo) = some [zhong, guo] ∧ cutDAGNoHMM {} d0' (zhong ++ guo) = some [zhong ++ guo] ∧
    internalSegment {} (some d) (zhong ++ guo) false = some segs ∧ internalSegment {} (some d') (zhong ++ guo) false = some segs' ∧
    segs.length = 2 ∧ segs'.length = 1 ∧
    (∀ k, OccursRunes {} (zhong ++ guo) k ∨ OccursIn {} (zhong ++ guo) k → (absRun {} (adds pairEntries)).content k = (absRun {} (adds pairEntries')).content k) ∧
    (∀ r ∈ dagText {} (zhong ++ guo), d0.find (encode [r]) = d0'.find (encode [r])) ∧ 1 ≤ d0.totalFreq ∧ d0.totalFreq ≤ d0'.totalFreq ∧
    (∀ r ∈ dagText {} (zhong ++ guo), asciiAlnum r = false) ∧ (∃ qs, IsRoute d0 (dagText {} (zhong ++ guo)) qs ∧ 0 < likelihood d0 qs) ∧
    (∀ w t, storedTok d w = some t → t.freq ≠ d.totalFreq) ∧ (∀ w t, storedTok d' w = some t → t.freq ≠ d'.totalFreq) ∧
    (∃ us, IsSegmentation d (splitTextToWords {} (zhong ++ guo)) us ∧ 0 < (us.map (tokenShare d)).prod) := by
  obtain ⟨d0, hr⟩ := pairDict.run
  obtain ⟨d0', hr'⟩ := pairDict'.run
  obtain ⟨d, hd⟩ := calcToken_total (wf_run _ (Dictionary.wf_new _) hr)
  obtain ⟨d', hd'⟩ := calcToken_total (wf_run _ (Dictionary.wf_new _) hr')
  obtain ⟨c1, _, c2⟩ := pair_cut (by norm_num) pairDict hr
  obtain ⟨_, c3, _⟩ := pair_cut (by norm_num) pairDict' hr'
  obtain ⟨z1, z2, _, segs, z3, z4, _⟩ := pair_segment (by norm_num) pairDict hr hd
  obtain ⟨y1, _, _, segs', y3, _, y4⟩ := pair_segment (by norm_num) pairDict' hr' hd'
  have f1 := pairDict.few
  have f2 := pairDict'.few
  have hT : d0.totalFreq = ((9 : ℝ) : EReal) := by rw [total_spent (by omega) hr, pairDict.total]
  have hT' : d0'.totalFreq = ((19 : ℝ) : EReal) := by rw [total_spent (by omega) hr', pairDict'.total]
  have htext : dagText {} (zhong ++ guo) = [0x4E2D, 0x56FD] := by decide +kernel
  refine ⟨d0, d0', d, d', segs, segs', hr, hr', hd, hd', c1 (by norm_num), c3 (by norm_num), z3, y3, z4 (by norm_num), y4 (by norm_num), ?_, ?_, ?_, ?_, ?_, c2, z1, y1, z2⟩
  · rintro k (hk | hk)
    · refine pair_agree ?_
      rintro rfl
      rw [occursRunes_iff] at hk
      revert hk
      decide +kernel
    · refine pair_agree ?_
      rintro rfl
      rw [occursIn_iff] at hk
      revert hk
      decide +kernel
  · intro r hm
    rw [htext] at hm
    simp only [List.mem_cons, List.not_mem_nil, or_false] at hm
    have k2 : encode [0x4E2D] = zhong := by decide +kernel
    have k3 : encode [0x56FD] = guo := by decide +kernel
    rcases hm with rfl | rfl
    · rw [k2, (C04_find_history {} _ (by omega) d0 hr _).1 _ _ pairDict.fst, (C04_find_history {} _ (by omega) d0' hr' _).1 _ _ pairDict'.fst]
    · rw [k3, (C04_find_history {} _ (by omega) d0 hr _).1 _ _ pairDict.snd, (C04_find_history {} _ (by omega) d0' hr' _).1 _ _ pairDict'.snd]
  · rw [hT]; exact_mod_cast (by norm_num : (1 : ℝ) ≤ 9)
  · rw [hT, hT']; exact_mod_cast (by norm_num : (9 : ℝ) ≤ 19)
  · rw [htext]; decide +kernel

end

/-! ### Examples -/

section examples
attribute [local instance] sampleUnicode sampleUnicodeOK sampleF64 sampleF32 sampleNarrow

/-- 中国 and 人, and 北京 after them. -/
def localOps : List (DictOp Int) := [.add (encode [0x4E2D, 0x56FD]) 8 [], .add (encode [0x4EBA]) 4 [], .add (encode [0x5317, 0x4EAC]) 2 []]

/-- The hypotheses of `C94_removed`, `C94_removed_cut`, `C94_added` and `C94_unrecalculated` can hold: for the text 中国人, removing 北京, and adding 上海. -/
example : ¬ OccursIn {} (encode [0x4E2D, 0x56FD, 0x4EBA]) (normText {} (encode [0x5317, 0x4EAC])) ∧
    ¬ OccursRunes {} (encode [0x4E2D, 0x56FD, 0x4EBA]) (normText {} (encode [0x5317, 0x4EAC])) ∧
    (∀ r ∈ dagText {} (encode [0x4E2D, 0x56FD, 0x4EBA]), ¬ encode [r] <+: normText {} (encode [0x5317, 0x4EAC])) ∧
    ∃ d0 d1 d d' : Dictionary Int Int, runOps {} localOps Dictionary.new = some d0 ∧ (DictOp.remove (encode [0x5317, 0x4EAC])).step {} d0 = some d1 ∧
      calcToken d0 = some d ∧ calcToken d1 = some d' := by
  refine ⟨by rw [occursIn_iff]; decide +kernel, by rw [occursRunes_iff]; decide +kernel, by decide +kernel, ?_⟩
  obtain ⟨d0, h0⟩ := Option.isSome_iff_exists.1 (by decide +kernel : (runOps (D := Int) {} localOps Dictionary.new).isSome = true)
  have hs : ((runOps (D := Int) {} localOps Dictionary.new).bind fun d => (DictOp.remove (encode [0x5317, 0x4EAC])).step {} d).isSome = true := by decide +kernel
  rw [h0] at hs
  obtain ⟨d1, h1⟩ := Option.isSome_iff_exists.1 hs
  have hr1 : runOps {} (localOps ++ [.remove (encode [0x5317, 0x4EAC])]) Dictionary.new = some d1 := by
    rw [runOps_append, h0]
    simpa only [Option.bind_some, runOps, Option.bind_fun_some] using h1
  obtain ⟨d, hd⟩ := calcToken_total (wf_run _ (Dictionary.wf_new _) h0)
  obtain ⟨d', hd'⟩ := calcToken_total (wf_run _ (Dictionary.wf_new _) hr1)
  exact ⟨d0, d1, d, d', h0, h1, hd, hd'⟩

example : ∀ op ∈ [DictOp.add (encode [0x4E0A, 0x6D77]) (1 : Int) [], .remove (encode [0x5317, 0x4EAC]), .reAdd (encode [0x5317, 0x4EAC]) 3 []],
    Elsewhere {} (encode [0x4E2D, 0x56FD, 0x4EBA]) op := by
  intro op h
  simp only [List.mem_cons, List.not_mem_nil, or_false] at h
  rcases h with rfl | rfl | rfl
  all_goals
    simp only [Elsewhere]
    rw [occursIn_iff]
    decide +kernel

/-- The total after adding 上海 once has the same rounded logarithm. -/
example : ∃ d0 : Dictionary Int Int, runOps {} localOps Dictionary.new = some d0 ∧
    (Narrow.narrow (F64.log2 d0.totalFreq) : Int) = Narrow.narrow (F64.log2 (F64.add d0.totalFreq 1)) := by
  obtain ⟨d0, h0⟩ := Option.isSome_iff_exists.1 (by decide +kernel : (runOps (D := Int) {} localOps Dictionary.new).isSome = true)
  have hs : (runOps (D := Int) {} localOps Dictionary.new).map (fun d => decide ((Narrow.narrow (F64.log2 d.totalFreq) : Int) = Narrow.narrow (F64.log2 (F64.add d.totalFreq 1)))) =
    some true := by decide +kernel
  rw [h0] at hs
  exact ⟨d0, h0, by simpa using hs⟩

end examples

section examples
attribute [local instance] sampleUnicode sampleUnicodeOK infF64 sampleF32 infNarrow

/-- C94: that the removed word begins with no character of the text is needed for `Cut`. While U+4E00 U+4E05 is stored, U+4E00 is found with frequency zero, every
way of writing U+4E01 U+4E02 U+4E00 has probability zero, and `Cut(str, false)` takes the longest words: U+4E01 U+4E02, and U+4E00. After that word, which does not occur in the text, was
removed, U+4E00 is an unknown character, which counts one, and the answer is three single characters. -/
theorem C94_first_character : ∃ d d' : Dictionary (Option Int) Int, runOps {} infCutOps Dictionary.new = some d ∧
    (DictOp.remove (encode [0x4E00, 0x4E05])).step {} d = some d' ∧ ¬ OccursRunes {} (encode [0x4E01, 0x4E02, 0x4E00]) (normText {} (encode [0x4E00, 0x4E05])) ∧
    cutDAGNoHMM {} d (encode [0x4E01, 0x4E02, 0x4E00]) = some [encode [0x4E01, 0x4E02], encode [0x4E00]] ∧
    cutDAGNoHMM {} d' (encode [0x4E01, 0x4E02, 0x4E00]) = some [encode [0x4E01], encode [0x4E02], encode [0x4E00]] := by
  obtain ⟨d, h0⟩ := Option.isSome_iff_exists.1 (by decide +kernel : (runOps (D := Int) {} infCutOps Dictionary.new).isSome = true)
  have hs : ((runOps (D := Int) {} infCutOps Dictionary.new).bind fun d => (DictOp.remove (encode [0x4E00, 0x4E05])).step {} d).isSome = true := by decide +kernel
  have h2 : ((runOps (D := Int) {} infCutOps Dictionary.new).bind fun d => cutDAGNoHMM {} d (encode [0x4E01, 0x4E02, 0x4E00])) =
    some [encode [0x4E01, 0x4E02], encode [0x4E00]] := by decide +kernel
  have h3 : ((runOps (D := Int) {} infCutOps Dictionary.new).bind fun d => ((DictOp.remove (encode [0x4E00, 0x4E05])).step {} d).bind fun d' =>
    cutDAGNoHMM {} d' (encode [0x4E01, 0x4E02, 0x4E00])) = some [encode [0x4E01], encode [0x4E02], encode [0x4E00]] := by decide +kernel
  rw [h0] at hs h2 h3
  obtain ⟨d', h1⟩ := Option.isSome_iff_exists.1 hs
  have h1' : (DictOp.remove (encode [0x4E00, 0x4E05])).step {} d = some d' := h1
  simp only [Option.bind_some, h1'] at h2 h3
  exact ⟨d, d', h0, h1', by rw [occursRunes_iff]; decide +kernel, h2, h3⟩

end examples
end Gse
