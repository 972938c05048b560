import Verif.Props.Local
import Verif.Props.PosSeam

/-! # C103: what a tagger answers depends on the words of the text only -/

namespace Gse
open Spec

set_option linter.unusedSectionVars false

namespace Spec
variable {F D : Type} [F64 F] [F32 D] [Narrow F D]

/-- Neighbouring characters of the text are the word `k`. -/
def OccursRaw (s k : Bytes) : Prop := ∃ x, x <:+: runes s ∧ encode x = k

end Spec

section
variable {F D : Type} [F64 F] [F32 D] [Narrow F D] {d d' : Dictionary F D} {rs : List Rune}

/-- The tags of the runs of characters of `rs` agree. -/
def TagsOn (d d' : Dictionary F D) (rs : List Rune) : Prop := ∀ x, x <:+: rs → posOf d (encode x) = posOf d' (encode x)

theorem FreqOn.mono (h : FreqOn d d' rs) {t : List Rune} (ht : t <:+: rs) : FreqOn d d' t := fun x hx => h x (hx.trans ht)
theorem CharsOn.mono (h : CharsOn d d' rs) {t : List Rune} (ht : t <:+: rs) : CharsOn d d' t := fun r hr => h r (ht.subset hr)
theorem TagsOn.mono (h : TagsOn d d' rs) {t : List Rune} (ht : t <:+: rs) : TagsOn d d' t := fun x hx => h x (hx.trans ht)

theorem posRoutes_on (h : FreqOn d d' rs) (hc : CharsOn d d' rs) (hi : IdxOK d) (hi' : IdxOK d') : posRoutes d rs = posRoutes d' rs := by
  unfold posRoutes
  rw [← h.getDag hi hi', getDag_eq hi]
  exact calcLoop_on h hc hi hi' _ _ (Nat.le_refl _) _

theorem posItem_on (h : TagsOn d d' rs) {x : List Rune} (hx : x <:+: rs) : posItem d (encode x) = posItem d' (encode x) := by
  unfold posItem
  rw [h x hx]

theorem mapOpt_on {α β : Type} {f g : α → Option β} : ∀ {l : List α}, (∀ x ∈ l, f x = g x) → mapOpt f l = mapOpt g l
  | [], _ => rfl
  | a :: l, h => by
    unfold mapOpt
    rw [h a (by simp), mapOpt_on fun x hx => h x (by simp [hx])]

theorem posFlush_on (h : FreqOn d d' rs) (hp : TagsOn d d' rs) (hi : IdxOK d) (hi' : IdxOK d') (detail : Bytes → Option (List SegPos)) {buf : List Rune} (hb : buf <:+: rs) :
    posFlush d detail buf = posFlush d' detail buf := by
  unfold posFlush findRunes
  split
  · rfl
  split
  · rw [posItem_on hp hb]
  have hne : buf ≠ [] := by rintro rfl; simp at *
  have he := h buf hb
  have none_case : ∀ {e : Dictionary F D}, IdxOK e → storedTok e (encode buf) = none → ∃ b, e.find (encode buf) = some (F64.ofNat 0, [], b) := by
    intro e he hs
    by_cases hn : StartsStored e (encode buf)
    · exact ⟨_, find_starts he (encode_ne_nil hne) hs hn⟩
    · exact ⟨_, find_unknown he hs hn⟩
  have hm : mapOpt (posItem d) (buf.map encodeRune) = mapOpt (posItem d') (buf.map encodeRune) := by
    refine mapOpt_on fun x hx => ?_
    obtain ⟨r, hr, rfl⟩ := List.mem_map.1 hx
    have : [r] <:+: rs := (List.singleton_infix_iff _ _ |>.2 hr).trans hb
    simpa [encode] using posItem_on hp this
  cases h1 : storedTok d (encode buf) with
  | some t =>
    rw [h1] at he
    cases h2 : storedTok d' (encode buf) with
    | none => rw [h2] at he; cases he
    | some t' =>
      rw [h2] at he
      simp only [Option.map_some, Option.some.injEq] at he
      rw [find_stored h1, find_stored h2]
      simp only [he, hm]
  | none =>
    rw [h1] at he
    cases h2 : storedTok d' (encode buf) with
    | some t => rw [h2] at he; cases he
    | none =>
      obtain ⟨b, e1⟩ := none_case hi h1
      obtain ⟨b', e2⟩ := none_case hi' h2
      rw [e1, e2]
      simp [F64.zero_eq_zero]

theorem posHmmLoop_on (h : FreqOn d d' rs) (hp : TagsOn d d' rs) (hi : IdxOK d) (hi' : IdxOK d') (detail : Bytes → Option (List SegPos)) :
    ∀ (frags : List (List Rune)) (buf : List Rune), buf ++ frags.flatten <:+: rs → posHmmLoop d detail frags buf = posHmmLoop d' detail frags buf
  | [], buf, hb => posFlush_on h hp hi hi' detail (by simpa using hb)
  | frag :: rest, buf, hb => by
    unfold posHmmLoop
    split
    · exact posHmmLoop_on h hp hi hi' detail rest _ (by simpa using hb)
    · have hf : frag <:+: rs := List.IsInfix.trans ⟨buf, rest.flatten, by simp⟩ hb
      have hrest : rest.flatten <:+: rs := List.IsInfix.trans ⟨buf ++ frag, [], by simp⟩ hb
      rw [posFlush_on h hp hi hi' detail ((List.prefix_append _ _).isInfix.trans hb), posItem_on hp hf,
        posHmmLoop_on h hp hi hi' detail rest [] (by simpa using hrest)]

theorem posNoHmmLoop_on (hp : TagsOn d d' rs) : ∀ (frags : List (List Rune)) (buf : List Rune), frags.flatten <:+: rs → posNoHmmLoop d frags buf = posNoHmmLoop d' frags buf
  | [], _, _ => rfl
  | frag :: rest, buf, hb => by
    have hf : frag <:+: rs := List.IsInfix.trans ⟨[], rest.flatten, by simp⟩ hb
    have hrest : rest.flatten <:+: rs := List.IsInfix.trans ⟨frag, [], by simp⟩ hb
    unfold posNoHmmLoop
    rw [posItem_on hp hf, posNoHmmLoop_on hp rest _ hrest, posNoHmmLoop_on hp rest _ hrest]

variable [U : Unicode]

theorem posCutNoHMM_on {v : Bytes} (h : FreqOn d d' (runes v)) (hc : CharsOn d d' (runes v)) (hp : TagsOn d d' (runes v)) (hi : IdxOK d) (hi' : IdxOK d') :
    posCutNoHMM d v = posCutNoHMM d' v := by
  unfold posCutNoHMM
  rw [posRoutes_on h hc hi hi']
  cases posRoutes d' (runes v) with
  | none => rfl
  | some R =>
    dsimp only
    cases hw : walk (runes v) R (runes v).length 0 with
    | none => rfl
    | some frags => exact posNoHmmLoop_on hp frags [] (by rw [walk_flatten _ _ _ _ _ hw]; simp)

theorem posCutDAG_on {v : Bytes} (h : FreqOn d d' (runes v)) (hc : CharsOn d d' (runes v)) (hp : TagsOn d d' (runes v)) (hi : IdxOK d) (hi' : IdxOK d')
    (detail : Bytes → Option (List SegPos)) : posCutDAG d detail v = posCutDAG d' detail v := by
  unfold posCutDAG
  rw [posRoutes_on h hc hi hi']
  cases posRoutes d' (runes v) with
  | none => rfl
  | some R =>
    dsimp only
    cases hw : walk (runes v) R (runes v).length 0 with
    | none => rfl
    | some frags => exact posHmmLoop_on h hp hi hi' detail frags [] (by rw [List.nil_append, walk_flatten _ _ _ _ _ hw]; simp)

theorem posCutWith_on {cut cut' : Bytes → Option (List SegPos)} (s : Bytes) (hcut : ∀ v, chars v <:+: chars s → cut v = cut' v) : posCutWith cut s = posCutWith cut' s := by
  have key : ∀ s blks, Blocks reHanInternal s blks → (∀ v, chars v <:+: chars s → cut v = cut' v) → ∀ b ∈ blks, posBlock cut b = posBlock cut' b := by
    intro s blks hb
    induction hb with
    | @last s e =>
      intro h b hb
      cases List.mem_singleton.1 hb
      unfold posBlock
      rw [h _ (List.infix_refl _)]
    | @next s a b blks e hb ih =>
      intro h x hx
      rcases classRun_spec (hanInternalClass (U := U)) s with ⟨h1, _⟩ | ⟨a', b', us, h', c1, c2, c3, c4, c5, c6, c7, c8⟩
      · unfold reHanInternal at e; rw [h1] at e; simp at e
      · unfold reHanInternal at e
        rw [h'] at e
        simp only [Option.some.injEq, Prod.mk.injEq] at e
        obtain ⟨rfl, rfl⟩ := e
        have f1 : chars (s.drop b') <:+: chars s := by rw [c3]; exact (List.suffix_append _ _).isInfix
        have f2 : us <:+: chars s := by rw [c3]; exact ⟨_, _, rfl⟩
        have f3 : chars (s.take a') <:+: chars s := by rw [c3]; exact ⟨[], us ++ chars (s.drop b'), by simp⟩
        simp only [List.mem_cons] at hx
        rcases hx with rfl | rfl | hx
        · unfold posBlock; rw [h _ f3]
        · unfold posBlock; rw [h _ (by rw [← c4]; exact f2)]
        · exact ih (fun v hv => h v (hv.trans f1)) x hx
  obtain ⟨blks, h1, h2⟩ := splitBy_blocks (classRun_range (hanInternalClass (U := U))) s
  unfold posCutWith reHanInternal
  rw [h1]
  simp only [Option.bind_some]
  rw [mapOpt_on (key s blks h2 hcut)]

theorem runes_of_chars {v s : Bytes} (h : chars v <:+: chars s) : runes v <:+: runes s := by
  rw [runes_eq_chars, runes_eq_chars]; exact h.map _

theorem posCut_on {s : Bytes} (h : FreqOn d d' (runes s)) (hc : CharsOn d d' (runes s)) (hp : TagsOn d d' (runes s)) (hi : IdxOK d) (hi' : IdxOK d')
    (ch : Choice) (T : PosTables F) (b : Bool) : posCut ch T d s b = posCut ch T d' s b := by
  unfold posCut
  refine posCutWith_on s fun v hv => ?_
  have hr := runes_of_chars hv
  cases b
  · exact posCutNoHMM_on (h.mono hr) (hc.mono hr) (hp.mono hr) hi hi'
  · exact posCutDAG_on (h.mono hr) (hc.mono hr) (hp.mono hr) hi hi' _

end

namespace Spec
variable {F : Type} [F64 F] [Unicode]

/-- The call adds or removes one of the words in `P`, or recalculates. -/
def TouchesOnly (cfg : SplitCfg) (P : Bytes → Prop) : DictOp F → Prop
  | .add t _ _ => P (normText cfg t)
  | .addForce t _ _ => P (normText cfg t)
  | .remove t => P (normText cfg t)
  | .reAdd t _ _ => P (normText cfg t)
  | .recalc => True

/-- `w` begins a stored word. -/
def AbsDict.Begins (m : AbsDict F) (w : Bytes) : Prop := ∃ k, m.content k ≠ none ∧ w <+: k

end Spec

section
variable {F D : Type} [F64 F] [F32 D] [Narrow F D] [Unicode] [UnicodeOK]

/-- C103: two histories after which the words that occur in the text have the same entries, the same characters of the text begin stored words, and the same word of the text (or none)
is the one added first: `Cut` of a tagger answers the same, with and without the state model, in any arithmetic. The totals, which `Cut` of a segmenter depends on, do not matter. -/
theorem C103_words (cfg : SplitCfg) (s : Bytes) (ops ops' : List (DictOp F)) (hl : ops.length ≤ Trie.valueLimit) (hl' : ops'.length ≤ Trie.valueLimit)
    (d d' : Dictionary F D) (hr : runOps cfg ops Dictionary.new = some d) (hr' : runOps cfg ops' Dictionary.new = some d')
    (hc : ∀ k, OccursRaw s k → (absRun cfg ops).content k = (absRun cfg ops').content k)
    (hb : ∀ r ∈ runes s, (absRun cfg ops).Begins (encode [r]) ↔ (absRun cfg ops').Begins (encode [r]))
    (hf : ∀ k, OccursRaw s k → (FirstKept cfg ops k ↔ FirstKept cfg ops' k)) (ch : Choice) (T : PosTables F) (hmm : Bool) :
    posCut ch T d s hmm = posCut ch T d' s hmm := by
  have hi := idxOK_of_run hr
  have hi' := idxOK_of_run hr'
  have h : Rep cfg d (absRun cfg ops) := rep_run ops (rep_new cfg) (by simpa [Dictionary.numTokens, Dictionary.new] using hl) hr
  have h' : Rep cfg d' (absRun cfg ops') := rep_run ops' (rep_new cfg) (by simpa [Dictionary.numTokens, Dictionary.new] using hl') hr'
  have key : ∀ {e : Dictionary F D} {m : AbsDict F}, Rep cfg e m → ∀ k, (storedTok e k).map (·.freq) = (m.content k).map (·.1) := by
    intro e m he k
    rw [← he.content k]
    unfold storedTok
    cases e.trie.value k <;> simp [Function.comp_def]
  have starts : ∀ {e : Dictionary F D} {m : AbsDict F}, Rep cfg e m → ∀ w, StartsStored e w ↔ m.Begins w := by
    intro e m he w
    have hn : ∀ k, m.content k ≠ none ↔ ∃ tok, storedTok e k = some tok := by
      intro k
      have := key he k
      cases h1 : storedTok e k <;> cases h2 : m.content k <;> simp_all
    constructor
    · rintro ⟨k, tok, h1, h2⟩; exact ⟨k, (hn k).2 ⟨tok, h1⟩, h2⟩
    · rintro ⟨k, h1, h2⟩
      obtain ⟨tok, h1⟩ := (hn k).1 h1
      exact ⟨k, tok, h1, h2⟩
  refine posCut_on (fun x hx => ?_) (fun r hm => ?_) (fun x hx => ?_) hi hi' ch T hmm
  · rw [key h, key h', hc _ ⟨x, hx, rfl⟩]
  · rw [starts h, starts h']; exact hb r hm
  · obtain ⟨a1, a2⟩ := C52_pos cfg ops hl d hr (encode x)
    obtain ⟨b1, b2⟩ := C52_pos cfg ops' hl' d' hr' (encode x)
    by_cases hk : FirstKept cfg ops (encode x)
    · rw [a1 hk, b1 ((hf _ ⟨x, hx, rfl⟩).1 hk)]
    · rw [a2 hk, b2 (mt (hf _ ⟨x, hx, rfl⟩).2 hk), hc _ ⟨x, hx, rfl⟩]

/-- C103: and so does `TextRank`. -/
theorem C103_rank (cfg : SplitCfg) (s : Bytes) (ops ops' : List (DictOp F)) (hl : ops.length ≤ Trie.valueLimit) (hl' : ops'.length ≤ Trie.valueLimit)
    (d d' : Dictionary F D) (hr : runOps cfg ops Dictionary.new = some d) (hr' : runOps cfg ops' Dictionary.new = some d')
    (hc : ∀ k, OccursRaw s k → (absRun cfg ops).content k = (absRun cfg ops').content k)
    (hb : ∀ r ∈ runes s, (absRun cfg ops).Begins (encode [r]) ↔ (absRun cfg ops').Begins (encode [r]))
    (hf : ∀ k, OccursRaw s k → (FirstKept cfg ops k ↔ FirstKept cfg ops' k)) (ch' ch : Choice) (K : RankConst F) (T : PosTables F) (topK : Int) (allow : List Bytes) :
    textRankWithPOS ch' ch K T d s topK allow = textRankWithPOS ch' ch K T d' s topK allow := by
  unfold textRankWithPOS
  rw [C103_words cfg s ops ops' hl hl' d d' hr hr' hc hb hf]

theorem content_touch {cfg : SplitCfg} {P : Bytes → Prop} (m : AbsDict F) {op : DictOp F} (h : TouchesOnly cfg P op) {k : Bytes} (hk : ¬ P k) :
    (m.step cfg op).content k = m.content k := by
  have ne : ∀ {t : Bytes}, P (normText cfg t) → k ≠ normText cfg t := fun h e => hk (e ▸ h)
  have add : ∀ (m : AbsDict F) {t f p}, k ≠ normText cfg t → (m.add cfg t f p).content k = m.content k := by
    intro m t f p h
    unfold AbsDict.add
    split
    · rfl
    · exact if_neg h
  have remove : ∀ (m : AbsDict F) {t}, k ≠ normText cfg t → (m.remove cfg t).content k = m.content k := fun m t h => if_neg h
  cases op with
  | add t f p => exact add m (ne h)
  | addForce t f p => exact add m (ne h)
  | remove t => exact remove m (ne h)
  | reAdd t f p =>
    unfold AbsDict.step
    dsimp only
    split
    · rw [add _ (ne h), remove m (ne h)]
    · rfl
  | recalc => rfl

theorem firstKept_append {cfg : SplitCfg} {ops more : List (DictOp F)} (hex : ∃ o ∈ ops, ∃ k, Adds cfg k o) {k : Bytes} (hm : ∀ o ∈ more, ¬ Removes cfg k o) :
    FirstKept cfg (ops ++ more) k ↔ FirstKept cfg ops k := by
  constructor
  · rintro ⟨pre, op, post, e, h1, h2, h3⟩
    rcases List.append_eq_append_iff.1 e with ⟨l, e1, e2⟩ | ⟨l, e1, e2⟩
    · obtain ⟨o, ho, k', hk'⟩ := hex
      exact absurd hk' (h1 o (by rw [e1]; simp [ho]) k')
    · cases l with
      | nil =>
        obtain ⟨o, ho, k', hk'⟩ := hex
        exact absurd hk' (h1 o (by simpa [e1] using ho) k')
      | cons o l =>
        simp at e2
        obtain ⟨rfl, rfl⟩ := e2
        exact ⟨pre, op, l, e1, h1, h2, fun o ho => h3 o (by simp [ho])⟩
  · rintro ⟨pre, op, post, rfl, h1, h2, h3⟩
    refine ⟨pre, op, post ++ more, by simp, h1, h2, ?_⟩
    intro o ho
    rcases List.mem_append.1 ho with ho | ho
    · exact h3 o ho
    · exact hm o ho

/-- C103: once a first word is there, adding and removing words that do not occur in a text and begin with none of its characters, with whatever frequencies (also infinite ones or NaN),
changes nothing for the tagger on that text. -/
theorem C103_elsewhere (cfg : SplitCfg) (s : Bytes) (ops more : List (DictOp F)) (hl : (ops ++ more).length ≤ Trie.valueLimit) (hex : ∃ o ∈ ops, ∃ k, Adds cfg k o)
    (hm : ∀ op ∈ more, TouchesOnly cfg (fun k => ¬ OccursRaw s k ∧ ∀ r ∈ runes s, ¬ encode [r] <+: k) op)
    (d d' : Dictionary F D) (hr : runOps cfg ops Dictionary.new = some d) (hr' : runOps cfg more d = some d') (ch : Choice) (T : PosTables F) (hmm : Bool) :
    posCut ch T d' s hmm = posCut ch T d s hmm := by
  have hr1 : runOps cfg (ops ++ more) Dictionary.new = some d' := by rw [runOps_append, hr]; exact hr'
  have key : ∀ (m : AbsDict F), ∀ k, ¬ (¬ OccursRaw s k ∧ ∀ r ∈ runes s, ¬ encode [r] <+: k) → (more.foldl (AbsDict.step cfg) m).content k = m.content k := by
    clear hl hr' hr1
    induction more with
    | nil => intros; rfl
    | cons op more ih =>
      intro m k hk
      rw [List.foldl_cons, ih (fun o ho => hm o (by simp [ho])) _ k hk, content_touch m (hm op (by simp)) hk]
  have hrun : absRun cfg (ops ++ more) = more.foldl (AbsDict.step cfg) (absRun cfg ops) := by simp [absRun]
  refine C103_words cfg s (ops ++ more) ops hl (by simp at hl; omega) d' d hr1 hr (fun k hk => ?_) (fun r hmr => ?_) (fun k hk => ?_) ch T hmm
  · rw [hrun, key _ k fun h => h.1 hk]
  · unfold AbsDict.Begins
    refine exists_congr fun k => and_congr_left fun hp => ?_
    rw [hrun, key _ k fun h => h.2 r hmr hp]
  · refine firstKept_append hex fun o ho h => ?_
    have ht := hm o ho
    cases o with
    | remove t => have h : normText cfg t = k := h; exact ht.1 (by rw [h]; exact hk)
    | reAdd t f p => have h : normText cfg t = k := h; exact ht.1 (by rw [h]; exact hk)
    | add t f p => exact h
    | addForce t f p => exact h
    | recalc => exact h

/-- C103: the order in which different words are added does not matter for a tagger either, but for the first one: in any arithmetic, since no sum of the frequencies enters. -/
theorem C103_order (cfg : SplitCfg) (e : Bytes × F × Bytes) (es es' : List (Bytes × F × Bytes)) (hp : es.Perm es') (h : ((e :: es).map fun e => normText cfg e.1).Nodup)
    (hl : (e :: es).length ≤ Trie.valueLimit) (d d' : Dictionary F D) (hr : runOps cfg (adds (e :: es)) Dictionary.new = some d)
    (hr' : runOps cfg (adds (e :: es')) Dictionary.new = some d') (ch : Choice) (T : PosTables F) (s : Bytes) (hmm : Bool) : posCut ch T d s hmm = posCut ch T d' s hmm := by
  have hc := (C89_order_content cfg (e :: es) (e :: es') (hp.cons e) h).1
  have first : ∀ (l : List (Bytes × F × Bytes)) k, FirstKept cfg (adds (e :: l)) k ↔ normText cfg e.1 = k := by
    intro l k
    constructor
    · rintro ⟨pre, op, post, e1, h1, h2, _⟩
      cases pre with
      | nil =>
        simp [adds] at e1
        rw [← e1.1] at h2; exact h2
      | cons o pre =>
        simp [adds] at e1
        exact absurd (show Adds cfg _ o by rw [← e1.1]; exact rfl) (h1 o (by simp) (normText cfg e.1))
    · intro hk
      refine ⟨[], _, _, rfl, by simp, hk, ?_⟩
      intro o ho
      obtain ⟨x, _, rfl⟩ := List.mem_map.1 ho
      exact id
  refine C103_words cfg s _ _ (by rwa [adds_length]) (by rw [adds_length]; simpa [← hp.length_eq] using hl) d d' hr hr' (fun k _ => by rw [hc]) (fun r _ => by unfold AbsDict.Begins; rw [hc])
    (fun k _ => by rw [first, first]) ch T hmm

end

section examples
attribute [local instance] sampleUnicode sampleUnicodeOK sampleF32 infF64 infNarrow

/-- A word of frequency `-Inf` that has nothing to do with the text. -/
def farOps : List (DictOp (Option Int)) := [.add (encode [0x4E40, 0x4E41]) none (str "q"), .recalc, .remove (encode [0x4E40, 0x4E41])]

example : (∃ o ∈ posOps, ∃ k, Adds {} k o) ∧ ((runOps {} farOps posDict).isSome = true) ∧
    ∀ op ∈ farOps, TouchesOnly {} (fun k => ¬ OccursRaw posText k ∧ ∀ r ∈ runes posText, ¬ encode [r] <+: k) op := by
  have hn : normText {} (encode [0x4E40, 0x4E41]) = encode [0x4E40, 0x4E41] := by decide +kernel
  have hfar : ¬ OccursRaw posText (encode [0x4E40, 0x4E41]) ∧ ∀ r ∈ runes posText, ¬ encode [r] <+: encode [0x4E40, 0x4E41] := by
    refine ⟨?_, by decide +kernel⟩
    rintro ⟨x, hx, e⟩
    cases x with
    | nil => simp [encode] at e; revert e; decide +kernel
    | cons r x =>
      have : ∀ r ∈ runes posText, ¬ encode [r] <+: encode [0x4E40, 0x4E41] := by decide +kernel
      refine this r (hx.subset (by simp)) ⟨encode x, ?_⟩
      rw [← encode_append]; exact e
  refine ⟨⟨.add (encode [0x4E20]) (some 4) (str "w"), List.mem_cons_self, _, rfl⟩, by decide +kernel, ?_⟩
  intro op ho
  simp only [farOps, List.mem_cons, List.not_mem_nil, or_false] at ho
  rcases ho with rfl | rfl | rfl
  · show _ ∧ _
    rw [hn]; exact hfar
  · trivial
  · show _ ∧ _
    rw [hn]; exact hfar

/-- C103: a word that does not occur in the text but begins with one of its characters is another matter: the character, which counted 1 when it was unknown, then counts 0, and the words
of the whole run are chosen without regard to frequencies. -/
theorem C103_begins : ∃ (ops : List (DictOp (Option Int))) (w s : Bytes) (f : Option Int) (d d' : Dictionary (Option Int) Int),
    runOps {} ops Dictionary.new = some d ∧ (DictOp.add w f []).step {} d = some d' ∧ ¬ OccursRaw s w ∧
    posCut choiceA posTables d s false ≠ posCut choiceA posTables d' s false := by
  refine ⟨posOps, encode [0x4E50, 0x4E51], encode [0x4E30, 0x4E31, 0x4E50], some 1, posDict, (segAddToken {} posDict (encode [0x4E50, 0x4E51]) (some 1) []).1, posDict_run, rfl, ?_, ?_⟩
  · rintro ⟨x, hx, e⟩
    have hr : runes (encode [0x4E30, 0x4E31, 0x4E50]) = [0x4E30, 0x4E31, 0x4E50] := by decide +kernel
    rw [hr] at hx
    have key : ∀ x ∈ [0x4E30, 0x4E31, 0x4E50].sublists, encode x ≠ encode [0x4E50, 0x4E51] := by decide +kernel
    exact key x (List.mem_sublists.2 hx.sublist) e
  · decide +kernel

/-- The order of the words after the first. -/
example : ∃ d d', runOps (D := Int) {} (adds [(encode [0x4E20], some (4 : Int), str "w"), (encode [0x4E10, 0x4E11], some 64, str "k"), (encode [0x4E10], some 4, str "j")]) Dictionary.new = some d ∧
    runOps {} (adds [(encode [0x4E20], some 4, str "w"), (encode [0x4E10], some 4, str "j"), (encode [0x4E10, 0x4E11], some 64, str "k")]) Dictionary.new = some d' ∧
    posCut choiceA posTables d posText true = posCut choiceA posTables d' posText true ∧ d.tokens ≠ d'.tokens := by
  refine ⟨_, _, rfl, rfl, ?_, ?_⟩ <;> decide +kernel

end examples

end Gse
