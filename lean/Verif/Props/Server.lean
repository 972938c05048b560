import Verif.Spec.Server
import Verif.Proofs.Json
import Verif.Props.Greedy
import Verif.Props.Hmm

/-!
# C75, C76: the server
-/

set_option linter.unusedSectionVars false

namespace Gse

open Spec Segmenter

/-! ### JSON -/

section json
-- no fact about Unicode is used; the lemmas on well-formed text stand in a section that has an instance
attribute [local instance] sampleUnicode

/-- C75: a client reading the answer as JSON gets the value marshalled, strings as JSON can carry them. -/
theorem C75_marshal (short : Bool) (v : JVal) (h : NumsOK v) : readJson (v.marshal short) = some (carried v) := readJson_marshal short v h

theorem valid_cons {b : UInt8} {t : Bytes} (hb : b.toNat < 128) (ht : ValidText t) : ValidText (b :: t) :=
  validText_append (x := [b]) (validText_ascii (by simpa using hb)) ht

theorem hexDigit_ascii : ∀ b : UInt8, (hexDigit (b.toNat / 16)).toNat < 128 ∧ (hexDigit (b.toNat % 16)).toNat < 128 :=
  forall_byte (P := fun b => (hexDigit (b.toNat / 16)).toNat < 128 ∧ (hexDigit (b.toNat % 16)).toNat < 128) (by decide +kernel)

theorem jsonByte_ascii (short : Bool) {b : UInt8} (hb : b.toNat < 128) : ∀ c ∈ jsonByte short b, c.toNat < 128 := by
  have h := hexDigit_ascii b
  unfold jsonByte
  intro c hc
  repeat' split at hc
  all_goals simp [str] at hc
  all_goals (first
    | (rcases hc with rfl | rfl <;> first | decide | exact hb)
    | (rcases hc with rfl | rfl | rfl | rfl | rfl | rfl <;> first | decide | exact h.1 | exact h.2))

theorem jsonChars_valid (short : Bool) : ∀ (n : Nat) (s : Bytes), ValidText (jsonChars short n s) := by
  intro n
  induction n with
  | zero => intro s; exact validText_ascii (by simp [jsonChars])
  | succ n ih =>
    intro s
    cases s with
    | nil => exact validText_ascii (by simp [jsonChars])
    | cons b t =>
      simp only [jsonChars]
      split
      · rename_i hb; exact validText_append (validText_ascii (jsonByte_ascii short hb)) (ih t)
      · rename_i hb
        refine validText_append ?_ (ih _)
        split
        · exact validText_ascii (by decide)
        rename_i he
        split
        · exact validText_ascii (by decide)
        split
        · exact validText_ascii (by decide)
        · rw [← (take_ge_128 hb he).1]
          have := validText_encode_any [(decodeRune (b :: t)).1]
          simpa [encode] using this

theorem jsonString_valid (short : Bool) (s : Bytes) : ValidText (jsonString short s) :=
  valid_cons (by decide) (validText_append (jsonChars_valid short _ s) (validText_ascii (by decide)))

mutual
theorem marshal_valid (short : Bool) : ∀ v : JVal, NumsOK v → ValidText (v.marshal short)
  | .null, _ => validText_ascii (by rw [JVal.marshal]; decide)
  | .num ds, h => validText_ascii (by
      rw [JVal.marshal]
      rw [NumsOK] at h
      intro b hb
      have := h.2 b hb
      simp [jsonDigit] at this
      omega)
  | .text s, _ => by rw [JVal.marshal]; exact jsonString_valid short s
  | .arr .nil, _ => validText_ascii (by rw [JVal.marshal]; decide)
  | .arr (.cons v l), h => by
    rw [NumsOK, NumsOKArr] at h
    rw [JVal.marshal]
    exact valid_cons (by decide) (validText_append (marshal_valid short v h.1) (restArr_valid short l h.2))
  | .obj .nil, _ => validText_ascii (by rw [JVal.marshal]; decide)
  | .obj (.cons k v l), h => by
    rw [NumsOK, NumsOKObj] at h
    rw [JVal.marshal]
    exact valid_cons (by decide) (validText_append (jsonString_valid short k)
      (valid_cons (by decide) (validText_append (marshal_valid short v h.1) (restObj_valid short l h.2))))
theorem restArr_valid (short : Bool) : ∀ l : JArr, NumsOKArr l → ValidText (l.rest short)
  | .nil, _ => validText_ascii (by rw [JArr.rest]; decide)
  | .cons v l, h => by
    rw [NumsOKArr] at h
    rw [JArr.rest]
    exact valid_cons (by decide) (validText_append (marshal_valid short v h.1) (restArr_valid short l h.2))
theorem restObj_valid (short : Bool) : ∀ l : JObj, NumsOKObj l → ValidText (l.rest short)
  | .nil, _ => validText_ascii (by rw [JObj.rest]; decide)
  | .cons k v l, h => by
    rw [NumsOKObj] at h
    rw [JObj.rest]
    exact valid_cons (by decide) (validText_append (jsonString_valid short k)
      (valid_cons (by decide) (validText_append (marshal_valid short v h.1) (restObj_valid short l h.2))))
end

/-- C75: what is sent is UTF-8, whatever bytes the text consists of. -/
theorem C75_utf8 (short : Bool) (v : JVal) (h : NumsOK v) : ValidText (v.marshal short) := marshal_valid short v h

end json

/-! ### The answers -/

theorem segs_read (short : Bool) (l : List (Bytes × Bytes)) :
    (readJson ((segsAnswer l).marshal short)).bind answerSegs = some (l.map fun p => (utf8 p.1, utf8 p.2)) := by
  have key : ∀ l : List (Bytes × Bytes), NumsOKArr (JArr.ofList (l.map fun p => segAnswer p.1 p.2)) ∧
      allOf answerSeg (elems (carriedArr (JArr.ofList (l.map fun p => segAnswer p.1 p.2)))) = some (l.map fun p => (utf8 p.1, utf8 p.2)) := by
    intro l
    induction l with
    | nil => simp [JArr.ofList, NumsOKArr, carriedArr, elems, allOf]
    | cons p l ih =>
      constructor
      · simpa [JArr.ofList, NumsOKArr, segAnswer, NumsOK, NumsOKObj] using ih.1
      · simp only [List.map_cons, JArr.ofList, carriedArr, elems, allOf, ih.2]
        have e1 : utf8 (str "text") = str "text" := by decide +kernel
        have e2 : utf8 (str "pos") = str "pos" := by decide +kernel
        have e3 : str "text" ≠ str "pos" := by decide
        simp [segAnswer, carried, carriedObj, answerSeg, field, e1, e2, e3]
  rw [readJson_marshal]
  · have e1 : utf8 (str "segments") = str "segments" := by decide +kernel
    have e2 : utf8 (str "err") = str "err" := by decide +kernel
    have e3 : str "segments" ≠ str "err" := by decide
    simp [segsAnswer, carried, carriedObj, answerSegs, field, e1, e2, e3, (key l).2]
  · simpa [segsAnswer, NumsOK, NumsOKObj] using (key l).1

theorem words_read (short : Bool) (l : List Bytes) (h : ∀ w ∈ l, ValidText w) : (readJson ((wordsAnswer l).marshal short)).bind answerWords = some l := by
  have key : ∀ l : List Bytes, (∀ w ∈ l, ValidText w) → NumsOKArr (JArr.ofList (l.map JVal.text)) ∧
      allOf answerText (elems (carriedArr (JArr.ofList (l.map JVal.text)))) = some l := by
    intro l
    induction l with
    | nil => simp [JArr.ofList, NumsOKArr, carriedArr, elems, allOf]
    | cons p l ih =>
      intro h
      have ih := ih fun w hw => h w (by simp [hw])
      have hp : utf8 p = p := h p (by simp)
      constructor
      · simpa [JArr.ofList, NumsOKArr, NumsOK] using ih.1
      · simp [JArr.ofList, carriedArr, elems, allOf, ih.2, carried, answerText, hp]
  rw [readJson_marshal]
  · have e1 : utf8 (str "Seg") = str "Seg" := by decide +kernel
    simp [wordsAnswer, carried, carriedObj, answerWords, field, e1, (key l h).2]
  · simpa [wordsAnswer, NumsOK, NumsOKObj] using (key l h).1

section main
variable {F D : Type} [F64 F] [F32 D] [Narrow F D] [Unicode]

theorem reqText_asks {query form : List (Bytes × Bytes)} {text : Bytes} (h : Asks query form text) : reqText query form = text := by
  unfold reqText formGet
  rcases h with ⟨h1, h2⟩ | ⟨h1 | h1, h2 | ⟨h2, rfl⟩⟩ <;> rw [h2] <;> (try rw [h1]) <;> simp
  exact fun h => absurd h h1

theorem param_get {q : List (Bytes × Bytes)} {k v : Bytes} (h : HasParam q k v) : (q.lookup k).getD [] = v := by
  rcases h with h | ⟨h, rfl⟩ <;> simp [h]

/-! ### Sequences of requests -/

theorem handleAdd_ops (E : ServerEnv F) (d : Dictionary F D) (q : List (Bytes × Bytes)) : handleAdd E d q = runOps E.cfg (reqOps (.add q)) d := by
  simp [handleAdd, reqOps, runOps, DictOp.step, formGet]

theorem handleJson_total [UnicodeOK] (E : ServerEnv F) {ops : List (DictOp F)} {d : Dictionary F D} (hr : runOps E.cfg ops Dictionary.new = some d)
    (q f : List (Bytes × Bytes)) : ∃ v, handleJson E d q f = some v := by
  unfold handleJson
  split
  · obtain ⟨out, h, _⟩ := C28_lossless E.cfg ops d hr E.consts E.emit 0 (reqText q f)
    have : cutDAGHmm E.cfg d E.consts E.emit (reqText q f) [] = some out := h
    exact ⟨_, by rw [this]; rfl⟩
  · obtain ⟨segs, ts, h1, h2, _⟩ := C09_segment_text E.cfg ops d hr (reqText q f)
    have := mapOpt_isSome (f := fun g : Seg => d.deref g.tok) (l := segs) (by
      intro g hg
      have : d.deref g.tok ∈ ts.map some := by rw [← h2]; exact List.mem_map.2 ⟨g, hg, rfl⟩
      obtain ⟨t, _, e⟩ := List.mem_map.1 this
      exact ⟨t, e.symm⟩)
    obtain ⟨us, hu⟩ := this
    exact ⟨_, by rw [h1, Option.bind_some, hu]; rfl⟩

theorem reqOps_total [UnicodeOK] (E : ServerEnv F) {ops : List (DictOp F)} {d : Dictionary F D} (hr : runOps E.cfg ops Dictionary.new = some d)
    (q : ServerReq) : ∃ d', runOps E.cfg (reqOps q) d = some d' := by
  cases q with
  | json q f => exact ⟨d, rfl⟩
  | add q =>
    have hwf := Reachable.wf ⟨ops, hr⟩
    have hw2 : (segAddToken E.cfg d ((q.lookup (str "text")).getD []) (F64.parse ((q.lookup (str "freq")).getD []) : F × Bool).1
        ((q.lookup (str "pos")).getD [])).1.WF E.cfg :=
      wf_step hwf (op := .add _ _ _) rfl
    obtain ⟨d', hd⟩ := calcToken_total hw2
    exact ⟨d', by simp [reqOps, runOps, DictOp.step, segAddTokenForce, hd]⟩

/-- C75: no sequence of requests makes a handler panic; every request is answered; what the requests leave is what the `AddTokenForce` calls in them
leave. -/
theorem C75_total [UnicodeOK] (E : ServerEnv F) (ops : List (DictOp F)) (d : Dictionary F D) (hr : runOps E.cfg ops Dictionary.new = some d)
    (qs : List ServerReq) :
    ∃ d' as, serve E d qs = some (d', as) ∧ as.length = qs.length ∧ runOps E.cfg (ops ++ qs.flatMap reqOps) Dictionary.new = some d' := by
  induction qs generalizing ops d with
  | nil => exact ⟨d, [], rfl, rfl, by simpa using hr⟩
  | cons q qs ih =>
    obtain ⟨d1, h1⟩ := reqOps_total E hr q
    have hr1 : runOps E.cfg (ops ++ reqOps q) Dictionary.new = some d1 := by rw [runOps_append, hr]; exact h1
    obtain ⟨d', as, h2, h3, h4⟩ := ih _ d1 hr1
    have : ∃ v, handle E d q = some (d1, v) := by
      cases q with
      | add q => exact ⟨okAnswer, by rw [handle, handleAdd_ops, h1]; rfl⟩
      | json q f =>
        obtain ⟨v, hv⟩ := handleJson_total E hr q f
        obtain rfl : d = d1 := Option.some.inj h1
        exact ⟨v, by rw [handle, hv]; rfl⟩
    obtain ⟨v, hv⟩ := this
    refine ⟨d', v :: as, ?_, by simp [h3], by simpa using h4⟩
    rw [serve, hv, Option.bind_some, h2]; rfl

/-- C75: the server starts, whatever files there are; its dictionary is what a history of `AddToken` leaves, with the flags at their defaults. -/
theorem C75_start [UnicodeOK] (mid : ScanErr) (join : Bytes → Bytes) (fs : Bytes → Option Bytes) (dict : Bytes) :
    ∃ (s : Segmenter F D) (d : Dictionary F D) (es : List (Entry F)), serverStart mid join fs dict = some s ∧ s.cfg = {} ∧ s.dict = some d ∧
      (runOps {} (loadOps es) Dictionary.new = some d ∨ runOps {} (es.map fun e => .add e.1 e.2.1 e.2.2) Dictionary.new = some d) := by
  unfold serverStart
  rw [loadDict_eq]
  generalize hs0 : ({ minTokenFreq := F64.ofNat 0 } : Segmenter F D) = s0
  generalize hs1 : startLoad s0 = s1
  have hd : s1.dict = some Dictionary.new := by rw [← hs1, ← hs0]; rfl
  have hc : s1.cfg = {} := by rw [← hs1, ← hs0]; rfl
  rw [← withDict_self hd, readFiles_eq, hc]
  generalize ((askedPaths join (some dict)).takeWhile fun f => (fs f).isSome).flatMap (fun f => fileEntries mid s1 ((fs f).getD [])) = es
  generalize (askedPaths join (some dict)).any (fun f => (fs f).isNone) = e
  cases e with
  | true => exact ⟨_, _, es, rfl, hc, rfl, .inr (runOps_adds _ _ _)⟩
  | false =>
    obtain ⟨d, hd'⟩ := calcToken_total (wf_addAll (Dictionary.wf_new (F := F) (D := D) {}) es)
    refine ⟨{ s1 with dict := some d }, d, es, ?_, hc, rfl, .inl (by rw [runOps_load]; exact hd')⟩
    simp [Segmenter.recalc, Segmenter.withDict, hd']

theorem json_answer (E : ServerEnv F) (hE : E.hmm = false) {d : Dictionary F D} {query form : List (Bytes × Bytes)} {text : Bytes}
    (ha : Asks query form text) {segs : List Seg} {ts : List (Token F D)} (h1 : internalSegment E.cfg (some d) text false = some segs)
    (h2 : segs.map (fun g => d.deref g.tok) = ts.map some) (short : Bool) :
    ∃ v, handleJson E d query form = some v ∧
      (readJson (v.marshal short)).bind answerSegs = some (ts.map fun t => (utf8 t.text.flatten, utf8 t.pos)) := by
  have hm : mapOpt (fun g : Seg => d.deref g.tok) segs = some ts := by
    clear h1
    induction segs generalizing ts with
    | nil => obtain rfl : ts = [] := by simpa using h2.symm
             rfl
    | cons g segs ih =>
      cases ts with
      | nil => simp at h2
      | cons t ts =>
        obtain ⟨e1, e2⟩ := List.cons.inj h2
        have e1 : d.deref g.tok = some t := e1
        rw [mapOpt, ih e2, e1]; rfl
  refine ⟨segsAnswer (ts.map fun t => (textSliceToBytes t.text, t.pos)), ?_, ?_⟩
  · rw [handleJson, hE, if_neg (by simp), reqText_asks ha, h1, Option.bind_some, hm]; rfl
  · rw [segs_read, List.map_map]
    congr 2
    funext t
    simp [textSliceToBytes_eq]

theorem forall_map {d : Dictionary F D} {segs : List Seg} {ts : List (Token F D)}
    (h : List.Forall₂ (fun (g : Seg) t => d.deref g.tok = some t ∧ g.stop = g.start + t.text.flatten.length) segs ts) :
    segs.map (fun g => d.deref g.tok) = ts.map some := by
  induction h with
  | nil => rfl
  | cons h _ ih => simp [h.1, ih]

theorem joined_utf8 [UnicodeOK] {cfg : SplitCfg} {text : Bytes} {ts : List (Token F D)}
    (h : wordsOf ts = splitTextToWords cfg text) : ((ts.map fun t => (utf8 t.text.flatten, utf8 t.pos)).map (·.1)).flatten = utf8 (normText cfg text) := by
  have hsp := split_pieces_runes cfg text (ts.map (·.text)) (by rw [← h]; rfl)
  have hn : ((ts.map (·.text)).map List.flatten).flatten = normText cfg text := by
    rw [← flatten_split, ← h, ← List.flatten_flatten]; rfl
  rw [hn] at hsp
  rw [utf8, hsp]
  clear h hsp hn
  induction ts with
  | nil => rfl
  | cons t ts ih =>
    simp only [List.map_cons, List.flatten_cons, List.flatMap_cons, encode_append, ← ih]
    rfl

/-- C75: the answer to `/json`, read as JSON, is a list of segments without error; the texts join to the text as `Segment` sees it, malformed bytes as
U+FFFD; every segment is a stored word with its tag, or an unknown word with the tag `x`. -/
theorem C75_segments [UnicodeOK] (E : ServerEnv F) (hE : E.hmm = false) (ops : List (DictOp F)) (hl : ops.length ≤ Trie.valueLimit)
    (d : Dictionary F D) (hr : runOps E.cfg ops Dictionary.new = some d) (query form : List (Bytes × Bytes)) (text : Bytes) (ha : Asks query form text)
    (short : Bool) :
    ∃ v l, handleJson E d query form = some v ∧ (readJson (v.marshal short)).bind answerSegs = some l ∧
      (l.map (·.1)).flatten = utf8 (normText E.cfg text) ∧
      ∀ a ∈ l, (∃ w f p, (absRun E.cfg ops).content w = some (f, p) ∧ a = (utf8 w, utf8 p)) ∨
        (∃ w ∈ splitTextToWords E.cfg text, (absRun E.cfg ops).content w = none ∧ a = (utf8 w, str "x")) := by
  obtain ⟨segs, ts, h1, h2, h3, _⟩ := segment_tokens hr text false (by simp)
  obtain ⟨v, g1, g2⟩ := json_answer E hE ha h1 (forall_map h2) short
  refine ⟨v, _, g1, g2, joined_utf8 h3.1, ?_⟩
  intro a ha'
  obtain ⟨t, ht, rfl⟩ := List.mem_map.1 ha'
  rcases (h3.2 t ht).2 with h6 | ⟨w, h6, h7⟩
  · left
    exact ⟨t.text.flatten, t.freq, t.pos, by rw [← storedTok_content hl hr, h6]; rfl, rfl⟩
  · right
    refine ⟨w, ?_, by rw [← storedTok_content hl hr, h7]; rfl, ?_⟩
    · rw [← h3.1, wordsOf]
      exact List.mem_flatten.2 ⟨t.text, List.mem_map.2 ⟨t, ht, rfl⟩, by rw [h6]; simp [unknownTok]⟩
    · rw [h6]
      have : utf8 (str "x") = str "x" := by decide +kernel
      simp [unknownTok, this]

/-- C75: with the flag `-hmm`, the answer to `/json`, read as JSON, is a list of words, none empty, that join to the lower-cased text, malformed
bytes as U+FFFD. -/
theorem C75_words [UnicodeOK] (E : ServerEnv F) (hE : E.hmm = true) (ops : List (DictOp F))
    (d : Dictionary F D) (hr : runOps E.cfg ops Dictionary.new = some d) (query form : List (Bytes × Bytes)) (text : Bytes) (ha : Asks query form text)
    (short : Bool) :
    ∃ v l, handleJson E d query form = some v ∧ (readJson (v.marshal short)).bind answerWords = some l ∧
      l.flatten = encode (dagText E.cfg text) ∧ ∀ w ∈ l, w ≠ [] := by
  obtain ⟨out, h1, h2, h3⟩ := cutDAG_items E.cfg ops d hr (fun t => hmmCut E.consts E.emit t []) (fun w => w ≠ [] ∧ ValidText w)
    (fun t ht _ => ⟨encode_ne_nil ht, validText_encode_any t⟩) (fun t ht => hmmCut_valid E.consts E.emit t ht) text
  refine ⟨wordsAnswer out, out, ?_, words_read short out fun w hw => (h3 w hw).2, h2, fun w hw => (h3 w hw).1⟩
  rw [handleJson, hE, if_pos rfl, reqText_asks ha]
  rw [show cutDAGHmm E.cfg d E.consts E.emit text [] = some out from h1]; rfl

theorem serve_snoc {E : ServerEnv F} {qs : List ServerReq} {q : ServerReq} : ∀ {d0 d : Dictionary F D} {as : List JVal}, serve E d0 qs = some (d, as) →
    serve E d0 (qs ++ [q]) = (handle E d q).map fun r => (r.1, as ++ [r.2]) := by
  induction qs with
  | nil =>
    intro d0 d as h
    obtain ⟨rfl, rfl⟩ := Prod.mk.inj (Option.some.inj h)
    rw [List.nil_append, serve]
    cases handle E d0 q <;> rfl
  | cons q' qs ih =>
    intro d0 d as h
    rw [serve] at h
    obtain ⟨r, h7, h8⟩ := Option.bind_eq_some_iff.1 h
    obtain ⟨r', h9, h10⟩ := Option.map_eq_some_iff.1 h8
    obtain ⟨rfl, rfl⟩ := Prod.mk.inj h10
    rw [List.cons_append, serve, h7, Option.bind_some, ih h9]
    cases handle E r'.1 q <;> rfl

/-- C75: from the start of the server on, with any file and any requests before, and without the flag `-hmm`: the request is answered, and the
segments read from the answer join to the text. -/
theorem C75_any_time [UnicodeOK] (mid : ScanErr) (join : Bytes → Bytes) (fs : Bytes → Option Bytes) (dict : Bytes) (E : ServerEnv F)
    (hE : E.hmm = false) (hc : E.cfg = {}) (qs : List ServerReq) (query form : List (Bytes × Bytes)) (text : Bytes) (ha : Asks query form text)
    (short : Bool) :
    ∃ (s : Segmenter F D) (d0 d : Dictionary F D) (as : List JVal) (v : JVal) (l : List (Bytes × Bytes)),
      serverStart mid join fs dict = some s ∧ s.dict = some d0 ∧ serve E d0 (qs ++ [.json query form]) = some (d, as ++ [v]) ∧
      (readJson (v.marshal short)).bind answerSegs = some l ∧ (l.map (·.1)).flatten = utf8 (normText {} text) := by
  obtain ⟨s, d0, es, h1, _, h3, h4⟩ := C75_start (F := F) (D := D) mid join fs dict
  obtain ⟨ops, hr⟩ : ∃ ops, runOps E.cfg ops Dictionary.new = some d0 := by rw [hc]; rcases h4 with h | h <;> exact ⟨_, h⟩
  obtain ⟨d, as, h5, _, h6⟩ := C75_total E ops d0 hr qs
  obtain ⟨segs, ts, g1, g2, g3, _⟩ := segment_tokens h6 text false (by simp)
  obtain ⟨v, hv, g4⟩ := json_answer E hE ha g1 (forall_map g2) short
  refine ⟨s, d0, d, as, v, _, h1, h3, ?_, g4, by rw [← hc]; exact joined_utf8 g3.1⟩
  rw [serve_snoc h5]
  simp [handle, hv]

/-! ### `/add` -/

/-- C76: whatever is passed to `/add` — no text, no number, a known word — the answer is the same. -/
theorem C76_ok [UnicodeOK] (E : ServerEnv F) (ops : List (DictOp F)) (d : Dictionary F D) (hr : runOps E.cfg ops Dictionary.new = some d)
    (q : List (Bytes × Bytes)) (short : Bool) :
    ∃ d' v, handle E d (.add q) = some (d', v) ∧ v.marshal short = str "{\"code\":200,\"text\":\"ok\"}" := by
  obtain ⟨d', h⟩ := reqOps_total E hr (.add q)
  refine ⟨d', okAnswer, by rw [handle, handleAdd_ops, h]; rfl, ?_⟩
  simp only [okAnswer, JVal.marshal, JObj.rest]
  cases short <;> decide +kernel

/-- C76: adding a word the dictionary has only recalculates: `Find` of every word stays; if the last change was followed by a recalculation (as after
a load without error and after every `/add`), nothing changes at all. -/
theorem C76_known [UnicodeOK] (E : ServerEnv F) (ops : List (DictOp F)) (hl : ops.length ≤ Trie.valueLimit)
    (d : Dictionary F D) (hr : runOps E.cfg ops Dictionary.new = some d) (q : List (Bytes × Bytes)) (t : Bytes) (ht : HasParam q (str "text") t)
    (hp : (absRun E.cfg ops).content (normText E.cfg t) ≠ none) :
    ∃ d' v, handle E d (.add q) = some (d', v) ∧ (∀ w, d'.find w = d.find w) ∧ ∀ d0, calcToken d0 = some d → d' = d := by
  obtain ⟨d', h⟩ := reqOps_total E hr (.add q)
  have hc : calcToken d = some d' := by
    simp only [reqOps, runOps, DictOp.step, segAddTokenForce, param_get ht, C04_add_present E.cfg ops hl d hr t _ _ hp] at h
    cases hx : calcToken d with
    | none => rw [hx] at h; simp at h
    | some x => rw [hx] at h; simpa using h
  refine ⟨d', okAnswer, by rw [handle, handleAdd_ops, h]; rfl, fun w => (calcToken_same hc).find w, fun d0 h0 => ?_⟩
  rw [calcToken_idem h0] at hc
  exact (Option.some.inj hc).symm

/-- C76: a new word is stored with whatever number `ParseFloat` returns beside its error, and with the tag passed. -/
theorem C76_stored [UnicodeOK] (E : ServerEnv F) (ops : List (DictOp F)) (hl : ops.length < Trie.valueLimit)
    (d : Dictionary F D) (hr : runOps E.cfg ops Dictionary.new = some d) (q : List (Bytes × Bytes)) (t f p : Bytes)
    (ht : HasParam q (str "text") t) (hf : HasParam q (str "freq") f) (hp : HasParam q (str "pos") p)
    (hn : (absRun E.cfg ops).content (normText E.cfg t) = none) :
    ∃ d' v, handle E d (.add q) = some (d', v) ∧ d'.find (normText E.cfg t) = some ((F64.parse f : F × Bool).1, p, true) ∧
      ∀ w, w ≠ normText E.cfg t → ∀ g p', (absRun E.cfg ops).content w = some (g, p') → d'.find w = some (g, p', true) := by
  obtain ⟨d', h⟩ := reqOps_total E hr (.add q)
  have hr' : runOps E.cfg (ops ++ reqOps (.add q)) Dictionary.new = some d' := by rw [runOps_append, hr]; exact h
  have hfind := fun w => (C04_find_history E.cfg (ops ++ reqOps (.add q)) (by simp [reqOps]; omega) d' hr' w).1
  refine ⟨d', okAnswer, by rw [handle, handleAdd_ops, h]; rfl, hfind _ _ _ ?_, fun w hw g p' hc => hfind w g p' ?_⟩
  · simp only [reqOps, absRun_snoc, AbsDict.step, AbsDict.add, param_get ht, param_get hf, param_get hp, hn]
    simp
  · simp only [reqOps, absRun_snoc, AbsDict.step, AbsDict.add, param_get ht, param_get hf, param_get hp, hn]
    simp [hw, hc]

end main

/-! ### A frequency that is not a number -/

section nan
variable {M : MathFns} [Unicode]

theorem stored_added_force (cfg : SplitCfg) (a b : List (DictOp (Binary64 M))) (t : Bytes) (f : Binary64 M) (p : Bytes)
    (hn : (absRun cfg a).content (normText cfg t) = none) : (t, f) ∈ (absRun cfg (a ++ [.addForce t f p] ++ b)).stored := by
  refine (stored_grows cfg (a ++ [.addForce t f p]) b).subset ?_
  rw [C06_stored_step]
  simp [hn]

/-- The dictionary after requests of which the first is an `/add` has up-to-date distances. -/
theorem adds_calc {cfg : SplitCfg} {ops : List (DictOp (Binary64 M))} {d : Dictionary (Binary64 M) Binary32} (qs : List ServerReq) (t : Bytes)
    (f : Binary64 M) (p : Bytes) (hr : runOps cfg (ops ++ [.addForce t f p] ++ qs.flatMap reqOps) Dictionary.new = some d) :
    ∃ ops' d0, runOps cfg ops' Dictionary.new = some d0 ∧ calcToken d0 = some d := by
  have last : ∀ (a : List (DictOp (Binary64 M))) t f p (d : Dictionary (Binary64 M) Binary32),
      runOps cfg (a ++ [.addForce t f p]) Dictionary.new = some d → ∃ ops' d0, runOps cfg ops' Dictionary.new = some d0 ∧ calcToken d0 = some d := by
    intro a t f p d h
    rw [runOps_append] at h
    obtain ⟨d1, h1, h2⟩ := Option.bind_eq_some_iff.1 h
    simp only [runOps, DictOp.step, segAddTokenForce] at h2
    refine ⟨a ++ [.add t f p], (segAddToken cfg d1 t f p).1, by rw [runOps_append, h1]; rfl, ?_⟩
    cases hx : calcToken (segAddToken cfg d1 t f p).1 with
    | none => rw [hx] at h2; simp at h2
    | some x => rw [hx] at h2; simpa using h2
  induction qs using List.reverseRecOn generalizing d with
  | nil => exact last ops t f p d (by simpa using hr)
  | append_singleton qs q ih =>
    cases q with
    | json q f => exact ih (by simpa [reqOps] using hr)
    | add q =>
      rw [List.flatMap_append, ← List.append_assoc] at hr
      rw [List.flatMap_singleton] at hr
      exact last _ _ _ _ d hr

/-- C76: one `/add` of a new word with a frequency that reads as NaN makes every later answer greedy, whatever requests come between: `/json`
answers with the longest stored words from the end; with the flag `-hmm` it starts from the shortest stored words from the front. `hnan` is
documented of `math.Log` and `math.Log2`. -/
theorem C76_nan [UnicodeOK] (hnan : ∀ x, x.datum = .nan → (M.log x).datum = .nan ∧ (M.log2 x).datum = .nan) (E : ServerEnv (Binary64 M))
    (ops : List (DictOp (Binary64 M))) (d : Dictionary (Binary64 M) Binary32) (hr : runOps E.cfg ops Dictionary.new = some d)
    (q : List (Bytes × Bytes)) (t f : Bytes) (ht : HasParam q (str "text") t) (hf : HasParam q (str "freq") f)
    (hn : (absRun E.cfg ops).content (normText E.cfg t) = none) (hv : (F64.parse f : Binary64 M × Bool).1.datum = .nan)
    (qs : List ServerReq) (hl : ops.length + 1 + qs.length ≤ Trie.valueLimit) :
    ∃ d' as, serve E d (.add q :: qs) = some (d', as) ∧ ∀ query form text, Asks query form text → ∀ short,
      (E.hmm = false → ∃ v ts, handleJson E d' query form = some v ∧
        (readJson (v.marshal short)).bind answerSegs = some (ts.map fun u => (utf8 u.text.flatten, utf8 u.pos)) ∧
        LongestBack d' (splitTextToWords E.cfg text) ts) ∧
      (E.hmm = true → ∃ v ps gs outs, handleJson E d' query form = some v ∧ (readJson (v.marshal short)).bind answerWords = some outs.flatten ∧
        Greedy (ShortestAt d') (dagText E.cfg text) ps ∧ IsRuns (fun u : List Rune => u.length = 1) ps gs ∧
        List.Forall₂ (RunOut d' fun u => hmmCut E.consts E.emit u []) gs outs) := by
  obtain ⟨d', as, h1, _, h2⟩ := C75_total E ops d hr (.add q :: qs)
  have h3 : runOps E.cfg (ops ++ [.addForce t (F64.parse f : Binary64 M × Bool).1 ((q.lookup (str "pos")).getD [])] ++ qs.flatMap reqOps)
      Dictionary.new = some d' := by
    rw [← h2]; simp [reqOps, param_get ht, param_get hf]
  have hlen : ∀ qs : List ServerReq, (qs.flatMap (reqOps (F := Binary64 M))).length ≤ qs.length := by
    intro qs
    induction qs with
    | nil => simp
    | cons q qs ih =>
      have : (reqOps (F := Binary64 M) q).length ≤ 1 := by cases q <;> simp [reqOps]
      rw [List.flatMap_cons, List.length_append, List.length_cons]
      omega
  have hT : d'.totalFreq.datum = .nan := by
    rw [(C06_counters E.cfg _ (by have := hlen qs; rw [List.length_append, List.length_append, List.length_singleton]; omega) d' h3).2.1]
    exact foldl_nan _ _ (.inr ⟨_, List.mem_map.2 ⟨_, stored_added_force E.cfg ops (qs.flatMap reqOps) t _ _ hn, rfl⟩, hv⟩)
  obtain ⟨ops', d0, h4, h5⟩ := adds_calc qs _ _ _ h3
  refine ⟨d', as, h1, fun query form text ha short => ⟨fun hE => ?_, fun hE => ?_⟩⟩
  · obtain ⟨segs, ts, g1, g2, g3⟩ := C72_nan_segment (fun x hx => (hnan x hx).2) E.cfg ops' d0 d' h4 (by rw [← (calcToken_same h5).total]; exact hT) h5 text
    obtain ⟨v, e1, e2⟩ := json_answer E hE ha g1 g2 short
    exact ⟨v, ts, e1, e2, g3⟩
  · obtain ⟨ps, gs, outs, g1, g2, g3, g4⟩ := C72_nan_cut_hmm (fun x hx => (hnan x hx).1) E.cfg _ d' h3 hT (fun u => hmmCut E.consts E.emit u [])
      (fun u _ => by obtain ⟨o, ho, _⟩ := C30_lossless E.consts E.emit (encode u); exact ⟨o, ho⟩) text
    obtain ⟨v, l, e1, e2, _⟩ := C75_words E hE _ d' h3 query form text ha short
    refine ⟨v, ps, gs, outs, e1, ?_, g1, g2, g3⟩
    obtain ⟨out, k1, _, k3⟩ := cutDAG_items E.cfg _ d' h3 (fun t => hmmCut E.consts E.emit t []) (fun w => w ≠ [] ∧ ValidText w)
      (fun t ht _ => ⟨encode_ne_nil ht, validText_encode_any t⟩) (fun t ht => hmmCut_valid E.consts E.emit t ht) text
    rw [g4] at k1
    obtain rfl := Option.some.inj k1
    rw [handleJson, hE, if_pos rfl, reqText_asks ha, show cutDAGHmm E.cfg d' E.consts E.emit text [] = some _ from g4] at e1
    obtain rfl := Option.some.inj e1
    exact words_read short _ fun w hw => (k3 w hw).2

end nan

section examples
attribute [local instance] sampleUnicode sampleUnicodeOK sampleF64 sampleF32 sampleNarrow

/-- A server without the flag `-hmm`, with no model. -/
def exEnv (hmm : Bool) : ServerEnv Int := ⟨hmm, hmmConst, fun _ _ => none, {}⟩

-- a string with everything that is escaped: `a"\<` a tab, a malformed byte, U+2028, a Chinese character
def exRaw : Bytes := [97, 34, 92, 60, 9, 0xFF, 0xE2, 0x80, 0xA8, 0xE4, 0xB8, 0x80]
example : jsonString true exRaw = str "\"a\\\"\\\\\\u003c\\t\\ufffd\\u2028" ++ [0xE4, 0xB8, 0x80, 34] := by decide +kernel
example : Spec.readString (jsonString true exRaw) = some ([97, 34, 92, 60, 9, 0xEF, 0xBF, 0xBD, 0xE2, 0x80, 0xA8, 0xE4, 0xB8, 0x80], []) := by decide +kernel
example : NumsOK okAnswer := by simp [okAnswer, NumsOK, NumsOKObj]; decide

-- a request with an empty text in the query and a text in the form
example : Asks [(str "text", [])] [(str "text", str "Ab")] (str "Ab") := by right; simp [List.lookup, str]
-- `/json` before and after `/add`
def exServe (hmm : Bool) : Option (List Bytes) :=
  (serve (D := Int) (exEnv hmm) Dictionary.new [.json [(str "text", str "b c")] [], .add [(str "text", str "z"), (str "freq", str "90")],
    .add [(str "text", str "b c"), (str "freq", str "7"), (str "pos", str "n")], .json [(str "text", str "B c")] []]).map fun r => r.2.map (JVal.marshal true)
example : exServe false = some [str "{\"segments\":[{\"text\":\"b\",\"pos\":\"x\"},{\"text\":\" \",\"pos\":\"x\"},{\"text\":\"c\",\"pos\":\"x\"}],\"err\":null}",
    str "{\"code\":200,\"text\":\"ok\"}", str "{\"code\":200,\"text\":\"ok\"}", str "{\"segments\":[{\"text\":\"b c\",\"pos\":\"n\"}],\"err\":null}"] := by decide +kernel
example : exServe true = some [str "{\"Seg\":[\"b\",\" \",\"c\"]}", str "{\"code\":200,\"text\":\"ok\"}", str "{\"code\":200,\"text\":\"ok\"}", str "{\"Seg\":[\"b c\"]}"] := by decide +kernel
-- the server started without its file has an empty dictionary
example : ((serverStart (F := Int) (D := Int) .none id (fun _ => none) (str "d.txt")).bind (·.dict)).map (fun d => d.numTokens) = some 0 := by decide +kernel

-- a new word with a frequency that reads as NaN
example : HasParam [(str "text", str "cd"), (str "freq", str "NaN")] (str "freq") (str "NaN") ∧ HasParam [(str "text", str "cd")] (str "pos") [] := by
  unfold HasParam; decide +kernel
example : (F64.parse (str "NaN") : Binary64 nanMath × Bool).1.datum = .nan := by decide +kernel
example : ∀ x, x.datum = .nan → (nanMath.log x).datum = .nan ∧ (nanMath.log2 x).datum = .nan := by intro x h; simp [nanMath, floorLog, h]
example : (absRun (F := Binary64 nanMath) {} [.add (str "ab") (F64.ofNat 4) (str "n")]).content (normText {} (str "cd")) = none := by decide +kernel

end examples
end Gse
