import Verif.Spec.ServerConc
import Verif.Props.Server
import Verif.Props.ConcChange

/-! # C118: the server with many requests at the same time -/

namespace Gse
open Spec Prog

set_option linter.unusedSectionVars false

section main
variable {F D : Type} [F64 F] [F32 D] [Narrow F D] [Unicode]

/-! ## The tokens of a result -/

theorem wp_token {sh o : Mem F D} {cfg : SplitCfg} {d : Dictionary F D} (hT : HoldsTable sh cfg (some d)) (ha : Apart sh o) {p : MRef} {r : TokRef} (hp : RefIs (view sh o) p r)
    {t : Token F D} (ht : d.deref r = some t) : wp sh (tokenP (some p)) o (fun x o' => x = (textSliceToBytes t.text, t.pos) ∧ o' = o) := by
  cases hp with
  | idx v => exact ⟨_, view_shared ha (hT.tok d rfl v t ht), rfl, rfl⟩
  | pseudo s w hw =>
    cases ht
    obtain ⟨h1, h2⟩ := hw
    show wp sh (rdBytes s.arr s.off s.len >>= _) o _
    rw [← h1]
    exact wp_bind (wp_rdBytes s.arr w s.off h2 ⟨rfl, rfl⟩)

theorem wp_tokens {sh o : Mem F D} {cfg : SplitCfg} {d : Dictionary F D} (hT : HoldsTable sh cfg (some d)) (ha : Apart sh o) (a : Nat) : ∀ (segs : List Seg) (i : Nat) (ts : List (Token F D)),
    (∀ k s, segs[k]? = some s → ∃ p, view sh o (.cell a (i + k)) = some (.seg ⟨s.start, s.stop, some p⟩) ∧ RefIs (view sh o) p s.tok) →
    mapOpt (fun g : Seg => d.deref g.tok) segs = some ts →
    wp sh (tokensP a segs.length i) o (fun l o' => l = ts.map (fun t => (textSliceToBytes t.text, t.pos)) ∧ o' = o)
  | [], i, ts, _, ht => by
    simp only [mapOpt, Option.some.injEq] at ht
    subst ht
    exact ⟨rfl, rfl⟩
  | g :: segs, i, ts, hs, ht => by
    obtain ⟨p, h1, h2⟩ := hs 0 g rfl
    cases hg : d.deref g.tok with
    | none => simp [mapOpt, hg] at ht
    | some t =>
      cases hm : mapOpt (fun g : Seg => d.deref g.tok) segs with
      | none => simp [mapOpt, hg, hm] at ht
      | some us =>
        simp only [mapOpt, hg, hm, Option.bind_eq_bind, Option.bind_some, Option.some.injEq] at ht
        subst ht
        refine wp_bind ⟨_, h1, ?_⟩
        refine wp_bind (wp_mono ?_ _ _ (wp_token hT ha h2 hg))
        rintro _ _ ⟨rfl, rfl⟩
        refine wp_bind (wp_mono ?_ _ _ (wp_tokens hT ha a segs (i + 1) us (fun k s hk => ?_) hm))
        · rintro _ _ ⟨rfl, rfl⟩
          exact ⟨rfl, rfl⟩
        · have := hs (k + 1) s hk
          rwa [show i + (k + 1) = i + 1 + k by omega] at this

theorem mapOpt_forall {α β : Type} {f : α → Option β} {l : List α} {l' : List β} (h : List.Forall₂ (fun a b => f a = some b) l l') : mapOpt f l = some l' := by
  induction h with
  | nil => rfl
  | cons h _ ih => simp [mapOpt, h, ih]

/-- A request for words, given the table and a `Segment` that works. -/
theorem wp_json_of [UnicodeOK] (E : ServerEnv F) {ops : List (DictOp F)} {d : Dictionary F D} (hr : runOps E.cfg ops Dictionary.new = some d) {sh : Mem F D}
    (hT : HoldsTable sh E.cfg (some d)) (hf : sh .totalFreq = some (.freq d.totalFreq)) (he : sh .emit = some (.emit E.emit)) {q f : List (Bytes × Bytes)} {text : Bytes}
    (hq : Spec.Asks q f text) {input : Slice}
    (hseg : E.hmm = false → ∀ segs, internalSegment E.cfg (some d) text false = some segs → wp sh (segmentP input false) noMem fun x o' => HoldsSegs (view sh o') x segs) :
    ∃ v, handleJson E d q f = some v ∧ wp sh (jsonP E input q f) noMem fun a _ => a = v := by
  unfold handleJson jsonP
  rw [reqText_asks hq]
  cases hE : E.hmm with
  | true =>
    simp only [if_true]
    obtain ⟨ws, hw, _⟩ := C28_lossless E.cfg ops d hr E.consts E.emit 0 text
    refine ⟨wordsAnswer ws, congrArg (Option.map wordsAnswer) hw, wp_bind' _ _ (wp_mono ?_ _ _ (yields_wp (fun _ _ _ => rfl) _ (yields_cut E.consts ⟨hT, hf⟩ he 0 text true ws hw)))⟩
    rintro _ _ ⟨rfl, rfl⟩
    rfl
  | false =>
    simp only [Bool.false_eq_true, if_false]
    obtain ⟨segs, ts, h1, h2, h3, _⟩ := segment_tokens hr text false (by simp)
    have hm : mapOpt (fun g : Seg => d.deref g.tok) segs = some ts := mapOpt_forall (h2.imp fun _ _ h => h.1)
    refine ⟨_, by rw [h1, Option.bind_some, hm]; rfl, wp_bind' _ _ (wp_mono ?_ _ _ (wp_apart _ _ (fun _ _ _ => rfl) (hseg hE segs h1)))⟩
    rintro r o ⟨⟨g1, g2⟩, ha⟩
    rw [g1]
    refine wp_bind' _ _ (wp_mono ?_ _ _ (wp_tokens hT ha r.arr segs r.off ts g2 hm))
    rintro _ _ ⟨rfl, rfl⟩
    rfl

/-- A request for words, in memory that nobody changes. -/
theorem wp_json [UnicodeOK] (E : ServerEnv F) {ops : List (DictOp F)} {d : Dictionary F D} (hr : runOps E.cfg ops Dictionary.new = some d) {sh : Mem F D}
    (hS : HoldsSegmenter sh E.cfg (some d)) (hf : sh .totalFreq = some (.freq d.totalFreq)) (he : sh .emit = some (.emit E.emit)) {q f : List (Bytes × Bytes)} {text : Bytes}
    (hq : Spec.Asks q f text) {input : Slice} (hi : HoldsBytes sh input text) :
    ∃ v, handleJson E d q f = some v ∧ wp sh (jsonP E input q f) noMem fun a _ => a = v :=
  wp_json_of E hr hS.toHoldsTable hf he hq fun _ _ h => wp_segment hS hi (fun _ _ _ => rfl) h

/-! ## Requests for words only -/

theorem isolated_json [UnicodeOK] {E : ServerEnv F} {ops : List (DictOp F)} {d : Dictionary F D} (hr : runOps E.cfg ops Dictionary.new = some d) {m : Mem F D}
    {reqs : List (ServerReq × Slice)} (h : ServingOK m E d reqs) (hj : ∀ x ∈ reqs, ∃ q f, x.1 = .json q f) :
    Isolated m (startServer m E reqs) (fun _ => noMem) fun i v _ => ∀ x, reqs[i]? = some x → handle E d x.1 = some (d, v) := by
  refine ⟨fun l x hx => hx, (by intro i l x hx; cases hx), (by intro i l x hx; cases hx), (by intro i j l x _ hx; cases hx), ?_⟩
  intro i p hp
  simp only [startServer, List.getElem?_map, Option.map_eq_some_iff] at hp
  obtain ⟨⟨req, input⟩, hc, rfl⟩ := hp
  obtain ⟨q, f, rfl⟩ : ∃ q f, req = .json q f := hj _ (List.mem_of_getElem? hc)
  obtain ⟨text, ht, hi⟩ := h.inputs _ (List.mem_of_getElem? hc)
  obtain ⟨v, h1, h2⟩ := wp_json E hr h.segmenter h.totalFreq h.emit ht hi
  refine wp_mono ?_ _ _ h2
  rintro _ _ rfl x hx
  rw [hc] at hx; cases hx
  show (handleJson E d q f).map _ = _
  rw [h1]; rfl

/-- C118: requests to `/json` may be answered at the same time: in every execution there is no data race, no handler panics, the dictionary stays as it is, and every answer is
the one the request has alone. -/
theorem C118_result [UnicodeOK] (E : ServerEnv F) (ops : List (DictOp F)) (d : Dictionary F D) (hr : runOps E.cfg ops Dictionary.new = some d) (m : Mem F D)
    (reqs : List (ServerReq × Slice)) (h : ServingOK m E d reqs) (hj : ∀ x ∈ reqs, ∃ q f, x.1 = .json q f) (tr : List (Nat × Access)) (c' : Config F D JVal)
    (hx : Exec (startServer m E reqs) tr c') :
    RaceFree tr ∧ (∀ i : Nat, c'.threads[i]? ≠ some .panic) ∧ ServingOK c'.mem E d reqs ∧
      ∀ (i : Nat) x v, reqs[i]? = some x → c'.threads[i]? = some (.ret v) → handle E d x.1 = some (d, v) := by
  have hI := isolated_json hr h hj
  obtain ⟨own, hI', _, _⟩ := isolated_exec hI hx
  have hg := hI'.shared
  have some_grow : ∀ l, (m l).isSome → (c'.mem l).isSome := by
    intro l hl
    obtain ⟨x, hx⟩ := Option.isSome_iff_exists.mp hl
    rw [hg l x hx]; rfl
  refine ⟨isolated_raceFree hI hx, fun i hp => hI'.goes i _ hp, ⟨h.segmenter.grow hg, hg _ _ h.totalFreq, hg _ _ h.emit, ⟨some_grow _ h.room.tok, some_grow _ h.room.dist, some_grow _ h.room.subs⟩,
    fun i hi => some_grow _ (h.subs i hi), fun x hx => ?_⟩, fun i x v hi hv => hI'.goes i _ hv x hi⟩
  obtain ⟨text, h1, h2⟩ := h.inputs x hx
  exact ⟨text, h1, h2.1, fun k b hb => hg _ _ (h2.2 k b hb)⟩

/-- C118: when nothing can go on, every request has been answered. -/
theorem C118_complete [UnicodeOK] (E : ServerEnv F) (ops : List (DictOp F)) (d : Dictionary F D) (hr : runOps E.cfg ops Dictionary.new = some d) (m : Mem F D) (hm : ∃ n, m.Below n)
    (reqs : List (ServerReq × Slice)) (h : ServingOK m E d reqs) (hj : ∀ x ∈ reqs, ∃ q f, x.1 = .json q f) (tr : List (Nat × Access)) (c' : Config F D JVal)
    (hx : Exec (startServer m E reqs) tr c') (hend : ∀ i e c'', ¬ Step c' i e c'') (i : Nat) (x : ServerReq × Slice) (hi : reqs[i]? = some x) :
    ∃ v, c'.threads[i]? = some (.ret v) ∧ handle E d x.1 = some (d, v) := by
  obtain ⟨_, h2, _, h4⟩ := C118_result E ops d hr m reqs h hj tr c' hx
  obtain ⟨p, h5, h6⟩ := exec_ended hx hm hend (i := i) (by simpa [startServer] using (List.getElem?_eq_some_iff.mp hi).1)
  rcases h6 with ⟨v, rfl⟩ | rfl
  · exact ⟨v, h5, h4 i x v hi h5⟩
  · exact absurd h5 (h2 i)

/-! ## A request to `/add` beside them -/

theorem quiet_token (o : Mem F D) (r : Option MRef) : Quiet (tokenP (F := F) (D := D) r) o := by
  unfold tokenP
  split
  · trivial
  · exact quiet_then (quiet_rdTok o _) fun _ _ _ => trivial
  · exact quiet_then (quiet_rdBytes _ _ _ o) fun _ _ _ => trivial

theorem quiet_tokens (a : Nat) : ∀ (k i : Nat) (o : Mem F D), Quiet (tokensP (F := F) (D := D) a k i) o
  | 0, _, _ => trivial
  | k + 1, i, o => quiet_then (quiet_rdSeg o a i) fun _ o1 _ => quiet_then (quiet_token o1 _) fun _ o2 _ => quiet_then (quiet_tokens a k (i + 1) o2) fun _ _ _ => trivial

/-- What `Segment` must do, the handler must do. -/
theorem obeys_json {R : Rely F D} {e : Access} {E : ServerEnv F} (hE : E.hmm = false) {input : Slice} {q f : List (Bytes × Bytes)} (h : Obeys R e false (segmentP (F := F) (D := D) input false) noMem) :
    Obeys R e false (jsonP E input q f) noMem := by
  unfold jsonP
  rw [hE]
  exact obeys_then _ _ _ (fun l h => by cases h) h fun r o _ => quiet_bind _ _ (quiet_tokens _ _ _ o) fun _ _ _ => trivial

theorem guarded_server {R : Rely F D} {m own : Mem F D} {E : ServerEnv F} {reqs : List (ServerReq × Slice)} {k : Nat} {es : Nat → Access}
    (hs : ∀ l x, m l = some x → R.val l x) (hl : ∀ l, R.loc l → (m l).isSome) (ho : ∀ l x, own l = some x → m l = some x)
    (h0 : ∀ (i : Nat) x, reqs[i]? = some x → Obeys R (es i) false (handlerP (D := D) E x.2 x.1) (if i = k then own else noMem)) :
    Guarded R es (startServer m E reqs) [] (fun i => if i = k then own else noMem) fun _ => false := by
  refine ⟨?_, ?_, ?_, ?_, fun i hi => by cases hi⟩
  · intro l hll
    obtain ⟨x, hx⟩ := Option.isSome_iff_exists.mp (hl l hll)
    exact ⟨x, hx, hs l x hx⟩
  · intro i l x hx
    split at hx
    · exact ho l x hx
    · cases hx
  · intro i j l x hij hx
    split at hx
    · next hi => rw [if_neg (by omega)]; rfl
    · cases hx
  · intro i p hp
    simp only [startServer, List.getElem?_map, Option.map_eq_some_iff] at hp
    obtain ⟨x, hc, rfl⟩ := hp
    exact .inl (h0 i x hc)

theorem brings_unique {a b : Bytes} {x : ServerReq} (ha : Brings a x) (hb : Brings b x) : a = b := by
  cases x with
  | add q => exact (param_get ha).symm.trans (param_get hb)
  | json q f => exact (reqText_asks ha).symm.trans (reqText_asks hb)

theorem Spec.ServingOK.at_text {m : Mem F D} {E : ServerEnv F} {d : Dictionary F D} {reqs : List (ServerReq × Slice)} (h : ServingOK m E d reqs) {i : Nat} {x : ServerReq × Slice}
    (hi : reqs[i]? = some x) {text : Bytes} (ht : Brings text x.1) : HoldsBytes m x.2 text := by
  obtain ⟨t, h1, h2⟩ := h.inputs x (List.mem_of_getElem? hi)
  rwa [brings_unique ht h1]

/-- What `/add` does to the table. -/
theorem addsNew_iff [UnicodeOK] {E : ServerEnv F} {ops : List (DictOp F)} {d : Dictionary F D} (hr : runOps E.cfg ops Dictionary.new = some d) {q : List (Bytes × Bytes)} {t : Bytes}
    (ht : HasParam q (str "text") t) : AddsNew E d q ↔ (segAddToken E.cfg d t (F64.parse (formGet q (str "freq")) : F × Bool).1 (formGet q (str "pos"))).1.numTokens ≠ d.numTokens := by
  obtain ⟨d', hd'⟩ := calcToken_total (d := (segAddToken E.cfg d t (F64.parse (formGet q (str "freq")) : F × Bool).1 (formGet q (str "pos"))).1)
    (Dictionary.wf_addToken (Reachable.wf ⟨ops, hr⟩) _ ⟨t, rfl⟩)
  have hh : handle E d (.add q) = some (d', okAnswer) := by
    simp only [handle, handleAdd, segAddTokenForce]
    rw [show formGet q (str "text") = t from param_get ht, hd']
    rfl
  have hn : d'.numTokens = (segAddToken E.cfg d t (F64.parse (formGet q (str "freq")) : F × Bool).1 (formGet q (str "pos"))).1.numTokens := (calcToken_subs hd').2.2.2.2.1
  unfold AddsNew
  rw [hh, ← hn]
  exact ⟨fun ⟨_, _, h1, h2⟩ => by cases h1; exact h2, fun h => ⟨_, _, rfl, h⟩⟩

/-- C118: a request to `/add` beside requests to `/json` is a data race, under every interleaving: whenever the handler of `/add` and one of `/json` have both ended, they have
accessed one location with one of them writing. So it is if the word is new; and also if the word is stored already, when the server runs without `-hmm` and the text for
`/json` has a word of the dictionary. -/
theorem C118_race [UnicodeOK] (E : ServerEnv F) (ops : List (DictOp F)) (d : Dictionary F D) (hr : runOps E.cfg ops Dictionary.new = some d) (m : Mem F D)
    (reqs : List (ServerReq × Slice)) (h : ServingOK m E d reqs) (k : Nat) (q : List (Bytes × Bytes)) (h1 : OneAdd reqs k q)
    (i : Nat) (hik : i ≠ k) (x : ServerReq × Slice) (hi : reqs[i]? = some x) (text : Bytes) (htext : Brings text x.1)
    (hcase : AddsNew E d q ∨ (E.hmm = false ∧ HasWord E.cfg d text))
    (tr : List (Nat × Access)) (c' : Config F D JVal) (hx : Exec (startServer m E reqs) tr c')
    (p p' : Prog F D JVal) (hp : c'.threads[k]? = some p) (hpe : Ended p) (hq : c'.threads[i]? = some p') (hqe : Ended p') : ¬ RaceFree tr := by
  have hwf := Reachable.wf ⟨ops, hr⟩
  obtain ⟨r, hk⟩ := h1.here
  obtain ⟨t, ht, htne⟩ := h1.text
  have hword : HoldsBytes m r t := h.at_text hk ht
  have fin : ∀ (R : Rely F D) (es : Nat → Access) (own : Nat → Mem F D) (l : Loc), es k = .wr l → es i = .rd l →
      Guarded R es (startServer m E reqs) [] own (fun _ => false) → ¬ RaceFree tr := by
    intro R es own l e0 e1 hg hrf
    obtain ⟨own, done, hg'⟩ := guarded_exec hg hx
    have w := guarded_ended hg' hp hpe
    have r := guarded_ended hg' hq hqe
    rw [e0] at w
    rw [e1] at r
    exact hrf k (.wr l) i (.rd l) w r (by omega) rfl
  by_cases hnew : AddsNew E d q
  · rw [addsNew_iff hr ht] at hnew
    obtain ⟨d', hd'⟩ := calcToken_total (d := (segAddToken E.cfg d t (F64.parse (formGet q (str "freq")) : F × Bool).1 (formGet q (str "pos"))).1) (Dictionary.wf_addToken hwf _ ⟨t, rfl⟩)
    have hC : Changing (adding m d.maxTokenLen) (restPart m) E.cfg :=
      ⟨adding_stable m _, h.segmenter.flags, h.segmenter.segDict, by simp [adding, h.segmenter.maxLen d rfl],
        fun c hc => by obtain ⟨n, hn, _⟩ := hc.2 rfl; exact ⟨n, hn⟩, by simp [adding, h.segmenter.trie d rfl]⟩
    have hs : ∀ l x, m l = some x → (adding m d.maxTokenLen).val l x := by
      intro l x hx
      refine ⟨fun _ => hx, ?_⟩
      rintro rfl
      rw [h.segmenter.maxLen d rfl] at hx
      exact ⟨d.maxTokenLen, (Option.some.inj hx).symm, Nat.le_refl _⟩
    have ho : ∀ l x, dictPart m l = some x → m l = some x := by
      intro l x hx
      unfold dictPart at hx
      split at hx
      · exact hx
      · cases hx
    -- the location at which the handlers meet
    obtain ⟨l, h2, h3⟩ : ∃ l : Loc, (l = .trie ∨ (l = .maxLen ∧ d.maxTokenLen < (splitTextToWords E.cfg t).length)) ∧
        ∀ (j : Nat) y, j ≠ k → reqs[j]? = some y → Obeys (adding m d.maxTokenLen) (.rd l) false (handlerP (D := D) E y.2 y.1) noMem := by
      have htp : 0 < (splitTextToWords E.cfg t).length := List.length_pos_iff.mpr fun e => htne (split_eq_nil e)
      by_cases hE : E.hmm = true
      · refine ⟨.trie, .inl rfl, fun j y hj hy => ?_⟩
        obtain ⟨q', f', tx, e, ha, hne⟩ := h1.others j y hj hy
        rw [e]
        show Obeys _ _ _ (jsonP E y.2 q' f') _
        unfold jsonP
        rw [hE, if_pos rfl, reqText_asks ha]
        exact obeys_map _ _ _ (asks_obeys (fun l x _ hx => adding_stable m _ l x hx) _ _
          (asks_cut E.consts (show restPart m .flags = _ from h.segmenter.flags) (show restPart m .segDict = _ from h.segmenter.segDict) tx true (dagRunes_ne E.cfg hne)))
      · rcases Nat.eq_zero_or_pos d.maxTokenLen with h0 | h0
        · refine ⟨.maxLen, .inr ⟨rfl, by omega⟩, fun j y hj hy => ?_⟩
          obtain ⟨q', f', tx, e, ha, hne⟩ := h1.others j y hj hy
          have hin : HoldsBytes (restPart m) y.2 tx := h.at_text hy (by rw [e]; exact ha)
          rw [e]
          exact obeys_json (by simpa using hE) (obeys_segment_maxLen hC hin hne)
        · refine ⟨.trie, .inl rfl, fun j y hj hy => ?_⟩
          obtain ⟨q', f', tx, e, ha, hne⟩ := h1.others j y hj hy
          have hin : HoldsBytes (restPart m) y.2 tx := h.at_text hy (by rw [e]; exact ha)
          rw [e]
          refine obeys_json (by simpa using hE) (obeys_segment_trie hC (fun n hn => ?_) hin hne fun e => hne (split_eq_nil e))
          obtain ⟨n', e, hle⟩ := hn.2 rfl
          cases e; omega
    refine fin _ (fun j => if j = k then .wr l else .rd l) _ l (if_pos rfl) (if_neg hik) (guarded_server (k := k) hs (fun _ h => h) ho fun j y hy => ?_)
    by_cases e : j = k
    · subst e
      rw [hk] at hy; cases hy
      simp only [if_true]
      refine obeys_map (f := fun _ => okAnswer) _ _ _ (obeys_addTokenForce h.segmenter h.totalFreq h.room h.subs hword _ _ hnew hd' _ ?_)
      rcases h2 with rfl | ⟨rfl, h2⟩
      · exact .inl rfl
      · exact .inr ⟨rfl, h2⟩
    · simp only [if_neg e]
      exact h3 j y e hy
  · obtain ⟨hE, hwd⟩ := hcase.resolve_left hnew
    rw [addsNew_iff hr ht, not_not] at hnew
    obtain ⟨d', hd'⟩ := calcToken_total hwf
    have hT := h.segmenter.toHoldsTable
    have hTs : HoldsTable (stillPart m) E.cfg (some d) := ⟨hT.flags, hT.segDict, hT.maxLen, hT.trie, hT.tokHdr, hT.tok⟩
    obtain ⟨qi, fi, ti, ei, hai, hni⟩ := h1.others i x hik hi
    obtain rfl : text = ti := brings_unique htext (by rw [ei]; exact hai)
    have hin : HoldsBytes (stillPart m) x.2 text := h.at_text hi htext
    obtain ⟨segs, hsegs⟩ := C12_segment_total E.cfg ops d hr text false
    obtain ⟨v, hv, hobs⟩ := obeys_segment_dist (recalc_stable m) hTs hin hni hsegs ((hasWord_lookAt hwf text).mp hwd)
    have hC : Changing (recalc m) (stillPart m) E.cfg :=
      ⟨recalc_stable m, hTs.flags, hTs.segDict, by simp [recalc, h.segmenter.maxLen d rfl],
        fun c hc => ⟨d.maxTokenLen, (recalc_stable m _ _ (hTs.maxLen d rfl)).2 c hc⟩, by simp [recalc, h.segmenter.trie d rfl]⟩
    refine fin _ (fun j => if j = k then .wr (.dist v) else if j = i then .rd (.dist v) else .rd .maxLen) _ (.dist v) (if_pos rfl) (by rw [if_neg hik, if_pos rfl])
      (guarded_server (R := recalc m) (own := calcPart m) (k := k) (fun l x hx _ => hx) (fun _ h => h) ?_ fun j y hy => ?_)
    · intro l x hx
      unfold calcPart at hx
      split at hx
      · exact hx
      · cases hx
    · by_cases e : j = k
      · subst e
        rw [hk] at hy; cases hy
        simp only [if_true]
        exact obeys_map (f := fun _ => okAnswer) _ _ _ (obeys_addTokenForce_known hT h.totalFreq
          (fun j hj => ⟨by rw [h.segmenter.dist d rfl j _ (List.getElem?_eq_getElem hj)]; rfl, h.subs j hj⟩) hword _ _ hnew hd' hv)
      · simp only [if_neg e]
        by_cases e' : j = i
        · subst e'
          rw [hi] at hy; cases hy
          rw [if_pos rfl, ei]
          exact obeys_json hE hobs
        · rw [if_neg e']
          obtain ⟨q', f', tx, ey, ha, hne⟩ := h1.others j y e hy
          have hin : HoldsBytes (stillPart m) y.2 tx := h.at_text hy (by rw [ey]; exact ha)
          rw [ey]
          exact obeys_json hE (obeys_segment_maxLen hC hin hne)

/-- C118: and every execution that cannot go on is one in which all handlers have ended, so it has a race. -/
theorem C118_race_complete [UnicodeOK] (E : ServerEnv F) (ops : List (DictOp F)) (d : Dictionary F D) (hr : runOps E.cfg ops Dictionary.new = some d) (m : Mem F D) (hm : ∃ n, m.Below n)
    (reqs : List (ServerReq × Slice)) (h : ServingOK m E d reqs) (k : Nat) (q : List (Bytes × Bytes)) (h1 : OneAdd reqs k q)
    (i : Nat) (hik : i ≠ k) (x : ServerReq × Slice) (hi : reqs[i]? = some x) (text : Bytes) (htext : Brings text x.1)
    (hcase : AddsNew E d q ∨ (E.hmm = false ∧ HasWord E.cfg d text))
    (tr : List (Nat × Access)) (c' : Config F D JVal) (hx : Exec (startServer m E reqs) tr c') (hend : ∀ i e c'', ¬ Step c' i e c'') : ¬ RaceFree tr := by
  obtain ⟨r, hk⟩ := h1.here
  obtain ⟨p, h2, h3⟩ := exec_ended hx hm hend (i := k) (by simpa [startServer] using (List.getElem?_eq_some_iff.mp hk).1)
  obtain ⟨p', h4, h5⟩ := exec_ended hx hm hend (i := i) (by simpa [startServer] using (List.getElem?_eq_some_iff.mp hi).1)
  exact C118_race E ops d hr m reqs h k q h1 i hik x hi text htext hcase tr c' hx p p' h2 h3 h4 h5

/-- C118: a word that is stored already may be added at any time if the server runs with `-hmm`, or if no text for `/json` has a word of the dictionary: in every execution there is
no data race, no handler panics, every answer is the one the request has alone, and once `/add` is answered memory holds the recomputed dictionary. -/
theorem C118_known [UnicodeOK] (E : ServerEnv F) (ops : List (DictOp F)) (d : Dictionary F D) (hr : runOps E.cfg ops Dictionary.new = some d) (m : Mem F D)
    (reqs : List (ServerReq × Slice)) (h : ServingOK m E d reqs) (k : Nat) (q : List (Bytes × Bytes)) (h1 : OneAdd reqs k q) (hknown : ¬ AddsNew E d q)
    (hsafe : E.hmm = true ∨ ∀ (i : Nat) x text, i ≠ k → reqs[i]? = some x → Brings text x.1 → ¬ HasWord E.cfg d text) :
    ∃ d', handle E d (.add q) = some (d', okAnswer) ∧
      ∀ tr c', Exec (startServer m E reqs) tr c' → RaceFree tr ∧ (∀ i : Nat, c'.threads[i]? ≠ some .panic) ∧
        (∀ v, c'.threads[k]? = some (.ret v) → v = okAnswer ∧ Forced c'.mem E.cfg d') ∧
        ∀ (i : Nat) x v, i ≠ k → reqs[i]? = some x → c'.threads[i]? = some (.ret v) → handle E d x.1 = some (d, v) := by
  have hwf := Reachable.wf ⟨ops, hr⟩
  obtain ⟨r, hk⟩ := h1.here
  obtain ⟨t, ht, _⟩ := h1.text
  have hword : HoldsBytes m r t := h.at_text hk ht
  rw [addsNew_iff hr ht, not_not] at hknown
  obtain ⟨d', hd'⟩ := calcToken_total hwf
  refine ⟨d', ?_, fun tr c' hx => ?_⟩
  · simp only [handle, handleAdd, segAddTokenForce]
    rw [show formGet q (str "text") = t from param_get ht, segAddToken_known hknown, hd']
    rfl
  have hT := h.segmenter.toHoldsTable
  have hTs : HoldsTable (stillPart m) E.cfg (some d) := ⟨hT.flags, hT.segDict, hT.maxLen, hT.trie, hT.tokHdr, hT.tok⟩
  have hT' := hT; have ht' := hword; have hf' := h.totalFreq
  rw [← view_still m] at hT' ht' hf'
  have hI : Isolated (stillPart m) (startServer m E reqs) (fun i => if i = k then calcPart m else noMem)
      (fun i v o => if i = k then v = okAnswer ∧ Forced (view (stillPart m) o) E.cfg d' else ∀ x, reqs[i]? = some x → handle E d x.1 = some (d, v)) := by
    refine ⟨?_, ?_, ?_, ?_, ?_⟩
    · intro l x hx
      unfold stillPart at hx
      split at hx
      · cases hx
      · exact hx
    · intro i l x hx
      split at hx
      · unfold calcPart at hx
        split at hx
        · exact hx
        · cases hx
      · cases hx
    · intro i l x hx
      split at hx
      · unfold calcPart at hx
        split at hx
        · next hl => unfold stillPart; rw [if_pos hl]
        · cases hx
      · cases hx
    · intro i j l x hij hx
      split at hx
      · next hi => rw [if_neg (by omega)]; rfl
      · cases hx
    · intro i p hp
      simp only [startServer, List.getElem?_map, Option.map_eq_some_iff] at hp
      obtain ⟨⟨req, input⟩, hc, rfl⟩ := hp
      by_cases e : i = k
      · subst e
        rw [hk] at hc; cases hc
        simp only [if_true]
        refine wp_bind' _ _ ?_
        unfold addTokenForceP
        refine wp_bind (wp_mono ?_ _ _ (wp_addToken_known hT' ht' _ _ hknown))
        rintro err o ⟨rfl, h2, h3⟩
        refine wp_mono ?_ _ _ (wp_forced (hT'.grow h3) (h3 _ _ hf') (fun j hj => ?_) hd' _)
        · rintro e o' ⟨rfl, hfo⟩
          exact ⟨rfl, hfo⟩
        · obtain ⟨x, hx⟩ := Option.isSome_iff_exists.mp (show (m (.dist j)).isSome by rw [h.segmenter.dist d rfl j _ (List.getElem?_eq_getElem hj)]; rfl)
          obtain ⟨y, hy⟩ := Option.isSome_iff_exists.mp (h.subs j hj)
          rw [h2 (.dist j) x (by simp [calcPart, Loc.calc, hx]), h2 (.subs j) y (by simp [calcPart, Loc.calc, hy])]
          exact ⟨rfl, rfl⟩
      · simp only [if_neg e]
        obtain ⟨q', f', tx, ey, ha, hne⟩ := h1.others i _ e hc
        simp only at ey
        subst ey
        have hin : HoldsBytes (stillPart m) input tx := h.at_text hc ha
        obtain ⟨v, h2, h3⟩ := wp_json_of E hr hTs (show stillPart m .totalFreq = _ from h.totalFreq) (show stillPart m .emit = _ from h.emit) ha (input := input) fun hE segs hs =>
          wp_segment_nil hTs hin (fun _ _ _ => rfl) hs fun d0 e0 => by
            cases e0
            exact lookAt_nil hwf ((hsafe.resolve_left (by simp [hE])) i _ tx e hc ha)
        refine wp_mono ?_ _ _ h3
        rintro _ _ rfl x hx
        rw [hc] at hx; cases hx
        show (handleJson E d q' f').map _ = _
        rw [h2]; rfl
  obtain ⟨own, hI', _, _⟩ := isolated_exec hI hx
  refine ⟨isolated_raceFree hI hx, fun i hp => hI'.goes i _ hp, fun v hv => ?_, fun i x v hik hi hv => ?_⟩
  · have key := hI'.goes k _ hv
    simp only [wp, if_true] at key
    exact ⟨key.1, key.2.grow (hI'.grows k)⟩
  · have key := hI'.goes i _ hv
    simp only [wp, if_neg hik] at key
    exact key x hi

theorem server_self {m : Mem F D} {E : ServerEnv F} {reqs : List (ServerReq × Slice)} {i : Nat} {x : ServerReq × Slice} (hi : reqs[i]? = some x) :
    (startServer m E reqs).threads.set i (handlerP E x.2 x.1) = (startServer m E reqs).threads := by
  apply List.ext_getElem?
  intro n
  rw [List.getElem?_set]
  split
  · next e =>
    subst e
    have := (List.getElem?_eq_some_iff.mp hi).1
    simpa [startServer, hi] using this
  · rfl

/-- C118: and the race is not harmless. If the word is new and a text for `/json` has it (with `-hmm`: anywhere; without: at its start, and the word is not longer than the longest word),
there is an execution in which the handler of `/json` panics, so that this request gets no answer, though no request does in any order one after the other. -/
theorem C118_panic [UnicodeOK] (E : ServerEnv F) (ops : List (DictOp F)) (d : Dictionary F D) (hr : runOps E.cfg ops Dictionary.new = some d) (m : Mem F D) (hm : ∃ n, m.Below n)
    (reqs : List (ServerReq × Slice)) (h : ServingOK m E d reqs) (k : Nat) (q : List (Bytes × Bytes)) (h1 : OneAdd reqs k q) (hnew : AddsNew E d q)
    (t : Bytes) (ht : HasParam q (str "text") t) (i : Nat) (hik : i ≠ k) (x : ServerReq × Slice) (hi : reqs[i]? = some x) (text : Bytes) (htext : Brings text x.1)
    (hmeet : (E.hmm = true ∧ ∃ pre w post, dagText E.cfg text = pre ++ w ++ post ∧ encode w = normText E.cfg t) ∨
      (E.hmm = false ∧ (splitTextToWords E.cfg t).length ≤ d.maxTokenLen ∧ splitTextToWords E.cfg t <+: splitTextToWords E.cfg text)) :
    ∃ tr c', Exec (startServer m E reqs) tr c' ∧ c'.threads[i]? = some .panic := by
  obtain ⟨r, hk⟩ := h1.here
  obtain ⟨t0, ht0, htne⟩ := h1.text
  obtain rfl : t = t0 := (param_get ht).symm.trans (param_get ht0)
  have hword : HoldsBytes m r t := h.at_text hk ht
  rw [addsNew_iff hr ht] at hnew
  have hkl : k < (startServer m E reqs).threads.length := by simpa [startServer] using (List.getElem?_eq_some_iff.mp hk).1
  generalize hfreq : (F64.parse (formGet q (str "freq")) : F × Bool).1 = freq at hnew
  generalize hpos : formGet q (str "pos") = pos at hnew
  -- the handler of `/add`, up to the point where the word is in the trie and not in the table
  obtain ⟨m1, t', p, hval, hS, hcell, hreach⟩ : ∃ (m1 : Mem F D) (t' : Trie) (p : Prog F D JVal), t'.value (textSliceToBytes (splitTextToWords E.cfg t)) = some d.tokens.length ∧
      HoldsSegmenter m1 E.cfg (some { d with trie := t' }) ∧ (∀ a i x, m (.cell a i) = some x → m1 (.cell a i) = some x) ∧
      Reach (startServer m E reqs) ⟨m1, (startServer m E reqs).threads.set k p⟩ := by
    obtain ⟨m1, hg, hr1⟩ := reach_token hkl hm h.segmenter hword freq pos (fun token => Prog.bind (Prog.rdBool .segDict) fun nil => if nil then .panic else dictAddP token)
      (fun err => (calcTokenP.bind fun _ => .ret err).bind fun _ => .ret okAnswer)
    have e0 : (⟨m, (startServer m E reqs).threads.set k (((toTokenP r freq pos).bind fun token => Prog.bind (Prog.rdBool .segDict) fun nil => if nil then .panic else dictAddP token).bind
        fun err => (calcTokenP.bind fun _ => .ret err).bind fun _ => .ret okAnswer)⟩ : Config F D JVal) = startServer m E reqs := by
      have := server_self (m := m) (E := E) hk
      rw [show handlerP E (ServerReq.add q, r).2 (ServerReq.add q, r).1 = (((toTokenP r freq pos).bind fun token => Prog.bind (Prog.rdBool .segDict) fun nil =>
        if nil then .panic else dictAddP token).bind fun err => (calcTokenP.bind fun _ => .ret err).bind fun _ => .ret okAnswer : Prog F D JVal) from ?_] at this
      · rw [this]; rfl
      · subst hfreq; subst hpos
        rw [← bind_assoc_prog]
        rfl
    rw [e0] at hr1
    have hS := h.segmenter.grow hg
    have hr2 := hr1.trans (reach_read hkl hS.segDict)
    simp only [Option.isNone_some, Prog.bind, Bool.false_eq_true, if_false] at hr2
    cases hget : d.trie.get (textSliceToBytes (splitTextToWords E.cfg t)) with
    | some v => exact absurd (by simp [segAddToken, Dictionary.addToken, toToken, hget]) hnew
    | none =>
      cases hins : d.trie.insert (textSliceToBytes (splitTextToWords E.cfg t)) d.tokens.length with
      | none => exact absurd (by simp [segAddToken, Dictionary.addToken, toToken, hget, Dictionary.numTokens, hins]) hnew
      | some t' =>
        obtain ⟨p, hr3⟩ := reach_dictAdd hkl hS (token := toToken E.cfg t freq pos) hget hins _
        have hval := Trie.value_insert hins (textSliceToBytes (splitTextToWords E.cfg t))
        rw [if_pos rfl] at hval
        exact ⟨_, t', p, hval, hS.put_trie t', fun a i x hx => by simpa [Mem.put] using hg _ _ hx, hr2.trans hr3⟩
  have hil : i < ((startServer m E reqs).threads.set k p).length := by simpa [startServer] using (List.getElem?_eq_some_iff.mp hi).1
  have hself : ((startServer m E reqs).threads.set k p).set i (handlerP E x.2 x.1) = (startServer m E reqs).threads.set k p := by
    rw [List.set_comm _ _ (Ne.symm hik), server_self hi]
  obtain ⟨q', f', tx, ey, ha, hne⟩ := h1.others i x hik hi
  obtain rfl : text = tx := brings_unique htext (by rw [ey]; exact ha)
  rcases hmeet with ⟨hE, pre, w, post, hw1, hw2⟩ | ⟨hE, hlen, rest, hrest⟩
  · have hcr : Crashes m1 (handlerP (D := D) E x.2 x.1) := by
      rw [ey]
      show Crashes m1 (jsonP E x.2 q' f')
      unfold jsonP
      rw [hE, if_pos rfl, reqText_asks ha]
      refine crashes_bind _ (crashes_cut E.consts hS.toHoldsTable text true (by rw [dagRunes_eq, hw1]) ?_ (by rw [hw2, ← key_norm]; exact hval) (Nat.le_refl _))
      rintro rfl
      exact norm_ne htne hw2.symm
    have hr2 := reach_crashes hil _ hcr
    rw [hself] at hr2
    obtain ⟨tr, hx⟩ := hreach.trans hr2
    exact ⟨tr, _, hx, set_get hil _⟩
  · have hsne : splitTextToWords E.cfg t ≠ [] := fun e => htne (split_eq_nil e)
    have hne' : splitTextToWords E.cfg text ≠ [] := by rw [← hrest]; simp [hsne]
    have hin := h.at_text hi htext
    have hf : fails m1 (segmentP x.2 false) noMem := by
      refine fails_segment hS (s := text) ⟨hin.1, fun k b hb => hcell _ _ _ (hin.2 k b hb)⟩ hne hne' ?_
      have hl : (splitTextToWords E.cfg text).length = (splitTextToWords E.cfg t).length + rest.length := by rw [← hrest, List.length_append]
      rw [← hrest, List.take_append, List.take_of_length_le (by rw [hrest]; show _ ≤ min d.maxTokenLen _; omega)]
      exact lookup_ahead (d := { d with trie := t' }) hval _ _ _ _ _ (by rw [textSliceToBytes_eq]; rfl) hsne
    have hf' : fails m1 (handlerP (D := D) E x.2 x.1) noMem := by
      rw [ey]
      show fails m1 (jsonP E x.2 q' f') noMem
      unfold jsonP
      rw [hE]
      exact fails_bind' _ _ hf
    obtain ⟨tr1, hr1⟩ := hreach
    have hb : ∃ n, m1.Below n := exec_below hr1 hm
    have hv : view m1 noMem = m1 := by funext l; simp [view, noMem]
    obtain ⟨m2, hr2⟩ := reach_fails hil _ _ hf' (by rw [hv]; exact hb)
    rw [hv, hself] at hr2
    obtain ⟨tr2, hx⟩ := Reach.trans ⟨tr1, hr1⟩ hr2
    exact ⟨tr2, _, hx, set_get hil _⟩

/-- A memory for the server. -/
def serverMem (E : ServerEnv F) (d : Dictionary F D) (inputs : List Bytes) : Mem F D :=
  (subsy (roomy (memOf E.cfg (some d) inputs) d) d.tokens.length).put .emit (.emit E.emit)

theorem serverMem_ok (E : ServerEnv F) (d : Dictionary F D) (inputs : List Bytes) (reqs : List (ServerReq × Slice))
    (hi : ∀ x ∈ reqs, ∃ text, Brings text x.1 ∧ HoldsBytes (memOf E.cfg (some d) inputs) x.2 text) : ServingOK (serverMem E d inputs) E d reqs := by
  have hok := subsy_ok E.cfg d inputs ⟨⟨0, 0, 0⟩, [], F64.ofNat 0, []⟩ [] ⟨rfl, fun k b hb => by simp at hb⟩ (by simp)
  refine ⟨⟨(HoldsDict.put_emit ⟨hok.segmenter.toHoldsTable, hok.totalFreq⟩ E.emit).segmenter, hok.segmenter.dist⟩, hok.totalFreq, put_same _ _ _,
    ⟨hok.room.tok, hok.room.dist, hok.room.subs⟩, hok.subs, fun x hx => ?_⟩
  obtain ⟨text, h1, h2⟩ := hi x hx
  exact ⟨text, h1, h2.1, fun k b hb => by simpa [serverMem, subsy, roomy, Mem.put] using h2.2 k b hb⟩

theorem serverMem_below (E : ServerEnv F) (d : Dictionary F D) (inputs : List Bytes) : ∃ n, (serverMem E d inputs).Below n :=
  ⟨_, below_put (subsy_below E.cfg d inputs) (by simp [subsy, roomy, memOf, Mem.put]) _⟩

end main

section examples
attribute [local instance] sampleUnicode sampleUnicodeOK sampleF64 sampleF32 sampleNarrow

/-- A server without `-hmm` whose dictionary has the word "w". -/
def sampleServing : ServerEnv Int := { hmm := false, consts := hmmConst, emit := hmmEmit }

/-- Two requests to `/json`, one of them with the text in the form. -/
def sampleJson : List (ServerReq × Slice) := [(.json [(str "text", str "go w")] [], ⟨0, 0, 4⟩), (.json [] [(str "text", str "go")], ⟨1, 0, 2⟩)]

theorem sampleJson_brings (d : Dictionary Int Int) : ∀ x ∈ sampleJson, ∃ text, Brings text x.1 ∧ HoldsBytes (memOf {} (some d) [str "go w", str "go", str "go", str "w"]) x.2 text := by
  intro x hx
  simp only [sampleJson, List.mem_cons, List.not_mem_nil, or_false] at hx
  rcases hx with rfl | rfl
  · exact ⟨str "go w", .inl (by decide), memOf_input _ _ _ 0 (str "go w") rfl⟩
  · exact ⟨str "go", .inr (by decide), memOf_input _ _ _ 1 (str "go") rfl⟩

/-- A request to `/add` of "go", or of "w", beside one or both of them. -/
theorem sampleAdd_brings (d : Dictionary Int Int) (l : List (ServerReq × Slice)) (hl : ∀ y ∈ l, y ∈ sampleJson) (w : Bytes) (r : Slice) (hw : (w, r) = (str "go", ⟨2, 0, 2⟩) ∨ (w, r) = (str "w", ⟨3, 0, 1⟩)) :
    (∀ x ∈ (.add [(str "text", w)], r) :: l, ∃ text, Brings text x.1 ∧ HoldsBytes (memOf {} (some d) [str "go w", str "go", str "go", str "w"]) x.2 text) ∧
      OneAdd ((.add [(str "text", w)], r) :: l) 0 [(str "text", w)] := by
  refine ⟨fun x hx => ?_, ⟨⟨r, rfl⟩, ⟨w, .inl (by simp [List.lookup]), by rintro rfl; rcases hw with h | h <;> cases h⟩, fun i x hi hx => ?_⟩⟩
  · rcases List.mem_cons.mp hx with rfl | hx
    · refine ⟨w, .inl (by simp [List.lookup]), ?_⟩
      rcases hw with h | h <;> cases h
      · exact memOf_input _ _ _ 2 (str "go") rfl
      · exact memOf_input _ _ _ 3 (str "w") rfl
    · exact sampleJson_brings d x (hl x hx)
  · match i, hi with
    | i + 1, _ =>
      have hx := hl x (List.mem_of_getElem? (by simpa using hx))
      simp only [sampleJson, List.mem_cons, List.not_mem_nil, or_false] at hx
      rcases hx with rfl | rfl
      · exact ⟨_, _, str "go w", rfl, .inl (by decide), by decide⟩
      · exact ⟨_, _, str "go", rfl, .inr (by decide), by decide⟩

/-- The two requests for words are answered at the same time, with two segments and white space for the first. Adding "go" beside them is a race and may make the first panic; adding
"w", which is stored, is a race with the first; beside the second alone it is not. -/
example : ∃ (d : Dictionary Int Int), runOps {} [.add (str "w") 9 [], .recalc] Dictionary.new = some d ∧
    (∀ tr c', Exec (startServer (serverMem sampleServing d [str "go w", str "go", str "go", str "w"]) sampleServing sampleJson) tr c' → (∀ i e c'', ¬ Step c' i e c'') →
      RaceFree tr ∧ ∃ v, c'.threads[0]? = some (.ret v) ∧
        v = segsAnswer [(str "go", str "x"), (str " ", str "x"), (str "w", [])]) ∧
    (∀ w r, (w, r) = (str "go", ⟨2, 0, 2⟩) ∨ (w, r) = (str "w", ⟨3, 0, 1⟩) → ∀ tr c',
      Exec (startServer (serverMem sampleServing d [str "go w", str "go", str "go", str "w"]) sampleServing ((.add [(str "text", w)], r) :: sampleJson)) tr c' →
        (∀ i e c'', ¬ Step c' i e c'') → ¬ RaceFree tr) ∧
    (∃ tr c', Exec (startServer (serverMem sampleServing d [str "go w", str "go", str "go", str "w"]) sampleServing ((.add [(str "text", str "go")], ⟨2, 0, 2⟩) :: sampleJson)) tr c' ∧
      c'.threads[1]? = some .panic) ∧
    ∀ tr c', Exec (startServer (serverMem sampleServing d [str "go w", str "go", str "go", str "w"]) sampleServing ((.add [(str "text", str "w")], ⟨3, 0, 1⟩) :: sampleJson.drop 1)) tr c' →
      RaceFree tr := by
  have h : (runOps (F := Int) (D := Int) {} [.add (str "w") 9 [], .recalc] Dictionary.new).isSome := by decide +kernel
  obtain ⟨d, hd⟩ := Option.isSome_iff_exists.mp h
  have hwf := Reachable.wf ⟨_, hd⟩
  have hn : d.numTokens = 1 ∧ (handle sampleServing d (.add [(str "text", str "w")])).map (fun r => r.1.numTokens) = some 1 ∧
      (handle sampleServing d (.add [(str "text", str "go")])).map (fun r => r.1.numTokens) = some 2 ∧ d.maxTokenLen = 1 := by
    have : (runOps (F := Int) (D := Int) {} [.add (str "w") 9 [], .recalc] Dictionary.new).map
        (fun d => (d.numTokens, (handle sampleServing d (.add [(str "text", str "w")])).map (fun r => r.1.numTokens),
          (handle sampleServing d (.add [(str "text", str "go")])).map (fun r => r.1.numTokens), d.maxTokenLen)) = some (1, some 1, some 2, 1) := by decide +kernel
    rw [hd] at this
    simpa using this
  have hl : (d.valueOf (str "w")).2 = false ∧ lookAt d (splitTextToWords {} (str "go")) 0 = some [] := by
    have : (runOps (F := Int) (D := Int) {} [.add (str "w") 9 [], .recalc] Dictionary.new).map
        (fun d => ((d.valueOf (str "w")).2, lookAt d (splitTextToWords {} (str "go")) 0)) = some (false, some []) := by decide +kernel
    rw [hd] at this
    simpa using this
  have h7 : ((internalSegment {} (some d) (str "go w") false).bind fun segs => (mapOpt (fun g : Seg => d.deref g.tok) segs).map fun ts => ts.map fun t => (textSliceToBytes t.text, t.pos)) =
      some [(str "go", str "x"), (str " ", str "x"), (str "w", [])] := by
    have : ((runOps (F := Int) (D := Int) {} [.add (str "w") 9 [], .recalc] Dictionary.new).bind fun d =>
          (internalSegment {} (some d) (str "go w") false).bind fun segs => (mapOpt (fun g : Seg => d.deref g.tok) segs).map fun ts => ts.map fun t => (textSliceToBytes t.text, t.pos)) =
        some [(str "go", str "x"), (str " ", str "x"), (str "w", [])] := by decide +kernel
    rw [hd] at this
    exact this
  obtain ⟨h1, h2, h3, h4⟩ := hn
  obtain ⟨h5, h6⟩ := hl
  replace h7 : handleJson sampleServing d [(str "text", str "go w")] [] = some (segsAnswer [(str "go", str "x"), (str " ", str "x"), (str "w", [])]) := by
    have := congrArg (Option.map segsAnswer) h7
    rw [Option.map_bind, Option.map_some] at this
    rw [← this, handleJson, show sampleServing.hmm = false from rfl, if_neg (by simp), reqText_asks (text := str "go w") (.inl (by decide))]
    simp only [Function.comp_def, Option.map_map]
    rfl
  have hnew : AddsNew sampleServing d [(str "text", str "go")] := by
    cases hh : handle sampleServing d (.add [(str "text", str "go")]) with
    | none => rw [hh] at h3; cases h3
    | some r => rw [hh] at h3; exact ⟨r.1, r.2, hh, by rw [h1, show r.1.numTokens = 2 from Option.some.inj h3]; decide⟩
  have hold : ¬ AddsNew sampleServing d [(str "text", str "w")] := by
    rintro ⟨d', v, hh, hne⟩
    rw [hh] at h2
    exact hne (by rw [h1]; exact Option.some.inj h2)
  have hb := serverMem_below sampleServing d [str "go w", str "go", str "go", str "w"]
  refine ⟨d, hd, fun tr c' hx he => ?_, fun w r hw tr c' hx he => ?_, ?_, fun tr c' hx => ?_⟩
  · have hok := serverMem_ok sampleServing d _ _ (sampleJson_brings d)
    have hj : ∀ x ∈ sampleJson, ∃ q f, x.1 = .json q f := by
      intro x hx
      simp only [sampleJson, List.mem_cons, List.not_mem_nil, or_false] at hx
      rcases hx with rfl | rfl <;> exact ⟨_, _, rfl⟩
    obtain ⟨v, hv, hh⟩ := C118_complete sampleServing _ d hd _ hb _ hok hj tr c' hx he 0 _ rfl
    refine ⟨(C118_result sampleServing _ d hd _ _ hok hj tr c' hx).1, v, hv, ?_⟩
    simp only [handle, h7, Option.map_some, Option.some.injEq, Prod.mk.injEq, true_and] at hh
    exact hh.symm
  · obtain ⟨g1, g2⟩ := sampleAdd_brings d sampleJson (fun _ h => h) w r hw
    exact C118_race_complete sampleServing _ d hd _ hb _ (serverMem_ok sampleServing d _ _ g1) 0 _ g2 1 (by decide) _ rfl (str "go w") (.inl (by decide))
      (.inr ⟨rfl, [str "go", str " "], [str "w"], [], by decide +kernel, by simp, by simpa using h5⟩) tr c' hx he
  · obtain ⟨g1, g2⟩ := sampleAdd_brings d sampleJson (fun _ h => h) _ _ (.inl rfl)
    exact C118_panic sampleServing _ d hd _ hb _ (serverMem_ok sampleServing d _ _ g1) 0 _ g2 hnew (str "go") (.inl (by decide)) 1 (by decide) _ rfl (str "go w") (.inl (by decide))
      (.inr ⟨rfl, by rw [h4]; decide +kernel, by decide +kernel⟩)
  · obtain ⟨g1, g2⟩ := sampleAdd_brings d (sampleJson.drop 1) (fun _ h => List.mem_of_mem_drop h) _ _ (.inr rfl)
    obtain ⟨d', _, key⟩ := C118_known sampleServing _ d hd _ _ (serverMem_ok sampleServing d _ _ g1) 0 _ g2 hold (.inr fun i x text hi hx hbr => by
      match i, hi with
      | 1, _ =>
        obtain rfl : (ServerReq.json [] [(str "text", str "go")], (⟨1, 0, 2⟩ : Slice)) = x := Option.some.inj hx
        obtain rfl : text = str "go" := brings_unique hbr (.inr (by decide))
        intro hw
        obtain ⟨c, hc, hne⟩ := (hasWord_lookAt hwf _).mp hw
        have : (splitTextToWords {} (str "go")).length = 1 := by decide +kernel
        rw [this] at hc
        obtain rfl : c = 0 := by omega
        exact hne h6
      | i + 2, _ => simp [sampleJson] at hx)
    exact (key tr c' hx).1

end examples
end Gse
