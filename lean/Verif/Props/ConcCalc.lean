import Verif.Proofs.RaceDist
import Verif.Props.ConcCut

/-! # C77: a goroutine that adds a word with `AddTokenForce` beside goroutines that use the segmenter -/

namespace Gse
open Spec Trie

set_option linter.unusedSectionVars false

section
variable {F D : Type} [F64 F] [F32 D] [Narrow F D] [Unicode]

theorem valueOf_ok (d : Dictionary F D) (w : Bytes) : (d.valueOf w).2 = false ↔ ∃ v, d.trie.value w = some v := by
  have hg := get_eq d.trie w
  unfold Dictionary.valueOf
  unfold Trie.get at hg
  cases hj : d.trie.jump w [] with
  | none => rw [hj] at hg; simp at hg; simp [← hg]
  | some id =>
    rw [hj] at hg
    simp only [Option.bind_some] at hg
    simp only
    rw [hg]
    cases d.trie.value w <;> simp

/-- Where the look-ups of `Segment` find something. -/
theorem hasWord_lookAt [UnicodeOK] {cfg : SplitCfg} {d : Dictionary F D} (hwf : d.WF cfg) (s : Bytes) :
    HasWord cfg d s ↔ ∃ c, c < (splitTextToWords cfg s).length ∧ lookAt d (splitTextToWords cfg s) c ≠ some [] := by
  have hlook : ∀ c, lookAt d (splitTextToWords cfg s) c = some ((List.range (slice (splitTextToWords cfg s) c (min (c + d.maxTokenLen) (splitTextToWords cfg s).length)).length).filterMap
      fun n => d.trie.value ((slice (splitTextToWords cfg s) c (min (c + d.maxTokenLen) (splitTextToWords cfg s).length)).take (n + 1)).flatten) := by
    intro c
    exact hwf.lookup _ _ (by simp only [slice, List.length_take, List.length_drop]; omega)
  constructor
  · rintro ⟨l, ws, r, h1, h2, h3⟩
    obtain ⟨v, hv⟩ := (valueOf_ok d _).mp h3
    obtain ⟨t, _, _, h4⟩ := hwf.coh.text_eq h1 hv
    have hpos := List.length_pos_iff.mpr h2
    have hlen : (splitTextToWords cfg s).length = l.length + ws.length + r.length := by rw [h1]; simp; omega
    refine ⟨l.length, by omega, ?_⟩
    rw [hlook]
    intro e
    have e' := Option.some.inj e
    rw [List.filterMap_eq_nil_iff] at e'
    have := e' (ws.length - 1) (by
      rw [List.mem_range]; simp only [slice, List.length_take, List.length_drop]; omega)
    have ht : (slice (splitTextToWords cfg s) l.length (min (l.length + d.maxTokenLen) (splitTextToWords cfg s).length)).take (ws.length - 1 + 1) = ws := by
      unfold slice
      rw [List.take_take, min_eq_left (by omega), h1, List.append_assoc, List.drop_left, show ws.length - 1 + 1 = ws.length by omega, List.take_left]
    rw [ht, hv] at this; cases this
  · rintro ⟨c, h1, h2⟩
    rw [hlook] at h2
    by_contra hno
    refine h2 (congrArg some (List.filterMap_eq_nil_iff.mpr fun n hn => ?_))
    rw [List.mem_range] at hn
    cases hv : d.trie.value ((slice (splitTextToWords cfg s) c (min (c + d.maxTokenLen) (splitTextToWords cfg s).length)).take (n + 1)).flatten with
    | none => rfl
    | some v =>
      refine absurd ⟨(splitTextToWords cfg s).take c, (slice (splitTextToWords cfg s) c (min (c + d.maxTokenLen) (splitTextToWords cfg s).length)).take (n + 1),
        ((splitTextToWords cfg s).drop c).drop (n + 1), ?_, ?_, (valueOf_ok d _).mpr ⟨v, hv⟩⟩ hno
      · simp only [slice, List.length_take, List.length_drop] at hn
        unfold slice
        rw [List.take_take, min_eq_left (by omega), List.append_assoc, List.take_append_drop, List.take_append_drop]
      · intro e
        have := congrArg List.length e
        rw [List.length_take] at this
        simp only [List.length_nil] at this
        omega

theorem lookAt_nil [UnicodeOK] {cfg : SplitCfg} {d : Dictionary F D} (hwf : d.WF cfg) {s : Bytes} (h : ¬ HasWord cfg d s) :
    ∀ c, c < (splitTextToWords cfg s).length → lookAt d (splitTextToWords cfg s) c = some [] := by
  intro c hc
  by_contra hne
  exact h ((hasWord_lookAt hwf s).mpr ⟨c, hc, hne⟩)

/-- Goroutine 0 makes the call of `AddTokenForce` and ends with `err != nil`; goroutine `i + 1` makes the call number `i`. -/
def startForce (m : Mem F D) (add : AddCall F) (c : HmmConst F) (calls : List UseCall) : Config F D (Bool ⊕ Answer F) :=
  ⟨m, (addTokenForceP add.input add.freq add.pos).bind (fun e => .ret (.inl e)) :: calls.map fun x => (x.prog c).bind fun a => .ret (.inr a)⟩

/-- Memory holds the segmenter, its dictionary with room for another token, sub-segments for every token, and all inputs. -/
structure ForceOK (m : Mem F D) (cfg : SplitCfg) (d : Dictionary F D) (add : AddCall F) (calls : List UseCall) : Prop where
  segmenter : HoldsSegmenter m cfg (some d)
  totalFreq : m .totalFreq = some (.freq d.totalFreq)
  room : HasRoom m d.tokens.length
  subs : ∀ i, i < d.tokens.length → (m (.subs i)).isSome
  word : HoldsBytes m add.input add.text
  inputs : ∀ x ∈ calls, x.HasInput m

theorem ForceOK.own {m : Mem F D} {cfg : SplitCfg} {d : Dictionary F D} {add : AddCall F} {calls : List UseCall} (h : ForceOK m cfg d add calls) :
    ∀ j, j < d.tokens.length → (m (.dist j)).isSome ∧ (m (.subs j)).isSome :=
  fun j hj => ⟨by rw [h.segmenter.dist d rfl j _ (List.getElem?_eq_getElem hj)]; rfl, h.subs j hj⟩

/-- What memory holds after `AddTokenForce`. -/
structure Forced (m : Mem F D) (cfg : SplitCfg) (d' : Dictionary F D) : Prop where
  segmenter : HoldsSegmenter m cfg (some d')
  subs : HoldsSubs m d'
  totalFreq : m .totalFreq = some (.freq d'.totalFreq)

theorem Forced.grow {m m' : Mem F D} {cfg : SplitCfg} {d' : Dictionary F D} (h : Forced m cfg d') (hg : Grows m m') : Forced m' cfg d' := by
  refine ⟨h.segmenter.grow hg, fun i t ht => ?_, hg _ _ h.totalFreq⟩
  obtain ⟨r, h1, h2⟩ := h.subs i t ht
  exact ⟨r, hg _ _ h1, h2.keep fun a i x hx => hg _ _ hx⟩

theorem wp_forced {sh o : Mem F D} {cfg : SplitCfg} {d d' : Dictionary F D} (hT : HoldsTable (view sh o) cfg (some d)) (hf : view sh o .totalFreq = some (.freq d.totalFreq))
    (hown : ∀ j, j < d.tokens.length → (o (.dist j)).isSome ∧ (o (.subs j)).isSome) (hc : calcToken d = some d') (err : Bool) :
    wp sh (calcTokenP >>= fun _ => .ret err) o (fun e o' => e = err ∧ Forced (view sh o') cfg d') := by
  refine wp_bind (wp_mono ?_ _ _ (wp_calcToken hT hf hown hc))
  rintro _ o' ⟨h1, h2, h3⟩
  refine ⟨rfl, h1, h2, ?_⟩
  rw [(calcToken_subs hc).2.2.2.1]
  exact h3 _ _ hf (by simp) (by simp)

/-- C77: alone, `AddTokenForce` never panics, returns the error of `AddToken`, and leaves the dictionary with the word, the distances and
the sub-segments that the sequential function computes. -/
theorem C77_alone [UnicodeOK] (cfg : SplitCfg) (ops : List (DictOp F)) (d : Dictionary F D) (hr : runOps cfg ops Dictionary.new = some d)
    (m : Mem F D) (c : HmmConst F) (add : AddCall F) (h : ForceOK m cfg d add []) :
    ∃ d' err, segAddTokenForce cfg d add.text add.freq add.pos = some (d', err) ∧
      ∀ tr c', Exec (startForce m add c []) tr c' → c'.threads ≠ [.panic] ∧ ∀ r, c'.threads = [.ret r] → r = .inl err ∧ Forced c'.mem cfg d' := by
  have hwf := Reachable.wf ⟨ops, hr⟩
  obtain ⟨d', hd'⟩ := calcToken_total (d := (segAddToken cfg d add.text add.freq add.pos).1) (Dictionary.wf_addToken hwf _ ⟨add.text, rfl⟩)
  refine ⟨d', _, by rw [segAddTokenForce, hd']; rfl, fun tr c' hx => ?_⟩
  have hlen : (segAddToken cfg d add.text add.freq add.pos).1.tokens.length ≤ d.tokens.length + 1 := by
    unfold segAddToken Dictionary.addToken
    simp only
    split
    · simp
    · split
      · simp
      · simp
  have hI : Isolated noMem (startForce m add c []) (fun i => if i = 0 then m else noMem)
      (fun _ r m' => r = .inl (segAddToken cfg d add.text add.freq add.pos).2 ∧ Forced m' cfg d') := by
    refine ⟨fun l x h => (by cases h), ?_, fun _ _ _ _ => rfl, ?_, ?_⟩
    · intro i l x h
      split at h
      · exact h
      · cases h
    · intro i j l x hij h
      split at h
      · next hi => rw [if_neg (by omega)]; rfl
      · cases h
    · intro i p hp
      match i with
      | 0 =>
        simp only [startForce, List.getElem?_cons_zero, Option.some.injEq] at hp
        subst hp
        refine wp_bind' _ _ ?_
        unfold addTokenForceP
        refine wp_bind (wp_mono ?_ _ _ (wp_owned _ _ (wp_addToken_own (sh := noMem) (fun _ _ => rfl) (cfg := cfg) (d := d) (by rw [view_noMem]; exact h.segmenter)
          (by rw [view_noMem]; exact h.totalFreq) (by rw [view_noMem]; exact h.room) (by rw [view_noMem]; exact h.word) add.freq add.pos)))
        rintro err m' ⟨⟨rfl, h2, h3, _⟩, h5⟩
        refine wp_mono ?_ _ _ (wp_forced h2.toHoldsTable h3 (fun j hj => ?_) hd' _)
        · rintro e o' ⟨rfl, hfo⟩
          rw [view_noMem] at hfo
          exact ⟨rfl, hfo⟩
        · by_cases e : j = d.tokens.length
          · subst e; exact ⟨h5 _ h.room.dist, h5 _ h.room.subs⟩
          · have := h.own j (by omega)
            exact ⟨h5 _ this.1, h5 _ this.2⟩
      | i + 1 => simp [startForce] at hp
  obtain ⟨own, hI', _, _⟩ := isolated_exec hI hx
  refine ⟨fun hp => hI'.goes 0 .panic (by rw [hp]; rfl), fun r hr => ?_⟩
  obtain ⟨h1, h2⟩ := hI'.goes 0 (.ret r) (by rw [hr]; rfl)
  exact ⟨h1, h2.grow fun l x hx => hI'.mine 0 l x hx⟩

/-- The goroutines at the start, with the accesses they must make. -/
theorem guarded_force {R : Rely F D} {m own : Mem F D} {c : HmmConst F} {add : AddCall F} {calls : List UseCall} {es : Nat → Access}
    (hs : ∀ l x, m l = some x → R.val l x) (hl : ∀ l, R.loc l → (m l).isSome) (ho : ∀ l x, own l = some x → m l = some x)
    (h0 : Obeys R (es 0) false (addTokenForceP add.input add.freq add.pos) own)
    (h1 : ∀ (i : Nat) x, calls[i]? = some x → ∃ input text, x = .segment input text false ∧ Obeys R (es (i + 1)) false (segmentP input false) noMem) :
    Guarded R es (startForce m add c calls) [] (fun i => if i = 0 then own else noMem) fun _ => false := by
  refine ⟨?_, ?_, ?_, ?_, fun i hi => by cases hi⟩
  · intro l hll
    obtain ⟨x, hx⟩ := Option.isSome_iff_exists.mp (hl l hll)
    exact ⟨x, hx, hs l x hx⟩
  · intro i l x hx
    split at hx
    · exact ho l x hx
    · cases hx
  · intro i j l x hij hx
    split at hx
    · next hi => rw [if_neg (by omega)]; rfl
    · cases hx
  · intro i p hp
    match i with
    | 0 =>
      simp only [startForce, List.getElem?_cons_zero, Option.some.injEq] at hp
      subst hp
      exact .inl (obeys_map _ _ _ h0)
    | i + 1 =>
      simp only [startForce, List.getElem?_cons_succ, List.getElem?_map, Option.map_eq_some_iff] at hp
      obtain ⟨x, hc, rfl⟩ := hp
      obtain ⟨input, text, rfl, ho⟩ := h1 i x hc
      exact .inl (obeys_map _ _ _ (obeys_map _ _ _ ho))

/-- C77: `AddTokenForce` beside `Segment` is a data race, under every interleaving: whenever the goroutine that adds and one that
segments have both ended, they have accessed one location with one of them writing. This holds for every new word, and also for a word that
the dictionary has already (the call then changes nothing but recomputes all distances), if the text has a word of the dictionary. -/
theorem C77_race [UnicodeOK] (cfg : SplitCfg) (ops : List (DictOp F)) (d : Dictionary F D) (hr : runOps cfg ops Dictionary.new = some d)
    (m : Mem F D) (c : HmmConst F) (add : AddCall F) (calls : List UseCall) (h : ForceOK m cfg d add calls)
    (hcalls : ∀ x ∈ calls, ∃ input text, x = .segment input text false ∧ text ≠ []) (hw : add.text ≠ [])
    (i : Nat) (input : Slice) (text : Bytes) (hi : calls[i]? = some (.segment input text false))
    (hcase : (segAddToken cfg d add.text add.freq add.pos).1.numTokens ≠ d.numTokens ∨ HasWord cfg d text)
    (tr : List (Nat × Access)) (c' : Config F D (Bool ⊕ Answer F)) (hx : Exec (startForce m add c calls) tr c')
    (p q : Prog F D (Bool ⊕ Answer F)) (hp : c'.threads[0]? = some p) (hpe : Ended p) (hq : c'.threads[i + 1]? = some q) (hqe : Ended q) :
    ¬ RaceFree tr := by
  have hwf := Reachable.wf ⟨ops, hr⟩
  have fin : ∀ (R : Rely F D) (es : Nat → Access) (own : Nat → Mem F D) (l : Loc), es 0 = .wr l → es (i + 1) = .rd l →
      Guarded R es (startForce m add c calls) [] own (fun _ => false) → ¬ RaceFree tr := by
    intro R es own l e0 e1 hg hrf
    obtain ⟨own, done, hg'⟩ := guarded_exec hg hx
    have w := guarded_ended hg' hp hpe
    have r := guarded_ended hg' hq hqe
    rw [e0] at w
    rw [e1] at r
    exact hrf 0 (.wr l) (i + 1) (.rd l) w r (by omega) rfl
  have htext : text ≠ [] := by
    obtain ⟨_, _, e, ht⟩ := hcalls _ (List.mem_of_getElem? hi)
    cases e; exact ht
  have hin := h.inputs _ (List.mem_of_getElem? hi)
  by_cases hnew : (segAddToken cfg d add.text add.freq add.pos).1.numTokens ≠ d.numTokens
  · obtain ⟨d', hd'⟩ := calcToken_total (d := (segAddToken cfg d add.text add.freq add.pos).1) (Dictionary.wf_addToken hwf _ ⟨add.text, rfl⟩)
    have hC : Changing (adding m d.maxTokenLen) (restPart m) cfg :=
      ⟨adding_stable m _, h.segmenter.flags, h.segmenter.segDict, by simp [adding, h.segmenter.maxLen d rfl],
        fun c hc => by obtain ⟨n, hn, _⟩ := hc.2 rfl; exact ⟨n, hn⟩, by simp [adding, h.segmenter.trie d rfl]⟩
    have hs : ∀ l x, m l = some x → (adding m d.maxTokenLen).val l x := by
      intro l x hx
      refine ⟨fun _ => hx, ?_⟩
      rintro rfl
      rw [h.segmenter.maxLen d rfl] at hx
      exact ⟨d.maxTokenLen, (Option.some.inj hx).symm, Nat.le_refl _⟩
    have ho : ∀ l x, dictPart m l = some x → m l = some x := by
      intro l x hx
      unfold dictPart at hx
      split at hx
      · exact hx
      · cases hx
    rcases Nat.eq_zero_or_pos d.maxTokenLen with h0 | h0
    · refine fin _ (fun j => if j = 0 then .wr .maxLen else .rd .maxLen) _ .maxLen rfl rfl (guarded_force hs (fun _ h => h) ho
        (obeys_addTokenForce h.segmenter h.totalFreq h.room h.subs h.word _ _ hnew hd' _ (.inr ⟨rfl, ?_⟩)) fun j x hj => ?_)
      · rw [h0]
        exact List.length_pos_iff.mpr fun e => hw (split_eq_nil e)
      · obtain ⟨inp, txt, rfl, ht⟩ := hcalls _ (List.mem_of_getElem? hj)
        exact ⟨inp, txt, rfl, obeys_segment_maxLen hC (h.inputs _ (List.mem_of_getElem? hj)) ht⟩
    · refine fin _ (fun j => if j = 0 then .wr .trie else .rd .trie) _ .trie rfl rfl (guarded_force hs (fun _ h => h) ho
        (obeys_addTokenForce h.segmenter h.totalFreq h.room h.subs h.word _ _ hnew hd' _ (.inl rfl)) fun j x hj => ?_)
      obtain ⟨inp, txt, rfl, ht⟩ := hcalls _ (List.mem_of_getElem? hj)
      refine ⟨inp, txt, rfl, obeys_segment_trie hC (fun n hn => ?_) (h.inputs _ (List.mem_of_getElem? hj)) ht fun e => ht (split_eq_nil e)⟩
      obtain ⟨n', e, hle⟩ := hn.2 rfl
      cases e; omega
  · have hword := hcase.resolve_left hnew
    have hk := not_not.mp hnew
    obtain ⟨d', hd'⟩ := calcToken_total hwf
    have hT := h.segmenter.toHoldsTable
    have hTs : HoldsTable (stillPart m) cfg (some d) := ⟨hT.flags, hT.segDict, hT.maxLen, hT.trie, hT.tokHdr, hT.tok⟩
    obtain ⟨segs, hsegs⟩ := C12_segment_total cfg ops d hr text false
    obtain ⟨v, hv, hobs⟩ := obeys_segment_dist (recalc_stable m) hTs (show HoldsBytes (stillPart m) input text from hin) htext hsegs ((hasWord_lookAt hwf text).mp hword)
    have hC : Changing (recalc m) (stillPart m) cfg :=
      ⟨recalc_stable m, hTs.flags, hTs.segDict, by simp [recalc, h.segmenter.maxLen d rfl],
        fun c hc => ⟨d.maxTokenLen, (recalc_stable m _ _ (hTs.maxLen d rfl)).2 c hc⟩, by simp [recalc, h.segmenter.trie d rfl]⟩
    refine fin _ (fun j => if j = 0 then .wr (.dist v) else if j = i + 1 then .rd (.dist v) else .rd .maxLen) _ (.dist v) rfl (by simp)
      (guarded_force (R := recalc m) (own := calcPart m) (fun l x hx _ => hx) (fun _ h => h) ?_
        (obeys_addTokenForce_known hT h.totalFreq h.own h.word _ _ hk hd' hv) fun j x hj => ?_)
    · intro l x hx
      unfold calcPart at hx
      split at hx
      · exact hx
      · cases hx
    · by_cases e : j = i
      · subst e
        rw [hi] at hj; cases hj
        exact ⟨input, text, rfl, by simpa using hobs⟩
      · obtain ⟨inp, txt, rfl, ht⟩ := hcalls _ (List.mem_of_getElem? hj)
        refine ⟨inp, txt, rfl, ?_⟩
        rw [if_neg (by omega), if_neg (by omega)]
        exact obeys_segment_maxLen hC (show HoldsBytes (stillPart m) inp txt from h.inputs _ (List.mem_of_getElem? hj)) ht

theorem exec_threads {α : Type} {c c' : Config F D α} {tr : List (Nat × Access)} (h : Exec c tr c') : c'.threads.length = c.threads.length := by
  induction h with
  | refl => rfl
  | step _ hs ih => rw [← ih]; cases hs <;> simp

/-- When nothing can go on, every goroutine has ended. -/
theorem exec_ended {α : Type} {c c' : Config F D α} {tr : List (Nat × Access)} (h : Exec c tr c') (hm : ∃ n, c.mem.Below n) (hend : ∀ i e c'', ¬ Step c' i e c'')
    {i : Nat} (hi : i < c.threads.length) : ∃ p, c'.threads[i]? = some p ∧ Ended p := by
  have hi' : i < c'.threads.length := by rw [exec_threads h]; exact hi
  refine ⟨_, List.getElem?_eq_getElem hi', ?_⟩
  by_contra hne
  simp only [Ended, not_or, not_exists] at hne
  obtain ⟨e, c'', hs⟩ := can_step (exec_below h hm) (List.getElem?_eq_getElem hi') hne.1 hne.2
  exact hend i e c'' hs

/-- C77: and every execution that cannot go on is one in which all goroutines have ended, so it has a race. -/
theorem C77_complete [UnicodeOK] (cfg : SplitCfg) (ops : List (DictOp F)) (d : Dictionary F D) (hr : runOps cfg ops Dictionary.new = some d)
    (m : Mem F D) (hm : ∃ n, m.Below n) (c : HmmConst F) (add : AddCall F) (calls : List UseCall) (h : ForceOK m cfg d add calls)
    (hcalls : ∀ x ∈ calls, ∃ input text, x = .segment input text false ∧ text ≠ []) (hw : add.text ≠ [])
    (i : Nat) (input : Slice) (text : Bytes) (hi : calls[i]? = some (.segment input text false))
    (hcase : (segAddToken cfg d add.text add.freq add.pos).1.numTokens ≠ d.numTokens ∨ HasWord cfg d text)
    (tr : List (Nat × Access)) (c' : Config F D (Bool ⊕ Answer F)) (hx : Exec (startForce m add c calls) tr c') (hend : ∀ i e c'', ¬ Step c' i e c'') :
    ¬ RaceFree tr := by
  have hlt := (List.getElem?_eq_some_iff.mp hi).1
  obtain ⟨p, h1, h2⟩ := exec_ended hx hm hend (i := 0) (by simp [startForce])
  obtain ⟨q, h3, h4⟩ := exec_ended hx hm hend (i := i + 1) (by simpa [startForce] using hlt)
  exact C77_race cfg ops d hr m c add calls h hcalls hw i input text hi hcase tr c' hx p q h1 h2 h3 h4

/-- The text of a `Segment` or `ModeSegment` call has no word of the dictionary. -/
def UseCall.NoWord (cfg : SplitCfg) (d : Dictionary F D) : UseCall → Prop
  | .segment _ text _ => ¬ HasWord cfg d text
  | _ => True

/-- C77: on the other hand, for a word that the dictionary has already, `AddTokenForce` is safe beside everything else: the `Cut` calls
and `Find`, which never read a distance, and `Segment` of texts without a word of the dictionary. Under every interleaving there is no data race, no panic, every call
returns what it returns alone, and once `AddTokenForce` has returned the dictionary is the recomputed one. -/
theorem C77_safe [UnicodeOK] (cfg : SplitCfg) (ops : List (DictOp F)) (d : Dictionary F D) (hr : runOps cfg ops Dictionary.new = some d)
    (m : Mem F D) (c : HmmConst F) (em : EmitModel F) (add : AddCall F) (calls : List UseCall) (h : ForceOK m cfg d add calls) (he : m .emit = some (.emit em))
    (hn : ∀ x ∈ calls, x.NoPatterns) (hno : ∀ x ∈ calls, x.NoWord cfg d)
    (hk : (segAddToken cfg d add.text add.freq add.pos).1.numTokens = d.numTokens) :
    ∃ d' err, segAddTokenForce cfg d add.text add.freq add.pos = some (d', err) ∧
      ∀ tr c', Exec (startForce m add c calls) tr c' → RaceFree tr ∧ (∀ i : Nat, c'.threads[i]? ≠ some .panic) ∧
        (∀ r, c'.threads[0]? = some (.ret r) → r = .inl err ∧ Forced c'.mem cfg d') ∧
        ∀ (i : Nat) x r, calls[i]? = some x → c'.threads[i + 1]? = some (.ret r) → ∃ a, r = .inr a ∧ x.Alone cfg d c em c'.mem a := by
  have hwf := Reachable.wf ⟨ops, hr⟩
  obtain ⟨d', hd'⟩ := calcToken_total hwf
  refine ⟨d', _, by rw [segAddTokenForce, segAddToken_known hk, hd']; rfl, fun tr c' hx => ?_⟩
  have hT := h.segmenter.toHoldsTable
  have hTs : HoldsTable (stillPart m) cfg (some d) := ⟨hT.flags, hT.segDict, hT.maxLen, hT.trie, hT.tokHdr, hT.tok⟩
  have hT' := hT; have ht' := h.word; have hf' := h.totalFreq
  rw [← view_still m] at hT' ht' hf'
  have hI : Isolated (stillPart m) (startForce m add c calls) (fun i => if i = 0 then calcPart m else noMem)
      (fun i r o => if i = 0 then r = .inl (segAddToken cfg d add.text add.freq add.pos).2 ∧ Forced (view (stillPart m) o) cfg d'
        else ∀ x, calls[i - 1]? = some x → ∃ a, r = .inr a ∧ x.Alone cfg d c em (view (stillPart m) o) a) := by
    refine ⟨?_, ?_, ?_, ?_, ?_⟩
    · intro l x hx
      unfold stillPart at hx
      split at hx
      · cases hx
      · exact hx
    · intro i l x hx
      split at hx
      · unfold calcPart at hx
        split at hx
        · exact hx
        · cases hx
      · cases hx
    · intro i l x hx
      split at hx
      · unfold calcPart at hx
        split at hx
        · next hl => unfold stillPart; rw [if_pos hl]
        · cases hx
      · cases hx
    · intro i j l x hij hx
      split at hx
      · next hi => rw [if_neg (by omega)]; rfl
      · cases hx
    · intro i p hp
      match i with
      | 0 =>
        simp only [startForce, List.getElem?_cons_zero, Option.some.injEq] at hp
        subst hp
        simp only [if_true]
        refine wp_bind' _ _ ?_
        unfold addTokenForceP
        refine wp_bind (wp_mono ?_ _ _ (wp_addToken_known hT' ht' add.freq add.pos hk))
        rintro err o ⟨rfl, h2, h3⟩
        refine wp_mono ?_ _ _ (wp_forced (hT'.grow h3) (h3 _ _ hf') (fun j hj => ?_) hd' _)
        · rintro e o' ⟨rfl, hfo⟩
          exact ⟨rfl, hfo⟩
        · obtain ⟨x, hx⟩ := Option.isSome_iff_exists.mp (h.own j hj).1
          obtain ⟨y, hy⟩ := Option.isSome_iff_exists.mp (h.own j hj).2
          rw [h2 (.dist j) x (by simp [calcPart, Loc.calc, hx]), h2 (.subs j) y (by simp [calcPart, Loc.calc, hy])]
          exact ⟨rfl, rfl⟩
      | i + 1 =>
        simp only [startForce, List.getElem?_cons_succ, List.getElem?_map, Option.map_eq_some_iff] at hp
        obtain ⟨x, hc, rfl⟩ := hp
        have hmem := List.mem_of_getElem? hc
        have hret := (C73_history cfg ops d hr m c em calls h.segmenter h.totalFreq he h.inputs hn).alone x hmem
        rw [if_neg (by omega)]
        refine wp_bind' _ _ (wp_mono ?_ _ _ (wp_use ⟨hTs, h.totalFreq⟩ (show stillPart m .emit = _ from he) x hret fun input text mode segs e hs => ?_))
        · intro a o ha
          simp only [wp, if_neg (show ¬ (i + 1 = 0) by omega)]
          intro x' hx'
          simp only [Nat.add_sub_cancel] at hx'
          rw [hc] at hx'; cases hx'
          exact ⟨a, rfl, ha⟩
        · subst e
          exact wp_segment_nil hTs (show HoldsBytes (stillPart m) input text from h.inputs _ hmem) (fun _ _ _ => rfl) hs
            (fun d0 e => by cases e; exact lookAt_nil hwf (hno _ hmem))
  obtain ⟨own, hI', _, _⟩ := isolated_exec hI hx
  refine ⟨isolated_raceFree hI hx, fun i hp => hI'.goes i _ hp, fun r hr0 => ?_, fun i x r hxi hri => ?_⟩
  · have key := hI'.goes 0 _ hr0
    simp only [wp, if_true] at key
    exact ⟨key.1, key.2.grow (hI'.grows 0)⟩
  · have key := hI'.goes (i + 1) _ hri
    simp only [wp] at key
    rw [if_neg (by omega)] at key
    obtain ⟨a, h1, h2⟩ := key x (by simpa using hxi)
    exact ⟨a, h1, h2.grow (hI'.grows (i + 1))⟩

/-- Memory with a sub-segment slot for every token. -/
def subsy (m : Mem F D) (n : Nat) : Mem F D := fun l =>
  match l with
  | .subs i => if i < n then some (.subs ⟨0, 0, 0⟩) else m (.subs i)
  | l => m l

theorem subsy_ok (cfg : SplitCfg) (d : Dictionary F D) (inputs : List Bytes) (add : AddCall F) (calls : List UseCall)
    (hw : HoldsBytes (memOf cfg (some d) inputs) add.input add.text) (hi : ∀ x ∈ calls, x.HasInput (memOf cfg (some d) inputs)) :
    ForceOK (subsy (roomy (memOf cfg (some d) inputs) d) d.tokens.length) cfg d add calls := by
  have h := roomy_ok cfg d inputs add [] hw (by simp)
  refine ⟨⟨⟨h.segmenter.flags, h.segmenter.segDict, h.segmenter.maxLen, h.segmenter.trie, h.segmenter.tokHdr, h.segmenter.tok⟩, h.segmenter.dist⟩, h.totalFreq,
    ⟨h.room.tok, h.room.dist, ?_⟩, ?_, h.word, fun x hx => ?_⟩
  · simpa [subsy] using h.room.subs
  · intro i hi; simp [subsy, hi]
  · have := hi x hx
    cases x with
    | segment input text mode => exact ⟨this.1, fun k b hk => by simpa [subsy, roomy, Mem.put] using this.2 k b hk⟩
    | _ => trivial

theorem subsy_below (cfg : SplitCfg) (d : Dictionary F D) (inputs : List Bytes) : (subsy (roomy (memOf cfg (some d) inputs) d) d.tokens.length).Below inputs.length := by
  intro a ha i
  exact roomy_below cfg d inputs a ha i

end

section examples
attribute [local instance] sampleUnicode sampleUnicodeOK sampleF64 sampleF32 sampleNarrow

/-- A dictionary with one word "w". Adding "w" again changes nothing, but it races with segmenting "go w"; and it does not race with
segmenting "go", cutting 中国人 or looking "w" up. Adding "go" races with segmenting "go". -/
example : ∃ (d : Dictionary Int Int), runOps {} [.add (str "w") 9 [], .recalc] Dictionary.new = some d ∧
    (∀ tr c', Exec (startForce (subsy (roomy (memOf {} (some d) [str "w", str "go w"]) d) d.tokens.length) ⟨⟨0, 0, 1⟩, str "w", 5, []⟩ hmmConst
      [.segment ⟨1, 0, 4⟩ (str "go w") false]) tr c' → (∀ i e c'', ¬ Step c' i e c'') → ¬ RaceFree tr) ∧
    (∀ tr c', Exec (startForce (subsy (roomy (memOf {} (some d) [str "go", str "go"]) d) d.tokens.length) ⟨⟨0, 0, 2⟩, str "go", 5, []⟩ hmmConst
      [.segment ⟨1, 0, 2⟩ (str "go") false]) tr c' → (∀ i e c'', ¬ Step c' i e c'') → ¬ RaceFree tr) ∧
    ∀ tr c', Exec (startForce ((subsy (roomy (memOf {} (some d) [str "w", str "go"]) d) d.tokens.length).put .emit (.emit hmmEmit)) ⟨⟨0, 0, 1⟩, str "w", 5, []⟩ hmmConst
      [.segment ⟨1, 0, 2⟩ (str "go") true, .cut hmmText true, .find (str "w")]) tr c' → RaceFree tr := by
  have h : (runOps (F := Int) (D := Int) {} [.add (str "w") 9 [], .recalc] Dictionary.new).isSome := by decide +kernel
  obtain ⟨d, hd⟩ := Option.isSome_iff_exists.mp h
  have hwf := Reachable.wf ⟨_, hd⟩
  have hn : d.numTokens = 1 ∧ (segAddToken {} d (str "w") 5 []).1.numTokens = 1 ∧ (segAddToken {} d (str "go") 5 []).1.numTokens = 2 ∧
      (d.valueOf (str "w")).2 = false ∧ lookAt d (splitTextToWords {} (str "go")) 0 = some [] := by
    have : (runOps (F := Int) (D := Int) {} [.add (str "w") 9 [], .recalc] Dictionary.new).map
        (fun d => (d.numTokens, (segAddToken {} d (str "w") 5 []).1.numTokens, (segAddToken {} d (str "go") 5 []).1.numTokens, (d.valueOf (str "w")).2,
          lookAt d (splitTextToWords {} (str "go")) 0)) = some (1, 1, 2, false, some []) := by decide +kernel
    rw [hd] at this
    simpa using this
  obtain ⟨h1, h2, h3, h4, h5⟩ := hn
  refine ⟨d, hd, fun tr c' hx he => ?_, fun tr c' hx he => ?_, fun tr c' hx => ?_⟩
  · refine C77_complete {} _ d hd _ ⟨_, subsy_below {} d _⟩ hmmConst _ _ (subsy_ok {} d _ _ _ (memOf_input _ _ _ 0 (str "w") rfl) ?_) ?_ (by decide) 0 _ _ rfl
      (.inr ⟨[str "go", str " "], [str "w"], [], by decide +kernel, by simp, by simpa using h4⟩) tr c' hx he
    · intro x hx'; cases List.mem_singleton.mp hx'; exact memOf_input _ _ _ 1 (str "go w") rfl
    · intro x hx'; cases List.mem_singleton.mp hx'; exact ⟨_, _, rfl, by decide⟩
  · refine C77_complete {} _ d hd _ ⟨_, subsy_below {} d _⟩ hmmConst _ _ (subsy_ok {} d _ _ _ (memOf_input _ _ _ 0 (str "go") rfl) ?_) ?_ (by decide) 0 _ _ rfl
      (.inl (by rw [h1, h3]; decide)) tr c' hx he
    · intro x hx'; cases List.mem_singleton.mp hx'; exact memOf_input _ _ _ 1 (str "go") rfl
    · intro x hx'; cases List.mem_singleton.mp hx'; exact ⟨_, _, rfl, by decide⟩
  · have hok := subsy_ok {} d [str "w", str "go"] ⟨⟨0, 0, 1⟩, str "w", 5, []⟩ [.segment ⟨1, 0, 2⟩ (str "go") true, .cut hmmText true, .find (str "w")]
      (memOf_input _ _ _ 0 (str "w") rfl) (by
        intro x hx'
        simp only [List.mem_cons, List.not_mem_nil, or_false] at hx'
        rcases hx' with rfl | rfl | rfl <;> first | trivial | exact memOf_input _ _ _ 1 (str "go") rfl)
    have hok' : ForceOK ((subsy (roomy (memOf {} (some d) [str "w", str "go"]) d) d.tokens.length).put .emit (.emit hmmEmit)) {} d ⟨⟨0, 0, 1⟩, str "w", 5, []⟩
        [.segment ⟨1, 0, 2⟩ (str "go") true, .cut hmmText true, .find (str "w")] := by
      refine ⟨⟨(HoldsDict.put_emit ⟨hok.segmenter.toHoldsTable, hok.totalFreq⟩ hmmEmit).segmenter, hok.segmenter.dist⟩, hok.totalFreq, ⟨hok.room.tok, hok.room.dist, hok.room.subs⟩,
        hok.subs, hok.word, fun x hx' => ?_⟩
      have hin := hok.inputs x hx'
      cases x with
      | segment input text mode => exact ⟨hin.1, fun k b hk => by simpa [Mem.put] using hin.2 k b hk⟩
      | _ => trivial
    obtain ⟨d', err, _, key⟩ := C77_safe {} _ d hd _ hmmConst hmmEmit _ _ hok' (put_same _ _ _) (by
        intro x hx'
        simp only [List.mem_cons, List.not_mem_nil, or_false] at hx'
        rcases hx' with rfl | rfl | rfl <;> trivial) (by
        intro x hx'
        simp only [List.mem_cons, List.not_mem_nil, or_false] at hx'
        rcases hx' with rfl | rfl | rfl <;> try trivial
        intro hw
        obtain ⟨c, hc, hne⟩ := (hasWord_lookAt hwf _).mp hw
        have : (splitTextToWords {} (str "go")).length = 1 := by decide +kernel
        rw [this] at hc
        obtain rfl : c = 0 := by omega
        exact hne h5) (by rw [h1, h2])
    exact (key tr c' hx).1

/-- The call alone: what the sequential function gives. -/
example : ∃ (d : Dictionary Int Int), runOps {} [.add (str "w") 9 [], .recalc] Dictionary.new = some d ∧
    ForceOK (subsy (roomy (memOf {} (some d) [str "go"]) d) d.tokens.length) {} d ⟨⟨0, 0, 2⟩, str "go", 5, []⟩ [] := by
  have h : (runOps (F := Int) (D := Int) {} [.add (str "w") 9 [], .recalc] Dictionary.new).isSome := by decide +kernel
  obtain ⟨d, hd⟩ := Option.isSome_iff_exists.mp h
  exact ⟨d, hd, subsy_ok {} d _ _ _ (memOf_input _ _ _ 0 (str "go") rfl) (by simp)⟩
end examples
end Gse
