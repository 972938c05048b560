import Verif.Proofs.RacePanic
import Verif.Proofs.Load
import Verif.Props.Conc

/-! # C69: a goroutine that adds a word beside goroutines that segment -/

namespace Gse
open Spec Trie

set_option linter.unusedSectionVars false

section
variable {F D : Type} [F64 F] [F32 D] [Narrow F D] [Unicode]

/-- A call of `AddToken`: where its text lies, the bytes it holds, frequency and part of speech. -/
structure AddCall (F : Type) where
  input : Slice
  text : Bytes
  freq : F
  pos : Bytes

/-- Goroutine 0 makes the call of `AddToken`, goroutine `i + 1` the call number `i` of `Segment`; a goroutine that segments ends
with the slice of segments. -/
def startAdd (m : Mem F D) (add : AddCall F) (calls : List SegCall) : Config F D (Option Slice) :=
  ⟨m, (addTokenP add.input add.freq add.pos).bind (fun _ => .ret none) :: calls.map fun c => (segmentP c.input c.mode).bind fun r => .ret (some r)⟩

/-- Memory holds the segmenter, its dictionary with room for another token, and all inputs. -/
structure AddOK (m : Mem F D) (cfg : SplitCfg) (d : Dictionary F D) (add : AddCall F) (calls : List SegCall) : Prop where
  segmenter : HoldsSegmenter m cfg (some d)
  totalFreq : m .totalFreq = some (.freq d.totalFreq)
  room : HasRoom m d.tokens.length
  word : HoldsBytes m add.input add.text
  inputs : ∀ c ∈ calls, HoldsBytes m c.input c.text

/-- The goroutine has returned or panicked. -/
def Ended {α : Type} (p : Prog F D α) : Prop := (∃ a, p = .ret a) ∨ p = .panic

/-- C69: alone, `AddToken` never panics and leaves the segmenter with the dictionary that has the word. -/
theorem C69_alone (m : Mem F D) (cfg : SplitCfg) (d : Dictionary F D) (add : AddCall F) (h : AddOK m cfg d add [])
    (tr : List (Nat × Access)) (c' : Config F D (Option Slice)) (hx : Exec (startAdd m add []) tr c') :
    c'.threads ≠ [.panic] ∧ ∀ r, c'.threads = [.ret r] → HoldsSegmenter c'.mem cfg (some (segAddToken cfg d add.text add.freq add.pos).1) := by
  have hI : Isolated noMem (startAdd m add []) (fun i => if i = 0 then m else noMem)
      (fun _ _ m' => HoldsSegmenter m' cfg (some (segAddToken cfg d add.text add.freq add.pos).1)) := by
    refine ⟨fun l x h => (by cases h), ?_, fun _ _ _ _ => rfl, ?_, ?_⟩
    · intro i l x h
      split at h
      · exact h
      · cases h
    · intro i j l x hij h
      split at h
      · next hi => rw [if_neg (by omega)]; rfl
      · cases h
    · intro i p hp
      match i with
      | 0 =>
        simp only [startAdd, List.getElem?_cons_zero, Option.some.injEq] at hp
        subst hp
        refine wp_bind' _ _ (wp_mono ?_ _ _ (wp_addToken h.segmenter h.totalFreq h.room h.word add.freq add.pos))
        rintro _ m' ⟨_, h2, _⟩
        exact h2
      | i + 1 => simp [startAdd] at hp
  obtain ⟨own, hI', _, _⟩ := isolated_exec hI hx
  refine ⟨fun hp => hI'.goes 0 .panic (by rw [hp]; rfl), fun r hr => ?_⟩
  exact (hI'.goes 0 (.ret r) (by rw [hr]; rfl)).grow fun l x hx => hI'.mine 0 l x hx

/-- What the other goroutines can rely on at the start. -/
theorem guarded_start {m : Mem F D} {cfg : SplitCfg} {d : Dictionary F D} {add : AddCall F} {calls : List SegCall} (h : AddOK m cfg d add calls)
    {e0 e1 : Access} (h0 : Obeys (adding m d.maxTokenLen) e0 false (addTokenP add.input add.freq add.pos) (dictPart m))
    (h1 : ∀ c ∈ calls, Obeys (adding m d.maxTokenLen) e1 false (segmentP c.input c.mode) noMem) :
    Guarded (adding m d.maxTokenLen) (fun i => if i = 0 then e0 else e1) (startAdd m add calls) [] (fun i => if i = 0 then dictPart m else noMem) fun _ => false := by
  refine ⟨?_, ?_, ?_, ?_, fun i hi => by cases hi⟩
  · intro l hl
    obtain ⟨x, hx⟩ := Option.isSome_iff_exists.mp hl
    refine ⟨x, hx, fun _ => hx, ?_⟩
    rintro rfl
    rw [h.segmenter.maxLen d rfl] at hx
    exact ⟨d.maxTokenLen, (Option.some.inj hx).symm, Nat.le_refl _⟩
  · intro i l x hx
    split at hx
    · unfold dictPart at hx
      split at hx
      · exact hx
      · cases hx
    · cases hx
  · intro i j l x hij hx
    split at hx
    · next hi => rw [if_neg (by omega)]; rfl
    · cases hx
  · intro i p hp
    match i with
    | 0 =>
      simp only [startAdd, List.getElem?_cons_zero, Option.some.injEq] at hp
      subst hp
      exact .inl (obeys_map _ _ _ h0)
    | i + 1 =>
      simp only [startAdd, List.getElem?_cons_succ, List.getElem?_map, Option.map_eq_some_iff] at hp
      obtain ⟨c, hc, rfl⟩ := hp
      exact .inl (obeys_map _ _ _ (h1 c (List.mem_of_getElem? hc)))

/-- C69: adding a new word beside `Segment` is a data race, under every interleaving and not just some: whenever the goroutine
that adds and one that segments have both ended, they have accessed one location with one of them writing. -/
theorem C69_race (m : Mem F D) (cfg : SplitCfg) (d : Dictionary F D) (add : AddCall F) (calls : List SegCall) (h : AddOK m cfg d add calls)
    (hmode : ∀ c ∈ calls, c.mode = false ∧ c.text ≠ []) (hw : add.text ≠ [])
    (hnew : (segAddToken cfg d add.text add.freq add.pos).1.numTokens ≠ d.numTokens)
    (tr : List (Nat × Access)) (c' : Config F D (Option Slice)) (hx : Exec (startAdd m add calls) tr c')
    (i : Nat) (p q : Prog F D (Option Slice)) (hp : c'.threads[0]? = some p) (hpe : Ended p) (hq : c'.threads[i + 1]? = some q) (hqe : Ended q) :
    ¬ RaceFree tr := by
  have hC : Changing (adding m d.maxTokenLen) (restPart m) cfg :=
    ⟨adding_stable m _, h.segmenter.flags, h.segmenter.segDict, by simp [adding, h.segmenter.maxLen d rfl],
      fun c hc => by obtain ⟨n, hn, _⟩ := hc.2 rfl; exact ⟨n, hn⟩, by simp [adding, h.segmenter.trie d rfl]⟩
  have hin : ∀ c ∈ calls, HoldsBytes (restPart m) c.input c.text := fun c hc => h.inputs c hc
  have fin : ∀ l : Loc, Guarded (adding m d.maxTokenLen) (fun i => if i = 0 then .wr l else .rd l) (startAdd m add calls) []
      (fun i => if i = 0 then dictPart m else noMem) (fun _ => false) → ¬ RaceFree tr := by
    intro l hg hrf
    obtain ⟨own, done, hg'⟩ := guarded_exec hg hx
    have w := guarded_ended hg' hp hpe
    have r := guarded_ended hg' hq hqe
    simp only [if_true] at w
    rw [if_neg (by omega)] at r
    exact hrf 0 (.wr l) (i + 1) (.rd l) w r (by omega) rfl
  rcases Nat.eq_zero_or_pos d.maxTokenLen with h0 | h0
  · refine fin .maxLen (guarded_start h (obeys_addToken h.segmenter h.totalFreq h.room h.word _ _ hnew _ (.inr ⟨rfl, ?_⟩)) fun c hc => ?_)
    · rw [h0]
      exact List.length_pos_iff.mpr fun e => hw (split_eq_nil e)
    · rw [(hmode c hc).1]; exact obeys_segment_maxLen hC (hin c hc) (hmode c hc).2
  · refine fin .trie (guarded_start h (obeys_addToken h.segmenter h.totalFreq h.room h.word _ _ hnew _ (.inl rfl)) fun c hc => ?_)
    rw [(hmode c hc).1]
    refine obeys_segment_trie hC (fun n hn => ?_) (hin c hc) (hmode c hc).2 fun e => (hmode c hc).2 (split_eq_nil e)
    obtain ⟨n', e, hle⟩ := hn.2 rfl
    cases e; omega

/-- C69: and every execution that cannot go on is one in which all goroutines have ended, so it has a race. -/
theorem C69_complete (m : Mem F D) (hm : ∃ n, m.Below n) (cfg : SplitCfg) (d : Dictionary F D) (add : AddCall F) (calls : List SegCall) (h : AddOK m cfg d add calls)
    (hmode : ∀ c ∈ calls, c.mode = false ∧ c.text ≠ []) (hcalls : calls ≠ []) (hw : add.text ≠ [])
    (hnew : (segAddToken cfg d add.text add.freq add.pos).1.numTokens ≠ d.numTokens)
    (tr : List (Nat × Access)) (c' : Config F D (Option Slice)) (hx : Exec (startAdd m add calls) tr c') (hend : ∀ i e c'', ¬ Step c' i e c'') :
    ¬ RaceFree tr := by
  have hlen : ∀ {c c' : Config F D (Option Slice)} {tr}, Exec c tr c' → c'.threads.length = c.threads.length := by
    intro c c' tr h
    induction h with
    | refl => rfl
    | step _ hs ih => rw [← ih]; cases hs <;> simp
  have hl := hlen hx
  have hpos := List.length_pos_iff.mpr hcalls
  have key : ∀ i, i < c'.threads.length → ∃ p, c'.threads[i]? = some p ∧ Ended p := by
    intro i hi
    refine ⟨_, List.getElem?_eq_getElem hi, ?_⟩
    by_contra hne
    simp only [Ended, not_or, not_exists] at hne
    obtain ⟨e, c'', hs⟩ := can_step (exec_below hx hm) (List.getElem?_eq_getElem hi) hne.1 hne.2
    exact hend i e c'' hs
  simp only [startAdd, List.length_cons, List.length_map] at hl
  obtain ⟨p, h1, h2⟩ := key 0 (by omega)
  obtain ⟨q, h3, h4⟩ := key 1 (by omega)
  exact C69_race m cfg d add calls h hmode hw hnew tr c' hx 0 p q h1 h2 h3 h4

/-- Run the goroutine that adds up to the point where the word is in the trie and not yet in the table. -/
theorem reach_ahead (m : Mem F D) (hm : ∃ n, m.Below n) (cfg : SplitCfg) (d : Dictionary F D) (add : AddCall F) (calls : List SegCall) (h : AddOK m cfg d add calls)
    (hnew : (segAddToken cfg d add.text add.freq add.pos).1.numTokens ≠ d.numTokens) :
    ∃ (m' : Mem F D) (t' : Trie) (p : Prog F D (Option Slice)), t'.value (textSliceToBytes (splitTextToWords cfg add.text)) = some d.tokens.length ∧
      HoldsSegmenter m' cfg (some { d with trie := t' }) ∧ (∀ a i x, m (.cell a i) = some x → m' (.cell a i) = some x) ∧
      Reach (startAdd m add calls) ⟨m', (startAdd m add calls).threads.set 0 p⟩ := by
  have h0 : 0 < (startAdd m add calls).threads.length := by simp [startAdd]
  have hv : view m noMem = m := by funext l; simp [view, noMem]
  obtain ⟨token, o1, ⟨ha, rfl⟩, hr⟩ := reach_wp h0 (f := fun t => (Prog.bind (Prog.rdBool .segDict) fun nil => if nil then .panic else dictAddP t).bind fun _ => .ret none)
    _ _ (wp_toToken (sh := m) (cfg := cfg) h.segmenter.flags h.word (o := noMem) (fun _ _ _ => rfl) (freq := add.freq) (pos := add.pos)) (by rw [hv]; exact hm)
  rw [hv, ← bind_assoc_prog] at hr
  have hg : Grows m (view m o1) := fun l x h => view_shared ha h
  have hS := h.segmenter.grow hg
  have e0 : (⟨m, (startAdd m add calls).threads.set 0 ((addTokenP add.input add.freq add.pos).bind fun _ => .ret none)⟩ : Config F D (Option Slice)) = startAdd m add calls := rfl
  change Reach ⟨m, (startAdd m add calls).threads.set 0 ((addTokenP add.input add.freq add.pos).bind fun _ => .ret none)⟩ _ at hr
  rw [e0] at hr
  generalize htok : (toToken cfg add.text add.freq add.pos : Token F D) = token at hr
  have htext : token.text = splitTextToWords cfg add.text := by rw [← htok]; rfl
  unfold segAddToken at hnew
  rw [htok] at hnew
  cases hget : d.trie.get (textSliceToBytes token.text) with
  | some v => exact absurd (by simp [Dictionary.addToken, hget]) hnew
  | none =>
    cases hi : d.trie.insert (textSliceToBytes token.text) d.tokens.length with
    | none => exact absurd (by simp [Dictionary.addToken, hget, Dictionary.numTokens, hi]) hnew
    | some t' =>
      refine ⟨(view m o1).put .trie (.trie t'), t', ?_⟩
      have hval := Trie.value_insert hi (textSliceToBytes token.text)
      rw [if_pos rfl, htext] at hval
      have hr1 := hr.trans (reach_read h0 hS.segDict)
      simp only [Option.isNone_some, Prog.bind, Bool.false_eq_true, if_false] at hr1
      unfold dictAddP at hr1
      have hr2 := hr1.trans (reach_read h0 (hS.trie d rfl))
      simp only [Prog.bind] at hr2
      rw [hget] at hr2
      simp only [insertP] at hr2
      have hr3 := hr2.trans (reach_read h0 (hS.tokHdr d rfl))
      have hr4 := hr3.trans (reach_read h0 (hS.trie d rfl))
      simp only [Prog.bind] at hr4
      rw [hi] at hr4
      have hr5 := hr4.trans (reach_write h0 (by rw [hS.trie d rfl]; rfl))
      refine ⟨_, hval, ⟨⟨?_, ?_, ?_, ?_, ?_, ?_⟩, ?_⟩, fun a i x hx => by simpa [Mem.put] using hg _ _ hx, hr5⟩
      · simpa [Mem.put] using hS.flags
      · simpa [Mem.put] using hS.segDict
      · rintro _ ⟨⟩; simpa [Mem.put] using hS.maxLen d rfl
      · rintro _ ⟨⟩; simp [Mem.put]
      · rintro _ ⟨⟩; simpa [Mem.put] using hS.tokHdr d rfl
      · rintro _ ⟨⟩ i t ht; simpa [Mem.put] using hS.tok d rfl i t ht
      · rintro _ ⟨⟩ i t ht; simpa [Mem.put] using hS.dist d rfl i t ht

/-- C69: the race is not harmless. Whatever the dictionary, if the new word is no longer than the longest word (in words), there is an
interleaving in which a `Segment` of a text that begins with the word panics: `AddToken` puts the word into the trie before the table. -/
theorem C69_panic (m : Mem F D) (hm : ∃ n, m.Below n) (cfg : SplitCfg) (d : Dictionary F D) (add : AddCall F) (calls : List SegCall) (h : AddOK m cfg d add calls)
    (hw : add.text ≠ []) (hnew : (segAddToken cfg d add.text add.freq add.pos).1.numTokens ≠ d.numTokens)
    (hlen : (splitTextToWords cfg add.text).length ≤ d.maxTokenLen) (i : Nat) (c : SegCall) (hc : calls[i]? = some c) (hmode : c.mode = false)
    (hpre : splitTextToWords cfg add.text <+: splitTextToWords cfg c.text) :
    ∃ tr c', Exec (startAdd m add calls) tr c' ∧ c'.threads[i + 1]? = some .panic := by
  obtain ⟨m', t', p, hval, hS, hcell, tr1, hr⟩ := reach_ahead m hm cfg d add calls h hnew
  have hne : splitTextToWords cfg add.text ≠ [] := fun e => hw (split_eq_nil e)
  obtain ⟨rest, hrest⟩ := hpre
  have hne' : splitTextToWords cfg c.text ≠ [] := by rw [← hrest]; simp [hne]
  have htne : c.text ≠ [] := by intro e; rw [e, split_nil] at hne'; exact hne' rfl
  have hin := h.inputs c (List.mem_of_getElem? hc)
  have hf : fails m' (segmentP c.input c.mode) noMem := by
    rw [hmode]
    refine fails_segment hS (s := c.text) ⟨hin.1, fun k b hb => hcell _ _ _ (hin.2 k b hb)⟩ htne hne' ?_
    have hl : (splitTextToWords cfg c.text).length = (splitTextToWords cfg add.text).length + rest.length := by rw [← hrest, List.length_append]
    rw [← hrest, List.take_append, List.take_of_length_le (by rw [hrest]; show _ ≤ min d.maxTokenLen _; omega)]
    exact lookup_ahead (d := { d with trie := t' }) hval _ _ _ _ _ (by rw [textSliceToBytes_eq]; rfl) hne
  have hi : i + 1 < ((startAdd m add calls).threads.set 0 p).length := by
    have := (List.getElem?_eq_some_iff.mp hc).1
    simp [startAdd]; omega
  have hb : ∃ n, m'.Below n := exec_below hr hm
  have hv : view m' noMem = m' := by funext l; simp [view, noMem]
  obtain ⟨m2, hr2⟩ := reach_fails hi _ _ (fails_bind' (f := fun r => .ret (some r)) _ _ hf) (by rw [hv]; exact hb)
  have hself : ((startAdd m add calls).threads.set 0 p).set (i + 1) ((segmentP c.input c.mode).bind fun r => .ret (some r)) = (startAdd m add calls).threads.set 0 p := by
    apply List.ext_getElem?
    intro n
    rw [List.getElem?_set]
    split
    · next e => subst e; simp [startAdd, hc]
    · rfl
  rw [hv, hself] at hr2
  obtain ⟨tr2, hx⟩ := Reach.trans ⟨tr1, hr⟩ hr2
  exact ⟨tr2, _, hx, set_get hi _⟩

/-- C69: done one after the other, in either order, nothing panics. -/
theorem C69_in_order [UnicodeOK] (cfg : SplitCfg) (ops : List (DictOp F)) (d : Dictionary F D) (hr : runOps cfg ops Dictionary.new = some d)
    (text freq pos) (s : Bytes) (mode : Bool) :
    (∃ segs, internalSegment cfg (some d) s mode = some segs) ∧ ∃ segs, internalSegment cfg (some (segAddToken cfg d text freq pos).1) s mode = some segs :=
  ⟨C12_segment_total cfg ops d hr s mode, C12_segment_total cfg (ops ++ [.add text freq pos]) _ (by rw [runOps_append, hr]; rfl) s mode⟩

/-- Memory with room for another token. -/
def roomy (m : Mem F D) (d : Dictionary F D) : Mem F D :=
  ((m.put (.tok d.tokens.length) (.token ⟨[], d.totalFreq, []⟩)).put (.dist d.tokens.length) (.dist F32.zero)).put (.subs d.tokens.length) (.subs ⟨0, 0, 0⟩)

theorem roomy_ok (cfg : SplitCfg) (d : Dictionary F D) (inputs : List Bytes) (add : AddCall F) (calls : List SegCall)
    (hw : HoldsBytes (memOf cfg (some d) inputs) add.input add.text) (hi : ∀ c ∈ calls, HoldsBytes (memOf cfg (some d) inputs) c.input c.text) :
    AddOK (roomy (memOf cfg (some d) inputs) d) cfg d add calls := by
  have hb : ∀ (r : Slice) (s : Bytes), HoldsBytes (memOf cfg (some d) inputs) r s → HoldsBytes (roomy (memOf cfg (some d) inputs) d) r s :=
    fun r s h => ⟨h.1, fun k b hk => by simpa [roomy, Mem.put] using h.2 k b hk⟩
  refine ⟨⟨⟨?_, ?_, ?_, ?_, ?_, ?_⟩, ?_⟩, ?_, ⟨?_, ?_, ?_⟩, hb _ _ hw, fun c hc => hb _ _ (hi c hc)⟩
  · simp [roomy, Mem.put, memOf]
  · simp [roomy, Mem.put, memOf]
  · rintro _ ⟨⟩; simp [roomy, Mem.put, memOf]
  · rintro _ ⟨⟩; simp [roomy, Mem.put, memOf]
  · rintro _ ⟨⟩; simp [roomy, Mem.put, memOf]
  · rintro _ ⟨⟩ i t ht
    have := (List.getElem?_eq_some_iff.mp ht).1
    simp [roomy, Mem.put, memOf, ht, show i ≠ d.tokens.length by omega]
  · rintro _ ⟨⟩ i t ht
    have := (List.getElem?_eq_some_iff.mp ht).1
    simp [roomy, Mem.put, memOf, ht, show i ≠ d.tokens.length by omega]
  · simp [roomy, Mem.put, memOf]
  · simp [roomy, Mem.put]
  · simp [roomy, Mem.put]
  · simp [roomy, Mem.put]

theorem roomy_below (cfg : SplitCfg) (d : Dictionary F D) (inputs : List Bytes) : (roomy (memOf cfg (some d) inputs) d).Below inputs.length := by
  intro a ha i
  simp [roomy, Mem.put, memOf, List.getElem?_eq_none ha]

end

section examples
attribute [local instance] sampleUnicode sampleUnicodeOK sampleF64 sampleF32 sampleNarrow

/-- A dictionary with one word; one goroutine adds "go" while another segments "go w": every complete execution has a race, and in
one execution the second goroutine panics. -/
example : ∃ (d : Dictionary Int Int) (m : Mem Int Int), runOps {} [.add (str "w") 9 [], .recalc] Dictionary.new = some d ∧
    (∀ tr c', Exec (startAdd m ⟨⟨0, 0, 2⟩, str "go", 5, []⟩ [⟨⟨1, 0, 4⟩, str "go w", false⟩]) tr c' → (∀ i e c'', ¬ Step c' i e c'') → ¬ RaceFree tr) ∧
    ∃ tr c', Exec (startAdd m ⟨⟨0, 0, 2⟩, str "go", 5, []⟩ [⟨⟨1, 0, 4⟩, str "go w", false⟩]) tr c' ∧ c'.threads[1]? = some .panic := by
  have h : (runOps (F := Int) (D := Int) {} [.add (str "w") 9 [], .recalc] Dictionary.new).isSome := by decide +kernel
  obtain ⟨d, hd⟩ := Option.isSome_iff_exists.mp h
  have hn : d.numTokens = 1 ∧ d.maxTokenLen = 1 ∧ (segAddToken {} d (str "go") 5 []).1.numTokens = 2 := by
    have : (runOps (F := Int) (D := Int) {} [.add (str "w") 9 [], .recalc] Dictionary.new).map
        (fun d => (d.numTokens, d.maxTokenLen, (segAddToken {} d (str "go") 5 []).1.numTokens)) = some (1, 1, 2) := by decide +kernel
    rw [hd] at this
    simpa using this
  have hok := roomy_ok {} d [str "go", str "go w"] ⟨⟨0, 0, 2⟩, str "go", 5, []⟩ [⟨⟨1, 0, 4⟩, str "go w", false⟩] (memOf_input _ _ _ 0 (str "go") rfl)
    (by intro c hc; cases List.mem_singleton.mp hc; exact memOf_input _ _ _ 1 (str "go w") rfl)
  have hb := roomy_below {} d [str "go", str "go w"]
  refine ⟨d, roomy (memOf {} (some d) [str "go", str "go w"]) d, hd, fun tr c' hx he => ?_, ?_⟩
  · exact C69_complete _ ⟨_, hb⟩ {} d _ _ hok (by intro c hc; cases List.mem_singleton.mp hc; decide) (by simp) (by decide) (by rw [hn.1, hn.2.2]; decide) tr c' hx he
  · exact C69_panic _ ⟨_, hb⟩ {} d _ _ hok (by decide) (by rw [hn.1, hn.2.2]; decide) (by rw [hn.2.1]; decide +kernel) 0 _ rfl rfl (by decide +kernel)
end examples
end Gse
