import Verif.Proofs.SegMemLoop
import Verif.Props.Segment

/-! # C53, C68: goroutines that segment at the same time -/

namespace Gse
open Spec Trie

set_option linter.unusedSectionVars false

section
variable {F D : Type} [F64 F] [F32 D] [Narrow F D] [Unicode]

/-- A call of `Segment` or `ModeSegment`: where its input lies, the bytes it holds, the mode. -/
structure SegCall where
  input : Slice
  text : Bytes
  mode : Bool

/-- The goroutines that make these calls. -/
def startCalls (m : Mem F D) (calls : List SegCall) : Config F D Slice := ⟨m, calls.map fun c => segmentP c.input c.mode⟩

/-- Memory holds the segmenter and the inputs (which may overlap), and no call panics when made alone. -/
structure CallsOK (m : Mem F D) (cfg : SplitCfg) (dict : Option (Dictionary F D)) (calls : List SegCall) : Prop where
  segmenter : HoldsSegmenter m cfg dict
  inputs : ∀ c ∈ calls, HoldsBytes m c.input c.text
  alone : ∀ c ∈ calls, (internalSegment cfg dict c.text c.mode).isSome

theorem isolated_start {m : Mem F D} {cfg : SplitCfg} {dict : Option (Dictionary F D)} {calls : List SegCall} (h : CallsOK m cfg dict calls) :
    Isolated m (startCalls m calls) (fun _ _ => none) (fun i r o => ∀ c, calls[i]? = some c →
      ∃ segs, internalSegment cfg dict c.text c.mode = some segs ∧ HoldsSegs (view m o) r segs) := by
  refine ⟨fun l x hx => hx, by simp, by simp, by simp, ?_⟩
  intro i p hp
  simp only [startCalls, List.getElem?_map, Option.map_eq_some_iff] at hp
  obtain ⟨c, hc, rfl⟩ := hp
  have hmem := List.mem_of_getElem? hc
  obtain ⟨segs, hs⟩ := Option.isSome_iff_exists.mp (h.alone c hmem)
  refine wp_mono ?_ _ _ (wp_segment h.segmenter (h.inputs c hmem) (by intro l x _; rfl) hs)
  intro r o hr c' hc'
  rw [hc] at hc'; cases hc'
  exact ⟨segs, hs, hr⟩

theorem HoldsSegs.grow {m m' : Mem F D} (h : Grows m m') {r : Slice} {segs : List Seg} (hs : HoldsSegs m r segs) : HoldsSegs m' r segs := by
  refine ⟨hs.1, fun k s hk => ?_⟩
  obtain ⟨p, h1, h2⟩ := hs.2 k s hk
  exact ⟨p, h _ _ h1, h2.keep h.bytes⟩

theorem isolated_view {sh : Mem F D} {c : Config F D Slice} {own : Nat → Mem F D} {Q : Nat → Slice → Mem F D → Prop}
    (h : Isolated sh c own Q) (i : Nat) : Grows (view sh (own i)) c.mem := by
  intro l x hx
  rcases view_some.mp hx with h1 | ⟨_, h1⟩
  · exact h.mine i l x h1
  · exact h.shared l x h1

/-- C53: under every interleaving, at every moment, the segmenter and the inputs are unchanged, no goroutine has
panicked, and every goroutine that has returned returned what the call returns alone. -/
theorem C53_result (m : Mem F D) (cfg : SplitCfg) (dict : Option (Dictionary F D)) (calls : List SegCall) (h : CallsOK m cfg dict calls)
    (tr : List (Nat × Access)) (c' : Config F D Slice) (hx : Exec (startCalls m calls) tr c') :
    (∀ l x, m l = some x → c'.mem l = some x) ∧ (∀ i : Nat, c'.threads[i]? ≠ some .panic) ∧
    ∀ (i : Nat) (r : Slice) (c : SegCall), c'.threads[i]? = some (.ret r) → calls[i]? = some c →
      ∃ segs, internalSegment cfg dict c.text c.mode = some segs ∧ HoldsSegs c'.mem r segs := by
  obtain ⟨own, hI, _, _⟩ := isolated_exec (isolated_start h) hx
  refine ⟨hI.shared, fun i hp => hI.goes i _ hp, fun i r c hr hc => ?_⟩
  obtain ⟨segs, h1, h2⟩ := hI.goes i _ hr c hc
  exact ⟨segs, h1, h2.grow (isolated_view hI i)⟩

/-- C53: no execution goes on for ever, whatever the schedule. -/
theorem C53_ends (m : Mem F D) (calls : List SegCall) :
    ¬ ∃ f : Nat → Config F D Slice, f 0 = startCalls m calls ∧ ∀ n, ∃ i e, Step (f n) i e (f (n + 1)) := by
  have key : ∀ (c : Config F D Slice) (f : Nat → Config F D Slice), f 0 = c → (∀ n, ∃ i e, Step (f n) i e (f (n + 1))) → False := by
    intro c
    induction c using (steps_wf (F := F) (D := D) (α := Slice)).induction with
    | _ c ih =>
      rintro f rfl hf
      exact ih (f 1) (hf 0) (fun n => f (n + 1)) rfl fun n => hf (n + 1)
  rintro ⟨f, h0, hf⟩
  exact key _ f h0 hf

theorem exec_length {c c' : Config F D Slice} {tr : List (Nat × Access)} (h : Exec c tr c') : c'.threads.length = c.threads.length := by
  induction h with
  | refl => rfl
  | step _ hs ih => rw [← ih]; cases hs <;> simp

/-- C53: an execution that cannot go on has brought every call to its end, with the result it has alone. -/
theorem C53_complete (m : Mem F D) (hm : ∃ n, m.Below n) (cfg : SplitCfg) (dict : Option (Dictionary F D)) (calls : List SegCall) (h : CallsOK m cfg dict calls)
    (tr : List (Nat × Access)) (c' : Config F D Slice) (hx : Exec (startCalls m calls) tr c') (hend : ∀ i e c'', ¬ Step c' i e c'') (i : Nat) (c : SegCall)
    (hc : calls[i]? = some c) :
    ∃ r segs, c'.threads[i]? = some (.ret r) ∧ internalSegment cfg dict c.text c.mode = some segs ∧ HoldsSegs c'.mem r segs := by
  obtain ⟨_, h2, h3⟩ := C53_result m cfg dict calls h tr c' hx
  have hlen := exec_length hx
  have hi : i < c'.threads.length := by
    rw [hlen]; simpa [startCalls] using (List.getElem?_eq_some_iff.mp hc).1
  have hp := List.getElem?_eq_getElem hi
  cases hq : c'.threads[i] with
  | ret r =>
    rw [hq] at hp
    obtain ⟨segs, h4, h5⟩ := h3 i r c hp hc
    exact ⟨r, segs, hp, h4, h5⟩
  | panic => rw [hq] at hp; exact absurd hp (h2 i)
  | read l k =>
    rw [hq] at hp
    obtain ⟨e, c'', hs⟩ := can_step (exec_below hx hm) hp (by simp) (by simp)
    exact absurd hs (hend i e c'')
  | write l x k =>
    rw [hq] at hp
    obtain ⟨e, c'', hs⟩ := can_step (exec_below hx hm) hp (by simp) (by simp)
    exact absurd hs (hend i e c'')
  | alloc cs k =>
    rw [hq] at hp
    obtain ⟨e, c'', hs⟩ := can_step (exec_below hx hm) hp (by simp) (by simp)
    exact absurd hs (hend i e c'')

/-- C53: every execution can be carried on until no goroutine can go on. -/
theorem C53_can_complete (m : Mem F D) (calls : List SegCall) (tr : List (Nat × Access)) (c' : Config F D Slice) (hx : Exec (startCalls m calls) tr c') :
    ∃ tr' c'', Exec (startCalls m calls) (tr ++ tr') c'' ∧ ∀ i e c3, ¬ Step c'' i e c3 := by
  induction c' using (steps_wf (F := F) (D := D) (α := Slice)).induction generalizing tr with
  | _ c' ih =>
    by_cases h : ∃ i e c3, Step c' i e c3
    · obtain ⟨i, e, c3, hs⟩ := h
      obtain ⟨tr', c4, h1, h2⟩ := ih c3 ⟨i, e, hs⟩ _ (hx.step hs)
      exact ⟨(i, e) :: tr', c4, by simpa using h1, h2⟩
    · exact ⟨[], c', by simpa using hx, fun i e c3 hs => h ⟨i, e, c3, hs⟩⟩

/-- A segmenter made by any history of dictionary calls meets the hypothesis about calls made alone (C12). -/
theorem C53_history [UnicodeOK] (cfg : SplitCfg) (ops : List (DictOp F)) (d : Dictionary F D) (hr : runOps cfg ops Dictionary.new = some d)
    (m : Mem F D) (calls : List SegCall) (hs : HoldsSegmenter m cfg (some d)) (hi : ∀ c ∈ calls, HoldsBytes m c.input c.text) :
    CallsOK m cfg (some d) calls := by
  refine ⟨hs, hi, fun c _ => ?_⟩
  obtain ⟨segs, h⟩ := C12_segment_total cfg ops d hr c.text c.mode
  rw [h]; rfl

/-- So does a segmenter without dictionary. -/
theorem C53_no_dictionary (cfg : SplitCfg) (m : Mem F D) (calls : List SegCall) (hs : HoldsSegmenter m cfg none)
    (hi : ∀ c ∈ calls, HoldsBytes m c.input c.text) : CallsOK m cfg none calls :=
  ⟨hs, hi, fun c _ => by rw [C12_no_dictionary]; rfl⟩

/-- C68: concurrent `Segment` calls are free of data races: under every interleaving, no two goroutines access the same
location with one of them writing. -/
theorem C68_race_free (m : Mem F D) (cfg : SplitCfg) (dict : Option (Dictionary F D)) (calls : List SegCall) (h : CallsOK m cfg dict calls)
    (tr : List (Nat × Access)) (c' : Config F D Slice) (hx : Exec (startCalls m calls) tr c') : RaceFree tr := by
  obtain ⟨own, hI, _, hf⟩ := isolated_exec (isolated_start h) hx
  intro i e j f he hf' hij hc
  have key : ∀ i j l, i ≠ j → (own i l).isSome → ¬ (view m (own j) l).isSome := by
    intro i j l hij h1 h2
    obtain ⟨x, hx⟩ := Option.isSome_iff_exists.mp h1
    obtain ⟨y, hy⟩ := Option.isSome_iff_exists.mp h2
    rcases view_some.mp hy with h3 | ⟨_, h3⟩
    · rw [hI.disjoint i j l x hij hx] at h3; cases h3
    · rw [hI.apart i l x hx] at h3; cases h3
  have own_view : ∀ i l, (own i l).isSome → (view m (own i) l).isSome := by
    intro i l h1
    obtain ⟨x, hx⟩ := Option.isSome_iff_exists.mp h1
    rw [view_own hx]; rfl
  have h1 := hf i e he
  have h2 := hf j f hf'
  cases e with
  | rd l =>
    cases f with
    | wr l' => obtain rfl : l = l' := hc; exact key j i l (Ne.symm hij) h2 h1
    | _ => exact hc
  | wr l =>
    cases f with
    | rd l' => obtain rfl : l = l' := hc; exact key i j l hij h1 h2
    | wr l' => obtain rfl : l = l' := hc; exact key i j l hij h1 (own_view j l h2)
    | al _ _ => exact hc
  | al _ _ => exact hc

/-- C68: the only locations written are cells of arrays that the writing call has itself allocated: not the segmenter, not
the dictionary, not an input. -/
theorem C68_writes_private (m : Mem F D) (cfg : SplitCfg) (dict : Option (Dictionary F D)) (calls : List SegCall) (h : CallsOK m cfg dict calls)
    (tr : List (Nat × Access)) (c' : Config F D Slice) (hx : Exec (startCalls m calls) tr c') (i : Nat) (l : Loc) (hw : (i, Access.wr l) ∈ tr) :
    m l = none := by
  obtain ⟨own, hI, _, hf⟩ := isolated_exec (isolated_start h) hx
  obtain ⟨x, hx⟩ := Option.isSome_iff_exists.mp (hf i _ hw)
  exact hI.apart i l x hx

/-- A memory that holds a segmenter and inputs, each in an array of its own. -/
def memOf (cfg : SplitCfg) (dict : Option (Dictionary F D)) (inputs : List Bytes) : Mem F D
  | .flags => some (.flags cfg)
  | .segDict => some (.bool dict.isNone)
  | .maxLen => dict.map fun d => .nat d.maxTokenLen
  | .trie => dict.map fun d => .trie d.trie
  | .tokHdr => dict.map fun d => .nat d.tokens.length
  | .tok i => dict.bind fun d => (d.tokens[i]?).map fun t => .token ⟨t.text, t.freq, t.pos⟩
  | .dist i => dict.bind fun d => (d.tokens[i]?).map fun t => .dist t.distance
  | .subs i => dict.bind fun d => (d.tokens[i]?).map fun _ => .subs ⟨0, 0, 0⟩
  | .totalFreq => dict.map fun d => .freq d.totalFreq
  | .emit => some (.emit fun _ _ => none)
  | .stopVar => some (.stops none)
  | .idfStop => some (.keys [])
  | .cell a i => (inputs[a]?).bind fun s => (s[i]?).map .byte

theorem memOf_segmenter (cfg : SplitCfg) (dict : Option (Dictionary F D)) (inputs : List Bytes) : HoldsSegmenter (memOf cfg dict inputs) cfg dict :=
  ⟨⟨rfl, rfl, by rintro d rfl; rfl, by rintro d rfl; rfl, by rintro d rfl; rfl, by rintro d rfl i t h; simp [memOf, h]⟩, by rintro d rfl i t h; simp [memOf, h]⟩

theorem memOf_input (cfg : SplitCfg) (dict : Option (Dictionary F D)) (inputs : List Bytes) (a : Nat) (s : Bytes) (h : inputs[a]? = some s) :
    HoldsBytes (memOf cfg dict inputs) ⟨a, 0, s.length⟩ s := ⟨rfl, fun k b hb => by simp [memOf, h, hb]⟩

theorem memOf_below (cfg : SplitCfg) (dict : Option (Dictionary F D)) (inputs : List Bytes) : (memOf cfg dict inputs).Below inputs.length := by
  intro a ha i; simp [memOf, List.getElem?_eq_none ha]

end

section examples
attribute [local instance] sampleUnicode sampleUnicodeOK sampleF64 sampleF32 sampleNarrow

/-- Three goroutines on one segmenter with two words, two of them on the very same input, one in search mode: there is an
execution to the end, and it is free of races. -/
example : ∃ (d : Dictionary Int Int) (m : Mem Int Int) (tr : List (Nat × Access)) (c' : Config Int Int Slice),
    runOps {} [.add (str "ab") 5 [], .add (str "w") 9 [], .recalc] Dictionary.new = some d ∧
    Exec (startCalls m [⟨⟨0, 0, 4⟩, str "ab w", false⟩, ⟨⟨0, 0, 4⟩, str "ab w", false⟩, ⟨⟨1, 0, 2⟩, str "w ", true⟩]) tr c' ∧
    RaceFree tr ∧ ∃ r segs, c'.threads[1]? = some (.ret r) ∧ internalSegment {} (some d) (str "ab w") false = some segs ∧ HoldsSegs c'.mem r segs := by
  have h : (runOps (F := Int) (D := Int) {} [.add (str "ab") 5 [], .add (str "w") 9 [], .recalc] Dictionary.new).isSome := by decide +kernel
  obtain ⟨d, hd⟩ := Option.isSome_iff_exists.mp h
  let m : Mem Int Int := memOf {} (some d) [str "ab w", str "w "]
  let calls : List SegCall := [⟨⟨0, 0, 4⟩, str "ab w", false⟩, ⟨⟨0, 0, 4⟩, str "ab w", false⟩, ⟨⟨1, 0, 2⟩, str "w ", true⟩]
  have hok : CallsOK m {} (some d) calls := by
    refine C53_history {} _ d hd m calls (memOf_segmenter _ _ _) ?_
    intro c hc
    simp only [calls, List.mem_cons, List.not_mem_nil, or_false] at hc
    rcases hc with rfl | rfl | rfl
    · exact memOf_input _ _ _ 0 (str "ab w") rfl
    · exact memOf_input _ _ _ 0 (str "ab w") rfl
    · exact memOf_input _ _ _ 1 (str "w ") rfl
  obtain ⟨tr, c', h1, h2⟩ := C53_can_complete m calls [] _ (.refl _)
  refine ⟨d, m, tr, c', hd, h1, C68_race_free m {} (some d) calls hok _ c' h1, ?_⟩
  exact C53_complete m ⟨_, memOf_below _ _ _⟩ {} (some d) calls hok _ c' h1 h2 1 _ rfl

/-- A trace with a race. -/
example : ¬ RaceFree [(0, .rd .trie), (1, .wr .trie)] := fun h =>
  h 0 (.rd .trie) 1 (.wr .trie) (by simp) (by simp) (by decide) rfl
end examples
end Gse
