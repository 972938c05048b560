import Verif.Proofs.CutMemAsk
import Verif.Props.Race
import Verif.Props.Conc
import Verif.Props.Hmm

/-! # C73: goroutines that cut at the same time, and the global HMM model -/

namespace Gse
open Spec Prog

set_option linter.unusedSectionVars false

section main
variable {F D : Type} [F64 F] [F32 D] [Narrow F D] [Unicode]

/-- A call that uses a segmenter. `segment` is `Segment` or `ModeSegment`, with the place of its input. -/
inductive UseCall
  | segment (input : Slice) (text : Bytes) (mode : Bool)
  | cut (s : Bytes) (hmm : Bool)
  | cutDAG (s : Bytes) (reg : List Matcher)
  | cutAll (s : Bytes)
  | cutSearch (s : Bytes) (hmm : Bool)
  | hmmCut (s : Bytes) (reg : List Matcher)
  | find (w : Bytes)

/-- What such a call returns. -/
inductive Answer (F : Type)
  | segs (r : Slice)
  | words (ws : List Bytes)
  | found (x : F × Bytes × Bool)

/-- The call as a program. -/
def UseCall.prog (c : HmmConst F) : UseCall → Prog F D (Answer F)
  | .segment input _ mode => (segmentP input mode).bind fun r => .ret (.segs r)
  | .cut s hmm => (cutP c s hmm).bind fun ws => .ret (.words ws)
  | .cutDAG s reg => (cutDAGP c s reg).bind fun ws => .ret (.words ws)
  | .cutAll s => (cutAllP s).bind fun ws => .ret (.words ws)
  | .cutSearch s hmm => (cutSearchP c s hmm).bind fun ws => .ret (.words ws)
  | .hmmCut s reg => (hmmCutP c s reg).bind fun ws => .ret (.words ws)
  | .find w => (findP w).bind fun x => .ret (.found x)

/-- `a`, read in memory `m`, is what the call returns when it is made alone. -/
def UseCall.Alone (cfg : SplitCfg) (d : Dictionary F D) (c : HmmConst F) (em : EmitModel F) (m : Mem F D) : UseCall → Answer F → Prop
  | .segment _ text mode, .segs r => ∃ segs, internalSegment cfg (some d) text mode = some segs ∧ HoldsSegs m r segs
  | .cut s hmm, .words ws => Gse.cut cfg d 0 (fun t => Gse.hmmCut c em t []) s (some hmm) = some ws
  | .cutDAG s reg, .words ws => cutDAGHmm cfg d c em s reg = some ws
  | .cutAll s, .words ws => Gse.cutAll cfg d s = some ws
  | .cutSearch s hmm, .words ws => Gse.cutSearch cfg d 0 (fun t => Gse.hmmCut c em t []) s (some hmm) = some ws
  | .hmmCut s reg, .words ws => Gse.hmmCut c em s reg = some ws
  | .find w, .found x => d.find w = some x
  | _, _ => False

/-- The call returns when it is made alone. -/
def UseCall.Returns (cfg : SplitCfg) (d : Dictionary F D) (c : HmmConst F) (em : EmitModel F) : UseCall → Prop
  | .segment _ text mode => internalSegment cfg (some d) text mode ≠ none
  | .cut s hmm => Gse.cut cfg d 0 (fun t => Gse.hmmCut c em t []) s (some hmm) ≠ none
  | .cutDAG s reg => cutDAGHmm cfg d c em s reg ≠ none
  | .cutAll s => Gse.cutAll cfg d s ≠ none
  | .cutSearch s hmm => Gse.cutSearch cfg d 0 (fun t => Gse.hmmCut c em t []) s (some hmm) ≠ none
  | .hmmCut s reg => Gse.hmmCut c em s reg ≠ none
  | .find w => d.find w ≠ none

/-- The input of the call is in memory. -/
def UseCall.HasInput (m : Mem F D) : UseCall → Prop
  | .segment input text _ => HoldsBytes m input text
  | _ => True

/-- The goroutines that make these calls. -/
def startUse (m : Mem F D) (c : HmmConst F) (calls : List UseCall) : Config F D (Answer F) := ⟨m, calls.map fun x => x.prog c⟩

/-- Memory holds the segmenter, the HMM model and the inputs, and no call panics when made alone. -/
structure UseOK (m : Mem F D) (cfg : SplitCfg) (d : Dictionary F D) (c : HmmConst F) (em : EmitModel F) (calls : List UseCall) : Prop where
  dict : HoldsDict m cfg d
  segmenter : HoldsSegmenter m cfg (some d)
  emit : m .emit = some (.emit em)
  inputs : ∀ x ∈ calls, x.HasInput m
  alone : ∀ x ∈ calls, x.Returns cfg d c em

theorem use_words {m : Mem F D} {p : Prog F D (List Bytes)} {ws : List Bytes} {P : Answer F → Mem F D → Prop} (h : Yields m p ws)
    (hP : P (.words ws) (fun _ => none)) : wp m (p.bind fun ws => .ret (.words ws)) (fun _ => none) P := by
  refine wp_bind' _ _ (wp_mono ?_ _ _ (yields_wp (fun _ _ _ => rfl) p h))
  rintro _ _ ⟨rfl, rfl⟩
  exact hP

/-- A call in memory that holds what it needs, given `Segment`. -/
theorem wp_use {sh : Mem F D} {cfg : SplitCfg} {d : Dictionary F D} {c : HmmConst F} {em : EmitModel F} (hd : HoldsDict sh cfg d) (he : sh .emit = some (.emit em))
    (x : UseCall) (ha : x.Returns cfg d c em)
    (hseg : ∀ input text mode segs, x = .segment input text mode → internalSegment cfg (some d) text mode = some segs →
      wp sh (segmentP input mode) (fun _ => none) fun r o => HoldsSegs (view sh o) r segs) :
    wp sh (x.prog c) (fun _ => none) fun a o => x.Alone cfg d c em (view sh o) a := by
  cases x with
  | segment input text mode =>
    obtain ⟨segs, hs⟩ := Option.ne_none_iff_exists'.mp ha
    refine wp_bind' _ _ (wp_mono ?_ _ _ (hseg input text mode segs rfl hs))
    intro r o hr
    exact ⟨segs, hs, hr⟩
  | cut s hmm =>
    obtain ⟨ws, hw⟩ := Option.ne_none_iff_exists'.mp ha
    exact use_words (yields_cut c hd he 0 s hmm ws hw) hw
  | cutDAG s reg =>
    obtain ⟨ws, hw⟩ := Option.ne_none_iff_exists'.mp ha
    exact use_words (yields_cutDAG c hd he s reg ws hw) hw
  | cutAll s =>
    obtain ⟨ws, hw⟩ := Option.ne_none_iff_exists'.mp ha
    exact use_words (yields_cutAll hd s ws hw) hw
  | cutSearch s hmm =>
    obtain ⟨ws, hw⟩ := Option.ne_none_iff_exists'.mp ha
    exact use_words (yields_cutSearch c hd he 0 s hmm ws hw) hw
  | hmmCut s reg =>
    obtain ⟨ws, hw⟩ := Option.ne_none_iff_exists'.mp ha
    exact use_words (yields_hmmCut c he s reg ws hw) hw
  | find w =>
    obtain ⟨v, hv⟩ := Option.ne_none_iff_exists'.mp ha
    refine wp_bind' _ _ (wp_mono ?_ _ _ (yields_wp (fun _ _ _ => rfl) _ (yields_find hd hv)))
    rintro r _ ⟨rfl, rfl⟩
    exact hv

theorem UseCall.Alone.grow {cfg : SplitCfg} {d : Dictionary F D} {c : HmmConst F} {em : EmitModel F} {m m' : Mem F D} (hg : Grows m m') {x : UseCall} {a : Answer F}
    (h : x.Alone cfg d c em m a) : x.Alone cfg d c em m' a := by
  cases x <;> cases a <;> first
    | exact h
    | (obtain ⟨segs, h1, h2⟩ := h; exact ⟨segs, h1, h2.grow hg⟩)

theorem Isolated.grows {α : Type} {sh : Mem F D} {c : Config F D α} {own : Nat → Mem F D} {Q : Nat → α → Mem F D → Prop} (hI : Isolated sh c own Q) (i : Nat) :
    Grows (view sh (own i)) c.mem := by
  intro l y hy
  rcases view_some.mp hy with h1 | ⟨_, h1⟩
  · exact hI.mine i l y h1
  · exact hI.shared l y h1

/-- Goroutines that write only their own memory do not race. -/
theorem isolated_raceFree {α : Type} {sh : Mem F D} {c c' : Config F D α} {own : Nat → Mem F D} {Q : Nat → α → Mem F D → Prop} (h : Isolated sh c own Q)
    {tr : List (Nat × Access)} (hx : Exec c tr c') : RaceFree tr := by
  obtain ⟨own, hI, _, hf⟩ := isolated_exec h hx
  intro i e j f he hf' hij hc
  have key : ∀ i j l, i ≠ j → (own i l).isSome → ¬ (view sh (own j) l).isSome := by
    intro i j l hij h1 h2
    obtain ⟨x, hx⟩ := Option.isSome_iff_exists.mp h1
    obtain ⟨y, hy⟩ := Option.isSome_iff_exists.mp h2
    rcases view_some.mp hy with h3 | ⟨_, h3⟩
    · rw [hI.disjoint i j l x hij hx] at h3; cases h3
    · rw [hI.apart i l x hx] at h3; cases h3
  have own_view : ∀ i l, (own i l).isSome → (view sh (own i) l).isSome := by
    intro i l h1
    obtain ⟨x, hx⟩ := Option.isSome_iff_exists.mp h1
    rw [view_own hx]; rfl
  have h1 := hf i e he
  have h2 := hf j f hf'
  cases e with
  | rd l =>
    cases f with
    | wr l' => obtain rfl : l = l' := hc; exact key j i l (Ne.symm hij) h2 h1
    | _ => exact hc
  | wr l =>
    cases f with
    | rd l' => obtain rfl : l = l' := hc; exact key i j l hij h1 h2
    | wr l' => obtain rfl : l = l' := hc; exact key i j l hij h1 (own_view j l h2)
    | al _ _ => exact hc
  | al _ _ => exact hc

theorem isolated_use {m : Mem F D} {cfg : SplitCfg} {d : Dictionary F D} {c : HmmConst F} {em : EmitModel F} {calls : List UseCall}
    (h : UseOK m cfg d c em calls) : Isolated m (startUse m c calls) (fun _ _ => none)
      (fun i a o => ∀ x, calls[i]? = some x → x.Alone cfg d c em (view m o) a) := by
  refine ⟨fun l x hx => hx, by simp, by simp, by simp, ?_⟩
  intro i p hp
  simp only [startUse, List.getElem?_map, Option.map_eq_some_iff] at hp
  obtain ⟨x, hx, rfl⟩ := hp
  have hmem := List.mem_of_getElem? hx
  have hin := h.inputs x hmem
  refine wp_mono ?_ _ _ (wp_use h.dict h.emit x (h.alone x hmem) fun input text mode segs e hs => ?_)
  · intro a o ha x' hx'
    rw [hx] at hx'; cases hx'; exact ha
  · subst e
    exact wp_segment h.segmenter hin (fun _ _ _ => rfl) hs

/-- C73: under every interleaving, at every moment, the segmenter, the HMM model and the inputs are unchanged, no goroutine has
panicked, and every goroutine that has returned returned what the call returns alone. -/
theorem C73_result (m : Mem F D) (cfg : SplitCfg) (d : Dictionary F D) (c : HmmConst F) (em : EmitModel F) (calls : List UseCall)
    (h : UseOK m cfg d c em calls) (tr : List (Nat × Access)) (c' : Config F D (Answer F)) (hx : Exec (startUse m c calls) tr c') :
    (∀ l x, m l = some x → c'.mem l = some x) ∧ (∀ i : Nat, c'.threads[i]? ≠ some .panic) ∧
    ∀ (i : Nat) (a : Answer F) (x : UseCall), c'.threads[i]? = some (.ret a) → calls[i]? = some x → x.Alone cfg d c em c'.mem a := by
  obtain ⟨own, hI, _, _⟩ := isolated_exec (isolated_use h) hx
  exact ⟨hI.shared, fun i hp => hI.goes i _ hp, fun i a x hr hc => (hI.goes i _ hr x hc).grow (hI.grows i)⟩

/-- C73: an execution that cannot go on has brought every call to its end, with the result it has alone. -/
theorem C73_complete (m : Mem F D) (hm : ∃ n, m.Below n) (cfg : SplitCfg) (d : Dictionary F D) (c : HmmConst F) (em : EmitModel F) (calls : List UseCall)
    (h : UseOK m cfg d c em calls) (tr : List (Nat × Access)) (c' : Config F D (Answer F)) (hx : Exec (startUse m c calls) tr c')
    (hend : ∀ i e c'', ¬ Step c' i e c'') (i : Nat) (x : UseCall) (hc : calls[i]? = some x) :
    ∃ a, c'.threads[i]? = some (.ret a) ∧ x.Alone cfg d c em c'.mem a := by
  obtain ⟨_, h2, h3⟩ := C73_result m cfg d c em calls h tr c' hx
  have hlen : ∀ {c c' : Config F D (Answer F)} {tr}, Exec c tr c' → c'.threads.length = c.threads.length := by
    intro c c' tr h
    induction h with
    | refl => rfl
    | step _ hs ih => rw [← ih]; cases hs <;> simp
  have hi : i < c'.threads.length := by
    rw [hlen hx]; simpa [startUse] using (List.getElem?_eq_some_iff.mp hc).1
  by_cases hr : ∃ a, c'.threads[i] = .ret a
  · obtain ⟨a, ha⟩ := hr
    have hp : c'.threads[i]? = some (.ret a) := by rw [List.getElem?_eq_getElem hi, ha]
    exact ⟨a, hp, h3 i a x hp hc⟩
  · exfalso
    obtain ⟨e, c'', hs⟩ := can_step (exec_below hx hm) (List.getElem?_eq_getElem hi) (fun a ha => hr ⟨a, ha⟩)
      (fun hq => h2 i (by rw [List.getElem?_eq_getElem hi, hq]))
    exact hend i e c'' hs

/-- C73: such calls are free of data races: under every interleaving, no two goroutines access the same location with one of them
writing. -/
theorem C73_race_free (m : Mem F D) (cfg : SplitCfg) (d : Dictionary F D) (c : HmmConst F) (em : EmitModel F) (calls : List UseCall)
    (h : UseOK m cfg d c em calls) (tr : List (Nat × Access)) (c' : Config F D (Answer F)) (hx : Exec (startUse m c calls) tr c') :
    RaceFree tr := isolated_raceFree (isolated_use h) hx

/-- A call without patterns of its own. -/
def UseCall.NoPatterns : UseCall → Prop
  | .cutDAG _ reg => reg = []
  | .hmmCut _ reg => reg = []
  | _ => True

/-- C73: a segmenter made by any history of dictionary calls meets the hypothesis about calls made alone, whatever the model. -/
theorem C73_history [UnicodeOK] (cfg : SplitCfg) (ops : List (DictOp F)) (d : Dictionary F D) (hr : runOps cfg ops Dictionary.new = some d)
    (m : Mem F D) (c : HmmConst F) (em : EmitModel F) (calls : List UseCall) (hs : HoldsSegmenter m cfg (some d)) (hf : m .totalFreq = some (.freq d.totalFreq)) (he : m .emit = some (.emit em))
    (hi : ∀ x ∈ calls, x.HasInput m) (hp : ∀ x ∈ calls, x.NoPatterns) : UseOK m cfg d c em calls := by
  refine ⟨⟨hs.toHoldsTable, hf⟩, hs, he, hi, fun x hx => ?_⟩
  have hcut : ∀ s hmm, ∃ ws, Gse.cut cfg d 0 (fun t => Gse.hmmCut c em t []) s (some hmm) = some ws := by
    intro s hmm
    cases hmm with
    | false => obtain ⟨o, h, _⟩ := C26_lossless cfg ops d hr s; exact ⟨o, h⟩
    | true => obtain ⟨o, h, _⟩ := C28_lossless cfg ops d hr c em 0 s; exact ⟨o, h⟩
  have hn := hp x hx
  cases x with
  | segment input text mode =>
    obtain ⟨o, h⟩ := C12_segment_total cfg ops d hr text mode
    simp [UseCall.Returns, h]
  | cut s hmm => obtain ⟨o, h⟩ := hcut s hmm; simp [UseCall.Returns, h]
  | cutDAG s reg =>
    obtain rfl : reg = [] := hn
    obtain ⟨o, h⟩ := hcut s true
    have : cutDAGHmm cfg d c em s [] = some o := h
    simp [UseCall.Returns, this]
  | cutAll s => obtain ⟨o, h, _⟩ := C24_occurrences cfg ops d hr s; simp [UseCall.Returns, h]
  | cutSearch s hmm =>
    obtain ⟨o, h⟩ := hcut s hmm
    obtain ⟨o', h', _⟩ := (C32_subsequence cfg ops d hr 0 (fun t => Gse.hmmCut c em t []) s).1 hmm o h
    simp [UseCall.Returns, h']
  | hmmCut s reg =>
    obtain rfl : reg = [] := hn
    obtain ⟨o, h, _⟩ := C30_lossless c em s
    simp [UseCall.Returns, h]
  | find w =>
    obtain ⟨f, p, b, h⟩ := find_total (idxOK_of_run hr) w
    simp [UseCall.Returns, h]

/-! ## Loading a model meanwhile -/

/-- Goroutine 0 runs `Init` (so also `New` or the first `LoadDict` of any segmenter) or `LoadModel`; goroutine `i + 1` makes the call
`Cut(texts[i], true)`. -/
def startLoading (m : Mem F D) (c : HmmConst F) (dflt : EmitModel F) (prob : List (Rune → Option F)) (texts : List Bytes) : Config F D (Option (List Bytes)) :=
  ⟨m, (loadModelP dflt prob).bind (fun _ => .ret none) :: texts.map fun s => (cutP c s true).bind fun r => .ret (some r)⟩

/-- `Init` without `NotLoadHMM` is `LoadModel` without arguments. -/
theorem C73_init (dflt : EmitModel F) : (initP dflt false : Prog F D Unit) = loadModelP dflt [] := rfl

/-- The model in memory, and nothing else. -/
def emitPart (m : Mem F D) : Mem F D := fun l => if l = .emit then m l else none

/-- While a model is loaded, everything else stays. -/
def loading (m : Mem F D) : Rely F D where
  loc l := (m l).isSome
  val l c := (l ≠ .emit → m l = some c) ∧ (l = .emit → ∃ em, c = .emit em)

theorem obeys_setEmit {m o : Mem F D} {em : EmitModel F} {α : Type} (ho : o .emit = some (.emit em)) {y : Tag} {g : Rune → Option F} {f : Unit → Prog F D α}
    {done : Bool} (hf : Obeys (loading m) (.wr .emit) true (f ()) (o.put .emit (.emit fun t => if t = y then g else em t))) :
    Obeys (loading m) (.wr .emit) done (setEmitP y g >>= f) o := by
  refine .inr (.inl ⟨_, ho, ?_⟩)
  refine ⟨by rw [ho]; rfl, fun _ => ⟨fun h => absurd rfl h, fun _ => ⟨_, rfl⟩⟩, ?_⟩
  have : (done || decide ((Access.wr .emit) = .rd .emit) || decide ((Access.wr .emit) = .wr .emit)) = true := by simp
  rw [this]
  exact hf

theorem obeys_setEmit_last {m o : Mem F D} {em : EmitModel F} (ho : o .emit = some (.emit em)) {y : Tag} {g : Rune → Option F} {done : Bool} :
    Obeys (loading m) (.wr .emit) done (setEmitP y g) o := by
  refine .inr (.inl ⟨_, ho, ?_⟩)
  refine ⟨by rw [ho]; rfl, fun _ => ⟨fun h => absurd rfl h, fun _ => ⟨_, rfl⟩⟩, ?_⟩
  have : (done || decide ((Access.wr .emit) = .rd .emit) || decide ((Access.wr .emit) = .wr .emit)) = true := by simp
  rw [this]
  exact rfl

theorem obeys_load {m o : Mem F D} {em : EmitModel F} (ho : o .emit = some (.emit em)) (dflt : EmitModel F) (prob : List (Rune → Option F)) :
    Obeys (loading m) (.wr .emit) false (loadModelP dflt prob) o := by
  have key : ∀ a b e s, Obeys (loading m) (.wr .emit) false (do
      setEmitP .B a
      setEmitP .E b
      setEmitP .M e
      setEmitP .S s : Prog F D Unit) o := by
    intro a b e s
    refine obeys_setEmit ho (obeys_setEmit (put_same _ _ _) (obeys_setEmit (put_same _ _ _) ?_))
    exact obeys_setEmit_last (put_same _ _ _)
  unfold loadModelP
  split <;> exact key ..

/-- Memory holds the segmenter that cuts and a model, and every text is one that `Cut(s, true)` hands to the HMM with a Chinese
character in it: if the HMM refused such texts, cutting would fail. -/
structure LoadOK (m : Mem F D) (cfg : SplitCfg) (d : Dictionary F D) (c : HmmConst F) (em : EmitModel F) (texts : List Bytes) : Prop where
  dict : HoldsDict m cfg d
  emit : m .emit = some (.emit em)
  asks : ∀ s ∈ texts, Gse.cut cfg d 0 refuseHan s (some true) = none
  returns : ∀ s ∈ texts, Gse.cut cfg d 0 (fun t => Gse.hmmCut c em t []) s (some true) ≠ none

theorem guarded_load {m : Mem F D} {c : HmmConst F} {em : EmitModel F} (dflt : EmitModel F) (prob : List (Rune → Option F)) {texts : List Bytes}
    (he : m .emit = some (.emit em)) (ha : ∀ s ∈ texts, Asks m .emit (cutP c s true)) :
    Guarded (loading m) (fun i => if i = 0 then .wr .emit else .rd .emit) (startLoading m c dflt prob texts) []
      (fun i => if i = 0 then emitPart m else noMem) (fun _ => false) := by
  have hemit : emitPart m .emit = some (.emit em) := by simp [emitPart, he]
  refine ⟨?_, ?_, ?_, ?_, ?_⟩
  · intro l hl
    obtain ⟨x, hx⟩ := Option.isSome_iff_exists.mp hl
    refine ⟨x, hx, fun _ => hx, ?_⟩
    rintro rfl
    rw [he] at hx; cases hx; exact ⟨_, rfl⟩
  · intro i l x hx
    split at hx
    · simp only [emitPart] at hx
      split at hx
      · exact hx
      · cases hx
    · cases hx
  · intro i j l x hij hx
    split at hx
    · rw [if_neg (by omega)]; rfl
    · cases hx
  · intro i p hp
    cases i with
    | zero =>
      simp only [startLoading, List.getElem?_cons_zero, Option.some.injEq] at hp
      subst hp
      simp only [if_true]
      exact .inl (obeys_map _ _ _ (obeys_load hemit dflt prob))
    | succ i =>
      simp only [startLoading, List.getElem?_cons_succ, List.getElem?_map, Option.map_eq_some_iff] at hp
      obtain ⟨s, hs, rfl⟩ := hp
      have hR : ∀ l' x, l' ≠ .emit → m l' = some x → (loading m).loc l' ∧ ∀ y, (loading m).val l' y → y = x := by
        intro l' x hne hx
        refine ⟨by simp [loading, hx], fun y hy => ?_⟩
        have := hy.1 hne
        rw [hx] at this; cases this; rfl
      rw [if_neg (by omega), if_neg (by omega)]
      exact .inl (obeys_map _ _ _ (asks_obeys hR _ _ (ha s (List.mem_of_getElem? hs))))
  · intro i h; cases h

theorem LoadOK.asked [UnicodeOK] {m : Mem F D} {cfg : SplitCfg} {d : Dictionary F D} {c : HmmConst F} {em : EmitModel F} {texts : List Bytes}
    (h : LoadOK m cfg d c em texts) : ∀ s ∈ texts, Asks m .emit (cutP c s true) := fun s hs =>
  asks_cutDAG c h.dict h.emit s (h.asks s hs) (h.returns s hs)

/-- C73: loading a model beside `Cut(s, true)` of a text that needs the model is a data race, under every interleaving: whenever
the goroutine that loads and one that cuts have both ended, they have accessed the model with one of them writing. -/
theorem C73_load_race [UnicodeOK] (m : Mem F D) (cfg : SplitCfg) (d : Dictionary F D) (c : HmmConst F) (em dflt : EmitModel F) (prob : List (Rune → Option F))
    (texts : List Bytes) (h : LoadOK m cfg d c em texts) (tr : List (Nat × Access)) (c' : Config F D (Option (List Bytes)))
    (hx : Exec (startLoading m c dflt prob texts) tr c') (i : Nat) (p q : Prog F D (Option (List Bytes)))
    (hp : c'.threads[0]? = some p) (hpe : Ended p) (hq : c'.threads[i + 1]? = some q) (hqe : Ended q) : ¬ RaceFree tr := by
  intro hrf
  obtain ⟨own, done, hg'⟩ := guarded_exec (guarded_load dflt prob h.emit h.asked) hx
  have w := guarded_ended hg' hp hpe
  have r := guarded_ended hg' hq hqe
  simp only [if_true] at w
  rw [if_neg (by omega)] at r
  exact hrf 0 (.wr .emit) (i + 1) (.rd .emit) w r (by omega) rfl

/-- C73: and every execution that cannot go on has such a race. -/
theorem C73_load_complete [UnicodeOK] (m : Mem F D) (hm : ∃ n, m.Below n) (cfg : SplitCfg) (d : Dictionary F D) (c : HmmConst F) (em dflt : EmitModel F)
    (prob : List (Rune → Option F)) (texts : List Bytes) (h : LoadOK m cfg d c em texts) (ht : texts ≠ []) (tr : List (Nat × Access))
    (c' : Config F D (Option (List Bytes))) (hx : Exec (startLoading m c dflt prob texts) tr c') (hend : ∀ i e c'', ¬ Step c' i e c'') : ¬ RaceFree tr := by
  have hlen : ∀ {c c' : Config F D (Option (List Bytes))} {tr}, Exec c tr c' → c'.threads.length = c.threads.length := by
    intro c c' tr h
    induction h with
    | refl => rfl
    | step _ hs ih => rw [← ih]; cases hs <;> simp
  have hl := hlen hx
  have hpos := List.length_pos_iff.mpr ht
  have key : ∀ i, i < c'.threads.length → ∃ p, c'.threads[i]? = some p ∧ Ended p := by
    intro i hi
    refine ⟨_, List.getElem?_eq_getElem hi, ?_⟩
    by_contra hne
    simp only [Ended, not_or, not_exists] at hne
    obtain ⟨e, c'', hs⟩ := can_step (exec_below hx hm) (List.getElem?_eq_getElem hi) hne.1 hne.2
    exact hend i e c'' hs
  simp only [startLoading, List.length_cons, List.length_map] at hl
  obtain ⟨p, h1, h2⟩ := key 0 (by omega)
  obtain ⟨q, h3, h4⟩ := key 1 (by omega)
  exact C73_load_race m cfg d c em dflt prob texts h tr c' hx 0 p q h1 h2 h3 h4

/-- The model is not part of the segmenter. -/
theorem HoldsDict.put_emit {m : Mem F D} {cfg : SplitCfg} {d : Dictionary F D} (hd : HoldsDict m cfg d) (em' : EmitModel F) :
    HoldsDict (m.put .emit (.emit em')) cfg d := by
  have o : ∀ {l}, l ≠ .emit → m.put .emit (.emit em') l = m l := fun h => put_other _ _ h
  refine ⟨⟨?_, ?_, fun d h => ?_, fun d h => ?_, fun d h => ?_, fun d h i t ht => ?_⟩, ?_⟩ <;> rw [o (by simp)]
  · exact hd.segmenter.flags
  · exact hd.segmenter.segDict
  · exact hd.segmenter.maxLen d h
  · exact hd.segmenter.trie d h
  · exact hd.segmenter.tokHdr d h
  · exact hd.segmenter.tok d h i t ht
  · exact hd.totalFreq

/-- C73: a text which two models cut differently is such a text: `Cut(s, true)` reads the model. -/
theorem C73_load_race_differ (m : Mem F D) (cfg : SplitCfg) (d : Dictionary F D) (c : HmmConst F) (em em' dflt : EmitModel F) (prob : List (Rune → Option F))
    (s : Bytes) (hd : HoldsDict m cfg d) (he : m .emit = some (.emit em)) (ws ws' : List Bytes)
    (h1 : Gse.cut cfg d 0 (fun t => Gse.hmmCut c em t []) s (some true) = some ws)
    (h2 : Gse.cut cfg d 0 (fun t => Gse.hmmCut c em' t []) s (some true) = some ws') (hne : ws ≠ ws')
    (tr : List (Nat × Access)) (c' : Config F D (Option (List Bytes))) (hx : Exec (startLoading m c dflt prob [s]) tr c')
    (p q : Prog F D (Option (List Bytes))) (hp : c'.threads[0]? = some p) (hpe : Ended p) (hq : c'.threads[1]? = some q) (hqe : Ended q) :
    ¬ RaceFree tr := by
  have hd' := hd.put_emit em'
  have y1 := yields_cut c hd he 0 s true ws h1
  have y2 := yields_cut c hd' (put_same _ _ _) 0 s true ws' h2
  have ha : Asks m .emit (cutP c s true) := asks_of_differ (fun _ _ => rfl) (fun l hl => put_other _ _ hl) hne _ (reads_cut c s true) y1 y2
  intro hrf
  obtain ⟨own, done, hg'⟩ := guarded_exec (guarded_load dflt prob he (texts := [s]) (by simpa using ha)) hx
  have w := guarded_ended hg' hp hpe
  have r := guarded_ended hg' hq hqe
  simp only [if_true] at w
  rw [if_neg (by omega)] at r
  exact hrf 0 (.wr .emit) 1 (.rd .emit) w r (by omega) rfl

/-- Single characters are collected. -/
theorem hmmLoop_singles (d : Dictionary F D) (cut : Bytes → Option (List Bytes)) : ∀ (ps : List (List Rune)) (buf : List Rune),
    (∀ t ∈ ps, t.length = 1) → hmmLoop d cut ps buf = flushBuf d cut (buf ++ ps.flatten)
  | [], buf, _ => by simp [hmmLoop]
  | t :: ps, buf, h => by
    simp only [hmmLoop]
    rw [if_pos (h t (by simp)), hmmLoop_singles d cut ps _ fun u hu => h u (by simp [hu])]
    simp

/-- C73: a text of two or more characters, one of them Chinese, none of which starts a stored word, is such a text. -/
theorem C73_unknown_han [UnicodeOK] (cfg : SplitCfg) (ops : List (DictOp F)) (d : Dictionary F D) (hr : runOps cfg ops Dictionary.new = some d)
    (s : Bytes) (h2 : 2 ≤ (dagText cfg s).length) (hh : ∃ r ∈ dagText cfg s, Unicode.isHan r = true)
    (hu : ∀ r ∈ dagText cfg s, ¬ StartsStored d (encode [r])) : Gse.cut cfg d 0 refuseHan s (some true) = none := by
  have hI := idxOK_of_run hr
  have hv := dagRunes_valid cfg s
  rw [← dagRunes_eq] at h2 hh hu
  obtain ⟨R, e1, e2⟩ := calcRoutes_eq hI (dagRunes cfg s)
  obtain ⟨ps, w1, w2, _⟩ := walk_eq e2 (dagRunes cfg s).length 0 (by omega) (by omega)
  rw [List.drop_zero] at w2
  have hf := isRoute_flatten w2
  have hs : ∀ t ∈ ps, t.length = 1 := by
    intro t ht
    obtain ⟨hne, hp⟩ := isRoute_pieces w2 t ht
    rcases hp with hp | hp
    · obtain ⟨r, u, rfl⟩ := List.exists_cons_of_ne_nil hne
      refine absurd (posWord_starts hp (t := [r]) ⟨u, rfl⟩) (hu r ?_)
      rw [← hf]
      exact List.mem_flatten.mpr ⟨_, ht, by simp⟩
    · exact hp
  have key : cutDAG cfg d refuseHan s = none := by
    unfold cutDAG
    simp only [e1, w1, Option.bind_some]
    rw [hmmLoop_singles _ _ _ _ hs, hf, List.nil_append]
    unfold flushBuf
    rw [if_neg (by omega), if_neg (by omega)]
    have hne : dagRunes cfg s ≠ [] := by rintro h; rw [h] at h2; simp at h2
    obtain ⟨f, p, b, g1, g2, _⟩ := findRunes_spec hI hne
    have hb : b = false := by
      cases b with
      | false => rfl
      | true =>
        exfalso
        obtain ⟨k, tok, hk, hp⟩ := g2.mp rfl
        obtain ⟨r, u, hru⟩ := List.exists_cons_of_ne_nil hne
        refine hu r (by rw [hru]; simp) ⟨k, tok, hk, List.IsPrefix.trans ?_ hp⟩
        rw [hru]
        exact ⟨encode u, by simp [encode]⟩
    unfold hmmBuf
    rw [g1, hb]
    simp only [Bool.not_false, Bool.true_or, if_true, refuseHan]
    rw [runes_encode _ hv, if_pos]
    simpa using hh
  exact key

/-- C73: the same for a segmenter made by any history of dictionary calls: loading a model, for instance by creating another
segmenter, races with cutting any text of two or more characters, one of them Chinese, none of which starts a stored word. -/
theorem C73_load_race_history [UnicodeOK] (cfg : SplitCfg) (ops : List (DictOp F)) (d : Dictionary F D) (hr : runOps cfg ops Dictionary.new = some d)
    (m : Mem F D) (hm : ∃ n, m.Below n) (c : HmmConst F) (em dflt : EmitModel F) (prob : List (Rune → Option F)) (texts : List Bytes) (ht : texts ≠ [])
    (hd : HoldsDict m cfg d) (he : m .emit = some (.emit em))
    (hs : ∀ s ∈ texts, 2 ≤ (dagText cfg s).length ∧ (∃ r ∈ dagText cfg s, Unicode.isHan r = true) ∧ ∀ r ∈ dagText cfg s, ¬ StartsStored d (encode [r]))
    (tr : List (Nat × Access)) (c' : Config F D (Option (List Bytes))) (hx : Exec (startLoading m c dflt prob texts) tr c')
    (hend : ∀ i e c'', ¬ Step c' i e c'') : ¬ RaceFree tr := by
  refine C73_load_complete m hm cfg d c em dflt prob texts ⟨hd, he, fun s h => ?_, fun s _ => ?_⟩ ht tr c' hx hend
  · obtain ⟨h1, h2, h3⟩ := hs s h
    exact C73_unknown_han cfg ops d hr s h1 h2 h3
  · obtain ⟨o, h, _⟩ := C28_lossless cfg ops d hr c em 0 s
    rw [h]; simp

theorem wp_setEmit {sh o : Mem F D} {em : EmitModel F} (ho : o .emit = some (.emit em)) {y : Tag} {g : Rune → Option F} {Q : Unit → Mem F D → Prop}
    (hq : Q () (o.put .emit (.emit fun t => if t = y then g else em t))) : wp sh (setEmitP y g) o Q :=
  ⟨_, view_own ho, by rw [ho]; rfl, hq⟩

theorem wp_load {sh o : Mem F D} {em : EmitModel F} (ho : o .emit = some (.emit em)) (dflt : EmitModel F) (prob : List (Rune → Option F)) :
    wp sh (loadModelP dflt prob) o fun _ o' => o' .emit = some (.emit (loadModel dflt prob)) := by
  have key : ∀ (a b e s : Rune → Option F) (f : EmitModel F), f .B = a → f .E = b → f .M = e → f .S = s → wp sh (do
      setEmitP .B a
      setEmitP .E b
      setEmitP .M e
      setEmitP .S s : Prog F D Unit) o fun _ o' => o' .emit = some (.emit f) := by
    rintro a b e s f rfl rfl rfl rfl
    refine wp_bind (wp_setEmit ho (wp_bind (wp_setEmit (put_same _ _ _) (wp_bind (wp_setEmit (put_same _ _ _) (wp_setEmit (put_same _ _ _) ?_))))))
    rw [put_same]
    congr 2
    funext t
    cases t <;> simp
  unfold loadModelP
  split
  · exact key _ _ _ _ _ rfl rfl rfl rfl
  · next h =>
    have : loadModel dflt prob = dflt := by
      unfold loadModel
      split
      · exact absurd rfl (h _ _ _ _ _)
      · rfl
    rw [this]
    exact key _ _ _ _ _ rfl rfl rfl rfl

/-- C73: alone, `LoadModel` never panics and leaves the model it was given, or the default one. -/
theorem C73_load_alone (m : Mem F D) (c : HmmConst F) (em dflt : EmitModel F) (prob : List (Rune → Option F)) (he : m .emit = some (.emit em))
    (tr : List (Nat × Access)) (c' : Config F D (Option (List Bytes))) (hx : Exec (startLoading m c dflt prob []) tr c') :
    c'.threads ≠ [.panic] ∧ ∀ r, c'.threads = [.ret r] → c'.mem .emit = some (.emit (loadModel dflt prob)) := by
  have hI : Isolated noMem (startLoading m c dflt prob []) (fun i => if i = 0 then m else noMem)
      (fun _ _ m' => m' .emit = some (.emit (loadModel dflt prob))) := by
    refine ⟨fun l x h => (by cases h), ?_, fun _ _ _ _ => rfl, ?_, ?_⟩
    · intro i l x h
      split at h
      · exact h
      · cases h
    · intro i j l x hij h
      split at h
      · next hi => rw [if_neg (by omega)]; rfl
      · cases h
    · intro i p hp
      match i with
      | 0 =>
        simp only [startLoading, List.getElem?_cons_zero, Option.some.injEq] at hp
        subst hp
        exact wp_bind' _ _ (wp_mono (fun _ _ h => h) _ _ (wp_load he dflt prob))
      | i + 1 => simp [startLoading] at hp
  obtain ⟨own, hI', _, _⟩ := isolated_exec hI hx
  refine ⟨fun hp => hI'.goes 0 .panic (by rw [hp]; rfl), fun r hr => ?_⟩
  exact hI'.mine 0 _ _ (hI'.goes 0 (.ret r) (by rw [hr]; rfl))

/-! ## Loading two models at once -/

/-- Goroutines that each load a model. -/
def startLoads (m : Mem F D) (dflt : EmitModel F) (probs : List (List (Rune → Option F))) : Config F D Unit :=
  ⟨m, probs.map fun p => loadModelP dflt p⟩

/-- The program does nothing but read and write the model, and does not panic. -/
def Loads : Prog F D α → Prop
  | .ret _ => True
  | .panic => False
  | .read l k => l = .emit ∧ ∀ em, Loads (k (.emit em))
  | .write l c k => l = .emit ∧ (∃ em, c = .emit em) ∧ Loads k
  | .alloc _ _ => False

/-- The program writes the model before it ends. -/
def WillWrite : Prog F D α → Prop
  | .ret _ => False
  | .panic => False
  | .read _ k => ∀ em, WillWrite (k (.emit em))
  | .write _ _ _ => True
  | .alloc _ _ => False

theorem loads_load (dflt : EmitModel F) (prob : List (Rune → Option F)) : Loads (loadModelP dflt prob : Prog F D Unit) ∧ WillWrite (loadModelP dflt prob : Prog F D Unit) := by
  have key : ∀ a b e s, Loads (do
      setEmitP .B a
      setEmitP .E b
      setEmitP .M e
      setEmitP .S s : Prog F D Unit) ∧ WillWrite (do
      setEmitP .B a
      setEmitP .E b
      setEmitP .M e
      setEmitP .S s : Prog F D Unit) := fun a b e s =>
    ⟨⟨rfl, fun _ => ⟨rfl, ⟨_, rfl⟩, rfl, fun _ => ⟨rfl, ⟨_, rfl⟩, rfl, fun _ => ⟨rfl, ⟨_, rfl⟩, rfl, fun _ => ⟨rfl, ⟨_, rfl⟩, trivial⟩⟩⟩⟩⟩, fun _ => trivial⟩
  unfold loadModelP
  split <;> exact key ..

theorem loaders_exec {m : Mem F D} {em : EmitModel F} (he : m .emit = some (.emit em)) {dflt : EmitModel F} {probs : List (List (Rune → Option F))}
    {tr : List (Nat × Access)} {c' : Config F D Unit} (hx : Exec (startLoads m dflt probs) tr c') :
    (∃ em', c'.mem .emit = some (.emit em')) ∧
      ∀ (i : Nat) (p : Prog F D Unit), c'.threads[i]? = some p → Loads p ∧ (WillWrite p ∨ (i, Access.wr .emit) ∈ tr) := by
  induction hx with
  | refl =>
    refine ⟨⟨em, he⟩, fun i p hp => ?_⟩
    simp only [startLoads, List.getElem?_map, Option.map_eq_some_iff] at hp
    obtain ⟨q, _, rfl⟩ := hp
    exact ⟨(loads_load dflt q).1, .inl (loads_load dflt q).2⟩
  | @step tr c1 i e c2 _ hs ih =>
    obtain ⟨⟨em', hm⟩, ih⟩ := ih
    have other : ∀ {i j : Nat} {e : Access} {q : Prog F D Unit} {tr : List (Nat × Access)}, (WillWrite q ∨ (j, Access.wr .emit) ∈ tr) →
        (WillWrite q ∨ (j, Access.wr .emit) ∈ tr ++ [(i, e)]) := fun h => h.imp id fun h => by simp [h]
    cases hs with
    | @read l k x h1 h2 =>
      obtain ⟨g1, g2⟩ := ih i _ h1
      obtain ⟨rfl, g1⟩ := g1
      rw [hm] at h2; cases h2
      refine ⟨⟨em', hm⟩, fun j p hp => ?_⟩
      by_cases hij : i = j
      · subst hij
        rw [List.getElem?_set_self (List.getElem?_eq_some_iff.mp h1).1] at hp
        cases hp
        exact ⟨g1 em', other (g2.imp (fun h => h em') id)⟩
      · rw [List.getElem?_set_ne hij] at hp
        exact ⟨(ih j p hp).1, other (ih j p hp).2⟩
    | @write l x k h1 h2 =>
      obtain ⟨g1, g2⟩ := ih i _ h1
      obtain ⟨rfl, ⟨em2, rfl⟩, g1⟩ := g1
      refine ⟨⟨em2, by simp only [put_same]⟩, fun j p hp => ?_⟩
      by_cases hij : i = j
      · subst hij
        rw [List.getElem?_set_self (List.getElem?_eq_some_iff.mp h1).1] at hp
        cases hp
        exact ⟨g1, .inr (by simp)⟩
      · rw [List.getElem?_set_ne hij] at hp
        exact ⟨(ih j p hp).1, other (ih j p hp).2⟩
    | readBad h1 h2 =>
      obtain ⟨rfl, _⟩ := (ih _ _ h1).1
      rw [hm] at h2; cases h2
    | writeBad h1 h2 =>
      obtain ⟨rfl, _⟩ := (ih _ _ h1).1
      rw [hm] at h2; cases h2
    | alloc h1 _ => exact (ih _ _ h1).1.elim

/-- C73: two goroutines that each load a model, for instance by creating a segmenter, race under every interleaving. -/
theorem C73_loaders_race (m : Mem F D) (em dflt : EmitModel F) (he : m .emit = some (.emit em)) (probs : List (List (Rune → Option F)))
    (tr : List (Nat × Access)) (c' : Config F D Unit) (hx : Exec (startLoads m dflt probs) tr c') (i j : Nat) (hij : i ≠ j)
    (p q : Prog F D Unit) (hp : c'.threads[i]? = some p) (hpe : Ended p) (hq : c'.threads[j]? = some q) (hqe : Ended q) : ¬ RaceFree tr := by
  obtain ⟨_, h⟩ := loaders_exec he hx
  have w : ∀ (i : Nat) (p : Prog F D Unit), c'.threads[i]? = some p → Ended p → (i, Access.wr .emit) ∈ tr := by
    intro i p hp he
    rcases (h i p hp).2 with hw | hw
    · rcases he with ⟨a, rfl⟩ | rfl <;> exact hw.elim
    · exact hw
  exact fun hrf => hrf i (.wr .emit) j (.wr .emit) (w i p hp hpe) (w j q hq hqe) hij rfl

/-- Goroutine `i` makes one assignment. -/
theorem exec_setEmit {m0 m : Mem F D} {ps0 ps : List (Prog F D Unit)} {tr : List (Nat × Access)} (hx : Exec ⟨m0, ps0⟩ tr ⟨m, ps⟩) {em : EmitModel F}
    (hm : m .emit = some (.emit em)) (i : Nat) {k : Cell F D → Prog F D Unit} (hp : ps[i]? = some (.read .emit k)) {x : Cell F D} {p : Prog F D Unit}
    (hk : k (.emit em) = .write .emit x p) : ∃ tr', Exec ⟨m0, ps0⟩ tr' ⟨m.put .emit x, ps.set i p⟩ := by
  have hi := (List.getElem?_eq_some_iff.mp hp).1
  have h1 : Step ⟨m, ps⟩ i (.rd .emit) ⟨m, ps.set i (k (.emit em))⟩ := Step.read hp hm
  rw [hk] at h1
  have h2 := Step.write (c := ⟨m, ps.set i (.write .emit x p)⟩) (i := i) (List.getElem?_set_self hi) (by simp [hm])
  have := Exec.step (Exec.step hx h1) h2
  rw [List.set_set] at this
  exact ⟨_, this⟩

/-- C73: and the model left behind can be neither of the two, but the first three tables of one and the last of the other. -/
theorem C73_loaders_mix (m : Mem F D) (em dflt : EmitModel F) (he : m .emit = some (.emit em)) (b e t s b' e' t' s' : Rune → Option F) :
    ∃ tr c', Exec (startLoads m dflt [[b, e, t, s], [b', e', t', s']]) tr c' ∧ c'.threads = [.ret (), .ret ()] ∧
      c'.mem .emit = some (.emit (loadModel dflt [b', e', t', s])) := by
  have x0 : Exec (startLoads m dflt [[b, e, t, s], [b', e', t', s']]) [] _ := Exec.refl _
  obtain ⟨_, x1⟩ := exec_setEmit x0 he 0 rfl rfl
  obtain ⟨_, x2⟩ := exec_setEmit x1 (put_same _ _ _) 0 rfl rfl
  obtain ⟨_, x3⟩ := exec_setEmit x2 (put_same _ _ _) 0 rfl rfl
  obtain ⟨_, y1⟩ := exec_setEmit x3 (put_same _ _ _) 1 rfl rfl
  obtain ⟨_, y2⟩ := exec_setEmit y1 (put_same _ _ _) 1 rfl rfl
  obtain ⟨_, y3⟩ := exec_setEmit y2 (put_same _ _ _) 1 rfl rfl
  obtain ⟨_, y4⟩ := exec_setEmit y3 (put_same _ _ _) 1 rfl rfl
  obtain ⟨_, x4⟩ := exec_setEmit y4 (put_same _ _ _) 0 rfl rfl
  refine ⟨_, _, x4, rfl, ?_⟩
  simp only [put_same]
  congr 2
  funext y
  cases y <;> simp [loadModel]

end main

section examples
attribute [local instance] sampleUnicode sampleUnicodeOK sampleF64 sampleF32 sampleNarrow

/-- Five goroutines share a segmenter with two words: every call returns alone, so all of the above holds for them. -/
example : ∃ (d : Dictionary Int Int), runOps {} [.add (str "ab") 5 [], .add (str "w") 9 [], .recalc] Dictionary.new = some d ∧
    ∀ tr c', Exec (startUse ((memOf {} (some d) [str "ab w"]).put .emit (.emit hmmEmit)) hmmConst
      [.segment ⟨0, 0, 4⟩ (str "ab w") true, .cut hmmText true, .cutSearch (str "ab") false, .cutAll (str "abw"), .find (str "w")]) tr c' →
    RaceFree tr ∧ ∀ a, c'.threads[1]? = some (.ret a) → a = .words [encode [0x4E2D, 0x56FD], encode [0x4EBA]] := by
  have h : (runOps (F := Int) (D := Int) {} [.add (str "ab") 5 [], .add (str "w") 9 [], .recalc] Dictionary.new).isSome := by decide +kernel
  obtain ⟨d, hd⟩ := Option.isSome_iff_exists.mp h
  refine ⟨d, hd, fun tr c' hx => ?_⟩
  have hok : UseOK ((memOf {} (some d) [str "ab w"]).put .emit (.emit hmmEmit)) {} d hmmConst hmmEmit
      [.segment ⟨0, 0, 4⟩ (str "ab w") true, .cut hmmText true, .cutSearch (str "ab") false, .cutAll (str "abw"), .find (str "w")] := by
    refine C73_history {} _ d hd _ hmmConst hmmEmit _ ⟨(HoldsDict.put_emit ⟨(memOf_segmenter {} (some d) _).toHoldsTable, rfl⟩ hmmEmit).segmenter, ?_⟩ rfl
      (put_same _ _ _) ?_ ?_
    · exact (memOf_segmenter {} (some d) [str "ab w"]).dist
    · intro x hx
      simp only [List.mem_cons, List.not_mem_nil, or_false] at hx
      rcases hx with rfl | rfl | rfl | rfl | rfl <;> try trivial
      exact ⟨rfl, fun k b hb => by simp [memOf, Mem.put, hb]⟩
    · intro x hx
      simp only [List.mem_cons, List.not_mem_nil, or_false] at hx
      rcases hx with rfl | rfl | rfl | rfl | rfl <;> trivial
  refine ⟨C73_race_free _ {} d hmmConst hmmEmit _ hok tr c' hx, fun a ha => ?_⟩
  have key := (C73_result _ {} d hmmConst hmmEmit _ hok tr c' hx).2.2 1 a _ ha rfl
  have hw : (runOps (F := Int) (D := Int) {} [.add (str "ab") 5 [], .add (str "w") 9 [], .recalc] Dictionary.new).bind
      (fun d => Gse.cut {} d 0 (fun t => Gse.hmmCut hmmConst hmmEmit t []) hmmText (some true)) = some [encode [0x4E2D, 0x56FD], encode [0x4EBA]] := by decide +kernel
  rw [hd, Option.bind_some] at hw
  cases a with
  | words ws =>
    have : Gse.cut {} d 0 (fun t => Gse.hmmCut hmmConst hmmEmit t []) hmmText (some true) = some ws := key
    rw [hw] at this; cases this; rfl
  | _ => exact absurd key id

/-- One goroutine creates another segmenter, which loads the model; the other cuts 中国人 with a dictionary of Latin words: every
complete execution has a race. -/
example : ∃ (d : Dictionary Int Int), runOps {} [.add (str "w") 9 [], .recalc] Dictionary.new = some d ∧
    ∀ tr c', Exec (startLoading (memOf {} (some d) []) hmmConst hmmEmit [] [hmmText]) tr c' → (∀ i e c'', ¬ Step c' i e c'') → ¬ RaceFree tr := by
  have h : (runOps (F := Int) (D := Int) {} [.add (str "w") 9 [], .recalc] Dictionary.new).isSome := by decide +kernel
  obtain ⟨d, hd⟩ := Option.isSome_iff_exists.mp h
  refine ⟨d, hd, fun tr c' hx he => ?_⟩
  have hc : (runOps (F := Int) (D := Int) {} [.add (str "w") 9 [], .recalc] Dictionary.new).map
      (fun d => Gse.cut {} d 0 refuseHan hmmText (some true)) = some none := by decide +kernel
  rw [hd] at hc
  refine C73_load_complete (memOf {} (some d) []) ⟨_, memOf_below {} (some d) []⟩ {} d hmmConst (fun _ _ => none) hmmEmit [] [hmmText]
    ⟨⟨(memOf_segmenter {} (some d) []).toHoldsTable, rfl⟩, rfl, fun s hs => ?_, fun s _ => ?_⟩ (by simp) tr c' hx he
  · rw [List.mem_singleton.mp hs]
    simpa using hc
  · obtain ⟨o, h, _⟩ := C28_lossless {} _ d hd hmmConst (fun _ _ => none) 0 s
    rw [h]; simp

/-- The texts of `C73_unknown_han`: no character of 中国人 starts the word "w". -/
example : ∃ (d : Dictionary Int Int), runOps {} [.add (str "w") 9 [], .recalc] Dictionary.new = some d ∧ 2 ≤ (dagText {} hmmText).length ∧
    (∃ r ∈ dagText {} hmmText, Unicode.isHan r = true) ∧ ∀ r ∈ dagText {} hmmText, ¬ StartsStored d (encode [r]) := by
  have h : (runOps (F := Int) (D := Int) {} [.add (str "w") 9 [], .recalc] Dictionary.new).isSome := by decide +kernel
  obtain ⟨d, hd⟩ := Option.isSome_iff_exists.mp h
  have ht : dagText {} hmmText = [0x4E2D, 0x56FD, 0x4EBA] := by decide +kernel
  have hf : (runOps (F := Int) (D := Int) {} [.add (str "w") 9 [], .recalc] Dictionary.new).map
      (fun d => [0x4E2D, 0x56FD, 0x4EBA].map fun r => (findRunes d [r]).map (·.2.2)) = some [some false, some false, some false] := by decide +kernel
  rw [hd] at hf
  simp only [Option.map_some, List.map_cons, List.map_nil, Option.some.injEq, List.cons.injEq, and_true] at hf
  refine ⟨d, hd, by rw [ht]; decide, by rw [ht]; exact ⟨0x4E2D, by simp, by decide⟩, fun r hr hs => ?_⟩
  have key : ∀ r, (findRunes d [r]).map (·.2.2) = some false → ¬ StartsStored d (encode [r]) := by
    intro r h hs
    obtain ⟨f, p, b, g1, g2, _⟩ := findRunes_spec (idxOK_of_run hd) (t := [r]) (by simp)
    rw [g1, g2.mpr hs] at h; cases h
  rw [ht] at hr
  simp only [List.mem_cons, List.not_mem_nil, or_false] at hr
  rcases hr with rfl | rfl | rfl
  · exact key _ hf.1 hs
  · exact key _ hf.2.1 hs
  · exact key _ hf.2.2 hs

/-- Two models that cut 中国人 differently. -/
example : Gse.cut (F := Int) (D := Int) {} Dictionary.new 0 (fun t => Gse.hmmCut hmmConst hmmEmit t []) hmmText (some true) ≠
    Gse.cut (F := Int) (D := Int) {} Dictionary.new 0 (fun t => Gse.hmmCut hmmConst (fun y _ => if y = .S then some 0 else none) t []) hmmText (some true) := by decide +kernel
end examples
end Gse
