import Verif.Proofs.Ledger
import Verif.Props.Flags
import Verif.Props.Copy

/-! # C83: what a whole program puts into its dictionaries, and where it can panic -/

namespace Gse
open Spec Segmenter

set_option linter.unusedSectionVars false

section main
variable {F D : Type} [F64 F] [F32 D] [Narrow F D] [Unicode] {E : CallEnv}

/-- C83: after any program over any number of segmenters, with all their copies, every segmenter has the dictionary that the calls of the ledger make of an
empty one, each call with the flags it was made with; it has none exactly if the ledger has none. Its settings are those of the ledger. -/
theorem C83_dictionary {ops : List (WorldOp F)} {w : World F D} (hw : ({} : World F D).run E ops = some w) (i : Nat) {v : SegVar F} (hv : w.vars[i]? = some v) :
    (∃ p, (ledger E ops).pages[i]? = some p ∧ (w.seg v).load = p.load ∧ (w.seg v).dictSep = p.sep ∧ (w.seg v).minTokenFreq = p.minFreq ∧
      (w.seg v).textFreq = p.textFreq ∧ (w.seg v).loadNoFreq = p.noFreq ∧ (w.seg v).cfg = p.cfg (ledger E ops).lower) ∧
    ((ledger E ops).hist i = none → (w.seg v).dict = none) ∧
    ∀ h, (ledger E ops).hist i = some h → ∃ d, runMixed h Dictionary.new = some d ∧ (w.seg v).dict = some d := by
  have hk := kept_start hw
  have hp : (ledger E ops).pages[i]? = some (pageOf v) := by rw [hk.pages]; simp [hv]
  refine ⟨⟨pageOf v, hp, rfl, rfl, rfl, rfl, rfl, by rw [hk.lower]; rfl⟩, ?_, ?_⟩
  · intro h
    simp only [Ledger.hist, hp, Option.bind_some] at h
    cases hd : v.dict with
    | none => simp [World.seg, hd]
    | some k =>
      have hlt := hk.below v (List.mem_of_getElem? hv) k hd
      have hl := hk.hists.length_eq
      simp only [pageOf, hd, Option.bind_some, List.getElem?_eq_none_iff] at h
      omega
  · intro h hh
    simp only [Ledger.hist, hp, Option.bind_some] at hh
    obtain ⟨k, hd, hh⟩ := Option.bind_eq_some_iff.1 hh
    have hd : v.dict = some k := hd
    have hlt := hk.below v (List.mem_of_getElem? hv) k hd
    obtain ⟨l, h1, h2⟩ := hk.get (List.getElem?_eq_getElem hlt)
    rw [hh] at h1; obtain rfl := Option.some.inj h1
    exact ⟨_, h2, by simp [World.seg, hd, hlt]⟩

/-- C83: and the program has as many segmenters as the ledger. -/
theorem C83_count {ops : List (WorldOp F)} {w : World F D} (hw : ({} : World F D).run E ops = some w) : w.vars.length = (ledger E ops).pages.length := by
  rw [(kept_start hw).pages]; simp

/-- C83: a call (not on the stop words) panics exactly if it has something to do on a dictionary and there is none, or if one of its dictionary calls
panics after those made so far. -/
theorem C83_call_panics {ops : List (WorldOp F)} {w : World F D} (hw : ({} : World F D).run E ops = some w) {i : Nat} {p : Page F}
    (hp : (ledger E ops).pages[i]? = some p) (c : SegOp F) (hc : ∀ op, c ≠ .stop op) :
    w.call E i c = none ↔
      ((p.call E c).2.1 = false ∧ (ledger E ops).hist i = none ∧ (p.call E c).2.2 ≠ []) ∨
      ∃ h, (if (p.call E c).2.1 then some [] else (ledger E ops).hist i) = some h ∧
        runMixed (h ++ (p.call E c).2.2.map fun op => (p.cfg (ledger E ops).lower, op)) (Dictionary.new : Dictionary F D) = none := by
  have hk := kept_start hw
  have hi : i < w.vars.length := by
    have := (List.getElem?_eq_some_iff.1 hp).1
    rwa [hk.pages, List.length_map] at this
  have hv := List.getElem?_eq_getElem hi
  generalize w.vars[i] = v at hv
  have hpe : p = pageOf v := by rw [hk.pages, List.getElem?_map, hv] at hp; exact (Option.some.inj hp).symm
  subst hpe
  obtain ⟨_, h1, h2⟩ := C83_dictionary hw i hv
  rw [C74_call_panic w hv]
  have hs : ¬ ∃ op, c = .stop op ∧ op.run E.stop (w.stopMap v) = none := fun ⟨op, e, _⟩ => hc op e
  simp only [hs, or_false]
  have hn : (v.dict.bind (w.dicts[·]?)).isNone = (pageOf v).dict.isNone := by
    cases hd : v.dict with
    | none => simp [pageOf, hd]
    | some k => simp [pageOf, hd, hk.below v (List.mem_of_getElem? hv) k hd]
  obtain ⟨hf, hrun⟩ := call_page E (pageOf v) w.toLower _ hn c hc
  rw [← seg_page] at hrun
  rw [hrun, hk.lower]
  have hdd : v.dict.bind (w.dicts[·]?) = (w.seg v).dict := rfl
  rw [hdd]
  generalize (pageOf v).call E c = r
  obtain ⟨q, fr, cs⟩ := r
  cases fr with
  | true =>
    simp only [if_true, Bool.true_or, Bool.true_eq_false, false_and, false_or, Option.map_eq_none_iff]
    constructor
    · intro h; exact ⟨[], rfl, by rw [List.nil_append, runMixed_same]; exact h⟩
    · rintro ⟨_, e, h⟩; cases e; rwa [List.nil_append, runMixed_same] at h
  | false =>
    simp only [Bool.false_eq_true, if_false, Bool.false_or, true_and]
    cases hh : (ledger E ops).hist i with
    | none =>
      rw [h1 hh]
      simp
    | some h =>
      obtain ⟨d, g1, g2⟩ := h2 h hh
      rw [g2]
      simp only [Option.map_eq_none_iff, Option.some.injEq, exists_eq_left', reduceCtorEq, false_and, false_or, runMixed_append, g1, Option.bind_some, runMixed_same]

/-- C83: what the segmenter finds: the first entry of every word in the ledger, with the words its flags made of it. -/
theorem C83_entries {ops : List (WorldOp F)} {w : World F D} (hw : ({} : World F D).run E ops = some w) {i : Nat} {v : SegVar F} (hv : w.vars[i]? = some v)
    {h : List (SplitCfg × DictOp F)} (hh : (ledger E ops).hist i = some h) (hl : h.length ≤ Trie.valueLimit) :
    ∃ d, (w.seg v).dict = some d ∧ ∀ k, (storedTok d k).map (fun t => (t.text, t.freq, t.pos)) = mixRun h k := by
  obtain ⟨d, h1, h2⟩ := (C83_dictionary hw i hv).2.2 h hh
  exact ⟨d, h2, C82_entries h hl d h1⟩

/-- C83: `Segment` and `ModeSegment` in any program: without a dictionary the result is empty, otherwise they panic exactly if some consecutive words of
the text spell a stored word whose entry was made of more words than are left. -/
theorem C83_segment_panics {ops : List (WorldOp F)} {w : World F D} (hw : ({} : World F D).run E ops = some w) {i : Nat} {v : SegVar F} (hv : w.vars[i]? = some v)
    (s : Bytes) (sm : Bool) :
    ((ledger E ops).hist i = none ∧ internalSegment (w.seg v).cfg (w.seg v).dict s sm = some []) ∨
    ∃ h d, (ledger E ops).hist i = some h ∧ (w.seg v).dict = some d ∧ runMixed h Dictionary.new = some d ∧
      (internalSegment (w.seg v).cfg (w.seg v).dict s sm = none ↔
        Overshoots d (splitTextToWords (w.seg v).cfg s) ∧ ¬ (sm = true ∧ (splitTextToWords (w.seg v).cfg s).length = 1)) := by
  obtain ⟨_, h1, h2⟩ := C83_dictionary hw i hv
  cases hh : (ledger E ops).hist i with
  | none => exact .inl ⟨rfl, by rw [h1 hh]; exact C12_no_dictionary _ _ _⟩
  | some h =>
    obtain ⟨d, g1, g2⟩ := h2 h hh
    exact .inr ⟨h, d, rfl, g2, g1, by rw [g2]; exact C82_panics_iff h d g1 _ s sm⟩

/-- Every call in the list was made with these flags. -/
def Steady (cfg : SplitCfg) (h : List (SplitCfg × DictOp F)) : Prop := ∀ x ∈ h, x.1 = cfg

theorem steady_run {cfg : SplitCfg} {h : List (SplitCfg × DictOp F)} (hs : Steady cfg h) (d : Dictionary F D) : runMixed h d = runOps cfg (h.map (·.2)) d := by
  rw [← runMixed_same]
  congr 1
  rw [List.map_map]
  conv => lhs; rw [← List.map_id h]
  exact List.map_congr_left fun x hx => by rw [← hs x hx]; rfl

/-- C83: if all calls on the dictionary of a segmenter were made with the flags the segmenter has now, whoever made them, its dictionary is one made by a
history with fixed flags: everything proved for such histories holds of it. In particular `Segment` returns and covers the text. -/
theorem C83_steady [UnicodeOK] {ops : List (WorldOp F)} {w : World F D} (hw : ({} : World F D).run E ops = some w) {i : Nat} {v : SegVar F} (hv : w.vars[i]? = some v)
    {h : List (SplitCfg × DictOp F)} (hh : (ledger E ops).hist i = some h) (hs : Steady (w.seg v).cfg h) :
    ∃ d, (w.seg v).dict = some d ∧ runOps (w.seg v).cfg (h.map (·.2)) Dictionary.new = some d ∧
      ∀ s, ∃ segs, internalSegment (w.seg v).cfg (w.seg v).dict s false = some segs ∧ Tiles 0 s.length segs := by
  obtain ⟨d, g1, g2⟩ := (C83_dictionary hw i hv).2.2 h hh
  rw [steady_run hs] at g1
  exact ⟨d, g2, g1, by rw [g2]; exact C08_tiling _ _ d g1⟩

/-- Calls that store and recalculate only. -/
def Storing (ops : List (DictOp F)) : Prop := ∀ op ∈ ops, op = .recalc ∨ ∃ t f p, op = .add t f p

theorem storing_total [UnicodeOK] {cfg : SplitCfg} {ops : List (DictOp F)} (h : Storing ops) {d : Dictionary F D} (hd : Reachable cfg d) : runOps cfg ops d ≠ none := by
  induction ops generalizing d with
  | nil => simp [runOps]
  | cons op ops ih =>
    have next : ∀ d', op.step cfg d = some d' → Reachable cfg d' := by
      obtain ⟨l, hl⟩ := hd
      intro d' h'
      exact ⟨l ++ [op], by rw [runOps_append, hl, Option.bind_some]; simp [runOps, h']⟩
    have h1 : ∃ d', op.step cfg d = some d' := by
      rcases h op (by simp) with rfl | ⟨t, f, p, rfl⟩
      · exact calcToken_total hd.wf
      · exact ⟨_, rfl⟩
    obtain ⟨d', h1⟩ := h1
    simp only [runOps, h1, Option.bind_some]
    exact ih (fun x hx => h x (by simp [hx])) (next d' h1)

theorem storing_load (es : List (Entry F)) : Storing (loadOps es) := by
  intro op hop
  simp only [loadOps, List.mem_append, List.mem_map, List.mem_singleton] at hop
  rcases hop with ⟨e, _, rfl⟩ | rfl
  · exact .inr ⟨_, _, _, rfl⟩
  · exact .inl rfl

theorem call_storing (p : Page F) (c : SegOp F) (hc : ∀ op, c ≠ .dict op) : Storing (p.call E c).2.2 := by
  cases c with
  | dict op => exact absurd rfl (hc op)
  | loadStr t => exact storing_load _
  | loadMap l => exact storing_load _
  | loadEmbed n =>
    intro op hop
    obtain ⟨t, _, ht⟩ := List.mem_flatMap.1 hop
    exact storing_load _ op ht
  | loadDict fs files =>
    intro op hop
    simp only [Page.call, fileOps, List.mem_append, List.mem_map] at hop
    rcases hop with ⟨e, _, rfl⟩ | hop
    · exact .inr ⟨_, _, _, rfl⟩
    · split at hop
      · cases hop
      · simp at hop; exact .inl hop
  | _ => intro op hop; cases hop

/-- C83: as long as the flags of the calls on a dictionary do not change, a call panics only for want of a dictionary, or when it removes a word that is not
stored but begins a stored one. So loading never panics on a segmenter that has a dictionary or makes one. -/
theorem C83_steady_panics [UnicodeOK] {ops : List (WorldOp F)} {w : World F D} (hw : ({} : World F D).run E ops = some w) {i : Nat} {p : Page F}
    (hp : (ledger E ops).pages[i]? = some p) (hs : ∀ h, (ledger E ops).hist i = some h → Steady (p.cfg (ledger E ops).lower) h ∧ h.length ≤ Trie.valueLimit)
    (c : SegOp F) (hc : ∀ op, c ≠ .stop op) (hn : w.call E i c = none) :
    ((p.call E c).2.1 = false ∧ (ledger E ops).hist i = none ∧ (p.call E c).2.2 ≠ []) ∨
    ∃ h t, (ledger E ops).hist i = some h ∧ (c = .dict (.remove t) ∨ ∃ f q, c = .dict (.reAdd t f q)) ∧
      (absRun (p.cfg (ledger E ops).lower) (h.map (·.2))).content (normText (p.cfg (ledger E ops).lower) t) = none ∧
      (normText (p.cfg (ledger E ops).lower) t = [] ∨
        ∃ k, (absRun (p.cfg (ledger E ops).lower) (h.map (·.2))).content k ≠ none ∧ normText (p.cfg (ledger E ops).lower) t <+: k) := by
  rcases (C83_call_panics hw hp c hc).1 hn with h | ⟨h, h1, h2⟩
  · exact .inl h
  · refine .inr ?_
    by_cases hd : ∃ op, c = .dict op
    · obtain ⟨op, rfl⟩ := hd
      simp only [Page.call, Bool.false_eq_true, if_false] at h1
      obtain ⟨hst, hl⟩ := hs h h1
      simp only [Page.call, List.map_cons, List.map_nil, runMixed_append] at h2
      cases hr : runMixed h (Dictionary.new : Dictionary F D) with
      | none =>
        exfalso
        have hi : i < w.vars.length := by
          rw [C83_count hw]; exact (List.getElem?_eq_some_iff.1 hp).1
        obtain ⟨d, g1, _⟩ := (C83_dictionary hw i (List.getElem?_eq_getElem hi)).2.2 h h1
        rw [g1] at hr; cases hr
      | some d =>
        rw [hr, Option.bind_some, runMixed] at h2
        have h2 : op.step (p.cfg (ledger E ops).lower) d = none := by
          cases ho : op.step (p.cfg (ledger E ops).lower) d with
          | none => rfl
          | some d' => rw [ho] at h2; cases h2
        rw [steady_run hst] at hr
        obtain ⟨t, g1, g2, g3⟩ := C12_history_total _ (h.map (·.2)) (by simpa using hl) d hr op h2
        refine ⟨h, t, h1, ?_, g2, g3⟩
        rcases g1 with rfl | ⟨f, q, rfl⟩
        · exact .inl rfl
        · exact .inr ⟨f, q, rfl⟩
    · exfalso
      have hd : ∀ op, c ≠ .dict op := fun op e => hd ⟨op, e⟩
      have hst := call_storing (E := E) p c hd
      have hh : Steady (p.cfg (ledger E ops).lower) h ∧ ∃ d : Dictionary F D, runMixed h Dictionary.new = some d := by
        cases hf : (p.call E c).2.1 with
        | true => rw [hf] at h1; cases h1; exact ⟨fun x hx => (by cases hx), _, rfl⟩
        | false =>
          rw [hf] at h1
          have hi : i < w.vars.length := by rw [C83_count hw]; exact (List.getElem?_eq_some_iff.1 hp).1
          obtain ⟨d, g1, _⟩ := (C83_dictionary hw i (List.getElem?_eq_getElem hi)).2.2 h h1
          exact ⟨(hs h h1).1, d, g1⟩
      obtain ⟨h3, d, h4⟩ := hh
      rw [runMixed_append, h4, Option.bind_some, runMixed_same] at h2
      rw [steady_run h3] at h4
      exact storing_total hst ⟨_, h4⟩ h2

/-- C83: `Cut` without HMM returns in every program in which the segmenter has a dictionary, whatever was done to the flags, and takes a route
through the dictionary. -/
theorem C83_cut [UnicodeOK] {ops : List (WorldOp F)} {w : World F D} (hw : ({} : World F D).run E ops = some w) {i : Nat} {v : SegVar F} (hv : w.vars[i]? = some v)
    (hh : (ledger E ops).hist i ≠ none) (s : Bytes) : ∃ d ps gs, (w.seg v).dict = some d ∧ IsRoute d (dagText (w.seg v).cfg s) ps ∧ IsRuns EngPiece ps gs ∧
      cutDAGNoHMM (w.seg v).cfg d s = some (gs.map fun g => encode g.flatten) := by
  obtain ⟨h, hh⟩ := Option.ne_none_iff_exists'.1 hh
  obtain ⟨d, g1, g2⟩ := (C83_dictionary hw i hv).2.2 h hh
  obtain ⟨ps, gs, h1, h2, h3⟩ := C82_cut h d g1 (w.seg v).cfg s
  exact ⟨d, ps, gs, g2, h1, h2, h3⟩

end main

section examples
deriving instance DecidableEq for DictOp
attribute [local instance] sampleUnicode sampleUnicodeOK sampleF64 sampleF32 sampleNarrow

/-- Two segmenters with one dictionary: one with `AlphaNum` loads a text, the other, without, adds a word and reads maps. -/
def ledgerOps : List (WorldOp Int) :=
  [.new, .new, .call 0 (.flags true false false), .call 0 (.settings (str ",") 3 [] false), .call 0 (.loadStr (str "ab, 5, n\ncd, 2, n")), .assign 1 0,
   .call 1 (.flags false false false), .call 1 (.dict (.add (str "ef") 6 (str "x"))), .call 1 (.loadMap [[(str "text", str "gh"), (str "freq", str "9")]])]

/-- The program runs, and the ledger has its calls: "cd" is too rare, the word of two letters is made of two words by the first segmenter only. -/
example : ((World.run copyEnv ledgerOps ({} : World Int Int)).map fun w => w.vars.length) = some 2 ∧
    (((ledger copyEnv ledgerOps).hist 0).map fun h => h.map fun x => (x.1.alphaNum, x.2)) =
      some [(true, .add (str "ab") 5 (str "n")), (true, .recalc), (false, .add (str "ef") 6 (str "x")), (false, .add (str "gh") 9 []), (false, .recalc)] ∧
    (ledger copyEnv ledgerOps).hist 1 = (ledger copyEnv ledgerOps).hist 0 ∧
    (mixRun (((ledger copyEnv ledgerOps).hist 0).getD []) (str "ab")) = some ([str "a", str "b"], 5, str "n") ∧
    (mixRun (((ledger copyEnv ledgerOps).hist 0).getD []) (str "ef")) = some ([str "ef"], 6, str "x") := by decide +kernel

/-- In this program `Segment` through the second segmenter panics on "ab", through the first it does not. -/
example : ((World.run copyEnv ledgerOps ({} : World Int Int)).map fun w => w.vars.map fun v =>
    (internalSegment (w.seg v).cfg (w.seg v).dict (str "ab") false).isSome) = some [true, false] := by decide +kernel

/-- A steady program meets the hypotheses of `C83_steady` and `C83_steady_panics`. -/
def steadyOps : List (WorldOp Int) :=
  [.new, .call 0 (.flags true false false), .call 0 (.loadEmbed none), .call 0 (.loadStr (str "ab 5 n")), .call 0 (.dict (.remove (str "ab")))]

example : (World.run copyEnv steadyOps ({} : World Int Int)).isSome = true ∧
    ((ledger copyEnv steadyOps).hist 0).map (fun h => decide (h.length = 5) && h.all fun x => x.1 == ⟨true, false, false, true⟩) = some true := by decide +kernel

/-- The calls that panic: on a segmenter without dictionary, removing the beginning of a word, and loading after `Empty`. -/
example : World.run copyEnv [.new, .call 0 (.dict .recalc)] ({} : World Int Int) = none ∧
    (World.run copyEnv (steadyOps ++ [.call 0 (.dict (.remove (str "z")))]) ({} : World Int Int)).isNone = true ∧
    (ledger copyEnv steadyOps).hist 0 ≠ none := by
  refine ⟨rfl, by decide +kernel, by decide +kernel⟩

end examples
end Gse
