import Verif.Model.PosProg
import Verif.Props.Pos
import Verif.Props.TextRank
import Verif.Props.Extract

/-!
# C86: taggers and text rankers in any program
-/

namespace Gse
open Gse.Spec

set_option linter.unusedSectionVars false

section
variable {F D : Type} [F64 F] [F32 D] [Narrow F D] [Unicode] {E : CallEnv}

/-- A block with a character that is looked up makes the cut without a dictionary panic. -/
theorem posBlock_nil_none {blk : Bytes} {u : Bytes} (hu : u ∈ chars blk) (hp : posChar u = true) : posBlock posCutNil blk = none := by
  unfold posBlock
  have h1 : (reHanInternal blk).isSome = true := by
    unfold reHanInternal
    rw [classRun_isSome, List.any_eq_true]
    exact ⟨u, hu, by rw [hanInternalClass_iff]; exact hp⟩
  rw [if_pos h1, posCutNil, if_neg]
  intro h
  rw [runes_eq_chars] at h
  have := List.map_eq_nil_iff.1 h
  rw [this] at hu; cases hu

/-- Some block has the character. -/
theorem blocks_mem {s : Bytes} {blks : List Bytes} (hb : Blocks reHanInternal s blks) {u : Bytes} (hu : u ∈ chars s) (hp : posChar u = true) :
    ∃ b ∈ blks, ∃ v ∈ chars b, posChar v = true := by
  cases hb with
  | last _ => exact ⟨s, by simp, u, hu, hp⟩
  | @next _ a b l e _ =>
    rcases classRun_spec hanInternalClass s with ⟨e', _⟩ | ⟨a', b', us, e', _, _, _, h, _, hne, hall, _⟩
    · unfold reHanInternal at e; rw [e'] at e; cases e
    · unfold reHanInternal at e
      rw [e'] at e
      obtain ⟨rfl, rfl⟩ := Prod.mk.inj (Option.some.inj e)
      obtain ⟨v, vs, rfl⟩ := List.exists_cons_of_ne_nil hne
      refine ⟨slice s a' b', by simp, v, by rw [← h]; simp, ?_⟩
      rw [← hanInternalClass_iff]; exact hall v (by simp)

/-- C86: a tagger without dictionary panics exactly on the texts with a Han character, an ASCII letter or digit, or one of `+#&._`. -/
theorem C86_nil [UnicodeOK] (ch : Choice) (T : PosTables F) (s : Bytes) (hmm : Bool) :
    posCutOn ch T (none : Option (Dictionary F D)) s hmm = none ↔ ∃ u ∈ chars s, posChar u = true := by
  constructor
  · intro h
    by_contra hn
    obtain ⟨out, h1, _⟩ := posCutWith_out (cut := posCutNil) s (fun v hv hi hp => by
      exfalso
      cases hc : chars v with
      | nil => exact hv (by have := chars_flatten v; rw [hc] at this; simpa using this.symm)
      | cons u us => exact hn ⟨u, hi.subset (by rw [hc]; simp), hp u (by rw [hc]; simp)⟩)
    unfold posCutOn at h
    simp only at h
    rw [h1] at h; cases h
  · rintro ⟨u, hu, hp⟩
    simp only [posCutOn, posCutWith]
    obtain ⟨blks, e, hb⟩ := splitBy_blocks (classRun_range _) s
    unfold reHanInternal
    rw [e, Option.bind_some]
    obtain ⟨b, hb1, v, hv, hp'⟩ := blocks_mem hb hu hp
    rw [mapOpt_none.2 ⟨b, hb1, posBlock_nil_none hv hp'⟩]
    rfl

/-- C86: without such characters the dictionary does not matter. -/
theorem C86_same [UnicodeOK] (ch : Choice) (T : PosTables F) (s : Bytes) (hn : ∀ u ∈ chars s, posChar u = false) (hmm hmm' : Bool)
    (d d' : Option (Dictionary F D)) : posCutOn ch T d s hmm = posCutOn ch T d' s hmm' := by
  have key : ∀ cut, posCutWith cut s = posBlock posCutNil s := by
    intro cut
    have hr : reHanInternal s = none := by
      have : (classRun hanInternalClass s).isSome = false := by
        rw [classRun_isSome, List.any_eq_false]
        intro u hu; rw [hanInternalClass_iff, hn u hu]; simp
      simpa [reHanInternal] using this
    obtain ⟨blks, e, hb⟩ := splitBy_blocks (m := reHanInternal) (classRun_range _) s
    have hbl : blks = [s] := by
      cases hb with
      | last _ => rfl
      | next e' _ => rw [hr] at e'; cases e'
    simp only [posCutWith, e, hbl, Option.bind_some, mapOpt, posBlock, hr, Option.isSome_none, Bool.false_eq_true, if_false]
    cases splitBy reSkipInternal s <;> simp
  unfold posCutOn
  cases d <;> cases d' <;> simp only [posCut, key]

/-- The dictionary behind a variable. -/
theorem world_idx {ops : List (WorldOp F)} {w : World F D} (hw : ({} : World F D).run E ops = some w) {i : Nat} {v : SegVar F} (hv : w.vars[i]? = some v) :
    ((ledger E ops).hist i = none ∧ (w.seg v).dict = none) ∨
    ∃ h d, (ledger E ops).hist i = some h ∧ runMixed h Dictionary.new = some d ∧ (w.seg v).dict = some d ∧ IdxOK d := by
  obtain ⟨_, h1, h2⟩ := C83_dictionary hw i hv
  cases hh : (ledger E ops).hist i with
  | none => exact .inl ⟨rfl, h1 hh⟩
  | some h =>
    obtain ⟨d, g, e⟩ := h2 h hh
    exact .inr ⟨h, d, rfl, g, e, Dictionary.idx_of_entry (loose_of_run g).entry⟩

/-- C86: in any program, a tagger's `Cut` without HMM panics exactly when the tagger has no dictionary and the text has a character that is looked up. -/
theorem C86_panics [UnicodeOK] {ops : List (WorldOp F)} {w : World F D} (hw : ({} : World F D).run E ops = some w) {i : Nat} {v : SegVar F}
    (hv : w.vars[i]? = some v) (ch : Choice) (T : PosTables F) (s : Bytes) :
    posCutOn ch T (w.seg v).dict s false = none ↔ (ledger E ops).hist i = none ∧ ∃ u ∈ chars s, posChar u = true := by
  rcases world_idx hw hv with ⟨h, e⟩ | ⟨h, d, hh, g, e, hi⟩
  · rw [e, C86_nil, h]; simp
  · rw [e, hh]
    obtain ⟨out, h1, _⟩ := posCut_false_of hi ch T s
    simp [posCutOn, h1]

/-- C86: the same with HMM, for tables with finite numbers. -/
theorem C86_panics_hmm [UnicodeOK] {ops : List (WorldOp F)} {w : World F D} (hw : ({} : World F D).run E ops = some w) {i : Nat} {v : SegVar F}
    (hv : w.vars[i]? = some v) (ch : Choice) (T : PosTables F) (hT : PosTablesOK T) (bound : Nat) (size : Nat → F → Prop)
    (hf : PosFinite T bound size) (s : Bytes) (hb : 2 * (runes s).length ≤ bound) :
    posCutOn ch T (w.seg v).dict s true = none ↔ (ledger E ops).hist i = none ∧ ∃ u ∈ chars s, posChar u = true := by
  rcases world_idx hw hv with ⟨h, e⟩ | ⟨h, d, hh, g, e, hi⟩
  · rw [e, C86_nil, h]; simp
  · rw [e, hh]
    obtain ⟨out, h1, _⟩ := posCut_true_of hi ch T hT bound size hf s hb
    simp [posCutOn, h1]

/-- C86: what a tagger with a dictionary returns, whatever calls filled the dictionary and through which segmenters and with which flags they were made:
items that are the text and none of which is empty. -/
theorem C86_cut [UnicodeOK] {ops : List (WorldOp F)} {w : World F D} (hw : ({} : World F D).run E ops = some w) {i : Nat} {v : SegVar F}
    (hv : w.vars[i]? = some v) {h : List (SplitCfg × DictOp F)} (hh : (ledger E ops).hist i = some h) (ch : Choice) (T : PosTables F) (s : Bytes) :
    ∃ d : Dictionary F D, ∃ out, runMixed h Dictionary.new = some d ∧ posCutOn ch T (w.seg v).dict s false = some out ∧
      (out.map SegPos.text).flatten = encode (runes s) ∧ (ValidText s → (out.map SegPos.text).flatten = s) ∧
      (∀ p ∈ out, p.text ≠ []) ∧ PosOut (posCutNoHMM d) (chars s) out := by
  rcases world_idx hw hv with ⟨h', e⟩ | ⟨h', d, hh', g, e, hi⟩
  · rw [hh] at h'; cases h'
  · rw [hh] at hh'; cases hh'
    obtain ⟨out, h1, h2, h3, h4⟩ := posCut_false_of hi ch T s
    exact ⟨d, out, g, by rw [e]; exact h1, h2, h3, posCut_false_ne hi ch T s out h1, h4⟩

/-- C86: the same with HMM. -/
theorem C86_cut_hmm [UnicodeOK] {ops : List (WorldOp F)} {w : World F D} (hw : ({} : World F D).run E ops = some w) {i : Nat} {v : SegVar F}
    (hv : w.vars[i]? = some v) {h : List (SplitCfg × DictOp F)} (hh : (ledger E ops).hist i = some h) (ch : Choice) (T : PosTables F)
    (hT : PosTablesOK T) (bound : Nat) (size : Nat → F → Prop) (hf : PosFinite T bound size) (s : Bytes) (hb : 2 * (runes s).length ≤ bound) :
    ∃ d : Dictionary F D, ∃ out, runMixed h Dictionary.new = some d ∧ posCutOn ch T (w.seg v).dict s true = some out ∧
      (out.map SegPos.text).flatten = encode (runes s) ∧ (ValidText s → (out.map SegPos.text).flatten = s) ∧
      (∀ p ∈ out, p.text ≠ []) ∧ PosOut (posCutDAG d (cutDetail ch T)) (chars s) out := by
  rcases world_idx hw hv with ⟨h', e⟩ | ⟨h', d, hh', g, e, hi⟩
  · rw [hh] at h'; cases h'
  · rw [hh] at hh'; cases hh'
    obtain ⟨out, h1, h2, h3, h4⟩ := posCut_true_of hi ch T hT bound size hf s hb
    exact ⟨d, out, g, by rw [e]; exact h1, h2, h3, posCut_true_ne hi ch T hT bound size hf s hb out h1, h4⟩

/-- C86: in any program, `TextRank` panics exactly when the ranker has no dictionary and the text has a character that is looked up; otherwise it ranks the
items of `Cut(text, true)`. -/
theorem C86_rank [UnicodeOK] {ops : List (WorldOp F)} {w : World F D} (hw : ({} : World F D).run E ops = some w) {i : Nat} {v : SegVar F}
    (hv : w.vars[i]? = some v) (ch' ch : Choice) (K : RankConst F) (T : PosTables F) (hT : PosTablesOK T) (bound : Nat) (size : Nat → F → Prop)
    (hf : PosFinite T bound size) (s : Bytes) (hb : 2 * (runes s).length ≤ bound) (topK : Int) (allow : List Bytes) :
    (textRankOn ch' ch K T (w.seg v).dict s topK allow = none ↔ (ledger E ops).hist i = none ∧ ∃ u ∈ chars s, posChar u = true) ∧
    ∀ items, posCutOn ch' T (w.seg v).dict s true = some items →
      textRankOn ch' ch K T (w.seg v).dict s topK allow = some (textRankItems ch K items topK allow) := by
  refine ⟨?_, fun items hi => by simp [textRankOn, hi]⟩
  rw [← C86_panics_hmm hw hv ch' T hT bound size hf s hb]
  simp [textRankOn]

/-- The variables point to dictionaries that exist. -/
theorem ledger_below {ops : List (WorldOp F)} {w : World F D} (hw : ({} : World F D).run E ops = some w) {i : Nat} {p : Page F}
    (hp : (ledger E ops).pages[i]? = some p) : ∀ k, p.dict = some k → k < (ledger E ops).hists.length := by
  have hk := kept_start hw
  intro k hd
  rw [hk.hists.length_eq]
  rw [hk.pages, List.getElem?_map, Option.map_eq_some_iff] at hp
  obtain ⟨v, hv, rfl⟩ := hp
  exact hk.below v (List.mem_of_getElem? hv) k hd

/-- C86: `WithGse(seg)` and then `LoadDict` of the tagger `p`. If `LoadDict` was ever called on `seg`, the words go into the one dictionary of both;
otherwise the tagger gets a dictionary of its own with the words of the files only. -/
theorem C86_load {ops : List (WorldOp F)} {w : World F D} (hw : ({} : World F D).run E ops = some w) {p i : Nat} (hpi : p ≠ i)
    (hp : p < w.vars.length) {q : Page F} (hq : (ledger E ops).pages[i]? = some q) (fs : Bytes → Option Bytes) (files : Option Bytes) :
    let calls := (q.call E (.loadDict fs files)).2.2.map fun op => (q.cfg (ledger E ops).lower, op)
    let L' := ledger E (ops ++ [posWithGse p i, posLoadDict p fs files])
    (q.load = true → L'.hist i = ((ledger E ops).hist i).map (· ++ calls) ∧ L'.hist p = ((ledger E ops).hist i).map (· ++ calls)) ∧
    (q.load = false → L'.hist i = (ledger E ops).hist i ∧ L'.hist p = some calls) :=
  ledger_copy_load hpi (by rw [← C83_count hw]; exact hp) hq (ledger_below hw hq) fs files

/-- Two pages with one dictionary see the same calls. -/
theorem ledger_adds (E : CallEnv) {p i : Nat} {q : Page F} {k : Nat} (hk : q.dict = some k) : ∀ (dops : List (DictOp F)) (L : Ledger F), L.pages[i]? = some q →
    L.pages[p]? = some q → k < L.hists.length →
    let L' := (dops.map fun op => WorldOp.call i (.dict op)).foldl (Ledger.step E) L
    L'.hist p = (L.hist i).map (· ++ dops.map fun op => (q.cfg L.lower, op)) ∧ L'.hist i = L'.hist p
  | [], L, h1, h2, _ => by simp [Ledger.hist, h1, h2]
  | op :: dops, L, h1, h2, hl => by
    have e : L.step E (.call i (.dict op)) = { L with hists := L.hists.modify k (· ++ [(q.cfg L.lower, op)]) } := by
      obtain ⟨hlt, hx⟩ := List.getElem?_eq_some_iff.1 h1
      simp only [Ledger.step, h1, Page.call, Ledger.enter, hk, Bool.false_eq_true, if_false, List.map_cons, List.map_nil]
      congr 1
      rw [← hx]; exact List.set_getElem_self hlt
    have ih := ledger_adds E hk dops (L.step E (.call i (.dict op))) (by rw [e]; exact h1) (by rw [e]; exact h2) (by rw [e]; simpa using hl)
    intro L'
    refine ⟨?_, ih.2⟩
    have h := ih.1
    rw [e] at h
    simp only [List.map_cons, List.foldl_cons, L']
    rw [e, h]
    simp [Ledger.hist, h1, hk, List.getElem?_eq_getElem hl]

/-- C86: words added to or removed from the segmenter `i` after `WithGse` are added to or removed from the tagger `p` as well, if the segmenter had a
dictionary at that time. -/
theorem C86_live {ops : List (WorldOp F)} {w : World F D} (hw : ({} : World F D).run E ops = some w) {p i : Nat} (hp : p < w.vars.length)
    {q : Page F} (hq : (ledger E ops).pages[i]? = some q) {h : List (SplitCfg × DictOp F)} (hh : (ledger E ops).hist i = some h) (dops : List (DictOp F))
    {w' : World F D} (hw' : ({} : World F D).run E (ops ++ posWithGse p i :: dops.map fun op => .call i (.dict op)) = some w') :
    ∃ vp vi d, w'.vars[p]? = some vp ∧ w'.vars[i]? = some vi ∧
      runMixed (h ++ dops.map fun op => (q.cfg (ledger E ops).lower, op)) Dictionary.new = some d ∧
      (w'.seg vp).dict = some d ∧ (w'.seg vi).dict = some d := by
  obtain ⟨k, hk⟩ : ∃ k, q.dict = some k := by
    unfold Ledger.hist at hh
    rw [hq, Option.bind_some] at hh
    cases hd : q.dict with
    | none => rw [hd] at hh; cases hh
    | some k => exact ⟨k, rfl⟩
  have hpl : p < (ledger E ops).pages.length := by rw [← C83_count hw]; exact hp
  have e1 : (ledger E ops).step E (posWithGse p i) = { ledger E ops with pages := (ledger E ops).pages.set p q } := by
    simp [posWithGse, Ledger.step, hq]
  have hqi : ((ledger E ops).pages.set p q)[i]? = some q := by
    by_cases hpi : p = i
    · subst hpi; simp [hpl]
    · rw [List.getElem?_set_ne hpi]; exact hq
  have key := ledger_adds E (p := p) (i := i) hk dops ((ledger E ops).step E (posWithGse p i)) (by rw [e1]; exact hqi) (by rw [e1]; simp [hpl])
    (by rw [e1]; exact ledger_below hw hq k hk)
  have e2 : (dops.map fun op => WorldOp.call i (.dict op)).foldl (Ledger.step E) ((ledger E ops).step E (posWithGse p i)) =
      ledger E (ops ++ posWithGse p i :: dops.map fun op => .call i (.dict op)) := by simp [ledger]
  simp only [e2] at key
  have e3 : ((ledger E ops).step E (posWithGse p i)).hist i = some h := by
    rw [e1]; rw [← hh]; simp only [Ledger.hist, hqi, hq]
  have e4 : ((ledger E ops).step E (posWithGse p i)).lower = (ledger E ops).lower := by rw [e1]
  rw [e3, e4] at key
  obtain ⟨k1, k2⟩ := key
  rw [k1] at k2
  have get : ∀ j, (ledger E (ops ++ posWithGse p i :: dops.map fun op => .call i (.dict op))).hist j =
      some (h ++ dops.map fun op => (q.cfg (ledger E ops).lower, op)) →
      ∃ v d, w'.vars[j]? = some v ∧ runMixed (h ++ dops.map fun op => (q.cfg (ledger E ops).lower, op)) Dictionary.new = some d ∧ (w'.seg v).dict = some d := by
    intro j hj
    have hlt : j < w'.vars.length := by
      rw [C83_count hw']
      unfold Ledger.hist at hj
      obtain ⟨q', hq', _⟩ := Option.bind_eq_some_iff.1 hj
      exact (List.getElem?_eq_some_iff.1 hq').1
    obtain ⟨d, g1, g2⟩ := (C83_dictionary hw' j (List.getElem?_eq_getElem hlt)).2.2 _ hj
    exact ⟨_, d, List.getElem?_eq_getElem hlt, g1, g2⟩
  obtain ⟨vp, d, a1, a2, a3⟩ := get p k1
  obtain ⟨vi, d', b1, b2, b3⟩ := get i k2
  rw [a2] at b2; cases b2
  exact ⟨vp, vi, d, a1, b1, a2, a3, b3⟩

end

section examples
attribute [local instance] sampleUnicode sampleUnicodeOK sampleF32 infF64 infNarrow infLaws

/-- A segmenter that loaded a text, a tagger (variable 1) that got it, words added through the segmenter afterwards, a tagger without dictionary. -/
def tagOps : List (WorldOp (Option Int)) :=
  [.new, .call 0 (.dict (.add (str "x") (some 1) [])), .new, .new]
def tagProg : List (WorldOp (Option Int)) :=
  [.new, .new, .new, .call 0 (.loadDict (fun _ => some []) (some (str "f"))), posWithGse 1 0] ++ posOps.map fun op => .call 0 (.dict op)

/-- What variable `i` cuts after a program. -/
def tagShow (ops : List (WorldOp (Option Int))) (i : Nat) (texts : List Bytes) : Option (List (Option (List SegPos))) :=
  (({} : World (Option Int) Int).run copyEnv ops).bind fun w => (w.vars[i]?).map fun v => texts.map fun t => posCutOn choiceA posTables (w.seg v).dict t true

/-- The tagger has the words added later; the other one panics on a letter but not on white space and punctuation. -/
example : tagShow tagProg 1 [posText] = some [posCut choiceA posTables posDict posText true] ∧
    tagShow tagProg 2 [posText, str "!", str "\r\n "] = some [none, some [⟨str "!", str "x"⟩], some [⟨str "\r\n", str "x"⟩, ⟨str " ", str "x"⟩]] := by
  refine ⟨?_, ?_⟩ <;> decide +kernel

/-- A program whose first step on a nil dictionary panics is not a run. -/
example : tagShow tagOps 0 [] = none := by decide +kernel

/-- The calls behind the dictionary of the tagger. -/
example : ((ledger copyEnv tagProg).hist 1).map List.length = some 7 ∧ (ledger copyEnv tagProg).hist 2 = none ∧
    ((ledger copyEnv tagProg).pages.map (·.load)) = [true, true, false] := by
  refine ⟨?_, ?_, ?_⟩ <;> decide +kernel

end examples

section examples
attribute [local instance] sampleUnicode sampleUnicodeOK sampleF64 sampleF32 sampleNarrow

/-- The two cases of `C86_load`: what the segmenter and the tagger find after the tagger's `LoadDict`. -/
def tagFind (first : SegOp Int) : Option (List (List (Option Bool))) :=
  (({} : World Int Int).run copyEnv [.new, .new, .call 0 first, posWithGse 1 0, posLoadDict 1 copyFiles (some (str "f"))]).map fun w =>
    w.vars.map fun v => [str "ab", str "cat"].map fun t => (w.seg v).dict.bind fun d => (d.find t).map (·.2.2)

example : tagFind (.loadDict (fun _ => some (str "ab 5 n\n")) (some (str "f"))) = some [[some true, some true], [some true, some true]] ∧
    tagFind (.loadStr (str "ab 5 n")) = some [[some true, some false], [some false, some true]] := by
  refine ⟨?_, ?_⟩ <;> decide +kernel

end examples

end Gse
