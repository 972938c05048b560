import Verif.Spec.Content
import Verif.Proofs.Content
import Verif.Props.Dict
import Verif.Props.Exact
import Verif.Props.IeeeRest
import Verif.Props.Pos

/-!
# Only the content of a dictionary counts

C89: what a segmenter answers is determined by the words stored with their frequencies and tags, and by the sum of the frequencies ever
stored; the order in which words were added does not matter.
-/

namespace Gse
open Spec

set_option linter.unusedSectionVars false

section
variable {F D : Type} [F64 F] [F32 D] [Narrow F D] [Unicode]

theorem agree_cuts [UnicodeOK] {cfg : SplitCfg} {d d' : Dictionary F D} (h : SameStore cfg (fun _ => True) Eq d d') (ht : d.totalFreq = d'.totalFreq) :
    SameCuts cfg d d' where
  find w := by rw [h.find]
  cut fuel hmm s b := by
    cases b
    · exact cutDAGNoHMM_find h.find ht cfg s
    · exact cutDAG_find h.find ht cfg hmm s
  cutAll s := cutAll_find h.find cfg s
  cutSearch fuel hmm s b := by
    have hs : searchWord d = searchWord d' := funext fun w => searchWord_find h.find w
    simp only [cutSearch, cutForSearch, hs]
    cases b
    · simp only [cut, cutDAGNoHMM_find h.find ht]
    · simp only [cut, cutDAG_find h.find ht]
  suggest ws := suggestFreq_find h.find ht cfg ws
  analyze text t1 by' := analyze_find h.find cfg text t1 by'

theorem total_spent {cfg : SplitCfg} {ops : List (DictOp F)} (hl : ops.length ≤ Trie.valueLimit) {d : Dictionary F D}
    (hr : runOps cfg ops Dictionary.new = some d) : d.totalFreq = (absRun cfg ops).spent := (C06_counters cfg ops hl d hr).2.1

/-- C89: two histories after which the same words are stored with the same frequencies and tags, and which stored the same sum of
frequencies, give the same answers to `Find`, `Cut`, `CutAll`, `CutSearch` with a flag, `SuggestFreq` and `Analyze`. -/
theorem C89_cuts [UnicodeOK] (cfg : SplitCfg) (ops ops' : List (DictOp F)) (hl : ops.length ≤ Trie.valueLimit) (hl' : ops'.length ≤ Trie.valueLimit)
    (d d' : Dictionary F D) (hr : runOps cfg ops Dictionary.new = some d) (hr' : runOps cfg ops' Dictionary.new = some d')
    (hc : (absRun cfg ops).content = (absRun cfg ops').content) (hs : (absRun cfg ops).spent = (absRun cfg ops').spent) : SameCuts cfg d d' :=
  agree_cuts (agree_of_content hl hl' hr hr' fun k _ => congrFun hc k) (by rw [total_spent hl hr, total_spent hl' hr', hs])

/-- Dictionaries that agree in the words of a text, in their distances and in what they consist of. -/
theorem agree_for [UnicodeOK] {cfg : SplitCfg} {P : Bytes → Prop} {d d' : Dictionary F D} (h : SameStore cfg P Eq d d') (h1 : SameDist P d d') (h2 : SubsSim P d d')
    (s : Bytes) (hP : ∀ c k, P (slice (splitTextToWords cfg s) c k).flatten) : SameFor cfg d d' s := by
  refine ⟨?_, ?_, ?_, ?_⟩
  all_goals
    intros
    first | unfold seen | unfold segSlice | unfold segString | unfold segPos
    rename_i mode
    have := internalSegment_sim h h1 s hP mode
    revert this
    generalize internalSegment cfg (some d) s mode = a
    generalize internalSegment cfg (some d') s mode = b
    intro this
    cases this with
    | none => rfl
    | some hab => ?_
  · simp only [Option.map_some, Option.some.injEq]
    induction hab with
    | nil => rfl
    | @cons g g' _ _ hg _ ih =>
      rw [List.map_cons, List.map_cons, ih, hg.1, hg.2.1]
      congr 3
      obtain ⟨_, _, hr⟩ := hg
      revert hr
      generalize g.tok = r
      generalize g'.tok = r'
      intro hr
      cases hr with
      | pseudo w => rfl
      | idx hk k1 k2 =>
        obtain ⟨t, e1, _⟩ := h.wf.entry _ _ k1
        obtain ⟨t', e2, _⟩ := h.wf'.entry _ _ k2
        simp only [Dictionary.deref, e1, e2, Option.map_some, h.text k1 k2 e1 e2, (h.entry _ _ _ _ _ hk k1 k2 e1 e2).1, (h.entry _ _ _ _ _ hk k1 k2 e1 e2).2,
          h1 _ _ _ _ _ hk k1 k2 e1 e2]
  · exact toSlice_sim h h2 _ hab _
  · exact toString_sim h h2 _ hab _
  · exact toPos_sim h h2 _ hab _

/-- C89: after a recalculation they also give the same segments, with the same positions, texts, frequencies, tags and distances, and the
same `Slice`, `String` and `Pos`, in both modes. -/
theorem C89_segments [UnicodeOK] (cfg : SplitCfg) (ops ops' : List (DictOp F)) (hl : ops.length ≤ Trie.valueLimit) (hl' : ops'.length ≤ Trie.valueLimit)
    (d0 d0' d d' : Dictionary F D) (hr : runOps cfg ops Dictionary.new = some d0) (hr' : runOps cfg ops' Dictionary.new = some d0')
    (hc : (absRun cfg ops).content = (absRun cfg ops').content) (hs : (absRun cfg ops).spent = (absRun cfg ops').spent)
    (hd : calcToken d0 = some d) (hd' : calcToken d0' = some d') : SameSegments cfg d d' ∧ SameCuts cfg d d' := by
  have ht : d0.totalFreq = d0'.totalFreq := by rw [total_spent hl hr, total_spent hl' hr', hs]
  have h0 := agree_of_content (P := fun _ => True) hl hl' hr hr' fun k _ => congrFun hc k
  obtain ⟨h, h1, h2⟩ := calcToken_sim h0 (sameDist_withDistances h0 fun _ _ _ _ _ _ e => by rw [ht, e]) (fun _ _ _ _ => trivial) hd hd'
  have hs := fun s => agree_for h h1 h2 s fun _ _ => trivial
  exact ⟨⟨fun s => (hs s).segment, fun f s => (hs s).slice f, fun f s => (hs s).string f, fun f s => (hs s).pos f⟩,
    agree_cuts h (by rw [(calcToken_subs hd).2.2.2.1, (calcToken_subs hd').2.2.2.1, ht])⟩

/-! ### Order -/

/-- The calls that add these entries. -/
def adds (es : List (Bytes × F × Bytes)) : List (DictOp F) := es.map fun e => .add e.1 e.2.1 e.2.2

theorem adds_run (cfg : SplitCfg) (es : List (Bytes × F × Bytes)) (h : (es.map fun e => normText cfg e.1).Nodup) :
    (∀ k, (absRun cfg (adds es)).content k = (es.find? fun e => normText cfg e.1 == k).map (·.2)) ∧
    (absRun cfg (adds es)).stored = es.map fun e => (e.1, e.2.1) := by
  induction es using List.reverseRecOn with
  | nil => exact ⟨fun _ => rfl, rfl⟩
  | append_singleton es e ih =>
    rw [List.map_append, List.nodup_append] at h
    obtain ⟨h1, _, h3⟩ := h
    obtain ⟨i1, i2⟩ := ih h1
    have hnone : (absRun cfg (adds es)).content (normText cfg e.1) = none := by
      rw [i1, Option.map_eq_none_iff, List.find?_eq_none]
      intro x hx hk
      exact h3 _ (List.mem_map_of_mem hx) (normText cfg e.1) (by simp) (by simpa using hk)
    have e1 : absRun cfg (adds (es ++ [e])) = (absRun cfg (adds es)).add cfg e.1 e.2.1 e.2.2 := by
      rw [adds, List.map_append]
      exact absRun_snoc cfg _ _
    rw [e1]
    refine ⟨fun k => ?_, ?_⟩
    · rw [content_add, List.find?_append, i1]
      by_cases hk : k = normText cfg e.1
      · subst hk
        rw [i1] at hnone
        rw [Option.map_eq_none_iff] at hnone
        simp [hnone]
      · have : (normText cfg e.1 == k) = false := by simpa using fun h => hk h.symm
        simp [hk, this]
    · unfold AbsDict.add
      rw [hnone]
      simp [i2]

theorem find?_perm {α : Type} {p : α → Bool} {l l' : List α} (h : l.Perm l') (hu : ∀ a ∈ l, ∀ b ∈ l, p a = true → p b = true → a = b) :
    l.find? p = l'.find? p := by
  cases h1 : l.find? p with
  | none =>
    symm
    rw [List.find?_eq_none] at h1 ⊢
    exact fun x hx => h1 x (h.mem_iff.2 hx)
  | some a =>
    have ha := List.mem_of_find?_eq_some h1
    have hp := List.find?_some h1
    cases h2 : l'.find? p with
    | none =>
      rw [List.find?_eq_none] at h2
      exact absurd hp (h2 a (h.mem_iff.1 ha))
    | some b =>
      rw [hu a ha b (h.mem_iff.2 (List.mem_of_find?_eq_some h2)) hp (List.find?_some h2)]

/-- C89: the same entries, no two of the same word, in whatever order leave the same content, and the same frequencies to add up. -/
theorem C89_order_content (cfg : SplitCfg) (es es' : List (Bytes × F × Bytes)) (hp : es.Perm es') (h : (es.map fun e => normText cfg e.1).Nodup) :
    (absRun cfg (adds es)).content = (absRun cfg (adds es')).content ∧
    ((absRun cfg (adds es)).stored.map (·.2)).Perm ((absRun cfg (adds es')).stored.map (·.2)) := by
  obtain ⟨a1, a2⟩ := adds_run cfg es h
  obtain ⟨b1, b2⟩ := adds_run cfg es' ((hp.map _).nodup_iff.1 h)
  refine ⟨funext fun k => ?_, by rw [a2, b2]; exact (hp.map _).map _⟩
  rw [a1, b1, find?_perm hp]
  intro x hx y hy h1 h2
  exact List.inj_on_of_nodup_map h hx hy (by simp at h1 h2; rw [h1, h2])

theorem adds_length (es : List (Bytes × F × Bytes)) : (adds es).length = es.length := by simp [adds]

/-- C89: so the order of adding does not matter where the sum of the frequencies does not depend on it. -/
theorem C89_order [UnicodeOK] (hadd : ∀ a b c : F, F64.add (F64.add a b) c = F64.add (F64.add a c) b) (cfg : SplitCfg) (es es' : List (Bytes × F × Bytes))
    (hp : es.Perm es') (h : (es.map fun e => normText cfg e.1).Nodup) (hl : es.length ≤ Trie.valueLimit) (d0 d0' d d' : Dictionary F D)
    (hr : runOps cfg (adds es) Dictionary.new = some d0) (hr' : runOps cfg (adds es') Dictionary.new = some d0')
    (hd : calcToken d0 = some d) (hd' : calcToken d0' = some d') : SameSegments cfg d d' ∧ SameCuts cfg d d' := by
  obtain ⟨h1, h2⟩ := C89_order_content cfg es es' hp h
  refine C89_segments cfg _ _ (by rwa [adds_length]) (by rwa [adds_length, ← hp.length_eq]) d0 d0' d d' hr hr' h1 ?_ hd hd'
  exact h2.foldl_eq' (fun x _ y _ z => hadd z x y) _

/-- C89: for a tagger of package hmm/pos it does matter: the word added first has no tag. -/
theorem C89_pos_order (cfg : SplitCfg) (t1 t2 p1 p2 : Bytes) (f1 f2 : F) (hne : normText cfg t1 ≠ normText cfg t2) (d d' : Dictionary F D)
    (hr : runOps cfg (adds [(t1, f1, p1), (t2, f2, p2)]) Dictionary.new = some d) (hr' : runOps cfg (adds [(t2, f2, p2), (t1, f1, p1)]) Dictionary.new = some d') :
    posOf d (normText cfg t1) = some none ∧ posOf d' (normText cfg t1) = some (some p1) := by
  refine ⟨(C52_pos cfg _ (by simp [adds, Trie.valueLimit]) d hr _).1 ?_, ?_⟩
  · refine ⟨[], _, _, rfl, by simp, rfl, ?_⟩
    intro o ho
    simp at ho
    subst ho
    simp [Removes]
  · rw [(C52_pos cfg _ (by simp [adds, Trie.valueLimit]) d' hr' _).2]
    · rw [(adds_run cfg [(t2, f2, p2), (t1, f1, p1)] (by simpa using fun h => hne h.symm)).1]
      simp [List.find?, beq_false_of_ne fun h => hne h.symm]
    · rintro ⟨pre, op, post, e, h1, h2, _⟩
      cases pre with
      | nil =>
        simp [adds] at e
        rw [← e.1] at h2
        exact hne h2.symm
      | cons o pre =>
        simp [adds] at e
        refine h1 o (by simp) (normText cfg t2) ?_
        rw [← e.1]
        exact rfl

end

/-! ### Without rounding, and with it -/

section exact
variable [Unicode] [ParseFn]

/-- C89: without rounding the order of adding does not matter. -/
theorem C89_order_exact [UnicodeOK] (cfg : SplitCfg) (es es' : List (Bytes × EReal × Bytes)) (hp : es.Perm es')
    (h : (es.map fun e => normText cfg e.1).Nodup) (hl : es.length ≤ Trie.valueLimit) (d0 d0' d d' : Dictionary EReal EReal)
    (hr : runOps cfg (adds es) Dictionary.new = some d0) (hr' : runOps cfg (adds es') Dictionary.new = some d0')
    (hd : calcToken d0 = some d) (hd' : calcToken d0' = some d') : SameSegments cfg d d' ∧ SameCuts cfg d d' :=
  C89_order (fun a b c => show a + b + c = a + c + b from add_right_comm a b c) cfg es es' hp h hl d0 d0' d d' hr hr' hd hd'

end exact

section ieee
variable {M : MathFns} [Unicode]

/-- C89: with IEEE arithmetic neither, when the frequencies are whole numbers with a sum of up to 2^53. -/
theorem C89_order_ieee [UnicodeOK] (cfg : SplitCfg) (ns ns' : List (Bytes × Nat × Bytes)) (hp : ns.Perm ns')
    (h : (ns.map fun e => normText cfg e.1).Nodup) (hl : ns.length ≤ Trie.valueLimit) (hs : (ns.map fun e => e.2.1).sum ≤ 2 ^ 53)
    (d0 d0' d d' : Dictionary (Binary64 M) Binary32)
    (hr : runOps cfg (adds (ns.map fun e => (e.1, F64.ofNat e.2.1, e.2.2))) Dictionary.new = some d0)
    (hr' : runOps cfg (adds (ns'.map fun e => (e.1, F64.ofNat e.2.1, e.2.2))) Dictionary.new = some d0')
    (hd : calcToken d0 = some d) (hd' : calcToken d0' = some d') : SameSegments cfg d d' ∧ SameCuts cfg d d' := by
  have key : ∀ l : List (Bytes × Nat × Bytes), (l.map fun e => normText cfg e.1).Nodup →
      (absRun cfg (adds (l.map fun e => (e.1, (F64.ofNat e.2.1 : Binary64 M), e.2.2)))).stored.map (·.2) = (l.map fun e => e.2.1).map F64.ofNat := by
    intro l hn
    rw [(adds_run cfg _ (by simpa [Function.comp_def] using hn)).2]
    simp [Function.comp_def]
  have hn' := (hp.map fun e => normText cfg e.1).nodup_iff.1 h
  have hs' : (ns'.map fun e => e.2.1).sum = (ns.map fun e => e.2.1).sum := (hp.map fun e => e.2.1).sum_eq.symm
  refine C89_segments cfg _ _ (by rw [adds_length]; simpa using hl) (by rw [adds_length]; simpa using hp.length_eq ▸ hl) d0 d0' d d' hr hr'
    (C89_order_content cfg _ _ (hp.map _) (by simpa [Function.comp_def] using h)).1 ?_ hd hd'
  unfold AbsDict.spent
  rw [key ns h, key ns' hn', foldl_add_ofNat _ 0 (by omega), foldl_add_ofNat _ 0 (by omega), hs']

end ieee

/-! ### Examples -/

section examples
attribute [local instance] sampleUnicode sampleUnicodeOK sampleF64 sampleF32 sampleNarrow

/-- Three words. -/
def someEntries : List (Bytes × Int × Bytes) := [(str "ab c", 8, str "n"), (str "AB", 4, str "v"), (str "c", 16, [])]

def answers (ops : List (DictOp Int)) (s : Bytes) : Option (Option (List Bytes) × Option (List Bytes) × Option (List Nat)) :=
  (runOps (D := Int) {} (ops ++ [.recalc]) Dictionary.new).map fun d =>
    (segSlice {} d 9 s true, cutDAGNoHMM {} d s, (internalSegment {} (some d) s false).map fun g => g.map (·.stop))

example : (someEntries.map fun e => normText {} e.1).Nodup ∧ answers (adds someEntries) (str "ab c ab") = answers (adds someEntries.reverse) (str "ab c ab") ∧
    answers (adds someEntries) (str "ab c ab") =
      some (some [str "ab c", str " ", str "ab"], some [str "ab c", str " ", str "ab"], some [4, 5, 7]) := by
  refine ⟨?_, ?_, ?_⟩ <;> decide +kernel

/-- 中 and 国 common, 中国 rare. -/
def rareOps : List (DictOp Int) := [.add (encode [0x4E2D]) 2000 [], .add (encode [0x56FD]) 2000 [], .add (encode [0x4E2D, 0x56FD]) 2 []]

/-- C89: the sum of all frequencies ever stored does count: after adding a frequent word and removing it again the same words are stored with
the same frequencies, but `Segment` and `Cut` find another segmentation. -/
theorem C89_removed : ∃ (d0 d0' d d' : Dictionary Int Int) (w s : Bytes) (f : Int), runOps {} rareOps Dictionary.new = some d0 ∧
    runOps {} (rareOps ++ [.add w f [], .remove w]) Dictionary.new = some d0' ∧ calcToken d0 = some d ∧ calcToken d0' = some d' ∧
    (absRun {} rareOps).content = (absRun {} (rareOps ++ [.add w f [], .remove w])).content ∧
    segSlice {} d 2 s false ≠ segSlice {} d' 2 s false ∧ cutDAGNoHMM {} d s ≠ cutDAGNoHMM {} d' s := by
  have h1 : ((runOps (D := Int) {} rareOps Dictionary.new).bind calcToken).isSome = true := by decide +kernel
  have h2 : ((runOps (D := Int) {} (rareOps ++ [.add (str "a") (2 ^ 30) [], .remove (str "a")]) Dictionary.new).bind calcToken).isSome = true := by
    decide +kernel
  obtain ⟨d, h⟩ := Option.isSome_iff_exists.1 h1
  obtain ⟨d0, e1, e2⟩ := Option.bind_eq_some_iff.1 h
  obtain ⟨d', h'⟩ := Option.isSome_iff_exists.1 h2
  obtain ⟨d0', e1', e2'⟩ := Option.bind_eq_some_iff.1 h'
  refine ⟨d0, d0', d, d', str "a", encode [0x4E2D, 0x56FD], 2 ^ 30, e1, e1', e2, e2', ?_, ?_, ?_⟩
  · have : absRun {} (rareOps ++ [DictOp.add (str "a") (2 ^ 30) [], .remove (str "a")]) =
        ((absRun {} rareOps).add {} (str "a") (2 ^ 30) []).remove {} (str "a") := by
      rw [← List.singleton_append, ← List.append_assoc, absRun_snoc, absRun_snoc]; rfl
    rw [this]
    have hn : (absRun {} rareOps).content (normText {} (str "a")) = none := by decide +kernel
    funext k
    simp only [AbsDict.remove, content_add]
    by_cases hk : k = normText {} (str "a")
    · subst hk; simp [hn]
    · simp [hk]
  · have k1 : ((runOps (D := Int) {} rareOps Dictionary.new).bind calcToken).bind (fun d => segSlice {} d 2 (encode [0x4E2D, 0x56FD]) false) =
        some [encode [0x4E2D], encode [0x56FD]] := by decide +kernel
    have k2 : ((runOps (D := Int) {} (rareOps ++ [.add (str "a") (2 ^ 30) [], .remove (str "a")]) Dictionary.new).bind calcToken).bind
        (fun d => segSlice {} d 2 (encode [0x4E2D, 0x56FD]) false) = some [encode [0x4E2D, 0x56FD]] := by decide +kernel
    rw [h] at k1; rw [h'] at k2
    simp only [Option.bind_some] at k1 k2
    rw [k1, k2]; decide
  · have k1 : ((runOps (D := Int) {} rareOps Dictionary.new).bind calcToken).bind (fun d => cutDAGNoHMM {} d (encode [0x4E2D, 0x56FD])) =
        some [encode [0x4E2D], encode [0x56FD]] := by decide +kernel
    have k2 : ((runOps (D := Int) {} (rareOps ++ [.add (str "a") (2 ^ 30) [], .remove (str "a")]) Dictionary.new).bind calcToken).bind
        (fun d => cutDAGNoHMM {} d (encode [0x4E2D, 0x56FD])) = some [encode [0x4E2D, 0x56FD]] := by decide +kernel
    rw [h] at k1; rw [h'] at k2
    simp only [Option.bind_some] at k1 k2
    rw [k1, k2]; decide

example : normText {} (str "a") ≠ normText {} (str "b") := by decide +kernel

end examples
end Gse
