import Verif.Proofs.CostPos
import Verif.Props.CostCut
import Verif.Props.PosConc

/-! # C117: the work of taggers and text rankers, from above and from below -/

namespace Gse
open Spec Prog

set_option linter.unusedSectionVars false

section
variable {F D : Type} [F64 F] [F32 D] [Narrow F D] [Unicode]

/-- The characters of a text that a tagger looks up: Chinese ones, letters and digits of ASCII and those of `+#&._`. -/
def askedChars (s : Bytes) : Nat := (chars s).countP posChar

namespace TagCall

/-- The bound of C117: `L` is the number of atomic words and `M` the number of bytes of the longest stored word. -/
def bound (L M : Nat) : TagCall F → Nat
  | .use y => y.bound L M
  | .cut _ _ s _ | .rank _ _ _ _ s _ _ => (14 * (M + 1) + 16) * askedChars s

/-- What a call costs at least. -/
def least : TagCall F → Nat
  | .use (.cut s _) | .use (.cutDAG s _) | .use (.cutAll s) | .use (.cutSearch s _) => 2 * (chars s).length
  | .use (.find _) => 2
  | .use _ => 0
  | .cut _ _ s _ | .rank _ _ _ _ s _ _ => 2 * askedChars s

end TagCall

theorem textAsks_eq [UnicodeOK] (s : Bytes) : textAsks s = askedChars s := by
  unfold textAsks askedChars
  congr 1
  funext u
  exact hanInternalClass_iff u

theorem takes_tag [UnicodeOK] (cfg : SplitCfg) (ops : List (DictOp F)) (hl : ops.length ≤ Trie.valueLimit) (d : Dictionary F D)
    (hr : runOps cfg ops Dictionary.new = some d) (L M : Nat) (hL : ∀ e ∈ (absRun cfg ops).stored, (splitTextToWords cfg e.1).length ≤ L)
    (hM : ∀ k, (absRun cfg ops).content k ≠ none → k.length ≤ M)
    (m : Mem F D) (c : HmmConst F) (em : EmitModel F) (calls : List (TagCall F)) (h : TagOK m cfg d c em calls) (x : TagCall F) (hmem : x ∈ calls) :
    takes m (x.prog c) (x.bound L M) := by
  have hd : HoldsDict m cfg d := ⟨h.segmenter.toHoldsTable, h.totalFreq⟩
  have hk := known_upto cfg ops hl d hr M hM
  have ha := h.alone x hmem
  have hin := h.inputs x hmem
  cases x with
  | use y =>
    have ht := takes_use cfg ops hl d hr L M hL hM m c em h.segmenter hd h.emit y hin ha
    refine within_bind (f := fun a => (.ret (.use a) : Prog F D (TagAnswer F))) _ 0 (by show _ ≤ y.bound L M; omega) ht ?_
    exact wp_mono (fun _ _ _ => trivial) _ _ (wp_use hd h.emit y ha fun input text mode segs e hs => by
      subst e
      exact wp_segment h.segmenter hin (fun _ _ _ => rfl) hs)
  | cut ch T s hmm =>
    obtain ⟨o, ho⟩ := Option.ne_none_iff_exists'.mp ha
    have := takes_posCut hd hk ch T s hmm o ho
    rw [textAsks_eq] at this
    exact takes_answer this (yields_posCut hd ch T s hmm o ho)
  | rank ch' ch K T s topK allow =>
    obtain ⟨o, ho⟩ := Option.ne_none_iff_exists'.mp ha
    have := takes_textRank hd hk ch' ch K T s topK allow o ho
    rw [textAsks_eq] at this
    exact takes_answer this (yields_textRank hd ch' ch K T s topK allow o ho)

theorem exec_made {α : Type} {c c' : Config F D α} {tr : List (Nat × Access)} (h : Exec c tr c') :
    c'.threads.length = c.threads.length ∧ ∀ p ∈ tr, p.1 < c.threads.length := by
  induction h with
  | refl => exact ⟨rfl, by simp⟩
  | @step tr c1 i e c2 hx hs ih =>
    have hl : c2.threads.length = c1.threads.length := by cases hs <;> simp
    have hi : i < c1.threads.length := by
      cases hs with
      | read ht _ => exact (List.getElem?_eq_some_iff.mp ht).1
      | readBad ht _ => exact (List.getElem?_eq_some_iff.mp ht).1
      | write ht _ => exact (List.getElem?_eq_some_iff.mp ht).1
      | writeBad ht _ => exact (List.getElem?_eq_some_iff.mp ht).1
      | alloc ht _ => exact (List.getElem?_eq_some_iff.mp ht).1
    refine ⟨hl.trans ih.1, fun p hp => ?_⟩
    rcases List.mem_append.mp hp with h | h
    · exact ih.2 p h
    · cases List.mem_singleton.mp h
      rw [← ih.1]; exact hi

/-- C117: under every interleaving of any of these calls, at every moment, a call of a tagger or of a text ranker has made a number of accesses that is bounded by a product of
the number of characters of its own text that are looked up and the length of the longest stored word. The other characters of the text, the number of words in the dictionary and
the other calls do not matter. The dictionary is that of any history; the tables of the tagger, the HMM model and the order of the candidates are any. -/
theorem C117_work [UnicodeOK] (cfg : SplitCfg) (ops : List (DictOp F)) (hl : ops.length ≤ Trie.valueLimit) (d : Dictionary F D)
    (hr : runOps cfg ops Dictionary.new = some d) (L M : Nat) (hL : ∀ e ∈ (absRun cfg ops).stored, (splitTextToWords cfg e.1).length ≤ L)
    (hM : ∀ k, (absRun cfg ops).content k ≠ none → k.length ≤ M)
    (m : Mem F D) (c : HmmConst F) (em : EmitModel F) (calls : List (TagCall F)) (h : TagOK m cfg d c em calls)
    (tr : List (Nat × Access)) (c' : Config F D (TagAnswer F)) (hx : Exec (startTag m c calls) tr c') (i : Nat) (x : TagCall F) (hc : calls[i]? = some x) :
    work i tr ≤ x.bound L M := by
  have hb : ∀ (i : Nat) (p : Prog F D (TagAnswer F)), (startTag m c calls).threads[i]? = some p → within m p (fun _ => none)
      (((calls[i]?).map fun x => x.bound L M).getD 0) := by
    intro i p hp
    simp only [startTag, List.getElem?_map, Option.map_eq_some_iff] at hp
    obtain ⟨x, hx, rfl⟩ := hp
    simpa [hx] using takes_tag cfg ops hl d hr L M hL hM m c em calls h x (List.mem_of_getElem? hx)
  obtain ⟨own', hI, hw⟩ := exec_work (isolated_tag h) _ hb hx
  have hi : i < c'.threads.length := by
    rw [(exec_made hx).1]; simpa [startTag] using (List.getElem?_eq_some_iff.mp hc).1
  simpa [hc] using (hw i _ (List.getElem?_eq_getElem hi)).1

/-- C117: no execution, whatever the schedule, has more steps than the sum of the bounds of the calls. -/
theorem C117_total [UnicodeOK] (cfg : SplitCfg) (ops : List (DictOp F)) (hl : ops.length ≤ Trie.valueLimit) (d : Dictionary F D)
    (hr : runOps cfg ops Dictionary.new = some d) (L M : Nat) (hL : ∀ e ∈ (absRun cfg ops).stored, (splitTextToWords cfg e.1).length ≤ L)
    (hM : ∀ k, (absRun cfg ops).content k ≠ none → k.length ≤ M)
    (m : Mem F D) (c : HmmConst F) (em : EmitModel F) (calls : List (TagCall F)) (h : TagOK m cfg d c em calls)
    (tr : List (Nat × Access)) (c' : Config F D (TagAnswer F)) (hx : Exec (startTag m c calls) tr c') :
    tr.length ≤ (calls.map fun x => x.bound L M).sum := by
  have h1 := (exec_made hx).2
  rw [show (startTag m c calls).threads.length = calls.length by simp [startTag]] at h1
  refine le_trans (length_le_work calls.length tr h1) ?_
  have : calls = (List.range calls.length).map fun i => calls[i]?.getD (.use (.find [])) := by
    apply List.ext_getElem?
    intro i
    by_cases hi : i < calls.length <;> simp [hi]
  conv => rhs; rw [this]
  rw [List.map_map]
  refine List.sum_le_sum fun i hi => ?_
  rw [List.mem_range] at hi
  have := C117_work cfg ops hl d hr L M hL hM m c em calls h tr c' hx i _ (List.getElem?_eq_getElem hi)
  simpa [hi] using this

/-! ## From below -/

theorem exceeds_answer {α β : Type} {m : Mem F D} {p : Prog F D α} {v : α} {g : α → β} {n : Nat} (h : exceeds m p (fun _ => none) n) (hv : Yields m p v) :
    exceeds m (p.bind fun a => .ret (g a)) (fun _ => none) n :=
  exceeds_bind (f := fun a => (.ret (g a) : Prog F D β)) n 0 (by omega) h (wp_mono (fun _ _ _ => rfl) _ _ (yields_wp (fun _ _ _ => rfl) p hv))

theorem least_any {α β : Type} {p : Prog F D α} {f : α → Prog F D β} {n : Nat} (h : Least p n) : Least (p.bind f) n :=
  least_mono _ (by omega) (least_bind' (fun _ => least_zero _) p h)

theorem exceeds_tag [UnicodeOK] {cfg : SplitCfg} {d : Dictionary F D} {m : Mem F D} {c : HmmConst F} {em : EmitModel F} {calls : List (TagCall F)} (h : TagOK m cfg d c em calls)
    (x : TagCall F) (hmem : x ∈ calls) : exceeds m (x.prog c) (fun _ => none) x.least := by
  have hd : HoldsDict m cfg d := ⟨h.segmenter.toHoldsTable, h.totalFreq⟩
  have he := h.emit
  have ha := h.alone x hmem
  have hn : ∀ s, (dagRunes cfg s).length = (chars s).length := fun s => by rw [dagRunes_length, runes_eq_chars, List.length_map]
  cases x with
  | use y =>
    cases y with
    | segment input text mode => exact Least.exceeds _ _ (least_zero _)
    | hmmCut s reg => exact Least.exceeds _ _ (least_zero _)
    | cut s hmm =>
      obtain ⟨ws, hw⟩ := Option.ne_none_iff_exists'.mp ha
      have := exceeds_cut c hd s hmm
      rw [hn] at this
      have y := yields_cut c hd he 0 s hmm ws hw
      exact exceeds_answer (exceeds_answer this y) (yields_bind y rfl)
    | cutDAG s reg =>
      obtain ⟨ws, hw⟩ := Option.ne_none_iff_exists'.mp ha
      have := exceeds_cutDAG c hd s reg
      rw [hn] at this
      have y := yields_cutDAG c hd he s reg ws hw
      exact exceeds_answer (exceeds_answer this y) (yields_bind y rfl)
    | cutAll s =>
      obtain ⟨ws, hw⟩ := Option.ne_none_iff_exists'.mp ha
      have := exceeds_cutAll hd s
      rw [hn] at this
      have y := yields_cutAll hd s ws hw
      exact exceeds_answer (exceeds_answer this y) (yields_bind y rfl)
    | cutSearch s hmm =>
      obtain ⟨ws, hw⟩ := Option.ne_none_iff_exists'.mp ha
      have y := yields_cutSearch c hd he 0 s hmm ws hw
      have : exceeds m (cutSearchP (F := F) (D := D) c s hmm) (fun _ => none) (2 * (chars s).length) := by
        have h1 := exceeds_cut c hd s hmm
        rw [hn] at h1
        simp only [cutSearch, cutForSearch] at hw
        obtain ⟨vs, hv, _⟩ := Option.bind_eq_some_iff.mp hw
        refine exceeds_bind _ 0 (by omega) h1 (wp_mono ?_ _ _ (yields_wp (fun _ _ _ => rfl) _ (yields_cut c hd he 0 s hmm vs hv)))
        rintro _ _ ⟨rfl, rfl⟩
        exact Least.exceeds _ _ (least_zero _)
      exact exceeds_answer (exceeds_answer this y) (yields_bind y rfl)
    | find w => exact Least.exceeds _ _ (least_any (least_any (least_find w)))
  | cut ch T s hmm =>
    have := least_posCut (F := F) (D := D) ch T s hmm
    rw [textAsks_eq] at this
    exact Least.exceeds _ _ (least_any this)
  | rank ch' ch K T s topK allow =>
    have := least_posCut (F := F) (D := D) ch' T s true
    rw [textAsks_eq] at this
    exact Least.exceeds _ _ (least_any (least_any this))

/-- C117: a call that has returned, under any interleaving, has made at least two accesses for every character that it looks up. -/
theorem C117_least [UnicodeOK] (cfg : SplitCfg) (d : Dictionary F D) (m : Mem F D) (c : HmmConst F) (em : EmitModel F) (calls : List (TagCall F)) (h : TagOK m cfg d c em calls)
    (tr : List (Nat × Access)) (c' : Config F D (TagAnswer F)) (hx : Exec (startTag m c calls) tr c') (i : Nat) (x : TagCall F) (hc : calls[i]? = some x)
    (a : TagAnswer F) (hret : c'.threads[i]? = some (.ret a)) : x.least ≤ work i tr := by
  have hb : ∀ (i : Nat) (p : Prog F D (TagAnswer F)), (startTag m c calls).threads[i]? = some p → exceeds m p (fun _ => none)
      (((calls[i]?).map fun x => x.least).getD 0) := by
    intro i p hp
    simp only [startTag, List.getElem?_map, Option.map_eq_some_iff] at hp
    obtain ⟨x, hx, rfl⟩ := hp
    simpa [hx] using exceeds_tag h x (List.mem_of_getElem? hx)
  obtain ⟨own', hI, hw⟩ := exec_least (isolated_tag h) _ hb hx
  have : ((calls[i]?).map fun x => x.least).getD 0 - work i tr = 0 := hw i _ hret
  rw [hc] at this
  simp only [Option.map_some, Option.getD_some] at this
  omega

end

section examples
attribute [local instance] sampleUnicode sampleUnicodeOK sampleF64 sampleF32 sampleNarrow

/-- Three goroutines share a segmenter with two words of two bytes at most. Of the nine bytes of "ab, !? w!" three are looked up, so that tagging costs between 6 and 174 accesses;
the whole takes 270 steps at most. -/
example : ∃ (d : Dictionary Int Int), runOps {} [.add (str "ab") 5 [], .add (str "w") 9 [], .recalc] Dictionary.new = some d ∧
    let calls : List (TagCall Int) := [.cut choiceA noTables (str "ab, !? w!") false, .use (.find (str "w")), .use (.cut (str "w") false)]
    ∀ tr c', Exec (startTag ((memOf {} (some d) []).put .emit (.emit hmmEmit)) hmmConst calls) tr c' →
      work 0 tr ≤ 174 ∧ tr.length ≤ 270 ∧ ∀ a, c'.threads[0]? = some (.ret a) → 6 ≤ work 0 tr := by
  have h : (runOps (F := Int) (D := Int) {} [.add (str "ab") 5 [], .add (str "w") 9 [], .recalc] Dictionary.new).isSome := by decide +kernel
  obtain ⟨d, hd⟩ := Option.isSome_iff_exists.mp h
  refine ⟨d, hd, fun tr c' hx => ?_⟩
  have hok : TagOK ((memOf {} (some d) []).put .emit (.emit hmmEmit)) {} d hmmConst hmmEmit
      [.cut choiceA noTables (str "ab, !? w!") false, .use (.find (str "w")), .use (.cut (str "w") false)] := by
    refine C101_history {} _ d hd _ hmmConst hmmEmit _ ⟨(HoldsDict.put_emit ⟨(memOf_segmenter {} (some d) _).toHoldsTable, rfl⟩ hmmEmit).segmenter, ?_⟩ rfl
      (put_same _ _ _) ?_ ?_
    · exact (memOf_segmenter {} (some d) []).dist
    all_goals
      intro y hy
      simp only [List.mem_cons, List.not_mem_nil, or_false] at hy
      rcases hy with rfl | rfl | rfl <;> first | trivial | exact fun e => by cases e
  have hst : (absRun (F := Int) {} [.add (str "ab") 5 [], .add (str "w") 9 [], .recalc]).stored = [(str "ab", 5), (str "w", 9)] := by decide +kernel
  have hL : ∀ e ∈ (absRun (F := Int) {} [.add (str "ab") 5 [], .add (str "w") 9 [], .recalc]).stored, (splitTextToWords {} e.1).length ≤ 1 := by
    rw [hst]; decide +kernel
  have hM : ∀ k, (absRun (F := Int) {} [.add (str "ab") 5 [], .add (str "w") 9 [], .recalc]).content k ≠ none → k.length ≤ 2 := by
    intro k hk
    obtain ⟨e, he, rfl⟩ := content_stored _ _ k hk
    rw [hst] at he
    simp only [List.mem_cons, List.not_mem_nil, or_false] at he
    rcases he with rfl | rfl <;> decide +kernel
  have k1 := C117_work {} _ (by decide +kernel) d hd 1 2 hL hM _ hmmConst hmmEmit _ hok tr c' hx 0 _ rfl
  have k2 := C117_total {} _ (by decide +kernel) d hd 1 2 hL hM _ hmmConst hmmEmit _ hok tr c' hx
  have k3 := C117_least {} d _ hmmConst hmmEmit _ hok tr c' hx 0 _ rfl
  have n1 : askedChars (str "ab, !? w!") = 3 := by decide +kernel
  have n2 : (runes (str "w")).length = 1 := by decide +kernel
  simp only [TagCall.bound, TagCall.least, UseCall.bound, n1, n2, List.map_cons, List.map_nil, List.sum_cons, List.sum_nil] at k1 k2 k3
  exact ⟨k1, by omega, k3⟩
end examples
end Gse
