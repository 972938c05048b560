import Verif.Proofs.CostCut
import Verif.Props.ConcCut
import Verif.Props.Cost

/-! # C80: the work of `Find`, `Cut`, `CutAll`, `CutSearch` and `HMMCut` -/

namespace Gse
open Spec Prog

set_option linter.unusedSectionVars false

/-- The bound for a call: `L` is the number of atomic words and `M` the number of bytes of the longest stored word. The texts count
by their characters, except for `Segment` and `HMMCut`, which count bytes. -/
def UseCall.bound (L M : Nat) : UseCall → Nat
  | .segment _ text _ => 11 * L * text.length + 32 * text.length + L + 19
  | .cut s _ => 14 * (runes s).length * (M + 1) + 44 * (runes s).length + 3
  | .cutDAG s _ => 14 * (runes s).length * (M + 1) + 44 * (runes s).length + 3
  | .cutAll s => 7 * (runes s).length * (M + 1) + 1
  | .cutSearch s _ => 14 * (runes s).length * (M + 1) + 100 * (runes s).length + 3
  | .hmmCut s _ => 4 * s.length
  | .find _ => 7

section
variable {F D : Type} [F64 F] [F32 D] [Narrow F D] [Unicode]

theorem takes_answer {α β : Type} {m : Mem F D} {p : Prog F D α} {v : α} {g : α → β} {n : Nat} (h : takes m p n) (hv : Yields m p v) :
    takes m (p.bind fun a => .ret (g a)) n := takes_bind (f := fun a => (.ret (g a) : Prog F D β)) n 0 (by omega) h hv trivial

theorem dagRunes_length [UnicodeOK] (cfg : SplitCfg) (s : Bytes) : (dagRunes cfg s).length = (runes s).length := by
  rw [dagRunes_eq, dagText]; split <;> simp

/-- The dictionary of a history knows no word longer than the longest stored. -/
theorem known_upto (cfg : SplitCfg) (ops : List (DictOp F)) (hl : ops.length ≤ Trie.valueLimit) (d : Dictionary F D) (hr : runOps cfg ops Dictionary.new = some d)
    (M : Nat) (hM : ∀ k, (absRun cfg ops).content k ≠ none → k.length ≤ M) : KnownUpTo d M := by
  intro w f p hw
  obtain ⟨f', p', b, h1, _, h2⟩ := C05_find_flag cfg ops hl d hr w
  rw [hw] at h1; cases h1
  rcases h2.mp rfl with h | ⟨_, k, hk, hp⟩
  · exact hM w h
  · exact le_trans hp.length_le (hM k hk)

/-- One call of those of C80. -/
theorem takes_use [UnicodeOK] (cfg : SplitCfg) (ops : List (DictOp F)) (hl : ops.length ≤ Trie.valueLimit) (d : Dictionary F D)
    (hr : runOps cfg ops Dictionary.new = some d) (L M : Nat) (hL : ∀ e ∈ (absRun cfg ops).stored, (splitTextToWords cfg e.1).length ≤ L)
    (hM : ∀ k, (absRun cfg ops).content k ≠ none → k.length ≤ M)
    (m : Mem F D) (c : HmmConst F) (em : EmitModel F) (hs' : HoldsSegmenter m cfg (some d)) (hd : HoldsDict m cfg d) (he : m .emit = some (.emit em)) (x : UseCall) (hi : x.HasInput m)
    (ha : x.Returns cfg d c em) : takes m (x.prog c) (x.bound L M) := by
  have hk := known_upto cfg ops hl d hr M hM
  have hmax : d.maxTokenLen ≤ L := by
    rcases (C06_counters cfg ops hl d hr).2.2.2 with h | ⟨e, he, h⟩
    · omega
    · rw [← h]; exact hL e he
  cases x with
  | segment input text mode =>
    obtain ⟨segs, hs⟩ := Option.ne_none_iff_exists'.mp ha
    have hw := within_segment hs' hi (by intro l x _; rfl) hs
    have h3 : 11 * d.maxTokenLen * text.length ≤ 11 * L * text.length := Nat.mul_le_mul_right _ (by omega)
    refine within_bind (f := fun r => (.ret (.segs r) : Prog F D (Answer F))) _ 0 ?_ hw
      (wp_mono (fun _ _ _ => trivial) _ _ (wp_segment hs' hi (fun _ _ _ => rfl) hs))
    simp only [segmentBound, maxLenOf, UseCall.bound]; omega
  | cut s hmm =>
    obtain ⟨ws, hw⟩ := Option.ne_none_iff_exists'.mp ha
    have := takes_cut c hd hk s hmm 0 ws hw
    rw [dagRunes_length] at this
    exact takes_answer this (yields_cut c hd he 0 s hmm ws hw)
  | cutDAG s reg =>
    obtain ⟨ws, hw⟩ := Option.ne_none_iff_exists'.mp ha
    have := takes_cutDAG c hd hk s reg ws hw
    rw [dagRunes_length] at this
    exact takes_answer this (yields_cutDAG c hd he s reg ws hw)
  | cutAll s =>
    obtain ⟨ws, hw⟩ := Option.ne_none_iff_exists'.mp ha
    have := takes_cutAll hd hk s ws hw
    rw [dagRunes_length] at this
    exact takes_answer this (yields_cutAll hd s ws hw)
  | cutSearch s hmm =>
    obtain ⟨ws, hw⟩ := Option.ne_none_iff_exists'.mp ha
    have hcut : ∃ o, Gse.cut cfg d 0 (fun t => Gse.hmmCut c em t []) s (some hmm) = some o ∧ o.flatten = encode (dagText cfg s) := by
      cases hmm with
      | false => obtain ⟨o, h, h', _⟩ := C26_lossless cfg ops d hr s; exact ⟨o, h, h'⟩
      | true => obtain ⟨o, h, h', _⟩ := C28_lossless cfg ops d hr c em 0 s; exact ⟨o, h, h'⟩
    obtain ⟨o, ho, hf⟩ := hcut
    rw [← dagRunes_eq] at hf
    have := takes_cutSearch c hd he hk s hmm 0 o ho hf
    rw [dagRunes_length] at this
    exact takes_answer this (yields_cutSearch c hd he 0 s hmm ws hw)
  | hmmCut s reg =>
    obtain ⟨ws, hw⟩ := Option.ne_none_iff_exists'.mp ha
    exact takes_answer (cap_hmmCut c s reg).within (yields_hmmCut c he s reg ws hw)
  | find w =>
    obtain ⟨v, hv⟩ := Option.ne_none_iff_exists'.mp ha
    exact takes_answer (cap_find w).within (yields_find hd hv)

/-- C80: under every interleaving of any of these calls, at every moment, the accesses of a call to memory are bounded by a product of
the length of its own text and the length of the longest stored word: neither the number of words in the dictionary nor the other
calls matter. The dictionary is that of any history of calls; the HMM model is any. -/
theorem C80_work [UnicodeOK] (cfg : SplitCfg) (ops : List (DictOp F)) (hl : ops.length ≤ Trie.valueLimit) (d : Dictionary F D)
    (hr : runOps cfg ops Dictionary.new = some d) (L M : Nat) (hL : ∀ e ∈ (absRun cfg ops).stored, (splitTextToWords cfg e.1).length ≤ L)
    (hM : ∀ k, (absRun cfg ops).content k ≠ none → k.length ≤ M)
    (m : Mem F D) (c : HmmConst F) (em : EmitModel F) (calls : List UseCall) (h : UseOK m cfg d c em calls)
    (tr : List (Nat × Access)) (c' : Config F D (Answer F)) (hx : Exec (startUse m c calls) tr c') (i : Nat) (x : UseCall) (hc : calls[i]? = some x) :
    work i tr ≤ x.bound L M := by
  have one : ∀ x ∈ calls, takes m (x.prog c) (x.bound L M) := fun x hmem =>
    takes_use cfg ops hl d hr L M hL hM m c em h.segmenter h.dict h.emit x (h.inputs x hmem) (h.alone x hmem)
  have hb : ∀ (i : Nat) (p : Prog F D (Answer F)), (startUse m c calls).threads[i]? = some p → within m p (fun _ => none)
      (((calls[i]?).map fun x => x.bound L M).getD 0) := by
    intro i p hp
    simp only [startUse, List.getElem?_map, Option.map_eq_some_iff] at hp
    obtain ⟨x, hx, rfl⟩ := hp
    simpa [hx] using one x (List.mem_of_getElem? hx)
  obtain ⟨own', hI, hw⟩ := exec_work (isolated_use h) _ hb hx
  have hlen : ∀ {c c' : Config F D (Answer F)} {tr}, Exec c tr c' → c'.threads.length = c.threads.length := by
    intro c c' tr h
    induction h with
    | refl => rfl
    | step _ hs ih => rw [← ih]; cases hs <;> simp
  have hi : i < c'.threads.length := by
    rw [hlen hx]; simpa [startUse] using (List.getElem?_eq_some_iff.mp hc).1
  have := (hw i _ (List.getElem?_eq_getElem hi)).1
  simpa [hc] using this

/-- What the dictionary holds was stored. -/
theorem content_stored (cfg : SplitCfg) (ops : List (DictOp F)) (k : Bytes) (h : (absRun cfg ops).content k ≠ none) :
    ∃ e ∈ (absRun cfg ops).stored, k = normText cfg e.1 := by
  have hadd : ∀ (a : AbsDict F) t f p, (∀ k, a.content k ≠ none → ∃ e ∈ a.stored, k = normText cfg e.1) →
      ∀ k, (a.add cfg t f p).content k ≠ none → ∃ e ∈ (a.add cfg t f p).stored, k = normText cfg e.1 := by
    intro a t f p ih k
    unfold AbsDict.add
    split
    · exact ih k
    · intro h
      by_cases hk : k = normText cfg t
      · exact ⟨(t, f), by simp, hk⟩
      · simp only [if_neg hk] at h
        obtain ⟨e, he, h⟩ := ih k h
        exact ⟨e, by simp [he], h⟩
  have hrem : ∀ (a : AbsDict F) t, (∀ k, a.content k ≠ none → ∃ e ∈ a.stored, k = normText cfg e.1) →
      ∀ k, (a.remove cfg t).content k ≠ none → ∃ e ∈ (a.remove cfg t).stored, k = normText cfg e.1 := by
    intro a t ih k h
    refine ih k fun hn => h ?_
    simp [AbsDict.remove, hn]
  have all : ∀ (ops : List (DictOp F)) (a : AbsDict F), (∀ k, a.content k ≠ none → ∃ e ∈ a.stored, k = normText cfg e.1) →
      ∀ k, (ops.foldl (AbsDict.step cfg) a).content k ≠ none → ∃ e ∈ (ops.foldl (AbsDict.step cfg) a).stored, k = normText cfg e.1 := by
    intro ops
    induction ops with
    | nil => intro a h; exact h
    | cons op ops ih =>
      intro a h
      refine ih _ ?_
      cases op with
      | add t f p => exact hadd a t f p h
      | addForce t f p => exact hadd a t f p h
      | remove t => exact hrem a t h
      | recalc => exact h
      | reAdd t f p =>
        unfold AbsDict.step
        dsimp only
        split
        · exact hadd _ t f p (hrem a t h)
        · exact h
  exact all ops {} (by intro k h; exact absurd rfl h) k h

end

section examples
attribute [local instance] sampleUnicode sampleUnicodeOK sampleF64 sampleF32 sampleNarrow

/-- Five goroutines share a segmenter with two words of two bytes at most. -/
example : ∃ (d : Dictionary Int Int), runOps {} [.add (str "ab") 5 [], .add (str "w") 9 [], .recalc] Dictionary.new = some d ∧
    ∀ tr c', Exec (startUse ((memOf {} (some d) [str "ab w"]).put .emit (.emit hmmEmit)) hmmConst
      [.segment ⟨0, 0, 4⟩ (str "ab w") true, .cut hmmText true, .cutSearch (str "ab") false, .cutAll (str "abw"), .find (str "w")]) tr c' →
    work 1 tr ≤ 261 ∧ work 2 tr ≤ 287 ∧ work 3 tr ≤ 64 ∧ work 4 tr ≤ 7 := by
  have h : (runOps (F := Int) (D := Int) {} [.add (str "ab") 5 [], .add (str "w") 9 [], .recalc] Dictionary.new).isSome := by decide +kernel
  obtain ⟨d, hd⟩ := Option.isSome_iff_exists.mp h
  refine ⟨d, hd, fun tr c' hx => ?_⟩
  have hok : UseOK ((memOf {} (some d) [str "ab w"]).put .emit (.emit hmmEmit)) {} d hmmConst hmmEmit
      [.segment ⟨0, 0, 4⟩ (str "ab w") true, .cut hmmText true, .cutSearch (str "ab") false, .cutAll (str "abw"), .find (str "w")] := by
    refine C73_history {} _ d hd _ hmmConst hmmEmit _ ⟨(HoldsDict.put_emit ⟨(memOf_segmenter {} (some d) _).toHoldsTable, rfl⟩ hmmEmit).segmenter, ?_⟩ rfl
      (put_same _ _ _) ?_ ?_
    · exact (memOf_segmenter {} (some d) [str "ab w"]).dist
    · intro x hx
      simp only [List.mem_cons, List.not_mem_nil, or_false] at hx
      rcases hx with rfl | rfl | rfl | rfl | rfl <;> try trivial
      exact ⟨rfl, fun k b hb => by simp [memOf, Mem.put, hb]⟩
    · intro x hx
      simp only [List.mem_cons, List.not_mem_nil, or_false] at hx
      rcases hx with rfl | rfl | rfl | rfl | rfl <;> trivial
  have hst : (absRun (F := Int) {} [.add (str "ab") 5 [], .add (str "w") 9 [], .recalc]).stored = [(str "ab", 5), (str "w", 9)] := by decide +kernel
  have hL : ∀ e ∈ (absRun (F := Int) {} [.add (str "ab") 5 [], .add (str "w") 9 [], .recalc]).stored, (splitTextToWords {} e.1).length ≤ 1 := by
    rw [hst]; decide +kernel
  have hM : ∀ k, (absRun (F := Int) {} [.add (str "ab") 5 [], .add (str "w") 9 [], .recalc]).content k ≠ none → k.length ≤ 2 := by
    intro k hk
    obtain ⟨e, he, rfl⟩ := content_stored _ _ k hk
    rw [hst] at he
    simp only [List.mem_cons, List.not_mem_nil, or_false] at he
    rcases he with rfl | rfl <;> decide +kernel
  have key := C80_work {} _ (by decide +kernel) d hd 1 2 hL hM _ hmmConst hmmEmit _ hok tr c' hx
  have n1 : (runes hmmText).length = 3 := by decide +kernel
  have n2 : (runes (str "ab")).length = 2 := by decide +kernel
  have n3 : (runes (str "abw")).length = 3 := by decide +kernel
  have k1 := key 1 _ rfl
  have k2 := key 2 _ rfl
  have k3 := key 3 _ rfl
  have k4 := key 4 _ rfl
  simp only [UseCall.bound, n1, n2, n3] at k1 k2 k3 k4
  exact ⟨k1, k2, k3, k4⟩
end examples
end Gse
