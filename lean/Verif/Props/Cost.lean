import Verif.Proofs.Cost
import Verif.Props.Conc
import Verif.Props.Dict

/-! # C79: the work of `Segment` -/

namespace Gse
open Spec Trie

set_option linter.unusedSectionVars false

section
variable {F D : Type} [F64 F] [F32 D] [Narrow F D] [Unicode]

theorem work_exec {m : Mem F D} {cfg : SplitCfg} {dict : Option (Dictionary F D)} {calls : List SegCall} (h : CallsOK m cfg dict calls)
    {tr : List (Nat × Access)} {c' : Config F D Slice} (hx : Exec (startCalls m calls) tr c') {i : Nat} {c : SegCall} (hc : calls[i]? = some c) :
    work i tr ≤ segmentBound (maxLenOf dict) c.text.length := by
  have hb : ∀ (i : Nat) (p : Prog F D Slice), (startCalls m calls).threads[i]? = some p → within m p (fun _ => none)
      (((calls[i]?).map fun c => segmentBound (maxLenOf dict) c.text.length).getD 0) := by
    intro i p hp
    simp only [startCalls, List.getElem?_map, Option.map_eq_some_iff] at hp
    obtain ⟨c, hc, rfl⟩ := hp
    have hmem := List.mem_of_getElem? hc
    obtain ⟨segs, hs⟩ := Option.isSome_iff_exists.mp (h.alone c hmem)
    simpa [hc] using within_segment h.segmenter (h.inputs c hmem) (by intro l x _; rfl) hs
  obtain ⟨own', hI, hw⟩ := exec_work (isolated_start h) _ hb hx
  have hi : i < c'.threads.length := by
    rw [exec_length hx]; simpa [startCalls] using (List.getElem?_eq_some_iff.mp hc).1
  have := (hw i _ (List.getElem?_eq_getElem hi)).1
  simpa [hc] using this

/-- C79: under every interleaving, at every moment, the memory accesses a call has made and the cells it has allocated are
bounded by a product of the length of its text and `MaxTokenLen`. -/
theorem C79_work (m : Mem F D) (cfg : SplitCfg) (d : Dictionary F D) (calls : List SegCall) (h : CallsOK m cfg (some d) calls)
    (tr : List (Nat × Access)) (c' : Config F D Slice) (hx : Exec (startCalls m calls) tr c') (i : Nat) (c : SegCall) (hc : calls[i]? = some c) :
    work i tr ≤ 11 * d.maxTokenLen * c.text.length + 32 * c.text.length + d.maxTokenLen + 19 := work_exec h hx hc

/-- C79: and without a dictionary by a multiple of the length of its text. -/
theorem C79_no_dictionary (m : Mem F D) (cfg : SplitCfg) (calls : List SegCall) (h : CallsOK m cfg (none : Option (Dictionary F D)) calls)
    (tr : List (Nat × Access)) (c' : Config F D Slice) (hx : Exec (startCalls m calls) tr c') (i : Nat) (c : SegCall) (hc : calls[i]? = some c) :
    work i tr ≤ 32 * c.text.length + 19 := by
  have := work_exec h hx hc
  simpa [segmentBound, maxLenOf] using this

theorem step_goroutine {c c' : Config F D Slice} {i : Nat} {e : Access} (h : Step c i e c') : i < c.threads.length := by
  cases h with
  | read ht _ => exact (List.getElem?_eq_some_iff.mp ht).1
  | readBad ht _ => exact (List.getElem?_eq_some_iff.mp ht).1
  | write ht _ => exact (List.getElem?_eq_some_iff.mp ht).1
  | writeBad ht _ => exact (List.getElem?_eq_some_iff.mp ht).1
  | alloc ht _ => exact (List.getElem?_eq_some_iff.mp ht).1

theorem exec_goroutine {c c' : Config F D Slice} {tr : List (Nat × Access)} (h : Exec c tr c') : ∀ p ∈ tr, p.1 < c.threads.length := by
  induction h with
  | refl => simp
  | @step tr c1 i e c2 hx hs ih =>
    intro p hp
    rcases List.mem_append.mp hp with h | h
    · exact ih p h
    · cases List.mem_singleton.mp h
      have := step_goroutine hs
      rwa [exec_length hx] at this

theorem weight_pos (e : Access) : 1 ≤ e.weight := by cases e <;> simp [Access.weight]

theorem length_le_work (n : Nat) : ∀ (tr : List (Nat × Access)), (∀ p ∈ tr, p.1 < n) → tr.length ≤ ((List.range n).map fun i => work i tr).sum := by
  intro tr
  induction tr using List.reverseRecOn with
  | nil => intro _; simp
  | append_singleton tr p ih =>
    intro h
    have h1 := ih fun q hq => h q (by simp [hq])
    have h2 := h p (by simp)
    obtain ⟨j, e⟩ := p
    simp only [work_append, List.length_append, List.length_singleton]
    have hsum : ((List.range n).map fun i => work i tr + if j = i then e.weight else 0).sum =
        ((List.range n).map fun i => work i tr).sum + ((List.range n).map fun i => if j = i then e.weight else 0).sum := List.sum_map_add
    have hone : ∀ (l : List Nat), j ∈ l → e.weight ≤ (l.map fun i => if j = i then e.weight else 0).sum := by
      intro l
      induction l with
      | nil => intro h; cases h
      | cons a l ih =>
        intro h
        simp only [List.map_cons, List.sum_cons]
        by_cases ha : j = a
        · simp [ha]
        · have := ih (by rcases List.mem_cons.mp h with h | h; exact absurd h ha; exact h)
          omega
    have := hone (List.range n) (by simpa using h2)
    have := weight_pos e
    omega

/-- C79: no execution, whatever the schedule, has more steps than the sum of the bounds of the calls. -/
theorem C79_total (m : Mem F D) (cfg : SplitCfg) (d : Dictionary F D) (calls : List SegCall) (h : CallsOK m cfg (some d) calls)
    (tr : List (Nat × Access)) (c' : Config F D Slice) (hx : Exec (startCalls m calls) tr c') :
    tr.length ≤ (calls.map fun c => 11 * d.maxTokenLen * c.text.length + 32 * c.text.length + d.maxTokenLen + 19).sum := by
  have h1 := exec_goroutine hx
  have hn : (startCalls m calls).threads.length = calls.length := by simp [startCalls]
  rw [hn] at h1
  refine le_trans (length_le_work calls.length tr h1) ?_
  have : calls = (List.range calls.length).map fun i => calls[i]?.getD ⟨⟨0, 0, 0⟩, [], false⟩ := by
    apply List.ext_getElem?
    intro i
    by_cases hi : i < calls.length
    · simp [hi]
    · simp [hi]
  conv => rhs; rw [this]
  rw [List.map_map]
  refine List.sum_le_sum fun i hi => ?_
  rw [List.mem_range] at hi
  have := C79_work m cfg d calls h tr c' hx i _ (List.getElem?_eq_getElem hi)
  simpa [hi] using this

/-- C79: with a dictionary made by any history of calls in which every word stored has `K` atomic words at most, whatever their
number, the bound depends on `K` and the text alone. -/
theorem C79_history [UnicodeOK] (cfg : SplitCfg) (ops : List (DictOp F)) (hl : ops.length ≤ Trie.valueLimit) (d : Dictionary F D)
    (hr : runOps cfg ops Dictionary.new = some d) (K : Nat) (hK : ∀ e ∈ (absRun cfg ops).stored, (splitTextToWords cfg e.1).length ≤ K)
    (m : Mem F D) (calls : List SegCall) (hs : HoldsSegmenter m cfg (some d)) (hi : ∀ c ∈ calls, HoldsBytes m c.input c.text)
    (tr : List (Nat × Access)) (c' : Config F D Slice) (hx : Exec (startCalls m calls) tr c') (i : Nat) (c : SegCall) (hc : calls[i]? = some c) :
    work i tr ≤ 11 * K * c.text.length + 32 * c.text.length + K + 19 := by
  have h1 := C79_work m cfg d calls (C53_history cfg ops d hr m calls hs hi) tr c' hx i c hc
  have h2 : d.maxTokenLen ≤ K := by
    rcases (C06_counters cfg ops hl d hr).2.2.2 with h | ⟨e, he, h⟩
    · omega
    · rw [← h]; exact hK e he
  have h3 : 11 * d.maxTokenLen * c.text.length ≤ 11 * K * c.text.length := Nat.mul_le_mul_right _ (by omega)
  omega

end

section examples
attribute [local instance] sampleUnicode sampleUnicodeOK sampleF64 sampleF32 sampleNarrow

/-- Two goroutines on one segmenter with two words, brought to their end: 304 steps at most. -/
example : ∃ (d : Dictionary Int Int) (m : Mem Int Int) (tr : List (Nat × Access)) (c' : Config Int Int Slice),
    runOps {} [.add (str "ab") 5 [], .add (str "w w") 9 [], .recalc] Dictionary.new = some d ∧ d.maxTokenLen = 3 ∧
    Exec (startCalls m [⟨⟨0, 0, 3⟩, str "ab ", false⟩, ⟨⟨1, 0, 1⟩, str "w", true⟩]) tr c' ∧
    (∀ i e c'', ¬ Step c' i e c'') ∧ work 0 tr ≤ 217 ∧ work 1 tr ≤ 87 ∧ tr.length ≤ 304 := by
  have h : ((runOps (F := Int) (D := Int) {} [.add (str "ab") 5 [], .add (str "w w") 9 [], .recalc] Dictionary.new).map (·.maxTokenLen)) = some 3 := by decide +kernel
  obtain ⟨d, hd, hmax⟩ := Option.map_eq_some_iff.mp h
  let m : Mem Int Int := memOf {} (some d) [str "ab ", str "w"]
  let calls : List SegCall := [⟨⟨0, 0, 3⟩, str "ab ", false⟩, ⟨⟨1, 0, 1⟩, str "w", true⟩]
  have hok : CallsOK m {} (some d) calls := by
    refine C53_history {} _ d hd m calls (memOf_segmenter _ _ _) ?_
    intro c hc
    simp only [calls, List.mem_cons, List.not_mem_nil, or_false] at hc
    rcases hc with rfl | rfl
    · exact memOf_input _ _ _ 0 (str "ab ") rfl
    · exact memOf_input _ _ _ 1 (str "w") rfl
  obtain ⟨tr, c', h1, h2⟩ := C53_can_complete m calls [] _ (.refl _)
  refine ⟨d, m, tr, c', hd, hmax, h1, h2, ?_, ?_, ?_⟩
  · have := C79_work m {} d calls hok _ c' h1 0 _ rfl
    rw [hmax] at this; exact this
  · have := C79_work m {} d calls hok _ c' h1 1 _ rfl
    rw [hmax] at this; exact this
  · have := C79_total m {} d calls hok _ c' h1
    rw [hmax] at this; exact this
end examples
end Gse
