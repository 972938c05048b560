import Verif.Proofs.Bench
import Verif.Proofs.Reader
import Verif.Props.Output
import Verif.Props.Size

/-! # C97: the pool of goroutines of tools/benchmark handles every line once and comes to an end -/

namespace Gse
open Spec Segmenter

set_option linter.unusedSectionVars false

/-! ### Any work that returns -/

section
variable {seg : Bytes → Option (List Seg)} {n : Nat} {tasks : List Bytes} {k : Nat} {p : Pool}

/-- C97: no deadlock. With at least one goroutine, whatever has happened so far, while `main` has not returned (and no
panic has ended the program) some goroutine can go on. -/
theorem C97_progress (hn : 1 ≤ n) (h : PoolRun seg n (Pool.start n tasks) k p) (hc : p.crashed = false) (hr : p.returned = false) :
    ∃ q, PoolStep seg n (n * 40) p q :=
  pool_progress hn (by omega) (poolInv_run (poolInv_start ..) h) hc hr

/-- C97: when `main` has returned nothing is left to do. -/
theorem returned_ahead (I : PoolInv seg n (n * 40) tasks p) (hn : 1 ≤ n) (hr : p.returned = true) :
    p.rest = [] ∧ p.queue = [] ∧ (∀ w ∈ p.workers, w = .ended) ∧ p.dones = 0 ∧ p.closed = true := by
  obtain ⟨hg, hcl⟩ := I.returned hr
  have h1 := I.ended
  have h2 := ended_le p.workers
  rw [I.count] at h2
  have hd : p.dones = 0 := by omega
  have hall := ended_all (l := p.workers) (by rw [I.count]; omega)
  refine ⟨I.closed hcl, ?_, hall, hd, hcl⟩
  cases hw : p.workers with
  | nil => have := I.count; rw [hw] at this; simp at this; omega
  | cons w ws =>
    have hm : w ∈ p.workers := by simp [hw]
    exact (I.over w hm (.inr (hall w hm))).2

/-- C97: however the goroutines are scheduled, an execution without panic has at most `3 * lines + 3 * goroutines + 2`
steps, and `main` returns exactly with the last of them. So every execution that goes on while it can ends. -/
theorem C97_steps (hn : 1 ≤ n) (h : PoolRun seg n (Pool.start n tasks) k p) (hc : p.crashed = false) :
    k ≤ 3 * tasks.length + 3 * n + 2 ∧ (p.returned = true ↔ k = 3 * tasks.length + 3 * n + 2) := by
  have ha := run_ahead h hc
  rw [start_ahead] at ha
  refine ⟨by omega, fun hr => ?_, fun hk => ?_⟩
  · obtain ⟨h1, h2, h3, h4, h5⟩ := returned_ahead (poolInv_run (poolInv_start ..) h) hn hr
    have hs : (p.workers.map Worker.weight).sum = 0 := by
      rw [List.sum_eq_zero_iff_forall_eq_nat]
      intro x hx
      obtain ⟨w, hw, rfl⟩ := List.mem_map.mp hx
      rw [h3 w hw]; rfl
    have : p.ahead = 0 := by simp [Pool.ahead, h1, h2, h4, h5, hr, hs]
    omega
  · have h0 : p.ahead = 0 := by omega
    by_contra hr
    simp only [Pool.ahead] at h0
    simp only [hr] at h0
    simp at h0

/-- C97: after `main` has returned there are no more steps: all goroutines have ended. -/
theorem C97_end (hn : 1 ≤ n) (h : PoolRun seg n (Pool.start n tasks) k p) (hr : p.returned = true) :
    ∀ q, ¬ PoolStep seg n (n * 40) p q := by
  obtain ⟨h1, h2, h3, h4, h5⟩ := returned_ahead (poolInv_run (poolInv_start ..) h) hn hr
  have no : ∀ {i : Nat} {w : Worker}, p.workers[i]? = some w → w = .ended := fun hi => h3 _ (List.mem_of_getElem? hi)
  intro q hs
  cases hs with
  | send l ls _ h => rw [h1] at h; simp at h
  | close _ _ h => rw [h5] at h; simp at h
  | receive i l ls _ h => have := no h; simp at this
  | segment i l segs _ h => have := no h; simp at this
  | panic i l _ h => have := no h; simp at this
  | leave i _ h => have := no h; simp at this
  | done i _ h => have := no h; simp at this
  | wait _ _ _ _ h => omega
  | exit _ _ _ _ h => rw [hr] at h; simp at h

/-- C97: no line is lost and none is handled twice. At every moment the lines are those received, those in the channel
and those not sent yet, in this order; the received ones are those that are done and those the goroutines are at; and each
result is that of its line. When `main` has returned, all lines are done. -/
theorem C97_exactly_once (hn : 1 ≤ n) (h : PoolRun seg n (Pool.start n tasks) k p) :
    p.taken ++ p.queue ++ p.rest = tasks ∧ (p.log.map (·.1) ++ p.workers.flatMap Worker.line).Perm p.taken ∧
    (∀ x ∈ p.log, seg x.1 = some x.2) ∧ (p.returned = true → (p.log.map (·.1)).Perm tasks) := by
  have I := poolInv_run (poolInv_start ..) h
  refine ⟨I.all, I.work, I.right, fun hr => ?_⟩
  obtain ⟨h1, h2, h3, _, _⟩ := returned_ahead I hn hr
  have hw := I.work
  have hl : p.workers.flatMap Worker.line = [] := by
    rw [List.flatMap_eq_nil_iff]; intro w hw; rw [h3 w hw]; rfl
  have ha := I.all
  rw [h1, h2, List.append_nil, List.append_nil] at ha
  rwa [hl, List.append_nil, ha] at hw

/-- C97: so the results are, up to their order, those of doing the lines one after the other in one goroutine. -/
theorem C97_as_sequential (hn : 1 ≤ n) (h : PoolRun seg n (Pool.start n tasks) k p) (hr : p.returned = true) :
    (p.log.map fun x => some x.2).Perm (tasks.map seg) := by
  obtain ⟨_, _, h1, h2⟩ := C97_exactly_once hn h
  have h3 := (h2 hr).map seg
  rw [List.map_map] at h3
  have e : p.log.map (seg ∘ fun x => x.1) = p.log.map fun x => some x.2 := List.map_congr_left fun x hx => h1 x hx
  rwa [e] at h3

/-- C97: the channels stay within their bounds: `task` never holds more than 40 lines for each goroutine, and a goroutine
that is through never waits at `done <- true`. -/
theorem C97_bounded (h : PoolRun seg n (Pool.start n tasks) k p) :
    p.queue.length ≤ n * 40 ∧ p.workers.length = n ∧ (p.crashed = false → ∀ i : Nat, p.workers[i]? = some .leaving → ∃ q, PoolStep seg n (n * 40) p q ∧ q.dones = p.dones + 1) := by
  have I := poolInv_run (poolInv_start ..) h
  refine ⟨I.room, I.count, fun hc i hi => ?_⟩
  have h1 := I.ended
  have h2 := sum_set Worker.isEnded hi .ended
  have h3 := ended_le (p.workers.set i .ended)
  rw [List.length_set, I.count] at h3
  simp only [Worker.isEnded] at h2
  exact ⟨_, .done p i hc hi (by omega), rfl⟩

/-- C97: `main` does not return before the last line has been handled: at every moment before, if some line is not done
then `main` has not returned. -/
theorem C97_not_early (hn : 1 ≤ n) (h : PoolRun seg n (Pool.start n tasks) k p) (hl : p.log.length < tasks.length) : p.returned = false := by
  by_contra hr
  have := ((C97_exactly_once hn h).2.2.2 (by simpa using hr)).length_eq
  rw [List.length_map] at this
  omega

/-- C97: the program ends with a panic only when a line makes `seg.Segment` panic. -/
theorem C97_crash (h : PoolRun seg n (Pool.start n tasks) k p) (hc : p.crashed = true) : ∃ l ∈ tasks, seg l = none := by
  have main : ∀ {q : Pool} {j : Nat}, PoolRun seg n (Pool.start n tasks) j q → q.crashed = true → ∃ l ∈ tasks, seg l = none := by
    intro q j hq
    induction hq with
    | nil => intro hc; simp [Pool.start] at hc
    | @snoc q r j hr hs ih =>
      intro hc
      have I := poolInv_run (poolInv_start seg n (n * 40) tasks) hr
      cases hs with
      | panic i l h1 h2 h3 =>
        refine ⟨l, ?_, h3⟩
        rw [← I.all]
        have : l ∈ q.workers.flatMap Worker.line := List.mem_flatMap.mpr ⟨_, List.mem_of_getElem? h2, by simp [Worker.line]⟩
        have : l ∈ q.taken := I.work.subset (by simp only [List.mem_append]; exact .inr this)
        simp [this]
      | _ => exact ih hc
  exact main h hc

/-- C97: every execution can be brought to an end: from any moment on there is a way to the return of `main`, or to a panic. -/
theorem C97_finish (hn : 1 ≤ n) (h : PoolRun seg n (Pool.start n tasks) k p) :
    ∃ j q, PoolRun seg n (Pool.start n tasks) j q ∧ (q.returned = true ∨ q.crashed = true) := by
  have main : ∀ (m : Nat) {q : Pool} {j : Nat}, q.ahead = m → PoolRun seg n (Pool.start n tasks) j q →
      ∃ j q, PoolRun seg n (Pool.start n tasks) j q ∧ (q.returned = true ∨ q.crashed = true) := by
    intro m
    induction m with
    | zero =>
      intro q j hq hx
      refine ⟨j, q, hx, .inl ?_⟩
      by_contra hr
      simp only [Pool.ahead] at hq
      simp only [hr] at hq
      simp at hq
    | succ m ih =>
      intro q j hq hx
      by_cases hc : q.crashed = true
      · exact ⟨j, q, hx, .inr hc⟩
      by_cases hr : q.returned = true
      · exact ⟨j, q, hx, .inl hr⟩
      obtain ⟨r, hs⟩ := C97_progress hn hx (by simpa using hc) (by simpa using hr)
      by_cases hrc : r.crashed = true
      · exact ⟨_, r, .snoc hx hs, .inr hrc⟩
      have := step_ahead hs (by simpa using hrc)
      exact ih (by omega) (.snoc hx hs)
  exact main _ rfl h

end

/-- C97: with no goroutine and a line to do, the program hangs at its first send. -/
theorem C97_no_worker (seg : Bytes → Option (List Seg)) (l : Bytes) (ls : List Bytes) :
    ∀ q, ¬ PoolStep seg 0 (0 * 40) (Pool.start 0 (l :: ls)) q := by
  intro q hs
  cases hs with
  | send _ _ _ _ h => simp [Pool.start] at h
  | close _ h => simp [Pool.start] at h
  | receive i _ _ _ h => simp [Pool.start] at h
  | segment i _ _ _ h => simp [Pool.start] at h
  | panic i _ _ h => simp [Pool.start] at h
  | leave i _ h => simp [Pool.start] at h
  | done i _ h => simp [Pool.start] at h
  | wait _ h => simp [Pool.start] at h
  | exit _ h => simp [Pool.start] at h

/-- C97: one goroutine handles the lines in their order. -/
theorem C97_one_worker {seg : Bytes → Option (List Seg)} {tasks : List Bytes} {k : Nat} {p : Pool} (h : PoolRun seg 1 (Pool.start 1 tasks) k p) :
    p.log.map (·.1) <+: tasks := by
  have main : p.log.map (·.1) ++ p.workers.flatMap Worker.line = p.taken ∧ ∃ w, p.workers = [w] := by
    induction h with
    | nil => exact ⟨rfl, _, rfl⟩
    | snoc hr hs ih =>
      obtain ⟨h1, w, hw⟩ := ih
      have one : ∀ {i : Nat} {x : Worker}, [w][i]? = some x → i = 0 ∧ x = w := by
        intro i x hi
        cases i with
        | zero => simp at hi; exact ⟨rfl, hi.symm⟩
        | succ i => simp at hi
      cases hs with
      | receive i l ls _ h =>
        rw [hw] at h h1 ⊢
        obtain ⟨rfl, rfl⟩ := one h
        exact ⟨by rw [← h1]; simp [Worker.line], _, rfl⟩
      | segment i l segs _ h =>
        rw [hw] at h h1 ⊢
        obtain ⟨rfl, rfl⟩ := one h
        exact ⟨by rw [← h1]; simp [Worker.line], _, rfl⟩
      | leave i _ h =>
        rw [hw] at h h1 ⊢
        obtain ⟨rfl, rfl⟩ := one h
        exact ⟨by rw [← h1]; simp [Worker.line], _, rfl⟩
      | done i _ h =>
        rw [hw] at h h1 ⊢
        obtain ⟨rfl, rfl⟩ := one h
        exact ⟨by rw [← h1]; simp [Worker.line], _, rfl⟩
      | _ => exact ⟨h1, w, hw⟩
  have I := poolInv_run (poolInv_start seg 1 (1 * 40) tasks) h
  exact ⟨p.workers.flatMap Worker.line ++ p.queue ++ p.rest, by rw [← List.append_assoc, ← List.append_assoc, main.1, I.all]⟩

/-! ### With `Segment` -/

section
variable [U : Unicode] {F D : Type} [F64 F] [F32 D] [Narrow F D]

/-- C97: with the dictionary of any segmenter (the benchmark loads one file and leaves the flags alone) no execution
ends with a panic, every one of them has at most `3 * lines + 3 * goroutines + 2` steps, goes on until then, and has
then segmented every line `numRuns` times. -/
theorem C97_benchmark [UnicodeOK] (cfg : SplitCfg) (ops : List (DictOp F)) (d : Dictionary F D) (hr : runOps cfg ops Dictionary.new = some d)
    (n numRuns : Nat) (lines : List Bytes) (hn : 1 ≤ n) (k : Nat) (p : Pool)
    (h : PoolRun (fun l => internalSegment cfg (some d) l false) n (Pool.start n (benchTasks numRuns lines)) k p) :
    p.crashed = false ∧ k ≤ 3 * (numRuns * lines.length) + 3 * n + 2 ∧
    (k < 3 * (numRuns * lines.length) + 3 * n + 2 → ∃ q, PoolStep (fun l => internalSegment cfg (some d) l false) n (n * 40) p q) ∧
    (k = 3 * (numRuns * lines.length) + 3 * n + 2 → p.returned = true ∧
      ∀ l, (p.log.map (·.1)).count l = numRuns * lines.count l) := by
  have hc : p.crashed = false := by
    by_contra hc
    obtain ⟨l, _, hl⟩ := C97_crash h (by simpa using hc)
    obtain ⟨segs, hs⟩ := C12_segment_total cfg ops d hr l false
    simp only [hs] at hl
    cases hl
  have hb : benchTasks numRuns lines = (List.replicate numRuns lines).flatten := by
    clear h
    unfold benchTasks
    induction numRuns with
    | zero => rfl
    | succ m ih => rw [List.range_succ, List.flatMap_append, ih, List.replicate_succ']; simp
  have hlen : (benchTasks numRuns lines).length = numRuns * lines.length := by rw [hb]; simp
  have hs := C97_steps hn h hc
  rw [hlen] at hs
  refine ⟨hc, hs.1, fun hk => ?_, fun hk => ⟨hs.2.2 hk, fun l => ?_⟩⟩
  · refine C97_progress hn h hc ?_
    by_contra hret
    have := hs.2.1 (by simpa using hret)
    omega
  · rw [((C97_exactly_once hn h).2.2.2 (hs.2.2 hk)).count_eq, hb, List.count_flatten]
    simp

/-! ### Reading the book -/

/-- C97: only the first word of a line is read: the blanks before it and everything from the next blank on are dropped. -/
theorem C97_first_word (b w t : List Rune) (hv : ∀ r ∈ b ++ w ++ t, validRune r = true) (hb : ∀ r ∈ b, r ≠ 10 ∧ U.isSpace r = true) (hw : w ≠ [])
    (hw' : ∀ r ∈ w, r ≠ 10 ∧ U.isSpace r = false) (ht : ∀ r ∈ t.head?, U.isSpace r = true) :
    sscanfWord (encode (b ++ w ++ t)) = encode w := by
  have h := take_word w t (fun r hr => (hw' r hr).2) ht
  rw [sscanfWord, runes_encode _ hv, List.append_assoc, skip_blanks b _ hb, skip_word w t hw hw']
  simp only
  rw [h.1]

/-- C97: of a blank line nothing is read. -/
theorem C97_blank_line (b : List Rune) (hv : ∀ r ∈ b, validRune r = true) (hb : ∀ r ∈ b, r ≠ 10 ∧ U.isSpace r = true) : sscanfWord (encode b) = [] := by
  have : skipSpace (b ++ []) = .eof := by rw [skip_blanks b _ hb]; rfl
  rw [List.append_nil] at this
  rw [sscanfWord, runes_encode _ hv, this]

theorem book_fold (ls : List Bytes) (a : Nat) (acc : List Bytes) :
    ls.foldl (fun r text => (r.1 + (sscanfWord text).length, r.2 ++ [sscanfWord text])) (a, acc) =
      (a + ((ls.map sscanfWord).map List.length).sum, acc ++ ls.map sscanfWord) := by
  induction ls generalizing a acc with
  | nil => simp
  | cons l ls ih => rw [List.foldl_cons, ih]; simp [Nat.add_assoc]

theorem scan_book (ls : List Bytes) (rest : Bytes) (h : ∀ l ∈ ls, 10 ∉ l ∧ l.length < 65536 ∧ l.getLast? ≠ some 13) :
    StopMap.scanLines (splitStr (ls.flatMap (· ++ [10]) ++ rest) (str "\n")) = ls ++ StopMap.scanLines (splitStr rest (str "\n")) := by
  induction ls with
  | nil => rfl
  | cons l ls ih =>
    obtain ⟨h1, h2, h3⟩ := h l (by simp)
    have e : (l :: ls).flatMap (· ++ [10]) ++ rest = l ++ [10] ++ (ls.flatMap (· ++ [10]) ++ rest) := by simp
    have hs : splitStr l [10] = [l] := noNewline_split h1
    have hne := splitStr_ne_nil (ls.flatMap (· ++ [10]) ++ rest) (sep := str "\n") (by decide)
    have ih := ih fun l hl => h l (by simp [hl])
    show StopMap.scanLines (splitStr _ [10]) = _
    rw [e, splitStr_byte, hs, List.cons_append, List.cons_append, ← ih]
    show StopMap.scanLines (l :: splitStr _ (str "\n")) = _
    generalize splitStr (ls.flatMap (· ++ [10]) ++ rest) (str "\n") = x at hne ⊢
    cases x with
    | nil => exact absurd rfl hne
    | cons y ys =>
      show (if 65536 ≤ l.length then [] else StopMap.dropCR l :: StopMap.scanLines (y :: ys)) = _
      rw [if_neg (by omega), StopMap.dropCR, if_neg h3]

/-- C97: the lines of a book and its size: one line of work for each line of the file (a blank one gives an empty line of
work), holding its first word; the size counts the bytes of these words only. -/
theorem C97_book (ls : List Bytes) (h : ∀ l ∈ ls, 10 ∉ l ∧ l.length < 65536 ∧ l.getLast? ≠ some 13) :
    openBook (ls.flatMap (· ++ [10])) = (((ls.map sscanfWord).map List.length).sum, ls.map sscanfWord) := by
  have := scan_book ls [] h
  rw [List.append_nil] at this
  have h0 : StopMap.scanLines (splitStr [] (str "\n")) = [] := by decide
  rw [openBook, this, book_fold, h0]
  simp

/-- C97: a line of 65536 bytes or more ends the reading; it and all lines behind it are left out without an error. -/
theorem C97_book_long_line (ls : List Bytes) (h : ∀ l ∈ ls, 10 ∉ l ∧ l.length < 65536 ∧ l.getLast? ≠ some 13) (l rest : Bytes) (hl : 10 ∉ l)
    (hlong : 65536 ≤ l.length) :
    openBook (ls.flatMap (· ++ [10]) ++ (l ++ [10] ++ rest)) = openBook (ls.flatMap (· ++ [10])) := by
  rw [C97_book ls h, openBook, scan_book ls _ h]
  have : StopMap.scanLines (splitStr (l ++ [10] ++ rest) (str "\n")) = [] := by
    show StopMap.scanLines (splitStr _ [10]) = _
    rw [splitStr_byte, show splitStr l [10] = [l] from noNewline_split hl]
    cases splitStr rest [10] with
    | nil => simp [StopMap.scanLines, hlong]
    | cons y ys => simp [StopMap.scanLines, hlong]
  rw [this, List.append_nil, book_fold]
  simp

/-! ### The output of benchmark.go -/

/-- C97: with `-output`, benchmark.go writes `numRuns` times one line for each line of the book, holding what `String`
returns for it; it never panics. -/
theorem C97_output [UnicodeOK] (cfg : SplitCfg) (ops : List (DictOp F)) (d : Dictionary F D) (hr : runOps cfg ops Dictionary.new = some d)
    (fuel numRuns : Nat) (lines : List Bytes) :
    ∃ out : Bytes → Bytes, (∀ l ∈ lines, segString cfg d fuel l false = some (out l)) ∧
      benchOutput cfg d fuel numRuns lines = some (List.replicate numRuns (lines.flatMap fun l => out l ++ [10])).flatten := by
  have tot : ∀ l, ∃ o, segString cfg d fuel l false = some o := by
    intro l
    obtain ⟨o, ho⟩ := C16_output_total cfg ops d hr l false
    exact ⟨_, (show segString cfg d fuel l false = segString cfg d ((splitTextToWords cfg l).length + 1) l false from rfl).trans (ho _ (Nat.lt_succ_self _)).2.2⟩
  choose out hout using tot
  refine ⟨out, fun l _ => hout l, ?_⟩
  have hm : ∀ ls : List Bytes, mapOpt (fun l => (internalSegment cfg (some d) l false).bind fun segs => (toString' d fuel segs false).map (· ++ str "\n")) ls =
      some (ls.map fun l => out l ++ [10]) := by
    intro ls
    induction ls with
    | nil => rfl
    | cons l ls ih =>
      have h1 := hout l
      rw [segString] at h1
      have h2 : ((internalSegment cfg (some d) l false).bind fun segs => (toString' d fuel segs false).map (· ++ str "\n")) = some (out l ++ [10]) := by
        cases hs : internalSegment cfg (some d) l false with
        | none => rw [hs] at h1; cases h1
        | some segs =>
          rw [hs] at h1
          simp only [Option.bind_some] at h1 ⊢
          rw [h1]; rfl
      simp only [mapOpt, h2, ih]; rfl
  rw [benchOutput, hm]
  simp only [Option.map_some, Option.some.injEq]
  unfold benchTasks
  induction numRuns with
  | zero => rfl
  | succ m ih =>
    rw [List.range_succ, List.flatMap_append, List.map_append, List.flatten_append, ih, List.replicate_succ', List.flatten_append]
    simp [List.flatMap]

end

/-! ### Concrete cases -/

section examples
attribute [local instance] sampleUnicode sampleUnicodeOK sampleF64 sampleF32 sampleNarrow

/-- Two goroutines, two lines: the second line is done before the first. -/
example : ∃ p, PoolRun (fun _ => some []) 2 (Pool.start 2 [str "a", str "b"]) 6 p ∧ p.log.map (·.1) = [str "b", str "a"] := by
  refine ⟨_, .snoc (.snoc (.snoc (.snoc (.snoc (.snoc (.nil _) (.send _ (str "a") [str "b"] rfl rfl (by decide)))
    (.send _ (str "b") [] rfl rfl (by decide))) (.receive _ 0 (str "a") [str "b"] rfl rfl rfl)) (.receive _ 1 (str "b") [] rfl rfl rfl))
    (.segment _ 1 (str "b") [] rfl rfl rfl)) (.segment _ 0 (str "a") [] rfl rfl rfl), rfl⟩

/-- One goroutine, one line: the eight steps to the end. -/
example : ∃ p, PoolRun (fun _ => some []) 1 (Pool.start 1 [str "a"]) 8 p ∧ p.returned = true := by
  refine ⟨_, .snoc (.snoc (.snoc (.snoc (.snoc (.snoc (.snoc (.snoc (.nil _) (.send _ (str "a") [] rfl rfl (by decide)))
    (.receive _ 0 (str "a") [] rfl rfl rfl)) (.close _ rfl rfl rfl)) (.segment _ 0 (str "a") [] rfl rfl rfl)) (.leave _ 0 rfl rfl rfl rfl))
    (.done _ 0 rfl rfl (by decide))) (.wait _ rfl rfl rfl (by decide) (by decide))) (.exit _ rfl rfl rfl rfl rfl), rfl⟩

/-- C97: a panic in one goroutine ends the program: with a dictionary stored under another setting (C12), a line makes the
pool crash before `main` returns. -/
theorem C97_crash_witness : ∃ (cfg cfg' : SplitCfg) (ops : List (DictOp Int)) (d : Dictionary Int Int) (l : Bytes) (p : Pool),
    runOps cfg ops Dictionary.new = some d ∧ PoolRun (fun l => internalSegment cfg' (some d) l false) 2 (Pool.start 2 [l]) 3 p ∧
    p.crashed = true ∧ p.returned = false := by
  obtain ⟨cfg, cfg', ops, d, s, h1, h2⟩ := C12_flag_change_panics
  exact ⟨cfg, cfg', ops, d, s, _, h1, .snoc (.snoc (.snoc (.nil _) (.send _ s [] rfl rfl (by simp [Pool.start]))) (.receive _ 0 s [] rfl rfl rfl))
    (.panic _ 0 s rfl rfl h2), rfl, rfl⟩

/-- A book of three lines: blanks in front are dropped, what follows the first word is not read, a blank line stays. -/
example : openBook (str "  ab cd\n \nef\n") = (4, [str "ab", [], str "ef"]) := by decide +kernel

/-- What benchmark.go writes in two runs. -/
example : benchOutput {} stairDict 0 2 [str "ab", []] = some (str "ab/x \n\nab/x \n\n") := by decide +kernel

end examples
end Gse
