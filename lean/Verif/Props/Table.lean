import Verif.Proofs.Table
import Verif.Props.Output

/-!
# C99: the table of tokens may move in memory

`append` moves the tokens of the dictionary to a new array now and then; results kept from before point into the old one.
-/

namespace Gse

set_option linter.unusedSectionVars false
open Spec

variable {F D : Type} [F64 F] [F32 D] [Narrow F D]

section
variable [Unicode] {cfg : SplitCfg} {ops : List (DictOp F × Bool)} {tb : Table F D}

theorem positions_deref {d : Dictionary F D} : ∀ (refs : List TokRef) (p : Nat) (segs : List Seg), positions d refs p = some segs →
    ∀ s ∈ segs, ∃ t, d.deref s.tok = some t
  | [], _, _, h, s, hs => by cases h; cases hs
  | r :: refs, p, segs, h, s, hs => by
    simp only [positions, Option.bind_eq_bind, Option.bind_eq_some_iff, Option.some.injEq] at h
    obtain ⟨t, h1, rest, h2, rfl⟩ := h
    rcases List.mem_cons.mp hs with rfl | hs
    · exact ⟨t, h1⟩
    · exact positions_deref refs _ rest h2 s hs

theorem internalSegment_deref {d : Dictionary F D} {s : Bytes} {sm : Bool} {segs : List Seg} (h : internalSegment cfg (some d) s sm = some segs) :
    ∀ x ∈ segs, ∃ t, d.deref x.tok = some t := by
  unfold internalSegment segmentWords at h
  split at h
  · cases h; simp
  · split at h
    · cases h; simp
    · simp only [Option.bind_eq_bind, Option.bind_eq_some_iff] at h
      obtain ⟨_, _, _, _, refs, _, h⟩ := h
      exact positions_deref refs 0 segs h

/-- The pointers of a fresh result go into the array in use. -/
theorem segment_refs {s : Bytes} {sm : Bool} {segs : List PSeg} (h : tb.segment cfg s sm = some segs) :
    ∀ x ∈ segs, (∃ i, x.tok = .entry tb.cur i ∧ i < tb.tokens.length) ∨ ∃ w, x.tok = .pseudo w := by
  obtain ⟨l, h1, rfl⟩ := Option.map_eq_some_iff.mp h
  intro x hx
  obtain ⟨y, hy, rfl⟩ := List.mem_map.mp hx
  obtain ⟨t, ht⟩ := internalSegment_deref h1 y hy
  cases e : y.tok with
  | pseudo w => exact .inr ⟨w, by simp [Seg.place, e, TokRef.place]⟩
  | idx i =>
    refine .inl ⟨i, by simp [Seg.place, e, TokRef.place], ?_⟩
    rw [e] at ht
    have := (List.getElem?_eq_some_iff.mp ht).1
    simpa [Table.seen] using this

theorem inv_run (hr : Table.run cfg ops Table.new = some tb) : tb.Inv := (Table.later_run ops Table.Inv.new hr).1

/-- C99: which `append` moves the table has no effect on the dictionary: after every history, and whatever `append` found in each
call, the dictionary is what the model with one table and indices says (with which all other properties are stated). -/
theorem C99_seen (cfg : SplitCfg) (ops : List (DictOp F × Bool)) :
    (Table.run cfg ops (Table.new : Table F D)).map Table.seen = runOps cfg (ops.map (·.1)) Dictionary.new :=
  Table.seen_run ops Table.Inv.new

/-- C99: the result of a search, read at once through its pointers, is what the model with indices says, although sub-segments may
point into old arrays. -/
theorem C99_fresh (cfg : SplitCfg) (ops : List (DictOp F × Bool)) (tb : Table F D) (hr : Table.run cfg ops Table.new = some tb) (s : Bytes) (sm : Bool)
    (segs : List PSeg) (hs : tb.segment cfg s sm = some segs) :
    internalSegment cfg (some tb.seen) s sm = some (segs.map PSeg.index) ∧ ∀ fuel mode, ReadAs tb tb.seen segs fuel mode := by
  have hI := inv_run hr
  constructor
  · obtain ⟨l, h1, rfl⟩ := Option.map_eq_some_iff.mp hs
    rw [place_index_segs]; exact h1
  · refine fun fuel mode => Table.reads_into hI (fun x hx => ?_) fuel mode
    rcases segment_refs hs x hx with ⟨i, e, hi⟩ | ⟨w, e⟩ <;> rw [e]
    · exact ⟨_, hI.tokens, hi, List.prefix_rfl⟩
    · trivial

/-- C99: texts, frequencies and tags seen through the pointers of a kept result never change, whatever is done to the dictionary
later: words added, removed or recalculated, the table moved or not. -/
theorem C99_text (cfg : SplitCfg) (ops : List (DictOp F × Bool)) (tb : Table F D) (hr : Table.run cfg ops Table.new = some tb) (s : Bytes) (sm : Bool)
    (segs : List PSeg) (hs : tb.segment cfg s sm = some segs) (later : List (DictOp F × Bool)) (tb' : Table F D) (hl : Table.run cfg later tb = some tb') :
    (∀ x ∈ segs, ∃ t t', tb.deref x.tok = some t ∧ tb'.deref x.tok = some t' ∧ t'.text = t.text ∧ t'.freq = t.freq ∧ t'.pos = t.pos) ∧
    ∀ fuel, ReadAs tb' tb.seen segs fuel false := by
  have hI := inv_run hr
  obtain ⟨hI', hL⟩ := Table.later_run later hI hl
  have key : ∀ x ∈ segs, ∃ t t', tb.deref x.tok = some t ∧ tb'.deref x.tok = some t' ∧ t'.text = t.text ∧ t'.freq = t.freq ∧ t'.pos = t.pos := by
    intro x hx
    rcases segment_refs hs x hx with ⟨i, e, hi⟩ | ⟨w, e⟩ <;> rw [e]
    · obtain ⟨l', h1, u, hu⟩ := hL.keys
      have h2 : (l'.map Table.key)[i]? = (tb.tokens.map Table.key)[i]? := by
        rw [← hu, List.getElem?_append_left (by simpa using hi)]
      rw [List.getElem?_map, List.getElem?_map, List.getElem?_eq_getElem hi] at h2
      obtain ⟨t', h3, h4⟩ := Option.map_eq_some_iff.mp h2
      simp only [Table.key, Prod.mk.injEq] at h4
      exact ⟨tb.tokens[i], t', by simp [Table.deref, hI.tokens, hi], by simp [Table.deref, h1, h3], h4.1, h4.2.1, h4.2.2⟩
    · exact ⟨_, _, rfl, rfl, rfl, rfl, rfl⟩
  refine ⟨key, fun fuel => ?_⟩
  have hf := (C99_fresh cfg ops tb hr s sm segs hs).2 fuel false
  have hd : ∀ {α : Type} (item : Bytes → Bytes → List α), tb'.read item fuel segs false = tb.read item fuel segs false := by
    intro α item
    simp only [Table.read, Bool.false_eq_true, if_false]
    clear hs hf
    induction segs with
    | nil => rfl
    | cons x xs ih =>
      obtain ⟨t, t', h1, h2, h3, _, h5⟩ := key x (by simp)
      simp only [Table.concat, h1, h2, Option.bind_some, h3, h5, ih fun y hy => key y (by simp [hy])]
  exact ⟨(hd _).trans hf.slice, (hd _).trans hf.pos, (hd _).trans hf.string⟩

/-- C99: as long as the table has not moved, a kept result reads as in the current dictionary, in search mode too. -/
theorem C99_stay (cfg : SplitCfg) (ops : List (DictOp F × Bool)) (tb : Table F D) (hr : Table.run cfg ops Table.new = some tb) (s : Bytes) (sm : Bool)
    (segs : List PSeg) (hs : tb.segment cfg s sm = some segs) (later : List (DictOp F × Bool)) (tb' : Table F D) (hl : Table.run cfg later tb = some tb')
    (hc : tb'.cur = tb.cur) (fuel : Nat) (mode : Bool) : ReadAs tb' tb'.seen segs fuel mode := by
  have hI := inv_run hr
  obtain ⟨hI', hL⟩ := Table.later_run later hI hl
  refine Table.reads_into hI' (fun x hx => ?_) fuel mode
  rcases segment_refs hs x hx with ⟨i, e, hi⟩ | ⟨w, e⟩ <;> rw [e]
  · obtain ⟨l', h1, h2⟩ := hL.keys
    have h3 := hI'.tokens
    rw [hc, h1] at h3
    cases h3
    refine ⟨_, h1, ?_, List.prefix_rfl⟩
    have := h2.length_le
    simp at this
    omega
  · trivial

/-- C99: once a call has moved the table, a kept result reads for ever as in the dictionary before that call. -/
theorem C99_left (cfg : SplitCfg) (ops : List (DictOp F × Bool)) (tb : Table F D) (hr : Table.run cfg ops Table.new = some tb) (s : Bytes) (sm : Bool)
    (segs : List PSeg) (hs : tb.segment cfg s sm = some segs) (before : List (DictOp F × Bool)) (tb1 : Table F D) (hb : Table.run cfg before tb = some tb1)
    (hc : tb1.cur = tb.cur) (op : DictOp F) (full : Bool) (tb2 : Table F D) (ho : tb1.step cfg full op = some tb2) (hm : tb2.cur ≠ tb1.cur)
    (after : List (DictOp F × Bool)) (tb3 : Table F D) (ha : Table.run cfg after tb2 = some tb3) (fuel : Nat) (mode : Bool) :
    ReadAs tb3 tb1.seen segs fuel mode := by
  have hI := inv_run hr
  obtain ⟨hI1, hL1⟩ := Table.later_run before hI hb
  have hO := Table.Once.step hI1 ho
  obtain ⟨hI3, hL3⟩ := Table.later_run after hO.inv ha
  have h3 : tb3.arrays[tb1.cur]? = some tb1.tokens := hL3.old _ _ (by have := hO.cur; omega) (hO.left hm)
  refine Table.reads_into hI3 (fun x hx => ?_) fuel mode
  rcases segment_refs hs x hx with ⟨i, e, hi⟩ | ⟨w, e⟩ <;> rw [e]
  · obtain ⟨l', h1, h2⟩ := hL1.keys
    have h4 := hI1.tokens
    rw [hc, h1] at h4
    cases h4
    rw [hc] at h3
    refine ⟨_, h3, ?_, List.prefix_rfl⟩
    have := h2.length_le
    simp at this
    omega
  · trivial

theorem run_split : ∀ (later : List (DictOp F × Bool)) {tb1 tb' : Table F D} (a : Nat), tb1.cur = a → Table.run cfg later tb1 = some tb' →
    tb'.cur = a ∨ ∃ before op after tb2 tb3, later = before ++ op :: after ∧ Table.run cfg before tb1 = some tb2 ∧ tb2.cur = a ∧
      tb2.step cfg op.2 op.1 = some tb3 ∧ tb3.cur ≠ a ∧ Table.run cfg after tb3 = some tb'
  | [], tb1, tb', a, hc, hr => by cases hr; exact .inl hc
  | op :: ops, tb1, tb', a, hc, hr => by
    obtain ⟨tb2, h1, h2⟩ := Option.bind_eq_some_iff.mp hr
    by_cases e : tb2.cur = a
    · rcases run_split ops a e h2 with h | ⟨before, op', after, t2, t3, rfl, h3, h4, h5⟩
      · exact .inl h
      · exact .inr ⟨op :: before, op', after, t2, t3, rfl, by simp [Table.run, h1, h3], h4, h5⟩
    · exact .inr ⟨[], op, ops, tb1, tb2, rfl, rfl, hc, h1, e, h2⟩

/-- C99: so a kept result always reads as in some dictionary of the history since the search: the one before the first call that moved the
table, or the current one if none did. -/
theorem C99_search (cfg : SplitCfg) (ops : List (DictOp F × Bool)) (tb : Table F D) (hr : Table.run cfg ops Table.new = some tb) (s : Bytes) (sm : Bool)
    (segs : List PSeg) (hs : tb.segment cfg s sm = some segs) (later : List (DictOp F × Bool)) (tb' : Table F D) (hl : Table.run cfg later tb = some tb') :
    ∃ before after d, later = before ++ after ∧ runOps cfg ((ops ++ before).map (·.1)) Dictionary.new = some d ∧
      (∀ op rest, after = op :: rest → ∃ tb1 tb2, Table.run cfg before tb = some tb1 ∧ tb1.cur = tb.cur ∧ tb1.step cfg op.2 op.1 = some tb2 ∧ tb2.cur ≠ tb.cur) ∧
      ∀ fuel mode, ReadAs tb' d segs fuel mode := by
  have hI := inv_run hr
  have hd : ∀ before tb1, Table.run cfg before tb = some tb1 → runOps cfg ((ops ++ before).map (·.1)) Dictionary.new = some tb1.seen := by
    intro before tb1 h
    rw [← C99_seen]
    have : ∀ (a b : List (DictOp F × Bool)) (x : Table F D), Table.run cfg (a ++ b) x = (Table.run cfg a x).bind (Table.run cfg b) := by
      intro a
      induction a with
      | nil => intro b x; rfl
      | cons o a ih =>
        intro b x
        simp only [List.cons_append, Table.run]
        cases x.step cfg o.2 o.1 with
        | none => rfl
        | some y => exact ih b y
    rw [this, hr, Option.bind_some, h]; rfl
  rcases run_split later tb.cur rfl hl with h | ⟨before, op, after, tb2, tb3, rfl, h1, h2, h3, h4, h5⟩
  · exact ⟨later, [], tb'.seen, by simp, hd _ _ hl, by simp, C99_stay cfg ops tb hr s sm segs hs later tb' hl h⟩
  · refine ⟨before, op :: after, tb2.seen, rfl, hd _ _ h1, ?_, C99_left cfg ops tb hr s sm segs hs before tb2 h1 h2 op.1 op.2 tb3 h3 (by rw [h2]; exact h4) after tb' h5⟩
    intro o r e
    cases e
    exact ⟨tb2, tb3, h1, h2, h3, h4⟩

theorem concatOpt_isSome {β : Type} {f : Seg → Option (List β)} : ∀ {l : List Seg} {o : List β}, concatOpt f l = some o → ∀ s ∈ l, ∃ x, f s = some x
  | [], _, _, s, hs => by cases hs
  | a :: l, o, h, s, hs => by
    simp only [concatOpt] at h
    cases ha : f a with
    | none => rw [ha] at h; cases h
    | some x =>
      rw [ha] at h
      obtain ⟨o', ho', _⟩ := Option.map_eq_some_iff.mp h
      rcases List.mem_cons.mp hs with rfl | hs
      · exact ⟨x, ha⟩
      · exact concatOpt_isSome ho' s hs

/-- C99: reading a kept result ends normally, in both modes, whatever was done to the dictionary in between. -/
theorem C99_ends [UnicodeOK] (cfg : SplitCfg) (ops : List (DictOp F × Bool)) (tb : Table F D) (hr : Table.run cfg ops Table.new = some tb) (s : Bytes) (sm : Bool)
    (segs : List PSeg) (hs : tb.segment cfg s sm = some segs) (later : List (DictOp F × Bool)) (tb' : Table F D) (hl : Table.run cfg later tb = some tb') :
    ∃ n, ∀ mode, ∃ o, ∀ fuel, n < fuel → tb'.toPos fuel segs mode = some o ∧ tb'.toSlice fuel segs mode = some (o.map (·.text)) ∧
      tb'.toString' fuel segs mode = some (o.flatMap fun p => slashed p.text p.pos) := by
  obtain ⟨before, after, d, _, hd, _, hR⟩ := C99_search cfg ops tb hr s sm segs hs later tb' hl
  have hm : ∃ n, ∀ x ∈ segs.map PSeg.index, ∃ t, d.deref x.tok = some t ∧ t.text.length ≤ n := by
    have h0 : ∃ o, toSlice tb.seen 0 (segs.map PSeg.index) false = some o := by
      refine concatOpt_total fun x hx => ?_
      obtain ⟨t, ht⟩ := internalSegment_deref (C99_fresh cfg ops tb hr s sm segs hs).1 x hx
      exact ⟨[t.text.flatten], by simp [ht, textSliceToString_eq]⟩
    obtain ⟨o, ho⟩ := h0
    have h1 := (hR 0 false).slice
    rw [((C99_text cfg ops tb hr s sm segs hs later tb' hl).2 0).slice, ho] at h1
    have h2 : ∀ x ∈ segs.map PSeg.index, ∃ t, d.deref x.tok = some t := by
      intro x hx
      obtain ⟨y, hy⟩ := concatOpt_isSome h1.symm x hx
      obtain ⟨t, ht, _⟩ := Option.bind_eq_some_iff.mp hy
      exact ⟨t, ht⟩
    clear * - h2
    generalize segs.map PSeg.index = l at h2
    induction l with
    | nil => exact ⟨0, by simp⟩
    | cons a l ih =>
      obtain ⟨n, hn⟩ := ih fun x hx => h2 x (by simp [hx])
      obtain ⟨t, ht⟩ := h2 a (by simp)
      refine ⟨n + t.text.length, fun x hx => ?_⟩
      rcases List.mem_cons.mp hx with rfl | hx
      · exact ⟨t, ht, by omega⟩
      · obtain ⟨u, h1, h2⟩ := hn x hx
        exact ⟨u, h1, by omega⟩
  obtain ⟨n, hn⟩ := hm
  have hpos : ∀ mode, ∃ o, ∀ fuel, n < fuel → toPos d fuel (segs.map PSeg.index) mode = some o := by
    intro mode
    cases mode with
    | false =>
      obtain ⟨o, ho⟩ := concatOpt_total (segs := segs.map PSeg.index)
        (f := fun s => (d.deref s.tok).bind fun t => (textSliceToString t.text).map fun x => [(⟨x, t.pos⟩ : SegPos)]) (by
          intro g hg
          obtain ⟨t, ht, _⟩ := hn g hg
          exact ⟨[⟨t.text.flatten, t.pos⟩], by simp [ht, textSliceToString_eq]⟩)
      exact ⟨o, fun _ _ => by rw [toPos, if_neg (by simp)]; exact ho⟩
    | true =>
      obtain ⟨o, ho⟩ := concatOpt_total (segs := segs.map PSeg.index) (f := fun g => tokenToPos d (n + 1) g.tok) (by
          intro g hg
          obtain ⟨t, ht, hl⟩ := hn g hg
          obtain ⟨o, ho⟩ := tokenToPos_total (subInv_reachable hd) ht
          exact ⟨o, ho _ (by omega)⟩)
      refine ⟨o, fun fuel hf => ?_⟩
      rw [toPos, if_pos rfl, ← ho]
      refine concatOpt_congr fun g hg => ?_
      obtain ⟨t, ht, hl⟩ := hn g hg
      obtain ⟨o, ho⟩ := tokenToPos_total (subInv_reachable hd) ht
      rw [ho _ (by omega), ho _ (by omega)]
  refine ⟨n, fun mode => ?_⟩
  obtain ⟨o, ho⟩ := hpos mode
  refine ⟨o, fun fuel hf => ⟨(hR fuel mode).pos.trans (ho fuel hf), (hR fuel mode).slice.trans ?_, (hR fuel mode).string.trans ?_⟩⟩
  · rw [C17_slice_pos, ho fuel hf]; rfl
  · rw [C17_string_pos, ho fuel hf]; rfl

end

section examples
attribute [local instance] sampleUnicode sampleUnicodeOK sampleF64 sampleF32 sampleNarrow

/-- 上海市长 and 中 are stored, and distances computed. -/
def mayorOps : List (DictOp Int × Bool) := [(.add (encode [0x4e0a, 0x6d77, 0x5e02, 0x957f]) 9 [], true), (.add (encode [0x4e2d]) 9 [], true), (.recalc, false)]

/-- Then 上海市 and 上海 are added, and distances computed again; `full` says what the first `append` finds. -/
def cityLater (full : Bool) : List (DictOp Int × Bool) :=
  [(.add (encode [0x4e0a, 0x6d77, 0x5e02]) 9 [], full), (.add (encode [0x4e0a, 0x6d77]) 9 [], false), (.recalc, false)]

/-- A result for 上海市长, kept over the later calls and then read in search mode. -/
def keptMayor (full : Bool) : Option (List Bytes) :=
  (Table.run (D := Int) {} mayorOps Table.new).bind fun tb => (tb.segment {} (encode [0x4e0a, 0x6d77, 0x5e02, 0x957f]) false).bind fun segs =>
    (Table.run {} (cityLater full) tb).bind fun tb' => tb'.toSlice 9 segs true

/-- C99: whether the table moved shows in a kept result: the same calls, on the same words, give different outputs in search mode, according
to whether one `append` found room. Without a move the result has become that of the new dictionary, with it the result stays. -/
theorem C99_shows : keptMayor false = some [encode [0x4e0a, 0x6d77], encode [0x5e02], encode [0x4e0a, 0x6d77, 0x5e02], encode [0x957f],
      encode [0x4e0a, 0x6d77, 0x5e02, 0x957f]] ∧
    keptMayor true = some [encode [0x4e0a, 0x6d77, 0x5e02, 0x957f]] := by
  constructor <;> decide +kernel

/-- The hypotheses of the theorems above can hold, with a move of the table between search and reading. -/
example : ∃ (tb tb1 tb2 tb3 : Table Int Int) (segs : List PSeg), Table.run {} mayorOps Table.new = some tb ∧
    tb.segment {} (encode [0x4e0a, 0x6d77, 0x5e02, 0x957f]) false = some segs ∧ segs = [⟨0, 12, .entry 2 0⟩] ∧
    Table.run {} [] tb = some tb1 ∧ tb1.cur = tb.cur ∧ tb1.step {} true (.add (encode [0x4e0a, 0x6d77, 0x5e02]) 9 []) = some tb2 ∧ tb2.cur ≠ tb1.cur ∧
    Table.run {} (cityLater true).tail tb2 = some tb3 ∧ Table.run {} (cityLater true) tb = some tb3 := by
  have h : ((Table.run (D := Int) {} mayorOps Table.new).bind fun tb => (tb.segment {} (encode [0x4e0a, 0x6d77, 0x5e02, 0x957f]) false).bind fun segs =>
      (tb.step {} true (.add (encode [0x4e0a, 0x6d77, 0x5e02]) 9 [])).bind fun tb2 => (Table.run {} (cityLater true).tail tb2).map fun _ =>
        (segs, decide (tb2.cur ≠ tb.cur))) = some ([⟨0, 12, .entry 2 0⟩], true) := by decide +kernel
  obtain ⟨tb, h1, h⟩ := Option.bind_eq_some_iff.mp h
  obtain ⟨segs, h2, h⟩ := Option.bind_eq_some_iff.mp h
  obtain ⟨tb2, h3, h⟩ := Option.bind_eq_some_iff.mp h
  obtain ⟨tb3, h4, h⟩ := Option.map_eq_some_iff.mp h
  simp only [Prod.mk.injEq, decide_eq_true_eq] at h
  refine ⟨tb, tb, tb2, tb3, segs, h1, h2, h.1, rfl, rfl, h3, h.2, h4, ?_⟩
  change (tb.step {} true (.add (encode [0x4e0a, 0x6d77, 0x5e02]) 9 [])).bind (Table.run {} (cityLater true).tail) = some tb3
  rw [h3]; exact h4

/-- `C99_stay` applies: two words are added and the table stays. -/
example : ((Table.run (D := Int) {} mayorOps Table.new).bind fun tb => (Table.run {} (cityLater false) tb).map fun tb' => (tb.cur, tb'.cur)) = some (2, 2) := by
  decide +kernel

end examples
end Gse
