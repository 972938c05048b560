import Verif.Spec.ServerCost
import Verif.Props.ServerSerial
import Verif.Props.CostCut
import Verif.Props.CostCalc

/-! # C120: the work of the server -/

namespace Gse
open Spec Prog

set_option linter.unusedSectionVars false

section main
variable {F D : Type} [F64 F] [F32 D] [Narrow F D] [Unicode]

/-! ## Requests for words -/

theorem tiles_cost {R : Seg → Token F D → Prop} : ∀ {segs : List Seg} {ts : List (Token F D)}, List.Forall₂ (fun (g : Seg) t => R g t ∧ g.stop = g.start + t.text.flatten.length) segs ts →
    ∀ {p q : Nat}, Tiles p q segs → p + segs.length ≤ q ∧ p + (ts.map fun t => t.text.flatten.length).sum = q := by
  intro segs ts h
  induction h with
  | nil => intro p q ht; cases ht; simp
  | @cons s t segs ts h1 _ ih =>
    intro p q ht
    cases ht with
    | cons e1 e2 e3 =>
      obtain ⟨g1, g2⟩ := ih e3
      have := h1.2
      simp only [List.length_cons, List.map_cons, List.sum_cons]
      omega

theorem within_token {sh o : Mem F D} {d : Dictionary F D} {p : MRef} {r : TokRef} (hp : RefIs (view sh o) p r) {t : Token F D} (ht : d.deref r = some t) :
    within sh (tokenP (F := F) (D := D) (some p)) o (t.text.flatten.length + 1) := by
  cases hp with
  | idx v => exact within_mono _ _ (by omega) (Cap.within (Q := fun _ => True) (cap_bind 1 0 (le_refl _) (cap_rdTok v) fun _ _ => trivial))
  | pseudo s w hw =>
    cases ht
    obtain ⟨h1, _⟩ := hw
    refine within_mono _ _ ?_ (Cap.within (Q := fun _ => True) (cap_bind s.len 0 (le_refl _) (cap_rdBytes s.arr s.len s.off) fun _ _ => trivial))
    rw [← h1]
    simp

theorem within_tokens {sh o : Mem F D} {cfg : SplitCfg} {d : Dictionary F D} (hT : HoldsTable sh cfg (some d)) (ha : Apart sh o) (a : Nat) : ∀ (segs : List Seg) (i : Nat) (ts : List (Token F D)),
    (∀ k s, segs[k]? = some s → ∃ p, view sh o (.cell a (i + k)) = some (.seg ⟨s.start, s.stop, some p⟩) ∧ RefIs (view sh o) p s.tok) →
    mapOpt (fun g : Seg => d.deref g.tok) segs = some ts →
    within sh (tokensP a segs.length i) o (2 * segs.length + (ts.map fun t => t.text.flatten.length).sum)
  | [], i, ts, _, ht => trivial
  | g :: segs, i, ts, hs, ht => by
    obtain ⟨p, h1, h2⟩ := hs 0 g rfl
    cases hg : d.deref g.tok with
    | none => simp [mapOpt, hg] at ht
    | some t =>
      cases hm : mapOpt (fun g : Seg => d.deref g.tok) segs with
      | none => simp [mapOpt, hg, hm] at ht
      | some us =>
        simp only [mapOpt, hg, hm, Option.bind_eq_bind, Option.bind_some, Option.some.injEq] at ht
        subst ht
        have hs' : ∀ k s, segs[k]? = some s → ∃ p, view sh o (.cell a (i + 1 + k)) = some (.seg ⟨s.start, s.stop, some p⟩) ∧ RefIs (view sh o) p s.tok := fun k s hk => by
          have := hs (k + 1) s hk
          rwa [show i + (k + 1) = i + 1 + k by omega] at this
        refine within_bind 1 (1 + 2 * segs.length + ((t :: us).map fun t => t.text.flatten.length).sum) (by simp only [List.length_cons]; omega) (cap_rdSeg _ _).within ⟨_, h1, ?_⟩
        refine within_bind (t.text.flatten.length + 1) (2 * segs.length + (us.map fun t => t.text.flatten.length).sum) (by simp only [List.map_cons, List.sum_cons]; omega)
          (within_token h2 hg) (wp_mono ?_ _ _ (wp_token hT ha h2 hg))
        rintro _ _ ⟨rfl, rfl⟩
        exact within_bind _ 0 (le_refl _) (within_tokens hT ha a segs (i + 1) us hs' hm) (wp_mono (fun _ _ _ => trivial) _ _ (wp_tokens hT ha a segs (i + 1) us hs' hm))

theorem takes_json [UnicodeOK] (E : ServerEnv F) {ops : List (DictOp F)} (hl : ops.length ≤ Trie.valueLimit) {d : Dictionary F D} (hr : runOps E.cfg ops Dictionary.new = some d) {L M : Nat}
    (hL : ∀ e ∈ (absRun E.cfg ops).stored, (splitTextToWords E.cfg e.1).length ≤ L) (hM : ∀ k, (absRun E.cfg ops).content k ≠ none → k.length ≤ M) {sh : Mem F D}
    (hS : HoldsSegmenter sh E.cfg (some d)) (hf : sh .totalFreq = some (.freq d.totalFreq)) (he : sh .emit = some (.emit E.emit)) {q f : List (Bytes × Bytes)} {text : Bytes}
    (hq : Spec.Asks q f text) {input : Slice} (hi : HoldsBytes sh input text) : within sh (jsonP E input q f) noMem (jsonBound E.hmm L M text) := by
  have hmax : d.maxTokenLen ≤ L := by
    rcases (C06_counters E.cfg ops hl d hr).2.2.2 with h | ⟨e, he, h⟩
    · omega
    · rw [← h]; exact hL e he
  unfold jsonP jsonBound
  rw [reqText_asks hq]
  cases hE : E.hmm with
  | true =>
    simp only [if_true]
    obtain ⟨ws, hw, _⟩ := C28_lossless E.cfg ops d hr E.consts E.emit 0 text
    have := takes_cut E.consts ⟨hS.toHoldsTable, hf⟩ (known_upto E.cfg ops hl d hr M hM) text true 0 ws hw
    rw [dagRunes_length] at this
    exact takes_answer this (yields_cut E.consts ⟨hS.toHoldsTable, hf⟩ he 0 text true ws hw)
  | false =>
    simp only [Bool.false_eq_true, if_false]
    obtain ⟨segs, ts, h1, h2, h3, h4, _⟩ := segment_tokens hr text false (by simp)
    have hm : mapOpt (fun g : Seg => d.deref g.tok) segs = some ts := mapOpt_forall (h2.imp fun _ _ h => h.1)
    obtain ⟨k1, k2⟩ := tiles_cost h2 h4
    have h5 : 11 * d.maxTokenLen * text.length ≤ 11 * L * text.length := Nat.mul_le_mul_right _ (by omega)
    refine within_bind (segmentBound (maxLenOf (some d)) text.length) (3 * text.length) (by simp only [segmentBound, maxLenOf]; omega) (within_segment hS hi (fun _ _ _ => rfl) h1)
      (wp_mono ?_ _ _ (wp_apart _ _ (fun _ _ _ => rfl) (wp_segment hS hi (fun _ _ _ => rfl) h1)))
    rintro r o ⟨⟨g1, g2⟩, ha⟩
    rw [g1]
    exact within_bind _ 0 (by omega) (within_tokens hS.toHoldsTable ha r.arr segs r.off ts g2 hm)
      (wp_mono (fun _ _ _ => trivial) _ _ (wp_tokens hS.toHoldsTable ha r.arr segs r.off ts g2 hm))

/-- **C120.** Any number of requests to `/json` at the same time: at every moment of every execution the work of a handler is bounded by a product of the length of its own text and that of the longest
stored word, whatever the other requests are and however many words there are. -/
theorem C120_json [UnicodeOK] (E : ServerEnv F) (ops : List (DictOp F)) (hl : ops.length ≤ Trie.valueLimit) (d : Dictionary F D) (hr : runOps E.cfg ops Dictionary.new = some d) (L M : Nat)
    (hL : ∀ e ∈ (absRun E.cfg ops).stored, (splitTextToWords E.cfg e.1).length ≤ L) (hM : ∀ k, (absRun E.cfg ops).content k ≠ none → k.length ≤ M) (m : Mem F D)
    (reqs : List (ServerReq × Slice)) (h : ServingOK m E d reqs) (hj : ∀ x ∈ reqs, ∃ q f, x.1 = .json q f) (tr : List (Nat × Access)) (c' : Config F D JVal)
    (hx : Exec (startServer m E reqs) tr c') (i : Nat) (x : ServerReq × Slice) (hi : reqs[i]? = some x) (text : Bytes) (ht : Brings text x.1) :
    work i tr ≤ jsonBound E.hmm L M text := by
  have hb : ∀ (j : Nat) p, (startServer m E reqs).threads[j]? = some p → within m p noMem ((fun j => if j = i then jsonBound E.hmm L M text else ((reqs[j]?).map fun y =>
      jsonBound E.hmm L M (match y.1 with | .json q f => reqText q f | .add q => [])).getD 0) j) := by
    intro j p hp
    simp only [startServer, List.getElem?_map, Option.map_eq_some_iff] at hp
    obtain ⟨⟨req, input⟩, hc, rfl⟩ := hp
    obtain ⟨q, f, rfl⟩ : ∃ q f, req = .json q f := hj _ (List.mem_of_getElem? hc)
    obtain ⟨t, ht', hi'⟩ := h.inputs _ (List.mem_of_getElem? hc)
    have key := takes_json E hl hr hL hM h.segmenter h.totalFreq h.emit ht' hi'
    simp only
    split
    · next e =>
      subst e
      rw [hi] at hc; cases hc
      obtain rfl : text = t := brings_unique ht ht'
      exact key
    · rw [hc]
      simp only [Option.map_some, Option.getD_some]
      rw [reqText_asks ht']
      exact key
  obtain ⟨own', _, hw⟩ := exec_work (isolated_json hr h hj) _ hb hx
  have hil : i < c'.threads.length := by rw [exec_threads hx]; simpa [startServer] using (List.getElem?_eq_some_iff.mp hi).1
  have := (hw i _ (List.getElem?_eq_getElem hil)).1
  simpa using this

/-! ## Requests that add a word -/

theorem one_work {α : Type} {m m' : Mem F D} {p : Prog F D α} {Q : α → Mem F D → Prop} (hw : wp noMem p m Q) {n k : Nat} (hn : within noMem p m n) (hk : exceeds noMem p m k)
    {tr : List (Nat × Access)} {a : α} (hx : Exec ⟨m, [p]⟩ tr ⟨m', [.ret a]⟩) : work 0 tr ≤ n ∧ k ≤ work 0 tr := by
  have hI : Isolated noMem (⟨m, [p]⟩ : Config F D α) (fun i => if i = 0 then m else noMem) (fun _ => Q) := by
    refine ⟨fun l x h => (by cases h), ?_, fun _ _ _ _ => rfl, ?_, ?_⟩
    · intro i l x h
      split at h
      · exact h
      · cases h
    · intro i j l x hij h
      split at h
      · next hi => rw [if_neg (by omega)]; rfl
      · cases h
    · intro i p hp
      match i with
      | 0 => cases hp; exact hw
      | i + 1 => simp at hp
  constructor
  · obtain ⟨_, _, g⟩ := exec_work hI (fun _ => n) (by
      intro i p hp
      match i with
      | 0 => cases hp; exact hn
      | i + 1 => simp at hp) hx
    exact (g 0 _ rfl).1
  · obtain ⟨_, _, g⟩ := exec_least hI (fun _ => k) (by
      intro i p hp
      match i with
      | 0 => cases hp; exact hk
      | i + 1 => simp at hp) hx
    have : k - work 0 tr = 0 := g 0 _ rfl
    omega

theorem work_own (i : Nat) (tr : List (Nat × Access)) : work 0 (ownAccesses i (tr.filter fun x => x.1 == i)) = work i tr := by
  unfold work ownAccesses
  rw [List.filter_filter]
  induction tr with
  | nil => rfl
  | cons x tr ih =>
    by_cases e : x.1 = i <;> simp [e] at ih ⊢
    · exact ih
    · exact ih

/-- The work of one `/add` with memory to itself. -/
theorem cost_add [UnicodeOK] {E : ServerEnv F} {ops : List (DictOp F)} {d d1 : Dictionary F D} (hr : runOps E.cfg ops Dictionary.new = some d) {m : Mem F D} {q : List (Bytes × Bytes)} {r : Slice}
    {v : JVal} {rest : List (ServerReq × Slice)} (h : QueueOK m E d ((.add q, r) :: rest)) (h1 : handle E d (.add q) = some (d1, v)) {text : Bytes} (ht : HasParam q (str "text") text) :
    within noMem (handlerP (D := D) E r (.add q)) m (17 * text.length + 22 + recalcWork d1) ∧ exceeds noMem (handlerP (D := D) E r (.add q)) m (8 * d1.numTokens + 4) ∧ TableGrows d d1 1 := by
  obtain ⟨text', ht', hin⟩ := h.inputs _ (List.mem_cons_self ..)
  obtain rfl : text' = text := brings_unique (show Brings text' (.add q) from ht') (show Brings text (.add q) from ht)
  obtain rfl : formGet q (str "text") = text' := param_get ht
  have hres : ∃ e, (DictOp.addForce (formGet q (str "text")) (F64.parse (formGet q (str "freq")) : F × Bool).1 (formGet q (str "pos"))).result E.cfg d = some (d1, e) := by
    rw [handle, handleAdd, Option.map_eq_some_iff] at h1
    obtain ⟨d2, h2, h3⟩ := h1
    cases h3
    obtain ⟨⟨_, e⟩, h4, rfl⟩ := Option.map_eq_some_iff.mp h2
    exact ⟨e, h4⟩
  obtain ⟨e, hres⟩ := hres
  generalize hop : (DictOp.addForce (formGet q (str "text")) (F64.parse (formGet q (str "freq")) : F × Bool).1 (formGet q (str "pos"))) = op at hres
  have hH : HistoryOK m E.cfg d [(r, op)] := by
    refine ⟨h.segmenter, h.totalFreq, h.subs, fun k hk => h.room k (by simp at hk ⊢; omega), fun y hy _ => ?_⟩
    obtain rfl := List.mem_singleton.mp hy
    subst hop
    exact hin
  have hprog : (handlerP E r (.add q) : Prog F D JVal) = (op.prog r).bind fun _ => .ret okAnswer := by subst hop; rfl
  have hw := wp_op hH hres
  have g1 := within_op (Reachable.wf ⟨ops, hr⟩) hH hres
  have g2 := exceeds_op hH hres
  have e1 : op.recalculates = true := by subst hop; rfl
  have e2 : op.text = formGet q (str "text") := by subst hop; rfl
  rw [e1, e2] at g1
  rw [e1] at g2
  rw [hprog]
  exact ⟨within_bind _ 0 (le_refl _) g1 (wp_mono (fun _ _ _ => trivial) _ _ hw), exceeds_bind _ 0 (le_refl _) g2 (wp_mono (fun _ _ _ => rfl) _ _ hw), grows_table_step hres⟩

theorem queue_work [UnicodeOK] {E : ServerEnv F} {reqs : List (ServerReq × Slice)} {tr : List (Nat × Access)} {c' : Config F D JVal} :
    ∀ (order : List Nat) (c : Config F D JVal) (ops : List (DictOp F)) (d : Dictionary F D), runOps E.cfg ops Dictionary.new = some d → order.Nodup →
      (∀ i ∈ order, c.threads[i]? = (reqs[i]?).map fun x => handlerP E x.2 x.1) → (∀ i ∈ order, i < reqs.length) → (∀ i ∈ order, ∃ p, c'.threads[i]? = some p ∧ Ended p) →
      QueueOK c.mem E d (order.filterMap (reqs[·]?)) → Exec c (serial order tr) c' →
      (∀ (k i : Nat) q r text, order[k]? = some i → reqs[i]? = some (.add q, r) → HasParam q (str "text") text →
        ∃ d1 vs, serve E d (inOrder reqs (order.take (k + 1))) = some (d1, vs) ∧ 8 * d1.numTokens + 4 ≤ work i tr ∧ work i tr ≤ 17 * text.length + 22 + recalcWork d1) ∧
      ((∀ i ∈ order, ∃ q r, reqs[i]? = some (.add q, r)) → ∀ d' vs, serve E d (inOrder reqs order) = some (d', vs) →
        d'.numTokens ≤ d.numTokens + order.length ∧ (d'.numTokens = d.numTokens + order.length → 4 * order.length ^ 2 + 8 * d.numTokens * order.length ≤ workOf order tr))
  | [], c, ops, d, _, _, _, _, _, h, hx => by
    refine ⟨fun k i q r text hk => by simp at hk, fun _ d' vs hs => ?_⟩
    simp only [inOrder, List.filterMap_nil, serve, Option.some.injEq, Prod.mk.injEq] at hs
    obtain ⟨rfl, _⟩ := hs
    simp
  | i :: order, c, ops, d, hr, hnd, hth, hlt, hend, h, hx => by
    obtain ⟨hi, hnd'⟩ := List.nodup_cons.mp hnd
    have hil := hlt i (by simp)
    have hxi : reqs[i]? = some reqs[i] := List.getElem?_eq_getElem hil
    rw [List.filterMap_cons, hxi] at h
    simp only at h
    obtain ⟨d1, v, h1, h2, h3⟩ := wp_handler hr h
    rw [serial, List.flatMap_cons, ← serial] at hx
    obtain ⟨c1, g1, g2⟩ := exec_parts hx
    have hp : c.threads[i]? = some (handlerP E reqs[i].2 reqs[i].1) := by rw [hth i (by simp), hxi]; rfl
    obtain ⟨q, g3, g4⟩ := exec_one g1 (fun x hx => by have := (List.mem_filter.mp hx).2; simpa using this) hp
    have hstill := exec_still g2 (i := i) fun x hx => by
      obtain ⟨j, hj, hx⟩ := List.mem_flatMap.mp hx
      have := (List.mem_filter.mp hx).2
      rintro rfl
      simp only [beq_iff_eq] at this
      exact hi (this ▸ hj)
    have hlt' := (List.getElem?_eq_some_iff.mp hp).1
    rw [g3, List.getElem?_set_self hlt'] at hstill
    obtain ⟨p, hp1, hp2⟩ := hend i (by simp)
    obtain rfl : q = p := by rw [hstill] at hp1; exact Option.some.inj hp1
    obtain ⟨q', k1, k2⟩ := alone_wp h3 g4
    simp only [List.cons.injEq, and_true] at k1
    subst k1
    rcases hp2 with ⟨a, rfl⟩ | rfl
    · obtain ⟨rfl, k3⟩ := k2
      obtain ⟨r1, r2⟩ := queue_work order c1 _ d1 h2 hnd' (fun j hj => by
          rw [g3, List.getElem?_set_ne (by rintro rfl; exact hi hj)]
          exact hth j (by simp [hj])) (fun j hj => hlt j (by simp [hj])) (fun j hj => hend j (by simp [hj])) k3 g2
      have hfirst : ∀ q r text, reqs[i] = (.add q, r) → HasParam q (str "text") text →
          8 * d1.numTokens + 4 ≤ work i tr ∧ work i tr ≤ 17 * text.length + 22 + recalcWork d1 ∧ TableGrows d d1 1 := by
        intro q r text e ht
        rw [e] at h h1 g4 h3
        obtain ⟨w1, w2, w3⟩ := cost_add hr h h1 ht
        obtain ⟨w4, w5⟩ := one_work h3 w1 w2 g4
        rw [work_own] at w4 w5
        exact ⟨w5, w4, w3⟩
      have hserve : ∀ l, serve E d (inOrder reqs (i :: l)) = (serve E d1 (inOrder reqs l)).map fun z => (z.1, a :: z.2) := by
        intro l
        rw [inOrder, List.filterMap_cons, hxi]
        simp only [Option.map_some, serve, h1, Option.bind_some]
        rfl
      refine ⟨fun k j q r text hk hj ht => ?_, fun hadd d' vs hs => ?_⟩
      · cases k with
        | zero =>
          obtain rfl : i = j := by simpa using hk
          obtain ⟨w1, w2, _⟩ := hfirst q r text (by rw [hxi] at hj; exact Option.some.inj hj) ht
          refine ⟨d1, [a], ?_, w1, w2⟩
          rw [show (i :: order).take (0 + 1) = i :: [] by simp, hserve]
          rfl
        | succ k =>
          obtain ⟨d2, vs, w1, w2, w3⟩ := r1 k j q r text (by simpa using hk) hj ht
          refine ⟨d2, a :: vs, ?_, w2, w3⟩
          rw [List.take_succ_cons, hserve, w1]
          rfl
      · rw [hserve] at hs
        obtain ⟨⟨d2, ws⟩, hs1, hs2⟩ := Option.map_eq_some_iff.mp hs
        cases hs2
        obtain ⟨q, r, e⟩ := hadd i (by simp)
        obtain ⟨text, ht⟩ : ∃ text, HasParam q (str "text") text := by
          cases hq : q.lookup (str "text") with
          | none => exact ⟨[], .inr ⟨hq, rfl⟩⟩
          | some t => exact ⟨t, .inl hq⟩
        obtain ⟨w1, _, w3⟩ := hfirst q r text (by rw [hxi] at e; exact Option.some.inj e) ht
        have l1 : d1.numTokens ≤ d.numTokens + 1 := w3.length.2
        obtain ⟨l2, l3⟩ := r2 (fun j hj => hadd j (by simp [hj])) d2 ws hs1
        simp only [List.length_cons]
        refine ⟨by omega, fun hn => ?_⟩
        have l4 : d1.numTokens = d.numTokens + 1 := by omega
        have ih := l3 (by omega)
        rw [l4] at ih w1
        simp only [workOf, List.map_cons, List.sum_cons] at ih ⊢
        have e1 : 4 * (order.length + 1) ^ 2 + 8 * d.numTokens * (order.length + 1) = 4 * order.length ^ 2 + 8 * (d.numTokens + 1) * order.length + 8 * d.numTokens + 4 := by ring
        omega
    · exact k2.elim

/-- **C120.** Among requests handled one after the other in any order, as behind a mutex, every `/add`, also of a word that is stored already, costs at least 8 accesses for every word that was ever stored;
and at most a multiple of its text and a product of the longest word and the bytes of all words. -/
theorem C120_add [UnicodeOK] (E : ServerEnv F) (ops : List (DictOp F)) (d : Dictionary F D) (hr : runOps E.cfg ops Dictionary.new = some d) (m : Mem F D)
    (reqs : List (ServerReq × Slice)) (h : QueueOK m E d reqs) (order : List Nat) (hnd : order.Nodup) (hlt : ∀ i ∈ order, i < reqs.length) (tr : List (Nat × Access))
    (hs : serial order tr = tr) (c' : Config F D JVal) (hx : Exec (startServer m E reqs) tr c') (hend : ∀ i ∈ order, ∃ p, c'.threads[i]? = some p ∧ Ended p)
    (k i : Nat) (q : List (Bytes × Bytes)) (r : Slice) (text : Bytes) (hk : order[k]? = some i) (hi : reqs[i]? = some (.add q, r)) (ht : HasParam q (str "text") text) :
    ∃ d1 vs, serve E d (inOrder reqs (order.take (k + 1))) = some (d1, vs) ∧ 8 * d1.numTokens + 4 ≤ work i tr ∧
      work i tr ≤ 17 * text.length + 22 + (11 * d1.maxTokenLen * tableBytes d1 + 27 * tableBytes d1 + (d1.maxTokenLen + 22) * d1.numTokens + 4) :=
  (queue_work order (startServer m E reqs) ops d hr hnd (fun i _ => by simp [startServer]) hlt hend (h.order hnd hlt) (by rw [hs]; exact hx)).1 k i q r text hk hi ht

/-- C120: `N` requests that store `N` new words cost at least `4 N²`, and `8 N` for every word that was there before. -/
theorem C120_quadratic [UnicodeOK] (E : ServerEnv F) (ops : List (DictOp F)) (d : Dictionary F D) (hr : runOps E.cfg ops Dictionary.new = some d) (m : Mem F D)
    (reqs : List (ServerReq × Slice)) (h : QueueOK m E d reqs) (order : List Nat) (hnd : order.Nodup) (hlt : ∀ i ∈ order, i < reqs.length) (tr : List (Nat × Access))
    (hs : serial order tr = tr) (c' : Config F D JVal) (hx : Exec (startServer m E reqs) tr c') (hend : ∀ i ∈ order, ∃ p, c'.threads[i]? = some p ∧ Ended p)
    (hadd : ∀ i ∈ order, ∃ q r, reqs[i]? = some (.add q, r)) (d' : Dictionary F D) (vs : List JVal) (hd : serve E d (inOrder reqs order) = some (d', vs))
    (hn : d'.numTokens = d.numTokens + order.length) : 4 * order.length ^ 2 + 8 * d.numTokens * order.length ≤ workOf order tr :=
  ((queue_work order (startServer m E reqs) ops d hr hnd (fun i _ => by simp [startServer]) hlt hend (h.order hnd hlt) (by rw [hs]; exact hx)).2 hadd d' vs hd).2 hn

end main
section examples
attribute [local instance] sampleUnicode sampleUnicodeOK sampleF64 sampleF32 sampleNarrow

/-- Two requests that add a word and one that asks for words. -/
def sampleAdds : List (ServerReq × Slice) :=
  [(.add [(str "text", str "go")], ⟨0, 0, 2⟩), (.add [(str "text", str "z")], ⟨1, 0, 1⟩), (.json [(str "text", str "go")] [], ⟨0, 0, 2⟩)]

/-- The bounds for requests to a server whose dictionary has the word "w"; that they can be handled in this order; and what two `/add` then cost, the third request being left waiting. -/
example : ∃ (d : Dictionary Int Int), runOps {} [.add (str "w") 9 [], .recalc] Dictionary.new = some d ∧
    (∀ tr c', Exec (startServer (serverMem sampleServing d [str "go w", str "go", str "go", str "w"]) sampleServing sampleJson) tr c' → work 0 tr ≤ 204 ∧ work 1 tr ≤ 112) ∧
    (∃ tr c', Exec (startServer (queueMem sampleServing d [str "go", str "z"]) sampleServing sampleAdds) tr c' ∧ serial [1, 0] tr = tr ∧ ∀ i ∈ [1, 0], ∃ p, c'.threads[i]? = some p ∧ Ended p) ∧
    ∀ tr c', Exec (startServer (queueMem sampleServing d [str "go", str "z"]) sampleServing sampleAdds) tr c' → serial [1, 0] tr = tr → (∀ i ∈ [1, 0], ∃ p, c'.threads[i]? = some p ∧ Ended p) →
      4 * 2 ^ 2 + 8 * 1 * 2 ≤ workOf [1, 0] tr ∧ 20 ≤ work 1 tr ∧ work 1 tr ≤ 17 * 1 + 22 + (11 * 1 * 2 + 27 * 2 + (1 + 22) * 2 + 4) := by
  have h : (runOps (F := Int) (D := Int) {} [.add (str "w") 9 [], .recalc] Dictionary.new).isSome := by decide +kernel
  obtain ⟨d, hd⟩ := Option.isSome_iff_exists.mp h
  have hst : (absRun (F := Int) {} [.add (str "w") 9 [], .recalc]).stored = [(str "w", 9)] := by decide +kernel
  have hL : ∀ e ∈ (absRun (F := Int) {} [.add (str "w") 9 [], .recalc]).stored, (splitTextToWords {} e.1).length ≤ 1 := by rw [hst]; decide +kernel
  have hM : ∀ k, (absRun (F := Int) {} [.add (str "w") 9 [], .recalc]).content k ≠ none → k.length ≤ 1 := by
    intro k hk
    obtain ⟨e, he, rfl⟩ := content_stored _ _ k hk
    rw [hst, List.mem_singleton] at he
    subst he
    decide +kernel
  have hn : d.numTokens = 1 := by
    have : (runOps (F := Int) (D := Int) {} [.add (str "w") 9 [], .recalc] Dictionary.new).map (·.numTokens) = some 1 := by decide +kernel
    rw [hd] at this
    simpa using this
  have hq : (serve sampleServing d (inOrder sampleAdds [1, 0])).map (fun r => r.1.numTokens) = some 3 := by
    have : ((runOps (F := Int) (D := Int) {} [.add (str "w") 9 [], .recalc] Dictionary.new).bind fun d =>
        (serve sampleServing d (inOrder sampleAdds [1, 0])).map (fun r => r.1.numTokens)) = some 3 := by decide +kernel
    rw [hd] at this
    exact this
  have hz : (serve sampleServing d (inOrder sampleAdds [1])).map (fun r => (r.1.numTokens, r.1.maxTokenLen, tableBytes r.1)) = some (2, 1, 2) := by
    have : ((runOps (F := Int) (D := Int) {} [.add (str "w") 9 [], .recalc] Dictionary.new).bind fun d =>
        (serve sampleServing d (inOrder sampleAdds [1])).map (fun r => (r.1.numTokens, r.1.maxTokenLen, tableBytes r.1))) = some (2, 1, 2) := by decide +kernel
    rw [hd] at this
    exact this
  have hok : QueueOK (queueMem sampleServing d [str "go", str "z"]) sampleServing d sampleAdds := by
    refine queueMem_ok sampleServing d _ _ fun x hx => ?_
    simp only [sampleAdds, List.mem_cons, List.not_mem_nil, or_false] at hx
    rcases hx with rfl | rfl | rfl
    · exact ⟨str "go", .inl (by decide), memOf_input _ _ _ 0 (str "go") rfl⟩
    · exact ⟨str "z", .inl (by decide), memOf_input _ _ _ 1 (str "z") rfl⟩
    · exact ⟨str "go", .inl (by decide), memOf_input _ _ _ 0 (str "go") rfl⟩
  refine ⟨d, hd, fun tr c' hx => ?_, C119_exists sampleServing _ d hd _ (queueMem_below sampleServing d _) _ hok [1, 0] (by decide) (by decide), fun tr c' hx hs he => ?_⟩
  · have key := C120_json sampleServing _ (by decide +kernel) d hd 1 1 hL hM _ _ (serverMem_ok sampleServing d _ _ (sampleJson_brings d)) (by
      intro x hx
      simp only [sampleJson, List.mem_cons, List.not_mem_nil, or_false] at hx
      rcases hx with rfl | rfl <;> exact ⟨_, _, rfl⟩) tr c' hx
    exact ⟨key 0 _ rfl (str "go w") (.inl (by decide)), key 1 _ rfl (str "go") (.inr (by decide))⟩
  · obtain ⟨⟨d', vs⟩, hs1, hs2⟩ := Option.map_eq_some_iff.mp hq
    have g1 := C120_quadratic sampleServing _ d hd _ _ hok [1, 0] (by decide) (by decide) tr hs c' hx he (by
      intro i hi
      simp only [List.mem_cons, List.not_mem_nil, or_false] at hi
      rcases hi with rfl | rfl <;> exact ⟨_, _, rfl⟩) d' vs hs1 (by rw [hn]; exact hs2)
    obtain ⟨d1, ws, g2, g3, g4⟩ := C120_add sampleServing _ d hd _ _ hok [1, 0] (by decide) (by decide) tr hs c' hx he 0 1 _ _ (str "z") rfl rfl (.inl (by decide))
    rw [show ([1, 0] : List Nat).take (0 + 1) = [1] from rfl] at g2
    rw [g2] at hz
    simp only [Option.map_some, Option.some.injEq, Prod.mk.injEq] at hz
    obtain ⟨z1, z2, z3⟩ := hz
    rw [z1] at g3
    rw [z1, z2, z3] at g4
    rw [hn] at g1
    exact ⟨g1, g3, g4⟩

end examples
end Gse
