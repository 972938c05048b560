import Verif.Spec.ServerSerial
import Verif.Props.ServerConc
import Verif.Props.Lock
import Verif.Props.Order

/-! # C119: the server with handlers that do not get in each other's way -/

namespace Gse
open Spec Prog

set_option linter.unusedSectionVars false

section main
variable {F D : Type}

/-- More shared memory does no harm. -/
theorem wp_wider {α : Type} {sh : Mem F D} {Q : α → Mem F D → Prop} : ∀ (p : Prog F D α) (o : Mem F D), wp noMem p o Q → wp sh p o Q
  | .ret _, _, h => h
  | .panic, _, h => h
  | .read l k, o, ⟨c, hc, h⟩ => ⟨c, by rw [view_noMem] at hc; exact view_own hc, wp_wider (k c) o h⟩
  | .write _ _ k, _, ⟨hl, h⟩ => ⟨hl, wp_wider k _ h⟩
  | .alloc _ k, _, h => fun a h1 _ => wp_wider (k a) _ (h a h1 fun _ => rfl)

variable [F64 F] [F32 D] [Narrow F D] [Unicode]

theorem Spec.QueueOK.grow {m m' : Mem F D} {E : ServerEnv F} {d : Dictionary F D} {reqs reqs' : List (ServerReq × Slice)} (h : QueueOK m E d reqs) (hg : Grows m m')
    (hl : reqs'.length ≤ reqs.length) (hs : ∀ x ∈ reqs', x ∈ reqs) : QueueOK m' E d reqs' := by
  have some_ : ∀ l, (m l).isSome → (m' l).isSome := fun l hs => by
    obtain ⟨x, hx⟩ := Option.isSome_iff_exists.mp hs
    rw [hg l x hx]; rfl
  refine ⟨h.segmenter.grow hg, hg _ _ h.totalFreq, hg _ _ h.emit, fun k hk => ?_, fun i hi => some_ _ (h.subs i hi), fun x hx => ?_⟩
  · have := h.room k (by omega)
    exact ⟨some_ _ this.tok, some_ _ this.dist, some_ _ this.subs⟩
  · obtain ⟨text, h1, h2⟩ := h.inputs x (hs x hx)
    exact ⟨text, h1, h2.1, fun k b hb => hg _ _ (h2.2 k b hb)⟩

/-- One request, with memory to itself. -/
theorem wp_handler [UnicodeOK] {E : ServerEnv F} {ops : List (DictOp F)} {d : Dictionary F D} (hr : runOps E.cfg ops Dictionary.new = some d) {m : Mem F D} {x : ServerReq × Slice}
    {rest : List (ServerReq × Slice)} (h : QueueOK m E d (x :: rest)) :
    ∃ d1 v, handle E d x.1 = some (d1, v) ∧ runOps E.cfg (ops ++ reqOps x.1) Dictionary.new = some d1 ∧
      wp noMem (handlerP E x.2 x.1) m fun a o' => a = v ∧ QueueOK o' E d1 rest := by
  obtain ⟨req, r⟩ := x
  obtain ⟨d1, h1⟩ := reqOps_total E hr req
  have hr1 : runOps E.cfg (ops ++ reqOps req) Dictionary.new = some d1 := by rw [runOps_append, hr]; exact h1
  obtain ⟨text, ht, hin⟩ := h.inputs _ (List.mem_cons_self ..)
  cases req with
  | json q f =>
    obtain rfl : d = d1 := Option.some.inj h1
    obtain ⟨v, h2, h3⟩ := wp_json E hr h.segmenter h.totalFreq h.emit ht hin
    refine ⟨d, v, by rw [handle, h2]; rfl, hr1, ?_⟩
    have h4 : wp noMem (jsonP E r q f) (view m noMem) fun a m' => ∃ o', m' = view m o' ∧ a = v ∧ Apart m o' := wp_merge _ _ (wp_apart _ _ (fun _ _ _ => rfl) h3)
    rw [show view m noMem = m by funext l; simp [view, noMem]] at h4
    refine wp_mono ?_ _ _ h4
    rintro a _ ⟨o', rfl, rfl, ha⟩
    exact ⟨rfl, h.grow (fun l x hx => view_shared ha hx) (by simp) fun x hx => List.mem_cons_of_mem _ hx⟩
  | add q =>
    refine ⟨d1, okAnswer, by rw [handle, handleAdd_ops, h1]; rfl, hr1, ?_⟩
    obtain rfl : formGet q (str "text") = text := param_get ht
    have hres : ∃ e, (DictOp.addForce (formGet q (str "text")) (F64.parse (formGet q (str "freq")) : F × Bool).1 (formGet q (str "pos"))).result E.cfg d = some (d1, e) := by
      rw [← handleAdd_ops, handleAdd, Option.map_eq_some_iff] at h1
      obtain ⟨⟨_, e⟩, h2, rfl⟩ := h1
      exact ⟨e, h2⟩
    obtain ⟨e, hres⟩ := hres
    generalize hop : (DictOp.addForce (formGet q (str "text")) (F64.parse (formGet q (str "freq")) : F × Bool).1 (formGet q (str "pos"))) = op at hres
    have hmem : ∀ y ∈ (r, op) :: List.replicate rest.length (r, op), y = (r, op) := fun y hy => by
      rcases List.mem_cons.mp hy with rfl | hy
      · rfl
      · exact List.eq_of_mem_replicate hy
    have hH : HistoryOK m E.cfg d ((r, op) :: List.replicate rest.length (r, op)) := by
      refine ⟨h.segmenter, h.totalFreq, h.subs, fun k hk => h.room k (by simpa using hk), fun y hy _ => ?_⟩
      obtain rfl := hmem y hy
      subst hop
      exact hin
    have hO : HistoryOK (fun l => if l = .emit then none else m l) E.cfg d ((r, op) :: List.replicate rest.length (r, op)) :=
      hH.most fun l x hl hx => by rw [if_neg hl]; exact hx
    have hview : view (fun l => if l = .emit then m l else none) (fun l => if l = .emit then none else m l) = m := by
      funext l
      simp only [view]
      by_cases e : l = .emit <;> simp [e]
    have hap : Apart (fun l => if l = .emit then m l else none) (fun l => if l = .emit then none else m l) := by
      intro l x hx
      by_cases e : l = .emit
      · exact if_pos e
      · simp [e] at hx
    have h2 := wp_merge _ _ (wp_apart _ _ hap (wp_wider (sh := fun l => if l = .emit then m l else none) _ _ (wp_owned _ _ (wp_op hO hres))))
    rw [hview] at h2
    have hprog : (handlerP E r (.add q) : Prog F D JVal) = (op.prog r).bind fun _ => .ret okAnswer := by subst hop; rfl
    show wp noMem (handlerP E r (.add q)) m _
    rw [hprog]
    refine wp_bind' _ _ (wp_mono ?_ _ _ h2)
    rintro a _ ⟨o', rfl, ⟨⟨_, g2, g3, g4⟩, g5⟩, ha⟩
    have hN := hO.next hres g2 g3 g4 g5
    have hgrow : Grows o' (view (fun l => if l = .emit then m l else none) o') := fun l x hx => view_own hx
    have hN' := hN.most (m' := view (fun l => if l = .emit then m l else none) o') fun l x _ hx => hgrow l x hx
    refine ⟨rfl, hN'.segmenter, hN'.totalFreq, view_shared ha (by simpa using h.emit), fun k hk => hN'.room k (by simpa using hk), hN'.subs, fun y hy => ?_⟩
    obtain ⟨t, k1, k2⟩ := h.inputs y (List.mem_cons_of_mem _ hy)
    exact ⟨t, k1, k2.1, fun k b hb => hgrow _ _ (g4 _ _ _ (by simpa using k2.2 k b hb))⟩

theorem run_queue [UnicodeOK] {E : ServerEnv F} {reqs : List (ServerReq × Slice)} {tr : List (Nat × Access)} {c' : Config F D JVal} :
    ∀ (order : List Nat) (c : Config F D JVal) (ops : List (DictOp F)) (d : Dictionary F D), runOps E.cfg ops Dictionary.new = some d → order.Nodup →
      (∀ i ∈ order, c.threads[i]? = (reqs[i]?).map fun x => handlerP E x.2 x.1) → (∀ i ∈ order, i < reqs.length) → (∀ i ∈ order, ∃ p, c'.threads[i]? = some p ∧ Ended p) →
      QueueOK c.mem E d (order.filterMap (reqs[·]?)) → Exec c (serial order tr) c' →
      ∃ d' vs, serve E d (inOrder reqs order) = some (d', vs) ∧ order.map (c'.threads[·]?) = vs.map (fun v => some (.ret v)) ∧ QueueOK c'.mem E d' []
  | [], c, ops, d, _, _, _, _, _, h, hx => by
    have hx' : Exec c [] c' := hx
    obtain rfl : c = c' := by
      generalize hu : ([] : List (Nat × Access)) = u at hx'
      cases hx' with
      | refl => rfl
      | step => simp at hu
    exact ⟨d, [], rfl, rfl, h⟩
  | i :: order, c, ops, d, hr, hnd, hth, hlt, hend, h, hx => by
    obtain ⟨hi, hnd'⟩ := List.nodup_cons.mp hnd
    have hil := hlt i (by simp)
    have hxi : reqs[i]? = some reqs[i] := List.getElem?_eq_getElem hil
    rw [List.filterMap_cons, hxi] at h
    simp only at h
    obtain ⟨d1, v, h1, h2, h3⟩ := wp_handler hr h
    rw [serial, List.flatMap_cons, ← serial] at hx
    obtain ⟨c1, g1, g2⟩ := exec_parts hx
    have hp : c.threads[i]? = some (handlerP E reqs[i].2 reqs[i].1) := by rw [hth i (by simp), hxi]; rfl
    obtain ⟨q, g3, g4⟩ := exec_one g1 (fun x hx => by have := (List.mem_filter.mp hx).2; simpa using this) hp
    have hstill := exec_still g2 (i := i) fun x hx => by
      obtain ⟨j, hj, hx⟩ := List.mem_flatMap.mp hx
      have := (List.mem_filter.mp hx).2
      rintro rfl
      simp only [beq_iff_eq] at this
      exact hi (this ▸ hj)
    have hlt' := (List.getElem?_eq_some_iff.mp hp).1
    rw [g3, List.getElem?_set_self hlt'] at hstill
    obtain ⟨p, hp1, hp2⟩ := hend i (by simp)
    obtain rfl : q = p := by rw [hstill] at hp1; exact Option.some.inj hp1
    obtain ⟨q', k1, k2⟩ := alone_wp h3 g4
    simp only [List.cons.injEq, and_true] at k1
    subst k1
    rcases hp2 with ⟨a, rfl⟩ | rfl
    · obtain ⟨rfl, k3⟩ := k2
      obtain ⟨d', vs, r1, r2, r3⟩ := run_queue order c1 _ d1 h2 hnd' (fun j hj => by
          rw [g3, List.getElem?_set_ne (by rintro rfl; exact hi hj)]
          exact hth j (by simp [hj])) (fun j hj => hlt j (by simp [hj])) (fun j hj => hend j (by simp [hj])) k3 g2
      refine ⟨d', a :: vs, ?_, ?_, r3⟩
      · rw [inOrder, List.filterMap_cons, hxi]
        simp only [Option.map_some, serve, h1, Option.bind_some]
        rw [inOrder] at r1
        rw [r1]; rfl
      · rw [List.map_cons, List.map_cons, r2, hstill]
    · exact k2.elim

theorem Spec.QueueOK.order {m : Mem F D} {E : ServerEnv F} {d : Dictionary F D} {reqs : List (ServerReq × Slice)} (h : QueueOK m E d reqs) {order : List Nat} (hnd : order.Nodup)
    (hlt : ∀ i ∈ order, i < reqs.length) : QueueOK m E d (order.filterMap (reqs[·]?)) := by
  refine h.grow (fun _ _ h => h) ?_ fun x hx => ?_
  · have h1 := List.length_filterMap_le (reqs[·]?) order
    have h2 : order.length ≤ (List.range reqs.length).length := List.Subperm.length_le (List.subperm_of_subset hnd fun i hi => List.mem_range.mpr (hlt i hi))
    rw [List.length_range] at h2
    omega
  · obtain ⟨i, _, hi⟩ := List.mem_filterMap.mp hx
    exact List.mem_of_getElem? hi

/-- **C119.** Handlers that run one after the other, as they do behind one mutex, in any order, some of them perhaps not yet started: none of them panics, the answers are those of the requests made one after
the other in this order, and memory holds the dictionary they leave. -/
theorem C119_serial [UnicodeOK] (E : ServerEnv F) (ops : List (DictOp F)) (d : Dictionary F D) (hr : runOps E.cfg ops Dictionary.new = some d) (m : Mem F D)
    (reqs : List (ServerReq × Slice)) (h : QueueOK m E d reqs) (order : List Nat) (hnd : order.Nodup) (hlt : ∀ i ∈ order, i < reqs.length) (tr : List (Nat × Access))
    (hs : serial order tr = tr) (c' : Config F D JVal) (hx : Exec (startServer m E reqs) tr c') (hend : ∀ i ∈ order, ∃ p, c'.threads[i]? = some p ∧ Ended p) :
    ∃ d' vs, serve E d (inOrder reqs order) = some (d', vs) ∧ order.map (c'.threads[·]?) = vs.map (fun v => some (.ret v)) ∧ QueueOK c'.mem E d' [] :=
  run_queue order (startServer m E reqs) ops d hr hnd (fun i _ => by simp [startServer]) hlt hend (h.order hnd hlt) (by rw [hs]; exact hx)

/-- **C119.** Any number of requests of both kinds, handled at the same time, in an execution without a data race in which all handlers have ended: whatever order one names, the answers are those of the
requests made one after the other in that order, and memory holds the dictionary they leave. -/
theorem C119_raceFree [UnicodeOK] (E : ServerEnv F) (ops : List (DictOp F)) (d : Dictionary F D) (hr : runOps E.cfg ops Dictionary.new = some d) (m : Mem F D)
    (reqs : List (ServerReq × Slice)) (h : QueueOK m E d reqs) (tr : List (Nat × Access)) (c' : Config F D JVal) (hx : Exec (startServer m E reqs) tr c') (hrf : RaceFree tr)
    (hfr : FreshAddresses tr) (hend : ∀ p ∈ c'.threads, Ended p) (order : List Nat) (hp : order.Perm (List.range reqs.length)) :
    ∃ d' vs, serve E d (inOrder reqs order) = some (d', vs) ∧ order.map (c'.threads[·]?) = vs.map (fun v => some (.ret v)) ∧ QueueOK c'.mem E d' [] := by
  have hnd : order.Nodup := hp.nodup_iff.mpr List.nodup_range
  have hmem : ∀ i, i ∈ order ↔ i < reqs.length := fun i => by rw [hp.mem_iff, List.mem_range]
  have hsafe : ∀ p ∈ (startServer m E reqs).threads, SafeAlone (startServer m E reqs).mem p := by
    intro p hp
    simp only [startServer, List.mem_map] at hp
    obtain ⟨x, hx, rfl⟩ := hp
    obtain ⟨d1, v, _, _, hw⟩ := wp_handler hr (x := x) (rest := []) (h.grow (fun _ _ h => h) (by have := List.length_pos_of_mem hx; simp; omega) fun y hy => by
      obtain rfl := List.mem_singleton.mp hy; exact hx)
    exact safe_wp hw
  have hser := C115_serial _ c' tr hx hrf hfr hsafe order hnd fun i hi => (hmem i).mpr (by simpa [startServer] using hi)
  refine run_queue order (startServer m E reqs) ops d hr hnd (fun i _ => by simp [startServer]) (fun i hi => (hmem i).mp hi) (fun i hi => ?_) (h.order hnd fun i hi => (hmem i).mp hi) hser
  have hlen := same_number hx
  have hil : i < c'.threads.length := by rw [hlen]; simpa [startServer] using (hmem i).mp hi
  exact ⟨_, List.getElem?_eq_getElem hil, hend _ (List.getElem_mem hil)⟩

/-- A goroutine that has memory to itself can run to its end. -/
theorem run_wp {α : Type} {ts : List (Prog F D α)} {i : Nat} (hi : i < ts.length) {Q : α → Mem F D → Prop} : ∀ (p : Prog F D α) (m : Mem F D), wp noMem p m Q → (∃ n, m.Below n) →
    ∃ u v m', (∀ x ∈ u, x.1 = i) ∧ Exec ⟨m, ts.set i p⟩ u ⟨m', ts.set i (.ret v)⟩ ∧ Q v m' ∧ ∃ n, m'.Below n
  | .ret v, m, h, hb => ⟨[], v, m, by simp, .refl _, h, hb⟩
  | .panic, _, h, _ => h.elim
  | .read l k, m, ⟨c, hc, h⟩, hb => by
    obtain ⟨u, v, m', h1, h2, h3⟩ := run_wp hi (k c) m h hb
    rw [view_noMem] at hc
    have hs := Step.read (c := ⟨m, ts.set i (.read l k)⟩) (set_get hi _) hc
    rw [List.set_set] at hs
    exact ⟨_, v, m', by rintro x hx; rcases List.mem_append.mp hx with hx | hx; · simp at hx; rw [hx]
                        · exact h1 x hx, exec_join (.step (.refl _) hs) h2, h3⟩
  | .write l c k, m, ⟨hl, h⟩, ⟨n, hb⟩ => by
    obtain ⟨u, v, m', h1, h2, h3⟩ := run_wp hi k _ h ⟨n, below_put hb hl c⟩
    have hs := Step.write (c := ⟨m, ts.set i (.write l c k)⟩) (set_get hi _) hl
    rw [List.set_set] at hs
    exact ⟨_, v, m', by rintro x hx; rcases List.mem_append.mp hx with hx | hx; · simp at hx; rw [hx]
                        · exact h1 x hx, exec_join (.step (.refl _) hs) h2, h3⟩
  | .alloc cs k, m, h, ⟨n, hb⟩ => by
    have hun : m.Unused n := fun j => hb n (Nat.le_refl _) j
    have hs := Step.alloc (c := ⟨m, ts.set i (.alloc cs k)⟩) (set_get hi _) hun
    obtain ⟨u, v, m', h1, h2, h3⟩ := run_wp hi (k n) _ (h n hun fun _ => rfl) (exec_below (.step (.refl _) hs) ⟨n, hb⟩)
    rw [List.set_set] at hs
    exact ⟨_, v, m', by rintro x hx; rcases List.mem_append.mp hx with hx | hx; · simp at hx; rw [hx]
                        · exact h1 x hx, exec_join (.step (.refl _) hs) h2, h3⟩

theorem serial_apart {order : List Nat} {i : Nat} (hi : i ∉ order) {u t : List (Nat × Access)} (hu : ∀ x ∈ u, x.1 = i) : serial order (u ++ t) = serial order t := by
  unfold serial
  refine List.flatMap_congr fun j hj => ?_
  rw [List.filter_append, List.filter_eq_nil_iff.mpr, List.nil_append]
  intro x hx
  rw [hu x hx]
  simp only [beq_iff_eq]
  rintro rfl
  exact hi hj

theorem queue_runs [UnicodeOK] {E : ServerEnv F} {reqs : List (ServerReq × Slice)} :
    ∀ (order : List Nat) (c : Config F D JVal) (ops : List (DictOp F)) (d : Dictionary F D), runOps E.cfg ops Dictionary.new = some d → order.Nodup →
      (∀ i ∈ order, c.threads[i]? = (reqs[i]?).map fun x => handlerP E x.2 x.1) → (∀ i ∈ order, i < reqs.length) → (∃ n, c.mem.Below n) →
      QueueOK c.mem E d (order.filterMap (reqs[·]?)) →
      ∃ tr c', Exec c tr c' ∧ serial order tr = tr ∧ (∀ x ∈ tr, x.1 ∈ order) ∧ ∀ i ∈ order, ∃ p, c'.threads[i]? = some p ∧ Ended p
  | [], c, _, _, _, _, _, _, _, _ => ⟨[], c, .refl c, rfl, by simp, by simp⟩
  | i :: order, c, ops, d, hr, hnd, hth, hlt, hb, h => by
    obtain ⟨hi, hnd'⟩ := List.nodup_cons.mp hnd
    have hil := hlt i (by simp)
    have hxi : reqs[i]? = some reqs[i] := List.getElem?_eq_getElem hil
    rw [List.filterMap_cons, hxi] at h
    simp only at h
    obtain ⟨d1, v, h1, h2, h3⟩ := wp_handler hr h
    have hp : c.threads[i]? = some (handlerP E reqs[i].2 reqs[i].1) := by rw [hth i (by simp), hxi]; rfl
    have hlt' := (List.getElem?_eq_some_iff.mp hp).1
    obtain ⟨u, a, m', g1, g2, ⟨rfl, g3⟩, g4⟩ := run_wp hlt' _ _ h3 hb
    rw [show c.threads.set i (handlerP E reqs[i].2 reqs[i].1) = c.threads by rw [← (List.getElem?_eq_some_iff.mp hp).2, List.set_getElem_self]] at g2
    obtain ⟨t, c', k1, k2, k3, k4⟩ := queue_runs order ⟨m', c.threads.set i (.ret a)⟩ _ d1 h2 hnd' (fun j hj => by
        rw [List.getElem?_set_ne (by rintro rfl; exact hi hj)]
        exact hth j (by simp [hj])) (fun j hj => hlt j (by simp [hj])) g4 g3
    refine ⟨u ++ t, c', exec_join g2 k1, ?_, fun x hx => ?_, fun j hj => ?_⟩
    · rw [serial, List.flatMap_cons, ← serial, serial_apart hi g1, k2, List.filter_append, List.filter_eq_self.mpr (fun x hx => by simp [g1 x hx]), List.filter_eq_nil_iff.mpr, List.append_nil]
      intro x hx
      have := k3 x hx
      simp only [beq_iff_eq]
      rintro rfl
      exact hi this
    · rcases List.mem_append.mp hx with hx | hx
      · simp [g1 x hx]
      · exact List.mem_cons_of_mem _ (k3 x hx)
    · rcases List.mem_cons.mp hj with rfl | hj
      · refine ⟨.ret a, ?_, .inl ⟨a, rfl⟩⟩
        rw [exec_still k1 fun x hx => by rintro rfl; exact hi (k3 x hx)]
        simp [hlt']
      · exact k4 j hj

/-- **C119.** And in any order the handlers can run in this way. -/
theorem C119_exists [UnicodeOK] (E : ServerEnv F) (ops : List (DictOp F)) (d : Dictionary F D) (hr : runOps E.cfg ops Dictionary.new = some d) (m : Mem F D) (hm : ∃ n, m.Below n)
    (reqs : List (ServerReq × Slice)) (h : QueueOK m E d reqs) (order : List Nat) (hnd : order.Nodup) (hlt : ∀ i ∈ order, i < reqs.length) :
    ∃ tr c', Exec (startServer m E reqs) tr c' ∧ serial order tr = tr ∧ ∀ i ∈ order, ∃ p, c'.threads[i]? = some p ∧ Ended p := by
  obtain ⟨tr, c', h1, h2, _, h3⟩ := queue_runs order (startServer m E reqs) ops d hr hnd (fun i _ => by simp [startServer]) hlt hm (h.order hnd hlt)
  exact ⟨tr, c', h1, h2, h3⟩

/-- A memory for the server with room for as many words as one likes. -/
def queueMem (E : ServerEnv F) (d : Dictionary F D) (inputs : List Bytes) : Mem F D := (spacious (memOf E.cfg (some d) inputs) (F64.ofNat 0)).put .emit (.emit E.emit)

theorem queueMem_ok (E : ServerEnv F) (d : Dictionary F D) (inputs : List Bytes) (reqs : List (ServerReq × Slice))
    (hi : ∀ x ∈ reqs, ∃ text, Brings text x.1 ∧ HoldsBytes (memOf E.cfg (some d) inputs) x.2 text) : QueueOK (queueMem E d inputs) E d reqs := by
  have hok := spacious_ok E.cfg d (F64.ofNat 0) inputs (List.replicate reqs.length (⟨0, 0, 0⟩, .recalc)) fun x hx hne => absurd (by rw [List.eq_of_mem_replicate hx]) hne
  refine ⟨⟨(HoldsDict.put_emit ⟨hok.segmenter.toHoldsTable, hok.totalFreq⟩ E.emit).segmenter, hok.segmenter.dist⟩, hok.totalFreq, put_same _ _ _, fun k hk => ?_, hok.subs, fun x hx => ?_⟩
  · have h := hok.room k (by simpa using hk)
    exact ⟨h.tok, h.dist, h.subs⟩
  · obtain ⟨text, h1, h2⟩ := hi x hx
    exact ⟨text, h1, h2.1, fun k b hb => by simpa [queueMem, spacious, Mem.put] using h2.2 k b hb⟩

theorem queueMem_below (E : ServerEnv F) (d : Dictionary F D) (inputs : List Bytes) : ∃ n, (queueMem E d inputs).Below n :=
  ⟨inputs.length, below_put (fun a ha i => by simpa [spacious] using memOf_below E.cfg (some d) inputs a ha i) (by simp [spacious, memOf]) _⟩

end main

section examples
attribute [local instance] sampleUnicode sampleUnicodeOK sampleF64 sampleF32 sampleNarrow

/-- A request for the words of "go" and one that adds "go" as a verb. -/
def sampleQueue : List (ServerReq × Slice) := [(.json [(str "text", str "go")] [], ⟨0, 0, 2⟩), (.add [(str "text", str "go"), (str "freq", str "5"), (str "pos", str "v")], ⟨1, 0, 2⟩)]

/-- Handled one after the other, in this order or in the other, both are answered; in the second order the word is found with its tag. -/
example : ∃ (d : Dictionary Int Int), runOps {} [.add (str "w") 9 [], .recalc] Dictionary.new = some d ∧ QueueOK (queueMem sampleServing d [str "go", str "go"]) sampleServing d sampleQueue ∧
    (∃ tr c', ∃ vs : List JVal, Exec (startServer (queueMem sampleServing d [str "go", str "go"]) sampleServing sampleQueue) tr c' ∧ serial [0, 1] tr = tr ∧
      [0, 1].map (c'.threads[·]?) = vs.map (fun v => some (.ret v)) ∧
      vs.map (JVal.marshal true) = [str "{\"segments\":[{\"text\":\"go\",\"pos\":\"x\"}],\"err\":null}", str "{\"code\":200,\"text\":\"ok\"}"]) ∧
    ∃ tr c', ∃ vs : List JVal, Exec (startServer (queueMem sampleServing d [str "go", str "go"]) sampleServing sampleQueue) tr c' ∧ serial [1, 0] tr = tr ∧
      [1, 0].map (c'.threads[·]?) = vs.map (fun v => some (.ret v)) ∧
      vs.map (JVal.marshal true) = [str "{\"code\":200,\"text\":\"ok\"}", str "{\"segments\":[{\"text\":\"go\",\"pos\":\"v\"}],\"err\":null}"] := by
  have h : (runOps (F := Int) (D := Int) {} [.add (str "w") 9 [], .recalc] Dictionary.new).isSome := by decide +kernel
  obtain ⟨d, hd⟩ := Option.isSome_iff_exists.mp h
  have k1 : (serve sampleServing d (inOrder sampleQueue [0, 1])).map (fun r => r.2.map (JVal.marshal true)) =
      some [str "{\"segments\":[{\"text\":\"go\",\"pos\":\"x\"}],\"err\":null}", str "{\"code\":200,\"text\":\"ok\"}"] := by
    have : ((runOps (F := Int) (D := Int) {} [.add (str "w") 9 [], .recalc] Dictionary.new).bind fun d =>
        (serve sampleServing d (inOrder sampleQueue [0, 1])).map (fun r => r.2.map (JVal.marshal true))) =
          some [str "{\"segments\":[{\"text\":\"go\",\"pos\":\"x\"}],\"err\":null}", str "{\"code\":200,\"text\":\"ok\"}"] := by decide +kernel
    rw [hd] at this
    exact this
  have k2 : (serve sampleServing d (inOrder sampleQueue [1, 0])).map (fun r => r.2.map (JVal.marshal true)) =
      some [str "{\"code\":200,\"text\":\"ok\"}", str "{\"segments\":[{\"text\":\"go\",\"pos\":\"v\"}],\"err\":null}"] := by
    have : ((runOps (F := Int) (D := Int) {} [.add (str "w") 9 [], .recalc] Dictionary.new).bind fun d =>
        (serve sampleServing d (inOrder sampleQueue [1, 0])).map (fun r => r.2.map (JVal.marshal true))) =
          some [str "{\"code\":200,\"text\":\"ok\"}", str "{\"segments\":[{\"text\":\"go\",\"pos\":\"v\"}],\"err\":null}"] := by decide +kernel
    rw [hd] at this
    exact this
  have hok : QueueOK (queueMem sampleServing d [str "go", str "go"]) sampleServing d sampleQueue := by
    refine queueMem_ok sampleServing d _ _ fun x hx => ?_
    simp only [sampleQueue, List.mem_cons, List.not_mem_nil, or_false] at hx
    rcases hx with rfl | rfl
    · exact ⟨str "go", .inl (by decide), memOf_input _ _ _ 0 (str "go") rfl⟩
    · exact ⟨str "go", .inl (by decide), memOf_input _ _ _ 1 (str "go") rfl⟩
  have key : ∀ order : List Nat, order.Nodup → (∀ i ∈ order, i < 2) → ∀ ts, (serve sampleServing d (inOrder sampleQueue order)).map (fun r => r.2.map (JVal.marshal true)) = some ts →
      ∃ tr c', ∃ vs : List JVal, Exec (startServer (queueMem sampleServing d [str "go", str "go"]) sampleServing sampleQueue) tr c' ∧ serial order tr = tr ∧
        order.map (c'.threads[·]?) = vs.map (fun v => some (.ret v)) ∧ vs.map (JVal.marshal true) = ts := by
    intro order hnd hlt ts hts
    obtain ⟨tr, c', hx, hs, he⟩ := C119_exists sampleServing _ d hd _ (queueMem_below sampleServing d _) _ hok order hnd hlt
    obtain ⟨d', vs, h1, h2, _⟩ := C119_serial sampleServing _ d hd _ _ hok order hnd hlt tr hs c' hx he
    rw [h1] at hts
    exact ⟨tr, c', vs, hx, hs, h2, Option.some.inj hts⟩
  exact ⟨d, hd, hok, key _ (by decide) (by decide) _ k1, key _ (by decide) (by decide) _ k2⟩

end examples
end Gse
