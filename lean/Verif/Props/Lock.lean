import Verif.Spec.Lock
import Verif.Props.CostCalc

/-! # C116: goroutines that keep a segmenter behind a readers-writer lock -/

namespace Gse
open Spec Prog

set_option linter.unusedSectionVars false

section main
variable {F D : Type} [F64 F] [F32 D] [Narrow F D] [Unicode]

/-! ## Small facts -/

/-- What is kept: the elements of all arrays. -/
def KeepsCells (m m' : Mem F D) : Prop := ∀ a i x, m (.cell a i) = some x → m' (.cell a i) = some x

theorem HoldsBytes.cells {m m' : Mem F D} (h : KeepsCells m m') {r : Slice} {bs : Bytes} (hb : HoldsBytes m r bs) : HoldsBytes m' r bs :=
  ⟨hb.1, fun k b hk => h _ _ _ (hb.2 k b hk)⟩

theorem UseCall.HasInput.cells {m m' : Mem F D} (h : KeepsCells m m') {u : UseCall} (hu : u.HasInput m) : u.HasInput m' := by
  cases u <;> first | exact trivial | exact HoldsBytes.cells h hu

theorem UseCall.Alone.cells {cfg : SplitCfg} {d : Dictionary F D} {c : HmmConst F} {em : EmitModel F} {m m' : Mem F D} (hg : KeepsCells m m') {x : UseCall} {a : Answer F}
    (h : x.Alone cfg d c em m a) : x.Alone cfg d c em m' a := by
  cases x <;> cases a <;> first
    | exact h
    | (obtain ⟨segs, h1, h2, h3⟩ := h
       refine ⟨segs, h1, h2, fun k s hk => ?_⟩
       obtain ⟨p, h4, h5⟩ := h3 k s hk
       refine ⟨p, hg _ _ _ h4, ?_⟩
       generalize s.tok = t at h5 ⊢
       cases h5 with
       | idx i => exact .idx i
       | pseudo s w hb => exact .pseudo s w (hb.cells hg))

theorem TagCall.HasInput.cells {m m' : Mem F D} (h : KeepsCells m m') {u : TagCall F} (hu : u.HasInput m) : u.HasInput m' := by
  cases u <;> first | exact trivial | exact UseCall.HasInput.cells h hu

theorem TagCall.Alone.cells {cfg : SplitCfg} {d : Dictionary F D} {c : HmmConst F} {em : EmitModel F} {m m' : Mem F D} (hg : KeepsCells m m') {x : TagCall F} {a : TagAnswer F}
    (h : x.Alone cfg d c em m a) : x.Alone cfg d c em m' a := by
  cases x <;> cases a <;> first
    | exact h
    | exact UseCall.Alone.cells hg h

theorem Spec.Right.cells {cfg : SplitCfg} {d : Dictionary F D} {c : HmmConst F} {em : EmitModel F} {m m' : Mem F D} (hg : KeepsCells m m') {evs : List (Event F)} {x : AnyCall F}
    {r : TagAnswer F ⊕ Bool} (h : Right cfg d c em m evs x r) : Right cfg d c em m' evs x r := by
  cases x <;> cases r <;> first
    | exact h
    | (obtain ⟨d', h1, h2⟩ := h; exact ⟨d', h1, h2.cells hg⟩)

theorem Grows.cells {m m' : Mem F D} (h : Grows m m') : KeepsCells m m' := fun _ _ _ hx => h _ _ hx

/-- The history only asks for what is not the HMM model. -/
theorem Spec.HistoryOK.most {m m' : Mem F D} {cfg : SplitCfg} {d : Dictionary F D} {xs : List (Slice × DictOp F)} (h : HistoryOK m cfg d xs) (hg : ∀ l x, l ≠ .emit → m l = some x → m' l = some x) :
    HistoryOK m' cfg d xs := by
  have some_ : ∀ l, l ≠ .emit → (m l).isSome → (m' l).isSome := fun l hl hs => by
    obtain ⟨x, hx⟩ := Option.isSome_iff_exists.mp hs
    rw [hg l x hl hx]; rfl
  have hS := h.segmenter
  exact ⟨⟨⟨hg _ _ (by simp) hS.flags, hg _ _ (by simp) hS.segDict, fun d hd => hg _ _ (by simp) (hS.maxLen d hd), fun d hd => hg _ _ (by simp) (hS.trie d hd),
      fun d hd => hg _ _ (by simp) (hS.tokHdr d hd), fun d hd i t ht => hg _ _ (by simp) (hS.tok d hd i t ht)⟩, fun d hd i t ht => hg _ _ (by simp) (hS.dist d hd i t ht)⟩,
    hg _ _ (by simp) h.totalFreq, fun i hi => some_ _ (by simp) (h.subs i hi),
    fun k hk => ⟨some_ _ (by simp) (h.room k hk).tok, some_ _ (by simp) (h.room k hk).dist, some_ _ (by simp) (h.room k hk).subs⟩,
    fun x hx ho => ⟨(h.texts x hx ho).1, fun k b hb => hg _ _ (by simp) ((h.texts x hx ho).2 k b hb)⟩⟩

theorem Spec.HistoryOK.perm {m : Mem F D} {cfg : SplitCfg} {d : Dictionary F D} {xs ys : List (Slice × DictOp F)} (h : HistoryOK m cfg d xs) (hp : xs.Perm ys) : HistoryOK m cfg d ys :=
  ⟨h.segmenter, h.totalFreq, h.subs, fun k hk => h.room k (by rw [hp.length_eq]; exact hk), fun x hx ho => h.texts x (hp.mem_iff.mpr hx) ho⟩

/-- Taking the first call of one goroutine. -/
theorem flatten_take {γ : Type _} {x : γ} {rest : List γ} : ∀ (l : List (List γ)) (i : Nat), l[i]? = some (x :: rest) → l.flatten.Perm (x :: (l.set i rest).flatten)
  | [], i, h => by simp at h
  | a :: l, 0, h => by
    simp only [List.getElem?_cons_zero, Option.some.injEq] at h
    subst h
    simp
  | a :: l, i + 1, h => by
    simp only [List.getElem?_cons_succ] at h
    simp only [List.flatten_cons, List.set_cons_succ]
    exact ((flatten_take l i h).append_left a).trans List.perm_middle

theorem changesOf_use {todo : List (List (AnyCall F))} {i : Nat} {u : TagCall F} {rest : List (AnyCall F)} (h : todo[i]? = some (.use u :: rest)) :
    (changesOf todo).Perm (changesOf (todo.set i rest)) := by
  exact (flatten_take todo i h).filterMap AnyCall.change?

theorem changesOf_change {todo : List (List (AnyCall F))} {i : Nat} {r : Slice} {op : DictOp F} {rest : List (AnyCall F)} (h : todo[i]? = some (.change r op :: rest)) :
    (changesOf todo).Perm ((r, op) :: changesOf (todo.set i rest)) := by
  exact (flatten_take todo i h).filterMap AnyCall.change?

theorem changes_append (a b : List (Event F)) : changes (a ++ b) = changes a ++ changes b := by simp [changes]

/-- A change gets or gives back the lock. -/
def Spec.Event.turns : Event F → Prop
  | .lock _ (.change _ _) | .unlock _ (.change _ _) _ => True
  | _ => False

/-! ## What holds at every moment -/

/-- Nothing about the dictionary. -/
structure Tidy (s : Shared F D) : Prop where
  todo : s.todo.length = s.conf.threads.length
  now : s.now.length = s.conf.threads.length
  idle : ∀ i : Nat, s.now[i]? = some none → ∃ r, s.conf.threads[i]? = some (.ret r)
  below : ∃ n, s.conf.mem.Below n
  alone : ∀ (i j : Nat) (x y : AnyCall F), i ≠ j → s.now[i]? = some (some x) → s.now[j]? = some (some y) → x.Reads

theorem start_now (m : Mem F D) (calls : List (List (AnyCall F))) (i : Nat) (x : AnyCall F) : (startGuarded m calls).now[i]? ≠ some (some x) := by
  intro h
  simp only [startGuarded, List.getElem?_map, Option.map_eq_some_iff] at h
  obtain ⟨_, _, h⟩ := h
  cases h

theorem tidy_start {m : Mem F D} {cfg : SplitCfg} {d : Dictionary F D} {em : EmitModel F} {calls : List (List (AnyCall F))} (h : GuardedOK m cfg d em calls) : Tidy (startGuarded m calls) := by
  refine ⟨by simp [startGuarded], by simp [startGuarded], fun i hi => ⟨.inr false, ?_⟩, h.below, fun i j x y _ hi => ?_⟩
  · simp only [startGuarded, List.getElem?_map, Option.map_eq_some_iff] at hi ⊢
    obtain ⟨a, ha, _⟩ := hi
    exact ⟨a, ha, trivial⟩
  · exact absurd hi (start_now m calls i x)

theorem Tidy.step {c : HmmConst F} {s s' : Shared F D} {ev : Event F} (h : Tidy s) (hs : LStep c s ev s') : Tidy s' := by
  cases hs with
  | @lock i x rest h1 h2 h3 =>
    have hi := (List.getElem?_eq_some_iff.mp h2).1
    refine ⟨by simp [h.todo], by simp [h.now], fun j hj => ?_, h.below, fun j k y z hjk hj hk => ?_⟩
    · by_cases e : j = i
      · subst e; simp [hi] at hj
      · rw [List.getElem?_set_ne (Ne.symm e)] at hj
        obtain ⟨r, hr⟩ := h.idle j hj
        exact ⟨r, by simpa [List.getElem?_set_ne (Ne.symm e)] using hr⟩
    · simp only at hj hk
      by_cases e : j = i
      · subst e
        rw [List.getElem?_set_ne hjk] at hk
        simp only [List.getElem?_set_self hi, Option.some.injEq] at hj
        subst hj
        cases x with
        | use u => trivial
        | change r op => exact absurd hk (h3 k z)
      · rw [List.getElem?_set_ne (Ne.symm e)] at hj
        cases x with
        | use u => exact h3 j y hj
        | change r op => exact absurd hj (h3 j y)
  | @access i x e c' h1 h2 =>
    have hlen : c'.threads.length = s.conf.threads.length := by cases h2 <;> simp
    refine ⟨by simp [h.todo, hlen], by simp [h.now, hlen], fun j hj => ?_, step_below h2 h.below, h.alone⟩
    have hne : j ≠ i := by rintro rfl; rw [h1] at hj; simp at hj
    obtain ⟨r, hr⟩ := h.idle j hj
    refine ⟨r, ?_⟩
    have : c'.threads[j]? = s.conf.threads[j]? := by cases h2 <;> exact List.getElem?_set_ne (Ne.symm hne)
    rw [this, hr]
  | @unlock i x r h1 h2 =>
    have hi := (List.getElem?_eq_some_iff.mp h1).1
    have hback : ∀ (j : Nat) y, (s.now.set i none)[j]? = some (some y) → s.now[j]? = some (some y) := fun j y hj => by
      by_cases e : j = i
      · subst e; simp [hi] at hj
      · rwa [List.getElem?_set_ne (Ne.symm e)] at hj
    refine ⟨h.todo, by simp [h.now], fun j hj => ?_, h.below, fun j k y z hjk hj hk => h.alone j k y z hjk (hback j y hj) (hback k z hk)⟩
    by_cases e : j = i
    · subst e; exact ⟨r, h2⟩
    · exact h.idle j (by rwa [List.getElem?_set_ne (Ne.symm e)] at hj)

variable (cfg : SplitCfg) (d0 : Dictionary F D) (c : HmmConst F) (em : EmitModel F)

/-- While readers have the lock, or nobody. -/
structure Calm (s : Shared F D) (evs : List (Event F)) (d : Dictionary F D) (sh : Mem F D) (own : Nat → Mem F D) (N : Nat) : Prop where
  reads : ∀ (i : Nat) x, s.now[i]? = some (some x) → x.Reads
  iso : Isolated sh s.conf own fun i r o => ∀ u, s.now[i]? = some (some (.use u)) → ∃ a, r = .inl a ∧ u.Alone cfg d c em (view sh o) a
  many : s.conf.threads.length ≤ N
  fresh : ∀ k, N ≤ k → own k = noMem
  history : HistoryOK sh cfg d (changesOf s.todo)
  emit : sh .emit = some (.emit em)
  inputs : ∀ u, .use u ∈ s.todo.flatten → u.HasInput sh ∧ u.Good
  done : ∀ a i x r b, evs = a ++ .unlock i x r :: b → ∃ k, (∀ y, s.now[k]? ≠ some (some y)) ∧ Right cfg d0 c em (view sh (own k)) a x r
  fits : ∀ a i e b, evs = a ++ .access i e :: b → (∀ ev ∈ b, ¬ ev.turns) → ∃ k, (k = i ∨ s.conf.threads.length ≤ k) ∧ e.Fits sh (own k)

/-- While a change has it. -/
structure Busy (s : Shared F D) (evs : List (Event F)) (d' : Dictionary F D) (i0 : Nat) (r0 : Slice) (op : DictOp F) (pre : List (DictOp F)) (d1 : Dictionary F D) (e0 : Bool)
    (m0 : Mem F D) (own : Nat → Mem F D) : Prop where
  has : s.now[i0]? = some (some (.change r0 op))
  hist : changes evs = pre ++ [op] ∧ runOps cfg pre d0 = some d1 ∧ op.result cfg d1 = some (d', e0)
  iso : Isolated noMem s.conf own fun i r o => i = i0 → r = .inr e0 ∧ HistoryOK o cfg d' (changesOf s.todo) ∧ KeepsCells m0 o
  emit : ∃ k, k ≠ i0 ∧ own k .emit = some (.emit em)
  inputs : ∀ u, .use u ∈ s.todo.flatten → u.HasInput m0 ∧ u.Good
  done : ∀ a i x r b, evs = a ++ .unlock i x r :: b → Right cfg d0 c em m0 a x r
  fits : ∀ a i e b, evs = a ++ .access i e :: b → (∀ ev ∈ b, ¬ ev.turns) → i = i0

/-- One of the two. -/
def Sound (s : Shared F D) (evs : List (Event F)) (d : Dictionary F D) : Prop :=
  (∃ sh own N, Calm cfg d0 c em s evs d sh own N) ∨ ∃ i0 r0 op pre d1 e0 m0 own, Busy cfg d0 c em s evs d i0 r0 op pre d1 e0 m0 own

variable {cfg d0 c em}

theorem calm_start {m : Mem F D} {calls : List (List (AnyCall F))} (h : GuardedOK m cfg d0 em calls) : Calm cfg d0 c em (startGuarded m calls) [] d0 m (fun _ => noMem) calls.length := by
  refine ⟨fun i x hx => ?_, ⟨fun _ _ h => h, fun _ _ _ h => (by cases h), fun _ _ _ h => (by cases h), fun _ _ _ _ _ h => (by cases h), fun i p hp => ?_⟩, by simp [startGuarded],
    fun _ _ => rfl, h.history, h.emit, h.inputs, fun a i x r b he => ?_, fun a i e b he => ?_⟩
  · exact absurd hx (start_now m calls i x)
  · simp only [startGuarded, List.getElem?_map, Option.map_eq_some_iff] at hp
    obtain ⟨x, _, rfl⟩ := hp
    exact fun u hu => absurd hu (start_now m calls i _)
  · simp at he
  · simp at he

theorem snoc_split {γ : Type _} {l a b : List γ} {x y : γ} (h : l ++ [x] = a ++ y :: b) : (b = [] ∧ x = y ∧ l = a) ∨ ∃ b', b = b' ++ [x] ∧ l = a ++ y :: b' := by
  rcases List.eq_nil_or_concat b with rfl | ⟨b', z, rfl⟩
  · obtain ⟨h1, h2⟩ := List.append_inj' h rfl
    exact .inl ⟨rfl, by simpa using h2, h1⟩
  · rw [List.concat_eq_append, ← List.cons_append, ← List.append_assoc] at h
    obtain ⟨h1, h2⟩ := List.append_inj' h rfl
    obtain rfl : x = z := by simpa using h2
    exact .inr ⟨b', by simp, h1⟩

/-- A reader gets the lock. -/
theorem Calm.lock_use [UnicodeOK] {ops0 : List (DictOp F)} (hops : runOps cfg ops0 Dictionary.new = some d0) {s : Shared F D} {evs : List (Event F)} {d : Dictionary F D} {sh : Mem F D}
    {own : Nat → Mem F D} {N i : Nat} {u : TagCall F} {rest : List (AnyCall F)} (ht : Tidy s) (h : Calm cfg d0 c em s evs d sh own N) (hr : runOps cfg (changes evs) d0 = some d)
    (h1 : s.todo[i]? = some (.use u :: rest)) (h2 : s.now[i]? = some none) :
    Calm cfg d0 c em ⟨⟨s.conf.mem, s.conf.threads.set i ((AnyCall.use u).prog c)⟩, s.todo.set i rest, s.now.set i (some (.use u))⟩ (evs ++ [.lock i (.use u)]) d sh
      (fun k => if k = i then noMem else if k = N then own i else own k) (N + 1) := by
  have hi := (List.getElem?_eq_some_iff.mp h2).1
  have hiN : i < N := by have := h.many; have := ht.now; omega
  have hflat := flatten_take s.todo i h1
  have hu := h.inputs u (hflat.mem_iff.mpr (by simp))
  have hreach : runOps cfg (ops0 ++ changes evs) Dictionary.new = some d := by rw [runOps_append, hops]; exact hr
  have hUse := C101_history cfg _ d hreach sh c em [u] h.history.segmenter h.history.totalFreq h.emit (by simpa using hu.1) (by simpa using hu.2)
  have hwp : wp sh ((AnyCall.use u).prog c) noMem fun r o => ∃ a, r = .inl a ∧ u.Alone cfg d c em (view sh o) a := by
    refine wp_bind' _ _ (wp_mono ?_ _ _ (wp_tag ⟨hUse.segmenter.toHoldsTable, hUse.totalFreq⟩ hUse.emit u (hUse.alone u (by simp)) fun input text mode segs e hs => ?_))
    · exact fun a o ha => ⟨a, rfl, ha⟩
    · subst e
      exact wp_segment hUse.segmenter hu.1 (fun _ _ _ => rfl) hs
  have hcase : ∀ k l x, (if k = i then noMem else if k = N then own i else own k : Mem F D) l = some x →
      (k ≠ i ∧ k = N ∧ own i l = some x) ∨ (k ≠ i ∧ k ≠ N ∧ own k l = some x) := by
    intro k l x hx
    by_cases e1 : k = i
    · rw [if_pos e1] at hx; cases hx
    · rw [if_neg e1] at hx
      by_cases e2 : k = N
      · rw [if_pos e2] at hx; exact .inl ⟨e1, e2, hx⟩
      · rw [if_neg e2] at hx; exact .inr ⟨e1, e2, hx⟩
  refine ⟨fun j x hx => ?_, ⟨h.iso.shared, fun k l x hx => ?_, fun k l x hx => ?_, fun j k l x hjk hx => ?_, fun j p hp => ?_⟩, by simp; have := h.many; omega, fun k hk => ?_,
    h.history.perm (changesOf_use h1), h.emit, fun v hv => h.inputs v (hflat.mem_iff.mpr (List.mem_cons_of_mem _ hv)), fun a j x r b he => ?_, fun a j e b he hb => ?_⟩
  · by_cases e : j = i
    · subst e
      simp only [List.getElem?_set_self hi, Option.some.injEq] at hx
      subst hx; trivial
    · simp only [List.getElem?_set_ne (Ne.symm e)] at hx
      exact h.reads j x hx
  · rcases hcase k l x hx with ⟨_, _, g⟩ | ⟨_, _, g⟩ <;> exact h.iso.mine _ l x g
  · rcases hcase k l x hx with ⟨_, _, g⟩ | ⟨_, _, g⟩ <;> exact h.iso.apart _ l x g
  · have hk : ∀ y, (if k = i then noMem else if k = N then own i else own k : Mem F D) l = some y → False := by
      intro y hy
      rcases hcase j l x hx with ⟨a1, a2, a3⟩ | ⟨a1, a2, a3⟩ <;> rcases hcase k l y hy with ⟨b1, b2, b3⟩ | ⟨b1, b2, b3⟩
      · exact hjk (a2.trans b2.symm)
      · rw [h.iso.disjoint i k l x (Ne.symm b1) a3] at b3; cases b3
      · rw [h.iso.disjoint j i l x a1 a3] at b3; cases b3
      · rw [h.iso.disjoint j k l x hjk a3] at b3; cases b3
    cases hy : (if k = i then noMem else if k = N then own i else own k : Mem F D) l with
    | none => rfl
    | some y => exact (hk y hy).elim
  · by_cases e : j = i
    · subst e
      have hlt : j < s.conf.threads.length := by have := ht.now; omega
      simp only [List.getElem?_set_self hlt, Option.some.injEq] at hp
      subst hp
      rw [if_pos rfl]
      refine wp_mono (fun r o hro v hv => ?_) _ _ hwp
      simp only [List.getElem?_set_self hi, Option.some.injEq, AnyCall.use.injEq] at hv
      subst hv; exact hro
    · simp only [List.getElem?_set_ne (Ne.symm e)] at hp
      have hlt := (List.getElem?_eq_some_iff.mp hp).1
      have := h.many
      rw [if_neg e, if_neg (by omega)]
      refine wp_mono (fun r o hro v hv => hro v ?_) _ _ (h.iso.goes j p hp)
      simpa only [List.getElem?_set_ne (Ne.symm e)] using hv
  · rw [if_neg (by omega), if_neg (by omega)]
    exact h.fresh k (by omega)
  · rcases snoc_split he with ⟨_, g, _⟩ | ⟨b', _, g⟩
    · cases g
    · obtain ⟨k, k1, k2⟩ := h.done a j x r b' g
      by_cases e : k = i
      · subst e
        refine ⟨N, fun y hy => ?_, by rw [if_neg (by omega), if_pos rfl]; exact k2⟩
        have := (List.getElem?_eq_some_iff.mp hy).1
        have h3 := ht.now; have h4 := h.many
        simp at this; omega
      · by_cases e2 : k = N
        · subst e2
          rw [h.fresh k (le_refl _)] at k2
          refine ⟨k + 1, fun y hy => ?_, ?_⟩
          · have := (List.getElem?_eq_some_iff.mp hy).1
            have h3 := ht.now; have h4 := h.many
            simp at this; omega
          · rw [if_neg (by omega), if_neg (by omega), h.fresh _ (by omega)]; exact k2
        · refine ⟨k, fun y hy => k1 y ?_, by rw [if_neg e, if_neg e2]; exact k2⟩
          simpa only [List.getElem?_set_ne (Ne.symm e)] using hy
  · rcases snoc_split he with ⟨_, g, _⟩ | ⟨b', g', g⟩
    · cases g
    · obtain ⟨k, k1, k2⟩ := h.fits a j e b' g fun ev hev => hb ev (by rw [g']; simp [hev])
      have hm := h.many
      by_cases e1 : k = i
      · subst e1
        exact ⟨N, .inr (by simpa using hm), by rw [if_neg (by omega), if_pos rfl]; exact k2⟩
      · by_cases e2 : k = N
        · subst e2
          rw [h.fresh k (le_refl _)] at k2
          exact ⟨k + 1, .inr (by simp; omega), by rw [if_neg (by omega), if_neg (by omega), h.fresh _ (by omega)]; exact k2⟩
        · exact ⟨k, by simpa using k1, by rw [if_neg e1, if_neg e2]; exact k2⟩

/-- A goroutine that has the lock makes an access. -/
theorem Calm.access {s : Shared F D} {evs : List (Event F)} {d : Dictionary F D} {sh : Mem F D} {own : Nat → Mem F D} {N i : Nat} {x : AnyCall F} {e : Access}
    {c' : Config F D (TagAnswer F ⊕ Bool)} (h : Calm cfg d0 c em s evs d sh own N) (h1 : s.now[i]? = some (some x)) (h2 : Step s.conf i e c') :
    (∃ own', Calm cfg d0 c em ⟨c', s.todo, s.now⟩ (evs ++ [.access i e]) d sh own' N) ∧ e.Fits sh (own i) := by
  obtain ⟨own', hI, hgrow, hfit, ⟨p, p', hp, _, hloc⟩, hother⟩ := isolated_step h.iso h2
  have hlen : c'.threads.length = s.conf.threads.length := by cases h2 <;> simp
  have hlt := (List.getElem?_eq_some_iff.mp hp).1
  have grow : ∀ k (f : Access), f.Fits sh (own k) → f.Fits sh (own' k) := by
    intro k f hf
    cases f with
    | rd l =>
      obtain ⟨y, hy⟩ := Option.isSome_iff_exists.mp (show (view sh (own k) l).isSome from hf)
      show (view sh (own' k) l).isSome
      unfold view at hy ⊢
      cases h3 : own' k l with
      | some z => simp
      | none =>
        have : own k l = none := by
          cases h4 : own k l with
          | none => rfl
          | some z => have := hgrow k l (by rw [h4]; rfl); rw [h3] at this; cases this
        rw [this] at hy
        simpa using by rw [show sh l = some y from by simpa using hy]; rfl
    | wr l => exact hgrow k l hf
    | al _ _ => trivial
  refine ⟨⟨own', h.reads, hI, by rw [hlen]; exact h.many, fun k hk => ?_, h.history, h.emit, h.inputs, fun a j y r b he => ?_, fun a j f b he hb => ?_⟩, hfit⟩
  · have hm := h.many
    rw [(hother k (by omega)).2]; exact h.fresh k hk
  · rcases snoc_split he with ⟨_, g, _⟩ | ⟨b', _, g⟩
    · cases g
    · obtain ⟨k, k1, k2⟩ := h.done a j y r b' g
      have hk : k ≠ i := by rintro rfl; exact k1 x h1
      exact ⟨k, k1, by rw [(hother k hk).2]; exact k2⟩
  · rcases snoc_split he with ⟨_, g, _⟩ | ⟨b', g', g⟩
    · cases g
      exact ⟨i, .inl rfl, grow i e hfit⟩
    · obtain ⟨k, k1, k2⟩ := h.fits a j f b' g fun ev hev => hb ev (by rw [g']; simp [hev])
      exact ⟨k, by rw [hlen]; exact k1, grow k f k2⟩

/-- A reader gives the lock back. -/
theorem Calm.unlock {s : Shared F D} {evs : List (Event F)} {d : Dictionary F D} {sh : Mem F D} {own : Nat → Mem F D} {N i : Nat} {x : AnyCall F} {r : TagAnswer F ⊕ Bool}
    (h : Calm cfg d0 c em s evs d sh own N) (hr : runOps cfg (changes evs) d0 = some d) (h1 : s.now[i]? = some (some x)) (h2 : s.conf.threads[i]? = some (.ret r)) :
    Calm cfg d0 c em ⟨s.conf, s.todo, s.now.set i none⟩ (evs ++ [.unlock i x r]) d sh own N := by
  have hi := (List.getElem?_eq_some_iff.mp h1).1
  have hback : ∀ (j : Nat) y, (s.now.set i none)[j]? = some (some y) → s.now[j]? = some (some y) := fun j y hj => by
    by_cases e : j = i
    · subst e; simp [hi] at hj
    · rwa [List.getElem?_set_ne (Ne.symm e)] at hj
  refine ⟨fun j y hj => h.reads j y (hback j y hj), ⟨h.iso.shared, h.iso.mine, h.iso.apart, h.iso.disjoint, fun j p hp => wp_mono (fun r o hro u hu => hro u (hback j _ hu)) _ _ (h.iso.goes j p hp)⟩,
    h.many, h.fresh, h.history, h.emit, h.inputs, fun a j y q b he => ?_, fun a j f b he hb => ?_⟩
  · rcases snoc_split he with ⟨_, g, g'⟩ | ⟨b', _, g⟩
    · cases g
      refine ⟨i, fun y hy => by simp [hi] at hy, ?_⟩
      have hg := h.iso.goes i _ h2
      have hx := h.reads i x h1
      cases x with
      | change _ _ => exact hx.elim
      | use u =>
        obtain ⟨ans, rfl, ha⟩ := hg u h1
        exact ⟨d, g' ▸ hr, ha⟩
    · obtain ⟨k, k1, k2⟩ := h.done a j y q b' g
      exact ⟨k, fun y hy => k1 y (hback k y hy), k2⟩
  · rcases snoc_split he with ⟨_, g, _⟩ | ⟨b', g', g⟩
    · cases g
    · exact h.fits a j f b' g fun ev hev => hb ev (by rw [g']; simp [hev])

/-- A change gets the lock. -/
theorem Calm.lock_change {s : Shared F D} {evs : List (Event F)} {d d' : Dictionary F D} {sh : Mem F D} {own : Nat → Mem F D} {N i : Nat} {r0 : Slice} {op : DictOp F} {e0 : Bool}
    {rest : List (AnyCall F)} (ht : Tidy s) (h : Calm cfg d0 c em s evs d sh own N) (hr : runOps cfg (changes evs) d0 = some d) (hop : op.result cfg d = some (d', e0))
    (h1 : s.todo[i]? = some (.change r0 op :: rest)) (h2 : s.now[i]? = some none) (h3 : ∀ (j : Nat) y, s.now[j]? ≠ some (some y)) :
    Busy cfg d0 c em ⟨⟨s.conf.mem, s.conf.threads.set i ((AnyCall.change r0 op).prog c)⟩, s.todo.set i rest, s.now.set i (some (.change r0 op))⟩ (evs ++ [.lock i (.change r0 op)]) d'
      i r0 op (changes evs) d e0 s.conf.mem
      (fun k => if k = i then (fun l => if l = .emit then none else s.conf.mem l) else if k = i + 1 then (fun l => if l = .emit then s.conf.mem l else none) else noMem) := by
  have hi := (List.getElem?_eq_some_iff.mp h2).1
  have hlt : i < s.conf.threads.length := by have := ht.now; omega
  have hflat := flatten_take s.todo i h1
  have hO : HistoryOK (fun l => if l = .emit then none else s.conf.mem l) cfg d ((r0, op) :: changesOf (s.todo.set i rest)) := by
    refine (h.history.perm (changesOf_change h1)).most fun l x hl hx => ?_
    show (if l = .emit then none else s.conf.mem l) = _
    rw [if_neg hl]; exact h.iso.shared l x hx
  have hwp : wp noMem ((AnyCall.change r0 op).prog c) (fun l => if l = .emit then none else s.conf.mem l) fun r o =>
      r = .inr e0 ∧ HistoryOK o cfg d' (changesOf (s.todo.set i rest)) ∧ KeepsCells s.conf.mem o := by
    refine wp_bind' _ _ (wp_mono ?_ _ _ (wp_owned _ _ (wp_op hO hop)))
    rintro e' o' ⟨⟨rfl, g2, g3, g4⟩, g5⟩
    exact ⟨rfl, hO.next hop g2 g3 g4 g5, fun a k x hx => g4 a k x (by simpa using hx)⟩
  have hcase : ∀ k l x, (if k = i then (fun l => if l = .emit then none else s.conf.mem l) else if k = i + 1 then (fun l => if l = .emit then s.conf.mem l else none) else noMem : Mem F D) l = some x →
      s.conf.mem l = some x ∧ ((k = i ∧ l ≠ .emit) ∨ (k = i + 1 ∧ l = .emit)) := by
    intro k l x hx
    by_cases e1 : k = i
    · rw [if_pos e1] at hx
      by_cases e2 : l = .emit
      · rw [if_pos e2] at hx; cases hx
      · rw [if_neg e2] at hx; exact ⟨hx, .inl ⟨e1, e2⟩⟩
    · rw [if_neg e1] at hx
      by_cases e3 : k = i + 1
      · rw [if_pos e3] at hx
        by_cases e2 : l = .emit
        · rw [if_pos e2] at hx; exact ⟨hx, .inr ⟨e3, e2⟩⟩
        · rw [if_neg e2] at hx; cases hx
      · rw [if_neg e3] at hx; cases hx
  refine ⟨by simp [hi], ⟨by simp [changes], hr, hop⟩, ⟨fun _ _ h => (by cases h), fun k l x hx => (hcase k l x hx).1, fun _ _ _ _ => rfl, fun j k l x hjk hx => ?_, fun j p hp => ?_⟩,
    ⟨i + 1, by omega, by rw [if_neg (by omega), if_pos rfl]; exact h.iso.shared _ _ h.emit⟩, fun u hu => ?_, fun a j x r b he => ?_, fun a j e b he hb => ?_⟩
  · cases hy : (if k = i then (fun l => if l = .emit then none else s.conf.mem l) else if k = i + 1 then (fun l => if l = .emit then s.conf.mem l else none) else noMem : Mem F D) l with
    | none => rfl
    | some y =>
      rcases (hcase j l x hx).2 with ⟨a1, a2⟩ | ⟨a1, a2⟩ <;> rcases (hcase k l y hy).2 with ⟨b1, b2⟩ | ⟨b1, b2⟩
      · exact absurd (a1.trans b1.symm) hjk
      · exact absurd b2 a2
      · exact absurd a2 b2
      · exact absurd (a1.trans b1.symm) hjk
  · by_cases e : j = i
    · subst e
      simp only [List.getElem?_set_self hlt, Option.some.injEq] at hp
      subst hp
      rw [if_pos rfl]
      exact wp_mono (fun r o hro _ => hro) _ _ hwp
    · simp only [List.getElem?_set_ne (Ne.symm e)] at hp
      have hlt := (List.getElem?_eq_some_iff.mp hp).1
      have hn : s.now[j]? = some none := by
        have hj : j < s.now.length := by have := ht.now; omega
        rw [List.getElem?_eq_getElem hj]
        cases hnow : s.now[j] with
        | none => rfl
        | some y => exact absurd (by rw [List.getElem?_eq_getElem hj, hnow]) (h3 j y)
      obtain ⟨q, hq⟩ := ht.idle j hn
      rw [hp] at hq
      cases hq
      exact fun e' => absurd e' e
  · obtain ⟨g1, g2⟩ := h.inputs u (hflat.mem_iff.mpr (List.mem_cons_of_mem _ hu))
    exact ⟨g1.cells (Grows.cells h.iso.shared), g2⟩
  · rcases snoc_split he with ⟨_, g, _⟩ | ⟨b', _, g⟩
    · cases g
    · obtain ⟨k, _, k2⟩ := h.done a j x r b' g
      exact k2.cells (Grows.cells (h.iso.grows k))
  · rcases snoc_split he with ⟨_, g, _⟩ | ⟨b', g', _⟩
    · cases g
    · exact (hb (.lock i (.change r0 op)) (by rw [g']; simp) trivial).elim

/-- Only the change that has the lock goes on. -/
theorem Busy.only {s : Shared F D} {evs : List (Event F)} {d' d1 : Dictionary F D} {i0 : Nat} {r0 : Slice} {op : DictOp F} {pre : List (DictOp F)} {e0 : Bool} {m0 : Mem F D} {own : Nat → Mem F D}
    (ht : Tidy s) (h : Busy cfg d0 c em s evs d' i0 r0 op pre d1 e0 m0 own) {i : Nat} {x : AnyCall F} (h1 : s.now[i]? = some (some x)) : i = i0 ∧ x = .change r0 op := by
  have hi : i = i0 := by
    by_contra e
    exact ht.alone i0 i _ x (Ne.symm e) h.has h1
  subst hi
  rw [h.has] at h1
  cases h1
  exact ⟨rfl, rfl⟩

theorem Busy.access {s : Shared F D} {evs : List (Event F)} {d' d1 : Dictionary F D} {i0 : Nat} {r0 : Slice} {op : DictOp F} {pre : List (DictOp F)} {e0 : Bool} {m0 : Mem F D} {own : Nat → Mem F D}
    (ht : Tidy s) (h : Busy cfg d0 c em s evs d' i0 r0 op pre d1 e0 m0 own) {i : Nat} {x : AnyCall F} {e : Access} {c' : Config F D (TagAnswer F ⊕ Bool)} (h1 : s.now[i]? = some (some x))
    (h2 : Step s.conf i e c') : ∃ own', Busy cfg d0 c em ⟨c', s.todo, s.now⟩ (evs ++ [.access i e]) d' i0 r0 op pre d1 e0 m0 own' := by
  obtain ⟨rfl, rfl⟩ := h.only ht h1
  obtain ⟨own', hI, _, hfit, _, hother⟩ := isolated_step h.iso h2
  refine ⟨own', h.has, by simpa [changes] using h.hist, hI, ?_, h.inputs, fun a j y q b he => ?_, fun a j f b he hb => ?_⟩
  · obtain ⟨k, hne, hk⟩ := h.emit
    exact ⟨k, hne, by rw [(hother k hne).2]; exact hk⟩
  · rcases snoc_split he with ⟨_, g, _⟩ | ⟨b', _, g⟩
    · cases g
    · exact h.done a j y q b' g
  · rcases snoc_split he with ⟨_, g, _⟩ | ⟨b', g', g⟩
    · cases g; rfl
    · exact h.fits a j f b' g fun ev hev => hb ev (by rw [g']; simp [hev])

/-- It gives the lock back. -/
theorem Busy.unlock {s : Shared F D} {evs : List (Event F)} {d' d1 : Dictionary F D} {i0 : Nat} {r0 : Slice} {op : DictOp F} {pre : List (DictOp F)} {e0 : Bool} {m0 : Mem F D} {own : Nat → Mem F D}
    (ht : Tidy s) (h : Busy cfg d0 c em s evs d' i0 r0 op pre d1 e0 m0 own) {i : Nat} {x : AnyCall F} {r : TagAnswer F ⊕ Bool} (h1 : s.now[i]? = some (some x))
    (h2 : s.conf.threads[i]? = some (.ret r)) :
    Calm cfg d0 c em ⟨s.conf, s.todo, s.now.set i none⟩ (evs ++ [.unlock i x r]) d' s.conf.mem (fun _ => noMem) s.conf.threads.length := by
  obtain ⟨rfl, rfl⟩ := h.only ht h1
  have hi := (List.getElem?_eq_some_iff.mp h1).1
  obtain ⟨rfl, g2, g3⟩ := h.iso.goes i _ h2 rfl
  have hnone : ∀ (j : Nat) y, (s.now.set i none)[j]? ≠ some (some y) := by
    intro j y hj
    by_cases e : j = i
    · subst e; simp [hi] at hj
    · rw [List.getElem?_set_ne (Ne.symm e)] at hj
      exact e (h.only ht hj).1
  have hcells : KeepsCells m0 s.conf.mem := fun a k x hx => h.iso.mine i _ _ (g3 a k x hx)
  refine ⟨fun j y hj => absurd hj (hnone j y), ⟨fun _ _ h => h, fun _ _ _ h => (by cases h), fun _ _ _ h => (by cases h), fun _ _ _ _ _ h => (by cases h), fun j p hp => ?_⟩, le_refl _, fun _ _ => rfl,
    g2.most fun l x _ hx => h.iso.mine i l x hx, ?_, fun u hu => ⟨(h.inputs u hu).1.cells hcells, (h.inputs u hu).2⟩, fun a j y q b he => ?_, fun a j f b he hb => ?_⟩
  · have hret : ∃ q, p = .ret q := by
      by_cases e : j = i
      · subst e
        rw [h2] at hp; cases hp; exact ⟨_, rfl⟩
      · have hj : j < s.now.length := by
          have h3 : j < s.conf.threads.length := (List.getElem?_eq_some_iff.mp hp).1
          rw [ht.now]; exact h3
        have hn : s.now[j]? = some none := by
          rw [List.getElem?_eq_getElem hj]
          cases hnow : s.now[j] with
          | none => rfl
          | some y => exact absurd (h.only ht (by rw [List.getElem?_eq_getElem hj, hnow])).1 e
        obtain ⟨q, hq⟩ := ht.idle j hn
        rw [hp] at hq
        exact ⟨q, Option.some.inj hq⟩
    obtain ⟨q, rfl⟩ := hret
    exact fun u hu => absurd hu (hnone j _)
  · obtain ⟨k, _, hk⟩ := h.emit
    exact h.iso.mine k _ _ hk
  · refine ⟨s.conf.threads.length, fun y hy => hnone _ y hy, ?_⟩
    rcases snoc_split he with ⟨_, g, g'⟩ | ⟨b', _, g⟩
    · cases g
      exact ⟨pre, d1, d', g' ▸ h.hist.1, h.hist.2.1, h.hist.2.2⟩
    · refine (h.done a j y q b' g).cells (fun a k x hx => ?_)
      exact view_some.mpr (.inr ⟨rfl, hcells a k x hx⟩)
  · rcases snoc_split he with ⟨_, g, _⟩ | ⟨b', g', _⟩
    · cases g
    · exact (hb (.unlock i (.change r0 op) (.inr e0)) (by rw [g']; simp) trivial).elim

/-- A step keeps all this. -/
theorem Sound.step [UnicodeOK] {ops0 : List (DictOp F)} (hops : runOps cfg ops0 Dictionary.new = some d0) {s s' : Shared F D} {evs : List (Event F)} {ev : Event F} {d d' : Dictionary F D}
    (ht : Tidy s) (h : Sound cfg d0 c em s evs d) (hr : runOps cfg (changes evs) d0 = some d) (hr' : runOps cfg (changes (evs ++ [ev])) d0 = some d') (hs : LStep c s ev s') :
    Sound cfg d0 c em s' (evs ++ [ev]) d' := by
  have same : changes [ev] = [] → d = d' := fun h0 => by
    rw [changes_append, h0, List.append_nil, hr] at hr'
    exact Option.some.inj hr'
  cases hs with
  | @lock i x rest h1 h2 h3 =>
    rcases h with ⟨sh, own, N, h⟩ | ⟨i0, r0, op, pre, d1, e0, m0, own, h⟩
    · cases x with
      | use u =>
        obtain rfl := same rfl
        exact .inl ⟨_, _, _, h.lock_use hops ht hr h1 h2⟩
      | change r op =>
        have hc : changes [Event.lock i (.change r op)] = [op] := rfl
        rw [changes_append, hc, runOps_append, hr] at hr'
        obtain ⟨d2, e, g1, _, g3⟩ := run_cons (show runOps cfg (op :: []) d = some d' from hr')
        obtain rfl : d2 = d' := by simpa [runOps] using g3
        exact .inr ⟨_, _, _, _, _, _, _, _, h.lock_change ht hr g1 h1 h2 h3⟩
    · cases x with
      | use u => exact (h3 i0 _ h.has).elim
      | change r op' => exact (h3 i0 _ h.has).elim
  | @access i x e c' h1 h2 =>
    obtain rfl := same rfl
    rcases h with ⟨sh, own, N, h⟩ | ⟨i0, r0, op, pre, d1, e0, m0, own, h⟩
    · obtain ⟨⟨own', g⟩, _⟩ := h.access h1 h2
      exact .inl ⟨_, _, _, g⟩
    · obtain ⟨own', g⟩ := h.access ht h1 h2
      exact .inr ⟨_, _, _, _, _, _, _, _, g⟩
  | @unlock i x r h1 h2 =>
    obtain rfl := same rfl
    rcases h with ⟨sh, own, N, h⟩ | ⟨i0, r0, op, pre, d1, e0, m0, own, h⟩
    · exact .inl ⟨_, _, _, h.unlock hr h1 h2⟩
    · exact .inl ⟨_, _, _, h.unlock ht h1 h2⟩

theorem Spec.LExec.tidy {s s' : Shared F D} {evs : List (Event F)} (hx : LExec c s evs s') (h : Tidy s) : Tidy s' := by
  induction hx with
  | refl => exact h
  | step _ hs ih => exact ih.step hs

theorem Spec.LExec.sound [UnicodeOK] {ops0 : List (DictOp F)} (hops : runOps cfg ops0 Dictionary.new = some d0) {m : Mem F D} {calls : List (List (AnyCall F))} (h : GuardedOK m cfg d0 em calls)
    {s' : Shared F D} {evs : List (Event F)} (hx : LExec c (startGuarded m calls) evs s') : ∀ d, runOps cfg (changes evs) d0 = some d → Sound cfg d0 c em s' evs d := by
  generalize hst : startGuarded m calls = st at hx
  induction hx with
  | refl =>
    intro d hd
    obtain rfl : d0 = d := by simpa [changes, runOps] using hd
    subst hst
    exact .inl ⟨_, _, _, calm_start h⟩
  | @step evs s1 ev s2 hx hs ih =>
    intro d hd
    subst hst
    have hd' := hd
    rw [changes_append, runOps_append] at hd'
    obtain ⟨d1, h1, _⟩ := Option.bind_eq_some_iff.mp hd'
    exact Sound.step hops (hx.tidy (tidy_start h)) (ih d1 h1) h1 hd hs

/-! ## The theorems -/

/-- No call has the lock for a change. -/
def Spec.Shared.Still (s : Shared F D) : Prop := ∀ (i : Nat) r op, s.now[i]? ≠ some (some (.change r op))

/-- **C116.** Behind the lock no call panics. -/
theorem C116_safe [UnicodeOK] (ops0 : List (DictOp F)) (hops : runOps cfg ops0 Dictionary.new = some d0) (m : Mem F D) (calls : List (List (AnyCall F))) (h : GuardedOK m cfg d0 em calls)
    (evs : List (Event F)) (s : Shared F D) (hx : LExec c (startGuarded m calls) evs s) (d : Dictionary F D) (hr : runOps cfg (changes evs) d0 = some d) (i : Nat) :
    s.conf.threads[i]? ≠ some .panic := by
  intro hp
  rcases hx.sound hops h d hr with ⟨sh, own, N, g⟩ | ⟨i0, r0, op, pre, d1, e0, m0, own, g⟩ <;> exact g.iso.goes i _ hp

/-- **C116.** At every moment at which no change is under way, memory holds the dictionary that the changes so far make one after another in the order in which they got the lock, and every call that has ended
returned what it returns in that order: a change what it returns after the changes before it, any other call what it returns alone on the dictionary of that moment. Results of `Segment` that were returned
earlier can still be read. -/
theorem C116_answers [UnicodeOK] (ops0 : List (DictOp F)) (hops : runOps cfg ops0 Dictionary.new = some d0) (m : Mem F D) (calls : List (List (AnyCall F))) (h : GuardedOK m cfg d0 em calls)
    (evs : List (Event F)) (s : Shared F D) (hx : LExec c (startGuarded m calls) evs s) (d : Dictionary F D) (hr : runOps cfg (changes evs) d0 = some d) (hst : s.Still) :
    HoldsSegmenter s.conf.mem cfg (some d) ∧ s.conf.mem .totalFreq = some (.freq d.totalFreq) ∧ s.conf.mem .emit = some (.emit em) ∧
    ∀ a i x r b, evs = a ++ .unlock i x r :: b → Right cfg d0 c em s.conf.mem a x r := by
  rcases hx.sound hops h d hr with ⟨sh, own, N, g⟩ | ⟨i0, r0, op, pre, d1, e0, m0, own, g⟩
  · have hH := g.history.most (m' := s.conf.mem) fun l x _ hx => g.iso.shared l x hx
    refine ⟨hH.segmenter, hH.totalFreq, g.iso.shared _ _ g.emit, fun a i x r b he => ?_⟩
    obtain ⟨k, _, k2⟩ := g.done a i x r b he
    exact k2.cells (Grows.cells (g.iso.grows k))
  · exact absurd g.has (hst i0 r0 op)

theorem Access.Fits.apart {sh : Mem F D} {own : Nat → Mem F D} (hap : ∀ i l x, own i l = some x → sh l = none) (hdis : ∀ i j l x, i ≠ j → own i l = some x → own j l = none)
    {i j : Nat} (hij : i ≠ j) {e f : Access} (he : e.Fits sh (own i)) (hf : f.Fits sh (own j)) : ¬ Conflict e f := by
  have key : ∀ i j l, i ≠ j → (own i l).isSome → ¬ (view sh (own j) l).isSome := by
    intro i j l hij h1 h2
    obtain ⟨x, hx⟩ := Option.isSome_iff_exists.mp h1
    obtain ⟨y, hy⟩ := Option.isSome_iff_exists.mp h2
    rcases view_some.mp hy with h3 | ⟨_, h3⟩
    · rw [hdis i j l x hij hx] at h3; cases h3
    · rw [hap i l x hx] at h3; cases h3
  have own_view : ∀ i l, (own i l).isSome → (view sh (own i) l).isSome := by
    intro i l h1
    obtain ⟨x, hx⟩ := Option.isSome_iff_exists.mp h1
    rw [view_own hx]; rfl
  intro hc
  cases e with
  | rd l =>
    cases f with
    | wr l' => obtain rfl : l = l' := hc; exact key j i l (Ne.symm hij) hf he
    | _ => exact hc
  | wr l =>
    cases f with
    | rd l' => obtain rfl : l = l' := hc; exact key i j l hij he hf
    | wr l' => obtain rfl : l = l' := hc; exact key i j l hij he (own_view j l hf)
    | al _ _ => exact hc
  | al _ _ => exact hc

theorem lexec_parts {s s' : Shared F D} {a : List (Event F)} : ∀ {b : List (Event F)}, LExec c s (a ++ b) s' → ∃ s1, LExec c s a s1 ∧ LExec c s1 b s' := by
  intro b
  induction b using List.reverseRecOn generalizing s' with
  | nil => intro h; exact ⟨s', by simpa using h, .refl _⟩
  | append_singleton b ev ih =>
    intro h
    rw [← List.append_assoc] at h
    generalize hl : a ++ b ++ [ev] = l at h
    cases h with
    | refl => simp at hl
    | @step evs s1 ev' _ hx hs =>
      obtain ⟨h1, h2⟩ := List.append_inj' hl rfl
      obtain rfl : ev = ev' := by simpa using h2
      subst h1
      obtain ⟨s2, g1, g2⟩ := ih hx
      exact ⟨s2, g1, g2.step hs⟩

theorem lexec_one {s s' : Shared F D} {ev : Event F} (hx : LExec c s [ev] s') : LStep c s ev s' := by
  generalize hl : [ev] = l at hx
  cases hx with
  | refl => cases hl
  | @step evs s5 ev' _ g1 g2 =>
    obtain ⟨e1, e2⟩ := List.append_inj' (show [] ++ [ev] = evs ++ [ev'] from hl) rfl
    obtain rfl : ev = ev' := by simpa using e2
    subst e1
    generalize hn : ([] : List (Event F)) = nl at g1
    cases g1 with
    | refl => exact g2
    | step => simp at hn

/-- Who has the lock and had it not got it meanwhile. -/
theorem lexec_gains {s s' : Shared F D} {b : List (Event F)} (hx : LExec c s b s') {i : Nat} {z : AnyCall F} (h : s.now[i]? ≠ some (some z)) (h' : s'.now[i]? = some (some z)) :
    ∃ p q, b = p ++ .lock i z :: q := by
  induction hx with
  | refl => exact absurd h' h
  | @step b s1 ev s2 hx hs ih =>
    by_cases h1 : s1.now[i]? = some (some z)
    · obtain ⟨p, q, rfl⟩ := ih h1
      exact ⟨p, q ++ [ev], by simp⟩
    · cases hs with
      | @lock j x rest g1 g2 g3 =>
        by_cases e : i = j
        · subst e
          rw [List.getElem?_set_self (List.getElem?_eq_some_iff.mp g2).1] at h'
          cases h'
          exact ⟨b, [], rfl⟩
        · rw [List.getElem?_set_ne (Ne.symm e)] at h'
          exact absurd h' h1
      | access _ _ => exact absurd h' h1
      | @unlock j x r g1 g2 =>
        by_cases e : i = j
        · subst e
          rw [List.getElem?_set_self (List.getElem?_eq_some_iff.mp g1).1] at h'
          cases h'
        · rw [List.getElem?_set_ne (Ne.symm e)] at h'
          exact absurd h' h1

/-- Who had the lock and has it no more gave it back meanwhile. -/
theorem lexec_loses {s s' : Shared F D} {b : List (Event F)} (hx : LExec c s b s') {i : Nat} {x : AnyCall F} (h : s.now[i]? = some (some x)) (h' : ∀ z, s'.now[i]? ≠ some (some z)) :
    ∃ p z r q, b = p ++ .unlock i z r :: q := by
  induction hx with
  | refl => exact absurd h (h' x)
  | @step b s1 ev s2 hx hs ih =>
    by_cases h1 : ∀ z, s1.now[i]? ≠ some (some z)
    · obtain ⟨p, z, r, q, rfl⟩ := ih h1
      exact ⟨p, z, r, q ++ [ev], by simp⟩
    · push Not at h1
      obtain ⟨z, hz⟩ := h1
      cases hs with
      | @lock j y rest g1 g2 g3 =>
        by_cases e : i = j
        · subst e; rw [hz] at g2; cases g2
        · exact absurd (by rw [List.getElem?_set_ne (Ne.symm e)]; exact hz) (h' z)
      | access _ _ => exact absurd hz (h' z)
      | @unlock j y r g1 g2 =>
        by_cases e : i = j
        · subst e; exact ⟨b, y, r, [], rfl⟩
        · exact absurd (by rw [List.getElem?_set_ne (Ne.symm e)]; exact hz) (h' z)

/-- After the lock went to a change. -/
theorem ordered_lock {s1 s4 : Shared F D} {p q : List (Event F)} {i j k : Nat} {x y z : AnyCall F} (hx : LExec c s1 (p ++ .lock k z :: q) s4) (hz : ¬ z.Reads)
    (hi : s1.now[i]? = some (some x)) (hj : s4.now[j]? = some (some y)) : OrderedByLock i j (p ++ .lock k z :: q) := by
  obtain ⟨s2, h1, h2⟩ := lexec_parts hx
  obtain ⟨s3, h3, h4⟩ := lexec_parts (a := [.lock k z]) h2
  have hs := lexec_one h3
  cases hs with
  | @lock _ _ rest g1 g2 g3 =>
    have hfree : ∀ (j : Nat) w, s2.now[j]? ≠ some (some w) := by
      cases z with
      | use u => exact absurd trivial hz
      | change r op => exact g3
    obtain ⟨p1, w, r, p2, rfl⟩ := lexec_loses h1 hi (hfree i)
    by_cases e : j = k
    · subst e
      exact ⟨p1, w, r, p2, z, q, by simp, .inr (.inl hz)⟩
    · obtain ⟨q1, q2, rfl⟩ := lexec_gains h4 (i := j) (z := y) (by
        simp only [List.getElem?_set_ne (Ne.symm e)]
        exact hfree j y) hj
      exact ⟨p1, w, r, p2 ++ .lock k z :: q1, y, q2, by simp, .inr (.inr ⟨k, z, hz, by simp⟩)⟩

theorem ordered_turn {s1 s4 : Shared F D} {b : List (Event F)} {i j : Nat} {x y : AnyCall F} (hij : i ≠ j) (ht : Tidy s1) (hx : LExec c s1 b s4)
    (hi : s1.now[i]? = some (some x)) (hj : s4.now[j]? = some (some y)) {v : Event F} (hv : v ∈ b) (hturn : v.turns) : OrderedByLock i j b := by
  obtain ⟨p, q, rfl⟩ := List.append_of_mem hv
  cases v with
  | access _ _ => exact hturn.elim
  | lock k z =>
    cases z with
    | use u => exact hturn.elim
    | change r op => exact ordered_lock hx (fun h => h) hi hj
  | unlock k z r =>
    cases z with
    | use u => exact hturn.elim
    | change r0 op =>
      obtain ⟨s2, h1, h2⟩ := lexec_parts hx
      obtain ⟨s3, h3, h4⟩ := lexec_parts (a := [.unlock k (.change r0 op) r]) h2
      have hs := lexec_one h3
      cases hs with
      | unlock g1 g2 =>
        by_cases e : i = k
        · subst e
          have ht2 := h1.tidy ht
          obtain ⟨q1, q2, rfl⟩ := lexec_gains h4 (i := j) (z := y) (by
            simp only [List.getElem?_set_ne hij]
            intro hy
            exact ht2.alone i j _ y hij g1 hy) hj
          exact ⟨p, .change r0 op, r, q1, y, q2, by simp, .inl fun h => h⟩
        · obtain ⟨p1, p2, rfl⟩ := lexec_gains h1 (i := k) (z := .change r0 op) (fun hk => ht.alone k i _ x (Ne.symm e) hk hi) g1
          have hx' : LExec c s1 (p1 ++ .lock k (.change r0 op) :: (p2 ++ .unlock k (.change r0 op) r :: q)) s4 := by simpa using hx
          have := ordered_lock hx' (fun h => h) hi hj
          simpa using this

/-- **C116.** No data race: when accesses of two goroutines conflict, the lock orders them. The first goroutine gave it back in between and the second got it after that, and one of these two calls is a change,
or a change had the lock in between. -/
theorem C116_ordered [UnicodeOK] (ops0 : List (DictOp F)) (hops : runOps cfg ops0 Dictionary.new = some d0) (m : Mem F D) (calls : List (List (AnyCall F))) (h : GuardedOK m cfg d0 em calls)
    (s : Shared F D) (a b t : List (Event F)) (i j : Nat) (e f : Access) (hx : LExec c (startGuarded m calls) (a ++ .access i e :: b ++ .access j f :: t) s)
    (d : Dictionary F D) (hr : runOps cfg (changes (a ++ .access i e :: b ++ .access j f :: t)) d0 = some d) (hij : i ≠ j) (hc : Conflict e f) : OrderedByLock i j b := by
  obtain ⟨s4, hx4, hx5⟩ := lexec_parts hx
  obtain ⟨s0, hx0, hx1⟩ := lexec_parts hx4
  obtain ⟨s1, hx2, hx3⟩ := lexec_parts (a := [.access i e]) hx1
  obtain ⟨s5, hx6, _⟩ := lexec_parts (a := [.access j f]) hx5
  have ht0 := hx0.tidy (tidy_start h)
  have ht1 := hx2.tidy ht0
  have ht4 := hx4.tidy (tidy_start h)
  obtain ⟨x, hi⟩ : ∃ x, s1.now[i]? = some (some x) := by cases lexec_one hx2 with | access g1 g2 => exact ⟨_, g1⟩
  obtain ⟨y, hj, c', hstep⟩ : ∃ y, s4.now[j]? = some (some y) ∧ ∃ c', Step s4.conf j f c' := by cases lexec_one hx6 with | access g1 g2 => exact ⟨_, g1, _, g2⟩
  by_cases hturn : ∃ v ∈ b, v.turns
  · obtain ⟨v, hv, hv'⟩ := hturn
    exact ordered_turn hij ht1 hx3 hi hj hv hv'
  · exfalso
    have hno : ∀ v ∈ b, ¬ v.turns := fun v hv hv' => hturn ⟨v, hv, hv'⟩
    rw [changes_append, runOps_append] at hr
    obtain ⟨d4, hr4, _⟩ := Option.bind_eq_some_iff.mp hr
    rcases hx4.sound hops h d4 hr4 with ⟨sh, own, N, g⟩ | ⟨i0, r0, op, pre, d1, e0, m0, own, g⟩
    · obtain ⟨k, k1, k2⟩ := g.fits a i e b rfl hno
      have hf := (g.access hj hstep).2
      have hjlt : j < s4.conf.threads.length := by
        have := (List.getElem?_eq_some_iff.mp hj).1
        rw [ht4.now] at this; exact this
      exact Access.Fits.apart g.iso.apart g.iso.disjoint (by omega : k ≠ j) k2 hf hc
    · exact hij ((g.fits a i e b rfl hno).trans (g.only ht4 hj).1.symm)

/-- **C116.** Nobody waits for ever: unless all calls are made, somebody can go on. -/
theorem C116_live [UnicodeOK] (ops0 : List (DictOp F)) (hops : runOps cfg ops0 Dictionary.new = some d0) (m : Mem F D) (calls : List (List (AnyCall F))) (h : GuardedOK m cfg d0 em calls)
    (evs : List (Event F)) (s : Shared F D) (hx : LExec c (startGuarded m calls) evs s) (d : Dictionary F D) (hr : runOps cfg (changes evs) d0 = some d) (hend : ∀ ev s', ¬ LStep c s ev s') :
    (∀ l ∈ s.todo, l = []) ∧ ∀ y ∈ s.now, y = none := by
  have ht := hx.tidy (tidy_start h)
  have hnow : ∀ (i : Nat) y, s.now[i]? ≠ some (some y) := by
    intro i y hy
    have hi : i < s.conf.threads.length := by
      have := (List.getElem?_eq_some_iff.mp hy).1
      rw [ht.now] at this; exact this
    have hp := List.getElem?_eq_getElem hi
    by_cases hret : ∃ r, s.conf.threads[i] = .ret r
    · obtain ⟨r, hr'⟩ := hret
      rw [hr'] at hp
      exact hend _ _ (.unlock hy hp)
    · obtain ⟨e, c', hs⟩ := can_step ht.below hp (fun r hr' => hret ⟨r, hr'⟩) fun hq => C116_safe ops0 hops m calls h evs s hx d hr i (by rw [hp, hq])
      exact hend _ _ (.access hy hs)
  refine ⟨fun l hl => ?_, fun y hy => ?_⟩
  · obtain ⟨i, hi⟩ := List.getElem?_of_mem hl
    cases l with
    | nil => rfl
    | cons x rest =>
      have hlt := (List.getElem?_eq_some_iff.mp hi).1
      have hn : s.now[i]? = some none := by
        have hj : i < s.now.length := by rw [ht.now, ← ht.todo]; exact hlt
        rw [List.getElem?_eq_getElem hj]
        cases hq : s.now[i] with
        | none => rfl
        | some y => exact absurd (by rw [List.getElem?_eq_getElem hj, hq]) (hnow i y)
      exact (hend _ _ (.lock hi hn (by
        cases x with
        | use u => exact fun j y hy => absurd hy (hnow j y)
        | change r op => exact fun j y hy => absurd hy (hnow j y)))).elim
  · cases y with
    | none => rfl
    | some y =>
      obtain ⟨i, hi⟩ := List.getElem?_of_mem hy
      exact absurd hi (hnow i y)

/-- **C116.** And no execution goes on for ever. -/
theorem C116_ends : WellFounded fun s' s : Shared F D => ∃ ev, LStep c s ev s' := by
  have h := InvImage.wf (fun s : Shared F D => (s.todo.flatten.length, s.conf, s.now.countP Option.isSome))
    (WellFounded.prod_lex Nat.lt_wfRel.wf (WellFounded.prod_lex (steps_wf (F := F) (D := D) (α := TagAnswer F ⊕ Bool)) Nat.lt_wfRel.wf))
  refine Subrelation.wf ?_ h
  rintro s' s ⟨ev, hs⟩
  cases hs with
  | @lock i x rest h1 h2 h3 =>
    refine Prod.Lex.left _ _ ?_
    have := (flatten_take s.todo i h1).length_eq
    simp only [List.length_cons] at this
    show (s.todo.set i rest).flatten.length < s.todo.flatten.length
    omega
  | @access i x e c' h1 h2 => exact Prod.Lex.right _ (Prod.Lex.left _ _ ⟨i, e, h2⟩)
  | @unlock i x r h1 h2 =>
    refine Prod.Lex.right _ (Prod.Lex.right _ ?_)
    show (s.now.set i none).countP Option.isSome < s.now.countP Option.isSome
    have hi := (List.getElem?_eq_some_iff.mp h1)
    obtain ⟨hlt, hget⟩ := hi
    have hpos : 0 < s.now.countP Option.isSome := List.countP_pos_iff.mpr ⟨s.now[i], List.getElem_mem hlt, by rw [hget]; rfl⟩
    rw [List.countP_set hlt]
    simp [hget]
    simpa using hpos

/-- **C116.** So every execution can be carried on until all calls are made. -/
theorem C116_complete (s0 : Shared F D) (evs : List (Event F)) (s : Shared F D) (hx : LExec c s0 evs s) : ∃ evs' s', LExec c s0 (evs ++ evs') s' ∧ ∀ ev s'', ¬ LStep c s' ev s'' := by
  induction s using (C116_ends (F := F) (D := D) (c := c)).induction generalizing evs with
  | _ s ih =>
    by_cases h : ∃ ev s3, LStep c s ev s3
    · obtain ⟨ev, s3, hs⟩ := h
      obtain ⟨evs', s4, h1, h2⟩ := ih s3 ⟨ev, hs⟩ _ (hx.step hs)
      exact ⟨ev :: evs', s4, by simpa using h1, h2⟩
    · exact ⟨[], s, by simpa using hx, fun ev s'' hs => h ⟨ev, s'', hs⟩⟩

/-- The call takes nothing out. -/
def Spec.AnyCall.Adds : AnyCall F → Prop
  | .change _ (.remove _) | .change _ (.reAdd _ _ _) => False
  | _ => True

theorem lexec_calls {m : Mem F D} {calls : List (List (AnyCall F))} {evs : List (Event F)} {s : Shared F D} (hx : LExec c (startGuarded m calls) evs s) :
    (∀ x ∈ s.todo.flatten, x ∈ calls.flatten) ∧ ∀ i x, .lock i x ∈ evs → x ∈ calls.flatten := by
  induction hx with
  | refl => exact ⟨fun x hx => hx, fun i x hx => by simp at hx⟩
  | @step evs s1 ev s2 hx hs ih =>
    cases hs with
    | @lock i x rest h1 h2 h3 =>
      have hp := flatten_take s1.todo i h1
      refine ⟨fun y hy => ih.1 y (hp.mem_iff.mpr (List.mem_cons_of_mem _ hy)), fun j y hy => ?_⟩
      rcases List.mem_append.mp hy with hy | hy
      · exact ih.2 j y hy
      · simp only [List.mem_singleton, Event.lock.injEq] at hy
        obtain ⟨_, rfl⟩ := hy
        exact ih.1 y (hp.mem_iff.mpr (by simp))
    | access _ _ => exact ⟨ih.1, fun j y hy => ih.2 j y (by simpa using hy)⟩
    | unlock _ _ => exact ⟨ih.1, fun j y hy => ih.2 j y (by simpa using hy)⟩

/-- **C116.** If the calls remove no words, the changes that have been made can always be made one after another: the other theorems then hold of every execution. -/
theorem C116_adds [UnicodeOK] (ops0 : List (DictOp F)) (hops : runOps cfg ops0 Dictionary.new = some d0) (m : Mem F D) (calls : List (List (AnyCall F))) (ha : ∀ x ∈ calls.flatten, x.Adds)
    (evs : List (Event F)) (s : Shared F D) (hx : LExec c (startGuarded m calls) evs s) : ∃ d, runOps cfg (changes evs) d0 = some d := by
  have key : ∀ (ops : List (DictOp F)) (d : Dictionary F D), d.WF cfg → (∀ op ∈ ops, (∀ t, op ≠ .remove t) ∧ ∀ t f p, op ≠ .reAdd t f p) → ∃ d', runOps cfg ops d = some d' := by
    intro ops
    induction ops with
    | nil => exact fun d _ _ => ⟨d, rfl⟩
    | cons op ops ih =>
      intro d hd hops
      obtain ⟨d1, h1⟩ : ∃ d1, op.step cfg d = some d1 := by
        have h0 := hops op (by simp)
        cases op with
        | add t f p => exact ⟨_, rfl⟩
        | addForce t f p =>
          obtain ⟨d2, h2⟩ := calcToken_total (d := (segAddToken cfg d t f p).1) (wf_step hd (op := .add t f p) rfl)
          exact ⟨d2, by simp [DictOp.step, segAddTokenForce, h2]⟩
        | remove t => exact absurd rfl (h0.1 t)
        | reAdd t f p => exact absurd rfl (h0.2 t f p)
        | recalc => exact calcToken_total hd
      obtain ⟨d', h'⟩ := ih d1 (wf_step hd h1) fun op hop => hops op (List.mem_cons_of_mem _ hop)
      exact ⟨d', by rw [runOps, h1]; exact h'⟩
  refine key _ d0 (Reachable.wf ⟨ops0, hops⟩) fun op hop => ?_
  obtain ⟨ev, hev, he⟩ := List.mem_filterMap.mp hop
  cases ev with
  | access _ _ => cases he
  | unlock _ _ _ => cases he
  | lock i x =>
    have hm := ha x ((lexec_calls hx).2 i x hev)
    cases x with
    | use u => cases he
    | change r op' =>
      cases he
      cases op <;> first | exact hm.elim | exact ⟨fun _ h => (by cases h), fun _ _ _ h => (by cases h)⟩

end main

section examples
attribute [local instance] sampleUnicode sampleUnicodeOK sampleF64 sampleF32 sampleNarrow

/-- Goroutine 0 adds b and then cuts ab, goroutine 1 segments ab, looks for b, tags ab and recalculates. -/
def lockCalls : List (List (AnyCall Int)) :=
  [[.change ⟨0, 0, 1⟩ (.add (str "b") 7 []), .use (.use (.cut (str "ab") false))],
   [.use (.use (.segment ⟨1, 0, 2⟩ (str "ab") false)), .use (.use (.find (str "b"))), .use (.cut choiceA noTables (str "ab") false), .change ⟨0, 0, 0⟩ .recalc]]

/-- In a dictionary with the word a they come to an end, all calls have returned, and memory holds what the two changes made of it. -/
example (c : HmmConst Int) : ∃ d0 : Dictionary Int Int, runOps {} [.add (str "a") 9 []] Dictionary.new = some d0 ∧
    GuardedOK (spacious (memOf {} (some d0) [str "b", str "ab"]) 0) {} d0 (fun _ _ => none) lockCalls ∧
    ∃ evs s d, LExec c (startGuarded (spacious (memOf {} (some d0) [str "b", str "ab"]) 0) lockCalls) evs s ∧ (∀ l ∈ s.todo, l = []) ∧ (∀ y ∈ s.now, y = none) ∧
      runOps {} (changes evs) d0 = some d ∧ HoldsSegmenter s.conf.mem {} (some d) := by
  have h : (runOps (F := Int) (D := Int) {} [.add (str "a") 9 []] Dictionary.new).isSome := by decide +kernel
  obtain ⟨d0, hd⟩ := Option.isSome_iff_exists.mp h
  have ok : GuardedOK (spacious (memOf {} (some d0) [str "b", str "ab"]) 0) {} d0 (fun _ _ => none) lockCalls := by
    refine ⟨spacious_ok {} d0 0 _ _ fun x hx hne => ?_, rfl, fun u hu => ?_, ⟨2, fun a ha i => memOf_below {} (some d0) [str "b", str "ab"] a ha i⟩⟩
    · simp only [changesOf, lockCalls, List.flatten_cons, List.flatten_nil, List.append_nil, List.cons_append, List.nil_append, List.filterMap_cons, AnyCall.change?, List.filterMap_nil,
        List.mem_cons, List.not_mem_nil, or_false] at hx
      rcases hx with rfl | rfl
      · exact memOf_input _ _ _ 0 (str "b") rfl
      · exact absurd rfl hne
    · simp only [lockCalls, List.flatten_cons, List.flatten_nil, List.append_nil, List.cons_append, List.nil_append, List.mem_cons, List.not_mem_nil, or_false, reduceCtorEq, false_or,
        AnyCall.use.injEq] at hu
      rcases hu with rfl | rfl | rfl | rfl
      · exact ⟨trivial, trivial⟩
      · have hb := memOf_input {} (some d0) [str "b", str "ab"] 1 (str "ab") rfl
        exact ⟨⟨hb.1, fun k b hk => hb.2 k b hk⟩, trivial⟩
      · exact ⟨trivial, trivial⟩
      · exact ⟨trivial, fun e => by cases e⟩
  refine ⟨d0, hd, ok, ?_⟩
  obtain ⟨evs, s, hx, hend⟩ := C116_complete (c := c) (startGuarded (spacious (memOf {} (some d0) [str "b", str "ab"]) 0) lockCalls) [] _ (.refl _)
  rw [List.nil_append] at hx
  obtain ⟨d, hr⟩ := C116_adds (cfg := {}) _ hd _ lockCalls (by
    intro x hx
    simp only [lockCalls, List.flatten_cons, List.flatten_nil, List.append_nil, List.cons_append, List.nil_append, List.mem_cons, List.not_mem_nil, or_false] at hx
    rcases hx with rfl | rfl | rfl | rfl | rfl | rfl <;> trivial) evs s hx
  obtain ⟨h1, h2⟩ := C116_live _ hd _ lockCalls ok evs s hx d hr hend
  have hstill : s.Still := fun i r op hi => by cases h2 _ (List.mem_of_getElem? hi)
  exact ⟨evs, s, d, hx, h1, h2, hr, (C116_answers _ hd _ lockCalls ok evs s hx d hr hstill).1⟩

end examples
end Gse
