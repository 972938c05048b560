import Verif.Spec.Extract
import Verif.Proofs.Ledger
import Verif.Proofs.Idf
import Verif.Props.Hmm
import Verif.Props.Flags

/-! # Proofs about extracters in a program -/

namespace Gse
open Spec Segmenter

set_option linter.unusedSectionVars false

/-! ## When keyword extraction panics -/

section words
variable {F D : Type} [F64 F] [F32 D] [Narrow F D] [Unicode]

theorem set_keys {m : GoMap Bytes F} {k : Bytes} {v : F} (hn : (m.map Prod.fst).Nodup) :
    ((m.set k v).map Prod.fst).Nodup ∧ ∀ w, w ∈ (m.set k v).map Prod.fst ↔ w = k ∨ w ∈ m.map Prod.fst := by
  by_cases h : k ∈ m.map Prod.fst
  · obtain ⟨⟨k', v'⟩, hp, e⟩ := List.mem_map.1 h
    simp only at e; subst e
    obtain ⟨a, b, rfl⟩ := List.append_of_mem hp
    rw [set_present hn]
    refine ⟨by simpa using hn, fun w => by simp only [List.map_append, List.map_cons, List.mem_append, List.mem_cons]; tauto⟩
  · rw [set_absent h]
    refine ⟨?_, fun w => by simp [or_comm]⟩
    rw [List.map_append, List.nodup_append]
    exact ⟨hn, by simp, fun a ha b hb => by simp at hb; rw [hb]; intro e; exact h (e ▸ ha)⟩

theorem countWords_nil (items : List Bytes) (m : GoMap Bytes F) :
    items.foldlM (countWord none) m = if ∀ x ∈ items, (runes (trimSpace x)).length < 2 then some m else none := by
  induction items generalizing m with
  | nil => simp
  | cons x items ih =>
    rw [List.foldlM_cons]
    by_cases h : (runes (trimSpace x)).length < 2
    · have e : countWord none m x = some m := by simp [countWord, h]
      rw [e]
      show items.foldlM (countWord none) m = _
      rw [ih]
      have : (∀ y ∈ x :: items, (runes (trimSpace y)).length < 2) ↔ ∀ y ∈ items, (runes (trimSpace y)).length < 2 := by
        simp only [List.forall_mem_cons, h, true_and]
      simp only [this]
    · have e : countWord none m x = none := by simp [countWord, h]
      rw [e, if_neg fun hc => h (hc x (by simp))]
      rfl

theorem countWords_keys (isStop : Bytes → Bool) (items : List Bytes) (m : GoMap Bytes F) (hn : (m.map Prod.fst).Nodup) :
    ∃ m', items.foldlM (countWord (some isStop)) m = some m' ∧ (m'.map Prod.fst).Nodup ∧
      ∀ w, w ∈ m'.map Prod.fst ↔ w ∈ m.map Prod.fst ∨ (TagWord isStop w ∧ ∃ x ∈ items, trimSpace x = w) := by
  induction items generalizing m with
  | nil => exact ⟨m, rfl, hn, fun w => by simp⟩
  | cons x items ih =>
    have step : ∃ m1, countWord (some isStop) m x = some m1 ∧ (m1.map Prod.fst).Nodup ∧
        ∀ w, w ∈ m1.map Prod.fst ↔ w ∈ m.map Prod.fst ∨ (TagWord isStop w ∧ trimSpace x = w) := by
      unfold countWord
      by_cases h1 : (runes (trimSpace x)).length < 2
      · exact ⟨m, by simp [h1], hn, fun w => ⟨.inl, fun h => h.elim id fun ⟨⟨h, _⟩, e⟩ => by subst e; omega⟩⟩
      by_cases h2 : isStop (trimSpace x) = true
      · exact ⟨m, by simp [h1, h2], hn, fun w => ⟨.inl, fun h => h.elim id fun ⟨⟨_, h⟩, e⟩ => by subst e; rw [h2] at h; cases h⟩⟩
      have ht : TagWord isStop (trimSpace x) := ⟨by omega, by simpa using h2⟩
      simp only [h1, if_false, h2, Bool.false_eq_true]
      cases hl : GoMap.get m (trimSpace x) with
      | none =>
        obtain ⟨g1, g2⟩ := set_keys (k := trimSpace x) (v := F64.ofNat 1) hn
        refine ⟨_, rfl, g1, fun w => ?_⟩
        rw [g2]
        constructor
        · rintro (rfl | h); exacts [.inr ⟨ht, rfl⟩, .inl h]
        · rintro (h | ⟨_, rfl⟩); exacts [.inr h, .inl rfl]
      | some f =>
        obtain ⟨g1, g2⟩ := set_keys (k := trimSpace x) (v := F64.add f (F64.ofNat 1)) hn
        refine ⟨_, rfl, g1, fun w => ?_⟩
        rw [g2]
        constructor
        · rintro (rfl | h); exacts [.inr ⟨ht, rfl⟩, .inl h]
        · rintro (h | ⟨_, rfl⟩); exacts [.inr h, .inl rfl]
    obtain ⟨m1, e1, n1, k1⟩ := step
    obtain ⟨m2, e2, n2, k2⟩ := ih m1 n1
    refine ⟨m2, by rw [List.foldlM_cons, e1]; exact e2, n2, fun w => ?_⟩
    rw [k2, k1]
    simp only [List.mem_cons, exists_eq_or_imp]
    tauto

theorem mapOpt_none {α β : Type} {f : α → Option β} {l : List α} : mapOpt f l = none ↔ ∃ a ∈ l, f a = none := by
  constructor
  · intro h
    by_contra hc
    push Not at hc
    obtain ⟨l', h'⟩ := mapOpt_isSome (f := f) (l := l) fun a ha => Option.ne_none_iff_exists'.1 (hc a ha)
    rw [h] at h'; cases h'
  · rintro ⟨a, ha, h⟩
    by_contra hc
    obtain ⟨l', h'⟩ := Option.ne_none_iff_exists'.1 hc
    have := mapOpt_some h'
    obtain ⟨i, hi, e⟩ := List.getElem_of_mem ha
    have hf := (List.forall₂_iff_get.1 this).2 i hi (this.length_eq ▸ hi)
    simp only [List.get_eq_getElem, e, h] at hf
    cases hf

theorem topTags_none (ch : Choice) (ws : List (WordWeight F)) (k : Int) : topTags ch ws k = none ↔ k < 0 := by
  unfold topTags
  simp only
  split
  · split
    · simp_all
    · simp; omega
  · simp; omega

/-- Exactly when the part after the cut panics. -/
theorem extractWords_none (ch : Choice) (stop : Option (Bytes → Bool)) (idf : Option (Idf F D))
    (hi : ∀ i d, idf = some i → i.dict = some d → IdxOK d) (items : List Bytes) (k : Int) :
    extractWords ch stop idf items k = none ↔
      k < 0 ∨ (stop = none ∧ ∃ x ∈ items, 2 ≤ (runes (trimSpace x)).length) ∨
        ∃ isStop, stop = some isStop ∧ (∃ x ∈ items, TagWord isStop (trimSpace x)) ∧ ∀ i, idf = some i → i.dict = none := by
  have weigh : ∀ p : Bytes × F, p.1 ≠ [] → (weighWord idf p = none ↔ ∀ i, idf = some i → i.dict = none) := by
    intro p hp
    cases idf with
    | none => simp [weighWord]
    | some i =>
      cases hd : i.dict with
      | none => simp [weighWord, Idf.freq, hd]
      | some d => simp [weighWord_eq hd (hi i d rfl hd) hp, hd]
  unfold extractWords
  cases stop with
  | none =>
    rw [countWords_nil]
    by_cases h : ∀ x ∈ items, (runes (trimSpace x)).length < 2
    · rw [if_pos h]
      have e : normFreq ch (sumFreq ch ([] : GoMap Bytes F)) [] = [] := by rw [normFreq_eq ch _ _ (by simp)]; rfl
      simp only [e]
      have e2 : ch.iter 2 ([] : GoMap Bytes F) = [] := (ch.iter_perm 2 []).eq_nil
      rw [e2]
      simp only [mapOpt, topTags_none]
      constructor
      · exact .inl
      · rintro (h' | ⟨_, x, hx, h'⟩ | ⟨_, h', _⟩)
        · exact h'
        · exact absurd (h x hx) (by omega)
        · cases h'
    · rw [if_neg h]
      simp only [true_iff]
      push Not at h
      obtain ⟨x, hx, h⟩ := h
      exact .inr (.inl ⟨trivial, x, hx, h⟩)
  | some isStop =>
    obtain ⟨m, e1, n1, k1⟩ := countWords_keys (F := F) isStop items [] (by simp)
    rw [e1]
    simp only
    rw [normFreq_eq ch _ _ n1]
    set l := ch.iter 2 (m.map fun p => (p.1, F64.div p.2 (sumFreq ch m))) with hl
    have hmem : ∀ w, (∃ v, (w, v) ∈ l) ↔ TagWord isStop w ∧ ∃ x ∈ items, trimSpace x = w := by
      intro w
      have e : w ∈ m.map Prod.fst ↔ TagWord isStop w ∧ ∃ x ∈ items, trimSpace x = w := by rw [k1]; simp
      rw [← e]
      constructor
      · rintro ⟨v, hv⟩
        have := (ch.iter_perm 2 _).subset hv
        obtain ⟨q, hq, e⟩ := List.mem_map.1 this
        exact List.mem_map.2 ⟨q, hq, by simpa using congrArg Prod.fst e⟩
      · intro h
        obtain ⟨q, hq, rfl⟩ := List.mem_map.1 h
        exact ⟨_, (ch.iter_perm 2 _).symm.subset (List.mem_map.2 ⟨q, hq, rfl⟩)⟩
    have hne : ∀ p ∈ l, p.1 ≠ [] := fun p hp => tagWord_ne ((hmem p.1).1 ⟨p.2, hp⟩).1
    have hnone : mapOpt (weighWord idf) l = none ↔ (∃ x ∈ items, TagWord isStop (trimSpace x)) ∧ ∀ i, idf = some i → i.dict = none := by
      rw [mapOpt_none]
      constructor
      · rintro ⟨p, hp, h⟩
        obtain ⟨h1, x, hx, e⟩ := (hmem p.1).1 ⟨p.2, hp⟩
        exact ⟨⟨x, hx, by rw [e]; exact h1⟩, (weigh p (hne p hp)).1 h⟩
      · rintro ⟨⟨x, hx, ht⟩, h⟩
        obtain ⟨v, hv⟩ := (hmem (trimSpace x)).2 ⟨ht, x, hx, rfl⟩
        exact ⟨_, hv, (weigh _ (hne _ hv)).2 h⟩
    cases hm : mapOpt (weighWord idf) l with
    | none => simp only [true_iff]; exact .inr (.inr ⟨isStop, rfl, hnone.1 hm⟩)
    | some ws =>
      simp only [topTags_none]
      constructor
      · exact .inl
      · rintro (h' | ⟨h', _⟩ | ⟨f, e, h'⟩)
        · exact h'
        · cases h'
        · cases e; rw [hnone.2 h'] at hm; cases hm

/-- The cut with HMM on a dictionary made by calls with any flags. -/
theorem cut_mixed [UnicodeOK] {ops : List (SplitCfg × DictOp F)} {d : Dictionary F D} (hr : runMixed ops Dictionary.new = some d) (cfg : SplitCfg)
    (c : HmmConst F) (em : EmitModel F) (s : Bytes) :
    ∃ items, cutDAGHmm cfg d c em s [] = some items ∧ items.flatten = encode (dagText cfg s) ∧ ∀ w ∈ items, w ≠ [] :=
  cutDAG_items_of cfg (Dictionary.idx_of_entry (loose_of_run hr).entry) _ (· ≠ []) (fun _ ht _ => encode_ne_nil ht) (fun t _ => C30_lossless c em t) s

end words

/-! ## The script -/

section script
variable {F D : Type} [F64 F] [F32 D] [Narrow F D] [Unicode]

theorem owners_length (ops : List (WorldOp F)) : (owners ops).length = ops.countP fun op => op matches .new := by
  have key : ∀ (ops : List (WorldOp F)) (n : Nat) (os : List Owner), (ownersFrom n ops os).length = os.length + ops.countP fun op => op matches .new := by
    intro ops
    induction ops with
    | nil => intro n os; rfl
    | cons op ops ih =>
      intro n os
      rw [ownersFrom, ih]
      cases op <;> simp [ownStep]
      omega
  simpa [owners] using key ops 0 []

theorem idfStop_count {join : Bytes → Bytes} {ops : List IdfStopOp} {h h' : StopHeap} (hr : idfStopRun join ops h = some h') :
    h'.segs.length = h.segs.length + ops.countP fun op => op matches .new := by
  induction ops generalizing h with
  | nil => simp only [idfStopRun, Option.some.injEq] at hr; subst hr; rfl
  | cons op ops ih =>
    simp only [idfStopRun, Option.bind_eq_some_iff] at hr
    obtain ⟨h1, e1, e2⟩ := hr
    rw [ih e2, List.countP_cons]
    cases op with
    | new => simp only [IdfStopOp.run, Option.some.injEq] at e1; subst e1; simp; omega
    | add i w => simp only [IdfStopOp.run] at e1; split at e1 <;> cases e1; simp
    | remove i w => simp only [IdfStopOp.run] at e1; split at e1 <;> cases e1; simp
    | load i fs files =>
      simp only [IdfStopOp.run] at e1
      split at e1
      · cases e1
      · split at e1 <;> cases e1 <;> simp

/-- An `Idf` and its sheet. -/
structure Tally (y : Sheet F) (x : IdfVar F) : Prop where
  seg : x.seg = y.seg
  perm : x.freqs.Perm y.added
  fall : Fallback y.added x.median

/-- The state follows the script. -/
structure Follows (E : CallEnv) (builtin : List Bytes) (s : Shop F D) (S : Script F) : Prop where
  world : ({} : World F D).run E S.segs = some s.world
  stops : idfStopRun E.stop.join S.stops ⟨builtin, []⟩ = some s.stops
  exts : s.exts = S.exts
  sheets : List.Forall₂ Tally S.sheets s.idfs

variable {E : CallEnv} {builtin : List Bytes}

theorem Follows.vars {s : Shop F D} {S : Script F} (h : Follows E builtin s S) : s.world.vars.length = S.vars := by
  rw [(Inv.start h.world).length, owners_length]; rfl

theorem Follows.words {s : Shop F D} {S : Script F} (h : Follows E builtin s S) : s.stops.segs.length = S.words := by
  rw [idfStop_count h.stops, List.length_nil, Nat.zero_add]; rfl

theorem Follows.segs {s s' : Shop F D} {S : Script F} (h : Follows E builtin s S) {ops : List (WorldOp F)} (hs : s.segs E ops = some s') :
    Follows E builtin s' { S with segs := S.segs ++ ops } ∧ s'.stops = s.stops ∧ s'.exts = s.exts ∧ s'.idfs = s.idfs := by
  unfold Shop.segs at hs
  obtain ⟨w, hw, rfl⟩ := Option.map_eq_some_iff.1 hs
  exact ⟨⟨by rw [World.run_append, h.world]; exact hw, h.stops, h.exts, h.sheets⟩, rfl, rfl, rfl⟩

theorem Follows.stopCall {s s' : Shop F D} {S : Script F} (h : Follows E builtin s S) {op : IdfStopOp} (hs : s.stopCall E op = some s') :
    Follows E builtin s' { S with stops := S.stops ++ [op] } ∧ s'.world = s.world ∧ s'.exts = s.exts ∧ s'.idfs = s.idfs := by
  unfold Shop.stopCall at hs
  obtain ⟨w, hw, rfl⟩ := Option.map_eq_some_iff.1 hs
  refine ⟨⟨h.world, ?_, h.exts, h.sheets⟩, rfl, rfl, rfl⟩
  rw [idfStopRun_append, h.stops, Option.bind_some]
  simp only [idfStopRun, hw, Option.bind_some]

theorem Follows.setExts {s : Shop F D} {S : Script F} (h : Follows E builtin s S) (l : List TagExt) :
    Follows E builtin { s with exts := l } { S with exts := l } := ⟨h.world, h.stops, rfl, h.sheets⟩

theorem Follows.freshStop {s s' : Shop F D} {S : Script F} (h : Follows E builtin s S) {e : Nat} {x : TagExt} (hs : s.freshStop E e x = some s') :
    Follows E builtin s' { S with stops := S.stops ++ [.new], exts := S.exts.set e ⟨x.seg, x.idf, some S.words⟩ } ∧
      s'.world = s.world ∧ s'.idfs = s.idfs ∧ s'.stops.segs.length = s.stops.segs.length + 1 := by
  unfold Shop.freshStop at hs
  obtain ⟨s1, h1, rfl⟩ := Option.map_eq_some_iff.1 hs
  obtain ⟨g, g1, g2, g3⟩ := h.stopCall h1
  refine ⟨?_, g1, g3, ?_⟩
  · have := g.setExts (S.exts.set e ⟨x.seg, x.idf, some S.words⟩)
    rw [← h.words, ← h.exts] at this ⊢
    exact this
  · have := g.words
    rw [h.words]
    simpa [Script.words, List.countP_append] using this

theorem fallback_nil : Fallback ([] : List F) (F64.ofNat 0) := ⟨fun _ => rfl, fun h => absurd rfl h, fun _ h => absurd rfl h⟩

theorem Follows.freshIdf {s s' : Shop F D} {S : Script F} (h : Follows E builtin s S) (hs : s.freshIdf E = some s') :
    Follows E builtin s' { S with segs := S.segs ++ [.new], sheets := S.sheets ++ [{ seg := S.vars }] } ∧
      s'.stops = s.stops ∧ s'.exts = s.exts := by
  unfold Shop.freshIdf at hs
  obtain ⟨s1, h1, rfl⟩ := Option.map_eq_some_iff.1 hs
  obtain ⟨g, g1, g2, g3⟩ := h.segs h1
  exact ⟨⟨g.world, g.stops, g.exts, List.rel_append h.sheets (.cons ⟨h.vars, List.Perm.refl _, fallback_nil⟩ .nil)⟩, g1, g2⟩

theorem Follows.extIdf {s s' : Shop F D} {S : Script F} (h : Follows E builtin s S) {e : Nat} {x : TagExt} (hs : s.extIdf E e x = some s') :
    Follows E builtin s'
      { S with segs := S.segs ++ [.new], sheets := S.sheets ++ [{ seg := S.vars }], exts := S.exts.set e ⟨x.seg, some S.sheets.length, x.stopWord⟩ } := by
  unfold Shop.extIdf at hs
  obtain ⟨s1, h1, rfl⟩ := Option.map_eq_some_iff.1 hs
  obtain ⟨g, g1, g2⟩ := h.freshIdf h1
  have := g.setExts (S.exts.set e ⟨x.seg, some S.sheets.length, x.stopWord⟩)
  rw [h.sheets.length_eq, ← h.exts] at this ⊢
  exact this

theorem tally_add (ch : Choice) {y : Sheet F} {x : IdfVar F} (h : Tally y x) (f m : F)
    (hm : (ch.sort float64Less (x.freqs ++ [f]))[(ch.sort float64Less (x.freqs ++ [f])).length / 2]? = some m) :
    Tally ⟨y.seg, y.added ++ [f]⟩ { x with median := m, freqs := ch.sort float64Less (x.freqs ++ [f]) } := by
  have hp : (ch.sort float64Less (x.freqs ++ [f])).Perm (y.added ++ [f]) := (ch.sort_perm _ _).trans (h.perm.append_right _)
  refine ⟨h.seg, hp, by simp, fun _ => hp.subset (List.mem_of_getElem? hm), fun _ _ hn => ?_⟩
  refine isMiddle_perm hp (sorted_middle (fun z hz => hn z (hp.subset hz)) (sort_floats ch fun z hz => hn z ?_) hm)
  exact (h.perm.append_right _).subset hz

theorem forall₂_set' {α β : Type} {R : α → β → Prop} {l : List α} {m : List β} (h : List.Forall₂ R l m) (k : Nat) {a : α} {b : β} (hb : R a b) :
    List.Forall₂ R (l.set k a) (m.set k b) := by
  induction h generalizing k with
  | nil => simp
  | cons h0 hs ih =>
    cases k with
    | zero => exact .cons hb hs
    | succ k => exact .cons h0 (ih k)

theorem follows_step {ch : Choice} {s s' : Shop F D} {S : Script F} (h : Follows E builtin s S) {op : TagOp F} (hs : op.step E ch s = some s') :
    Follows E builtin s' (S.step E.stop.join op) := by
  cases op with
  | seg op => exact (h.segs hs).1
  | stop op => exact (h.stopCall hs).1
  | newExt =>
    simp only [TagOp.step, Option.map_eq_some_iff] at hs
    obtain ⟨s1, h1, rfl⟩ := hs
    obtain ⟨g, g1, g2, g3⟩ := h.segs h1
    have := g.setExts (S.exts ++ [{ seg := S.vars }])
    rw [← h.exts] at this
    simp only [Script.step, ← h.exts, ← h.vars] at this ⊢
    exact this
  | newIdf => exact (h.freshIdf hs).1
  | copyExt e e' =>
    simp only [TagOp.step, Option.bind_eq_some_iff, Option.map_eq_some_iff] at hs
    obtain ⟨x, hx, y, hy, s1, h1, rfl⟩ := hs
    obtain ⟨g, g1, g2, g3⟩ := h.segs h1
    have := g.setExts (S.exts.set e ⟨x.seg, y.idf, y.stopWord⟩)
    rw [h.exts] at hx hy ⊢
    simp only [Script.step, hx, hy]
    exact this
  | withGse e i =>
    simp only [TagOp.step, Option.bind_eq_some_iff] at hs
    obtain ⟨x, hx, s1, h1, h2⟩ := hs
    rw [h.exts] at hx
    simp only [Script.step, hx]
    exact ((h.freshStop h1).1.segs h2).1
  | loadDict e fs files =>
    simp only [TagOp.step, Option.bind_eq_some_iff] at hs
    obtain ⟨x, hx, s1, h1, h2⟩ := hs
    rw [h.exts] at hx
    simp only [Script.step, hx]
    exact ((h.freshStop h1).1.segs h2).1
  | loadStop e fs files =>
    simp only [TagOp.step, Option.bind_eq_some_iff] at hs
    obtain ⟨x, hx, s1, h1, h2⟩ := hs
    rw [h.exts] at hx
    simp only [Script.step, hx]
    have := ((h.freshStop h1).1.stopCall h2).1
    rw [h.words] at this
    simpa using this
  | loadIdf e fs files =>
    simp only [TagOp.step, Option.bind_eq_some_iff] at hs
    obtain ⟨x, hx, s1, h1, h2⟩ := hs
    rw [h.exts] at hx
    simp only [Script.step, hx]
    have := ((h.extIdf h1).segs h2).1
    rw [h.vars] at this
    simpa [idfFiles] using this
  | loadIdfStr e text =>
    simp only [TagOp.step, Option.bind_eq_some_iff] at hs
    obtain ⟨x, hx, s1, h1, h2⟩ := hs
    rw [h.exts] at hx
    simp only [Script.step, hx]
    have := ((h.extIdf h1).segs h2).1
    rw [h.vars] at this
    simpa [idfFiles] using this
  | setIdf e j =>
    simp only [TagOp.step, Option.bind_eq_some_iff] at hs
    obtain ⟨x, hx, h2⟩ := hs
    rw [h.exts] at hx
    simp only [Script.step, hx]
    split at h2
    · cases h2
      have := h.setExts (S.exts.set e ⟨x.seg, j, x.stopWord⟩)
      rw [h.exts]
      exact this
    · cases h2
  | idfAdd j text freq pos =>
    simp only [TagOp.step, Option.bind_eq_some_iff, Option.map_eq_some_iff] at hs
    obtain ⟨x, hx, s1, h1, m, hm, rfl⟩ := hs
    obtain ⟨g, g1, g2, g3⟩ := h.segs h1
    obtain ⟨hj, e⟩ := List.getElem?_eq_some_iff.1 hx
    have hj' : j < S.sheets.length := by rw [h.sheets.length_eq]; exact hj
    have ht : Tally S.sheets[j] s.idfs[j] := List.forall₂_iff_get.1 h.sheets |>.2 j hj' hj
    rw [e] at ht
    simp only [Script.step, List.getElem?_eq_getElem hj']
    exact ⟨by rw [← ht.seg]; exact g.world, g.stops, g.exts, forall₂_set' h.sheets j (tally_add ch ht freq m hm)⟩
  | idfLoad j fs files =>
    simp only [TagOp.step, Option.bind_eq_some_iff] at hs
    obtain ⟨x, hx, h1⟩ := hs
    obtain ⟨hj, e⟩ := List.getElem?_eq_some_iff.1 hx
    have hj' : j < S.sheets.length := by rw [h.sheets.length_eq]; exact hj
    have ht : Tally S.sheets[j] s.idfs[j] := List.forall₂_iff_get.1 h.sheets |>.2 j hj' hj
    rw [e] at ht
    simp only [Script.step, List.getElem?_eq_getElem hj']
    rw [← ht.seg]
    exact (h.segs h1).1

/-- All references lead to something. -/
structure Wired (S : Script F) : Prop where
  exts : ∀ x ∈ S.exts, x.seg < S.vars ∧ (∀ j, x.idf = some j → j < S.sheets.length) ∧ ∀ n, x.stopWord = some n → n < S.words
  sheets : ∀ y ∈ S.sheets, y.seg < S.vars

theorem Wired.grow {S S' : Script F} (h : Wired S) (hv : S.vars ≤ S'.vars) (hw : S.words ≤ S'.words) (hl : S.sheets.length ≤ S'.sheets.length)
    (he : ∀ x ∈ S'.exts, x ∈ S.exts ∨ (x.seg < S'.vars ∧ (∀ j, x.idf = some j → j < S'.sheets.length) ∧ ∀ n, x.stopWord = some n → n < S'.words))
    (hs : ∀ y ∈ S'.sheets, (∃ z ∈ S.sheets, y.seg = z.seg) ∨ y.seg < S'.vars) : Wired S' := by
  refine ⟨fun x hx => ?_, fun y hy => ?_⟩
  · rcases he x hx with hx | hx
    · obtain ⟨h1, h2, h3⟩ := h.exts x hx
      exact ⟨by omega, fun j hj => by have := h2 j hj; omega, fun n hn => by have := h3 n hn; omega⟩
    · exact hx
  · rcases hs y hy with ⟨z, hz, e⟩ | hy
    · have := h.sheets z hz; omega
    · exact hy

theorem wired_step {join : Bytes → Bytes} {S : Script F} (h : Wired S) (op : TagOp F) (hj : ∀ e j, op = .setIdf e (some j) → j < S.sheets.length) :
    Wired (S.step join op) := by
  have old : ∀ y ∈ S.sheets, (∃ z ∈ S.sheets, y.seg = z.seg) := fun y hy => ⟨y, hy, rfl⟩
  have at' : ∀ {e : Nat} {x : TagExt}, S.exts[e]? = some x → x ∈ S.exts := fun h => List.mem_of_getElem? h
  cases op with
  | seg op =>
    refine h.grow (S' := S.step join (.seg op)) (by simp [Script.step, Script.vars]) (Nat.le_refl _) (Nat.le_refl _) (fun x hx => .inl hx) fun y hy => .inl (old y hy)
  | stop op =>
    refine h.grow (S' := S.step join (.stop op)) (Nat.le_refl _) (by simp [Script.step, Script.words]) (Nat.le_refl _) (fun x hx => .inl hx) fun y hy => .inl (old y hy)
  | newExt =>
    refine h.grow (S' := S.step join .newExt) (by simp [Script.step, Script.vars]) (Nat.le_refl _) (Nat.le_refl _) (fun x hx => ?_) fun y hy => .inl (old y hy)
    rcases List.mem_append.1 hx with hx | hx
    · exact .inl hx
    · rw [List.mem_singleton] at hx; subst hx
      exact .inr ⟨by simp [Script.step, Script.vars], by simp, by simp⟩
  | newIdf =>
    refine h.grow (S' := S.step join .newIdf) (by simp [Script.step, Script.vars]) (Nat.le_refl _) (by simp [Script.step]) (fun x hx => .inl hx) fun y hy => ?_
    rcases List.mem_append.1 hy with hy | hy
    · exact .inl (old y hy)
    · rw [List.mem_singleton] at hy; subst hy
      exact .inr (by simp [Script.step, Script.vars])
  | copyExt e e' =>
    cases hx : S.exts[e]? with
    | none => simpa only [Script.step, hx] using h
    | some x =>
      cases hy : S.exts[e']? with
      | none => simpa only [Script.step, hx, hy] using h
      | some y =>
        simp only [Script.step, hx, hy]
        refine h.grow (by simp [Script.vars]) (Nat.le_refl _) (Nat.le_refl _) (fun z hz => ?_) fun y hy => .inl (old y hy)
        rcases List.mem_or_eq_of_mem_set hz with hz | rfl
        · exact .inl hz
        · have h1 := h.exts x (at' hx)
          have h2 := h.exts y (at' hy)
          refine .inr ⟨?_, h2.2⟩
          have h3 := h1.1
          simp only [Script.vars, List.countP_append] at h3 ⊢
          omega
  | withGse e i =>
    cases hx : S.exts[e]? with
    | none => simpa only [Script.step, hx] using h
    | some x =>
      simp only [Script.step, hx]
      refine h.grow (by simp [Script.vars]) (by simp [Script.words]) (Nat.le_refl _) (fun z hz => ?_) fun y hy => .inl (old y hy)
      rcases List.mem_or_eq_of_mem_set hz with hz | rfl
      · exact .inl hz
      · have h1 := h.exts x (at' hx)
        refine .inr ⟨?_, h1.2.1, by simp [Script.words, List.countP_append]⟩
        have h3 := h1.1
        simp only [Script.vars, List.countP_append] at h3 ⊢
        omega
  | loadDict e fs files =>
    cases hx : S.exts[e]? with
    | none => simpa only [Script.step, hx] using h
    | some x =>
      simp only [Script.step, hx]
      refine h.grow (by simp [Script.vars]) (by simp [Script.words]) (Nat.le_refl _) (fun z hz => ?_) fun y hy => .inl (old y hy)
      rcases List.mem_or_eq_of_mem_set hz with hz | rfl
      · exact .inl hz
      · have h1 := h.exts x (at' hx)
        refine .inr ⟨?_, h1.2.1, by simp [Script.words, List.countP_append]⟩
        have h3 := h1.1
        simp only [Script.vars, List.countP_append] at h3 ⊢
        omega
  | loadStop e fs files =>
    cases hx : S.exts[e]? with
    | none => simpa only [Script.step, hx] using h
    | some x =>
      simp only [Script.step, hx]
      refine h.grow (Nat.le_refl _) (by simp [Script.words]) (Nat.le_refl _) (fun z hz => ?_) fun y hy => .inl (old y hy)
      rcases List.mem_or_eq_of_mem_set hz with hz | rfl
      · exact .inl hz
      · have h1 := h.exts x (at' hx)
        exact .inr ⟨h1.1, h1.2.1, by simp [Script.words, List.countP_append]⟩
  | loadIdf e fs files =>
    cases hx : S.exts[e]? with
    | none => simpa only [Script.step, hx] using h
    | some x =>
      simp only [Script.step, hx]
      refine h.grow (by simp [Script.vars]) (Nat.le_refl _) (by simp) (fun z hz => ?_) fun y hy => ?_
      · rcases List.mem_or_eq_of_mem_set hz with hz | rfl
        · exact .inl hz
        · have h1 := h.exts x (at' hx)
          refine .inr ⟨?_, by simp, h1.2.2⟩
          have h3 := h1.1
          simp only [Script.vars, List.countP_append] at h3 ⊢
          omega
      · rcases List.mem_append.1 hy with hy | hy
        · exact .inl (old y hy)
        · rw [List.mem_singleton] at hy; subst hy
          exact .inr (by simp [Script.vars, List.countP_append])
  | loadIdfStr e text =>
    cases hx : S.exts[e]? with
    | none => simpa only [Script.step, hx] using h
    | some x =>
      simp only [Script.step, hx]
      refine h.grow (by simp [Script.vars]) (Nat.le_refl _) (by simp) (fun z hz => ?_) fun y hy => ?_
      · rcases List.mem_or_eq_of_mem_set hz with hz | rfl
        · exact .inl hz
        · have h1 := h.exts x (at' hx)
          refine .inr ⟨?_, by simp, h1.2.2⟩
          have h3 := h1.1
          simp only [Script.vars, List.countP_append] at h3 ⊢
          omega
      · rcases List.mem_append.1 hy with hy | hy
        · exact .inl (old y hy)
        · rw [List.mem_singleton] at hy; subst hy
          exact .inr (by simp [Script.vars, List.countP_append])
  | setIdf e j =>
    cases hx : S.exts[e]? with
    | none => simpa only [Script.step, hx] using h
    | some x =>
      simp only [Script.step, hx]
      refine h.grow (Nat.le_refl _) (Nat.le_refl _) (Nat.le_refl _) (fun z hz => ?_) fun y hy => .inl (old y hy)
      rcases List.mem_or_eq_of_mem_set hz with hz | rfl
      · exact .inl hz
      · have h1 := h.exts x (at' hx)
        exact .inr ⟨h1.1, fun n hn => hj e n (by simp only at hn; rw [hn]), h1.2.2⟩
  | idfAdd j text freq pos =>
    cases hx : S.sheets[j]? with
    | none => simpa only [Script.step, hx] using h
    | some x =>
      simp only [Script.step, hx]
      refine h.grow (by simp [Script.vars]) (Nat.le_refl _) (by simp) (fun z hz => .inl hz) fun y hy => ?_
      rcases List.mem_or_eq_of_mem_set hy with hy | rfl
      · exact .inl (old y hy)
      · exact .inl ⟨x, List.mem_of_getElem? hx, rfl⟩
  | idfLoad j fs files =>
    cases hx : S.sheets[j]? with
    | none => simpa only [Script.step, hx] using h
    | some x =>
      simp only [Script.step, hx]
      exact h.grow (by simp [Script.vars]) (Nat.le_refl _) (Nat.le_refl _) (fun z hz => .inl hz) fun y hy => .inl (old y hy)

theorem follows_run {ch : Nat → Choice} : ∀ {ops : List (TagOp F)} {n : Nat} {s s' : Shop F D} {S : Script F}, Follows E builtin s S → Wired S →
    s.run E ch n ops = some s' → Follows E builtin s' (ops.foldl (Script.step E.stop.join) S) ∧ Wired (ops.foldl (Script.step E.stop.join) S)
  | [], _, s, s', S, h, hw, hr => by obtain rfl := Option.some.inj hr; exact ⟨h, hw⟩
  | op :: ops, n, s, s', S, h, hw, hr => by
    simp only [Shop.run, Option.bind_eq_some_iff] at hr
    obtain ⟨s1, h1, h2⟩ := hr
    refine follows_run (ops := ops) (follows_step h h1) (wired_step hw op ?_) h2
    rintro e j rfl
    simp only [TagOp.step, Option.bind_eq_some_iff] at h1
    obtain ⟨x, hx, h1⟩ := h1
    split at h1
    · next hc => rw [h.sheets.length_eq]; simpa using hc
    · cases h1

theorem follows_start {ch : Nat → Choice} {ops : List (TagOp F)} {s : Shop F D} (hr : ({ stops := ⟨builtin, []⟩ } : Shop F D).run E ch 0 ops = some s) :
    Follows E builtin s (script E.stop.join ops) ∧ Wired (script E.stop.join ops) :=
  follows_run ⟨rfl, rfl, rfl, .nil⟩ ⟨fun x hx => (by cases hx), fun y hy => (by cases hy)⟩ hr

end script
end Gse
