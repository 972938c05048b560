import Verif.Spec.Table
import Verif.Proofs.Output

/-!
# The table with its addresses: invariants, and reading through old pointers
-/

namespace Gse

set_option linter.unusedSectionVars false
open Spec

variable {F D : Type} [F64 F] [F32 D] [Narrow F D]

@[simp] theorem place_index_ref (a : Nat) (r : TokRef) : (r.place a).index = r := by cases r <;> rfl

@[simp] theorem place_index_seg (a : Nat) (s : Seg) : (s.place a).index = s := by
  cases s; simp [Seg.place, PSeg.index]

@[simp] theorem place_index_segs (a : Nat) (l : List Seg) : (l.map (Seg.place a)).map PSeg.index = l := by
  simp [List.map_map, Function.comp_def]

@[simp] theorem place_index_tok (a : Nat) (t : Token F D) : (t.place a).index = t := by
  simp only [Token.place, PTok.index, place_index_segs]

@[simp] theorem place_index_toks (a : Nat) (l : List (Token F D)) : (l.map (Token.place a)).map PTok.index = l := by
  simp [List.map_map, Function.comp_def]

namespace Table

/-- A pointer met in a token of array `a`, whose tokens are `l`: it goes into this array, or into an older one that still is a
beginning of it. -/
def RefOK (tb : Table F D) (a : Nat) (l : List (PTok F D)) : PRef → Prop
  | .entry b j => b ≤ a ∧ ∃ lb, tb.arrays[b]? = some lb ∧ j < lb.length ∧ lb.map PTok.index <+: l.map PTok.index
  | .pseudo _ => True

/-- What holds of a table through all calls. -/
structure Inv (tb : Table F D) : Prop where
  cur : tb.arrays.length = tb.cur + 1
  refs : ∀ (a : Nat) (l : List (PTok F D)), tb.arrays[a]? = some l → ∀ t ∈ l, ∀ s ∈ t.segments, RefOK tb a l s.tok

theorem Inv.new : Inv (Table.new : Table F D) := by
  refine ⟨rfl, fun a l h t ht => ?_⟩
  cases a with
  | zero => simp [Table.new] at h; subst h; cases ht
  | succ a => simp [Table.new] at h

theorem Inv.tokens {tb : Table F D} (h : Inv tb) : tb.arrays[tb.cur]? = some tb.tokens := by
  have hl : tb.cur < tb.arrays.length := by have := h.cur; omega
  simp [Table.tokens, List.getElem?_eq_getElem hl]

/-- What is never written again in a token. -/
def key (t : PTok F D) : List Bytes × F × Bytes := (t.text, t.freq, t.pos)

/-- What every history keeps. -/
structure Later (tb tb' : Table F D) : Prop where
  cur : tb.cur ≤ tb'.cur
  old : ∀ (a : Nat) (l : List (PTok F D)), a < tb.cur → tb.arrays[a]? = some l → tb'.arrays[a]? = some l
  keys : ∃ l', tb'.arrays[tb.cur]? = some l' ∧ tb.tokens.map key <+: l'.map key

/-! ## One call -/

theorem tokens_append {tb : Table F D} (h : Inv tb) (full : Bool) (t : PTok F D) : (tb.append full t).tokens = tb.tokens ++ [t] := by
  have hl : tb.cur < tb.arrays.length := by have := h.cur; omega
  cases full <;> simp [Table.append, Table.tokens, hl]

theorem seen_addToken {tb : Table F D} (h : Inv tb) (full : Bool) (t : PTok F D) :
    (tb.addToken full t).1.seen = (tb.seen.addToken t.index).1 := by
  unfold Table.addToken Dictionary.addToken Dictionary.numTokens
  simp only [Table.seen, PTok.index, List.length_map]
  cases tb.trie.get (textSliceToBytes t.text) with
  | some v => rfl
  | none =>
    cases tb.trie.insert (textSliceToBytes t.text) tb.tokens.length with
    | none => rfl
    | some trie =>
      have e := tokens_append h full t
      simp only [Table.tokens] at e
      have e2 : (tb.append full t).arrays[(tb.append full t).cur]?.getD [] = tb.arrays[tb.cur]?.getD [] ++ [t] := e
      simp [Table.tokens, e2, PTok.index]

theorem append_cur (tb : Table F D) (full : Bool) (t : PTok F D) : (tb.append full t).cur = if full then tb.arrays.length else tb.cur := by
  cases full <;> rfl

theorem RefOK.mono {tb tb' : Table F D} {a a' : Nat} {l l' : List (PTok F D)} (ha : a ≤ a') (_hl : l.map PTok.index <+: l'.map PTok.index)
    (hold : ∀ (b : Nat) lb, b ≤ a → tb.arrays[b]? = some lb → lb.map PTok.index <+: l.map PTok.index →
      ∃ lb', tb'.arrays[b]? = some lb' ∧ lb.length ≤ lb'.length ∧ lb'.map PTok.index <+: l'.map PTok.index) {r : PRef} (h : RefOK tb a l r) :
    RefOK tb' a' l' r := by
  cases r with
  | pseudo w => trivial
  | entry b j =>
    obtain ⟨h1, lb, h2, h3, h4⟩ := h
    obtain ⟨lb', g1, g2, g3⟩ := hold b lb h1 h2 h4
    exact ⟨by omega, lb', g1, by omega, g3⟩

theorem Inv.append {tb : Table F D} (h : Inv tb) (full : Bool) (t : PTok F D) (ht : t.segments = []) : Inv (tb.append full t) := by
  have hl : tb.cur < tb.arrays.length := by have := h.cur; omega
  have hc := h.tokens
  cases full with
  | true =>
    have e1 : (tb.append true t).arrays = tb.arrays ++ [tb.tokens ++ [t]] := rfl
    refine ⟨by rw [e1]; simp [append_cur], fun a l ha x hx s hs => ?_⟩
    rw [e1] at ha
    by_cases hlt : a < tb.arrays.length
    · rw [List.getElem?_append_left hlt] at ha
      refine (h.refs a l ha x hx s hs).mono (Nat.le_refl _) List.prefix_rfl fun b lb hb hb1 hb2 => ⟨lb, ?_, (Nat.le_refl _), hb2⟩
      rw [e1, List.getElem?_append_left (by omega)]; exact hb1
    · obtain rfl : a = tb.arrays.length := by
        have := (List.getElem?_eq_some_iff.mp ha).1
        simp at this; omega
      simp only [List.getElem?_concat_length, Option.some.injEq] at ha
      subst ha
      rcases List.mem_append.mp hx with hx | hx
      · refine (h.refs _ _ hc x hx s hs).mono (by omega) (by simp) fun b lb hb hb1 hb2 => ⟨lb, ?_, (Nat.le_refl _), hb2.trans (by simp)⟩
        rw [e1, List.getElem?_append_left (by omega)]; exact hb1
      · simp at hx; subst hx; rw [ht] at hs; cases hs
  | false =>
    have e1 : (tb.append false t).arrays = tb.arrays.set tb.cur (tb.tokens ++ [t]) := rfl
    refine ⟨by rw [e1]; simp [append_cur, h.cur], fun a l ha x hx s hs => ?_⟩
    rw [e1] at ha
    by_cases hlt : a = tb.cur
    · subst hlt
      rw [List.getElem?_set_self hl] at ha
      cases ha
      rcases List.mem_append.mp hx with hx | hx
      · refine (h.refs _ _ hc x hx s hs).mono (Nat.le_refl _) (by simp) fun b lb hb hb1 hb2 => ?_
        by_cases hbc : b = tb.cur
        · subst hbc
          rw [hc] at hb1; cases hb1
          exact ⟨_, by rw [e1, List.getElem?_set_self hl], by simp, List.prefix_rfl⟩
        · exact ⟨lb, by rw [e1, List.getElem?_set_ne (fun e => hbc e.symm)]; exact hb1, (Nat.le_refl _), hb2.trans (by simp)⟩
      · simp at hx; subst hx; rw [ht] at hs; cases hs
    · rw [List.getElem?_set_ne (fun e => hlt e.symm)] at ha
      have halt : a < tb.cur := by
        have := (List.getElem?_eq_some_iff.mp ha).1
        have := h.cur
        omega
      refine (h.refs a l ha x hx s hs).mono (Nat.le_refl _) List.prefix_rfl fun b lb hb hb1 hb2 => ⟨lb, ?_, (Nat.le_refl _), hb2⟩
      rw [e1, List.getElem?_set_ne (by omega)]; exact hb1

/-- The invariants speak of the arrays only. -/
theorem Inv.congr {tb tb' : Table F D} (h : Inv tb) (ha : tb'.arrays = tb.arrays) (hc : tb'.cur = tb.cur) : Inv tb' := by
  refine ⟨by rw [ha, hc]; exact h.cur, fun a l hl t ht s hs => ?_⟩
  rw [ha] at hl
  have := h.refs a l hl t ht s hs
  cases e : s.tok with
  | pseudo w => trivial
  | entry b j => rw [e] at this; obtain ⟨h1, lb, h2, h3⟩ := this; exact ⟨h1, lb, by rw [ha]; exact h2, h3⟩

theorem tokens_congr {tb tb' : Table F D} (ha : tb'.arrays = tb.arrays) (hc : tb'.cur = tb.cur) : tb'.tokens = tb.tokens := by
  simp [Table.tokens, ha, hc]

theorem Later.congr {tb tb' tb'' : Table F D} (h : Later tb tb') (ha : tb''.arrays = tb'.arrays) (hc : tb''.cur = tb'.cur) : Later tb tb'' := by
  refine ⟨by rw [hc]; exact h.cur, fun a l h1 h2 => by rw [ha]; exact h.old a l h1 h2, ?_⟩
  obtain ⟨l', h1, h2⟩ := h.keys
  exact ⟨l', by rw [ha]; exact h1, h2⟩

theorem Later.refl {tb : Table F D} (h : Inv tb) : Later tb tb := ⟨Nat.le_refl _, fun _ _ _ h => h, ⟨_, h.tokens, List.prefix_rfl⟩⟩

theorem Later.trans {tb tb1 tb2 : Table F D} (i1 : Inv tb1) (h1 : Later tb tb1) (h2 : Later tb1 tb2) : Later tb tb2 := by
  refine ⟨Nat.le_trans h1.cur h2.cur, fun a l ha hl => h2.old a l (by have := h1.cur; omega) (h1.old a l ha hl), ?_⟩
  obtain ⟨l1, k1, k2⟩ := h1.keys
  by_cases e : tb1.cur = tb.cur
  · obtain ⟨l2, k3, k4⟩ := h2.keys
    have : l1 = tb1.tokens := by rw [← e, i1.tokens] at k1; exact (Option.some.inj k1).symm
    subst this
    exact ⟨l2, by rw [← e]; exact k3, k2.trans k4⟩
  · exact ⟨l1, h2.old _ _ (by have := h1.cur; omega) k1, k2⟩

/-- One call: if it leaves the array, the array stays as it was. -/
structure Once (tb tb' : Table F D) : Prop extends Later tb tb' where
  inv : Inv tb'
  left : tb'.cur ≠ tb.cur → tb'.arrays[tb.cur]? = some tb.tokens

theorem Once.congr {tb tb' tb'' : Table F D} (h : Once tb tb') (ha : tb''.arrays = tb'.arrays) (hc : tb''.cur = tb'.cur) : Once tb tb'' :=
  ⟨h.toLater.congr ha hc, h.inv.congr ha hc, fun hne => by rw [ha]; exact h.left (by rw [← hc]; exact hne)⟩

theorem Once.refl {tb : Table F D} (h : Inv tb) : Once tb tb := ⟨.refl h, h, fun hne => absurd rfl hne⟩

theorem Once.append {tb : Table F D} (h : Inv tb) (full : Bool) {t : PTok F D} (ht : t.segments = []) : Once tb (tb.append full t) := by
  have hl : tb.cur < tb.arrays.length := by have := h.cur; omega
  have hc := h.tokens
  refine ⟨?_, h.append full t ht, fun hne => ?_⟩
  · cases full with
    | true =>
      have e1 : (tb.append true t).arrays = tb.arrays ++ [tb.tokens ++ [t]] := rfl
      refine ⟨by simp [append_cur]; omega, fun a l ha hx => ?_, _, ?_, List.prefix_rfl⟩
      · rw [e1, List.getElem?_append_left (by omega)]; exact hx
      · rw [e1, List.getElem?_append_left hl]; exact hc
    | false =>
      have e1 : (tb.append false t).arrays = tb.arrays.set tb.cur (tb.tokens ++ [t]) := rfl
      refine ⟨by simp [append_cur], fun a l ha hx => ?_, tb.tokens ++ [t], ?_, by simp⟩
      · rw [e1, List.getElem?_set_ne (by omega)]; exact hx
      · rw [e1, List.getElem?_set_self hl]
  · cases full with
    | true =>
      have e1 : (tb.append true t).arrays = tb.arrays ++ [tb.tokens ++ [t]] := rfl
      rw [e1, List.getElem?_append_left hl]; exact hc
    | false => exact absurd rfl hne

theorem Once.addToken {tb : Table F D} (h : Inv tb) (full : Bool) {t : PTok F D} (ht : t.segments = []) : Once tb (tb.addToken full t).1 := by
  unfold Table.addToken
  cases tb.trie.get (textSliceToBytes t.text) with
  | some v => exact .refl h
  | none =>
    cases tb.trie.insert (textSliceToBytes t.text) tb.tokens.length with
    | none => exact .refl h
    | some trie => exact (Once.append h full ht).congr rfl rfl

theorem removeToken_arrays {tb tb' : Table F D} {text : List Bytes} {b : Bool} (h : tb.removeToken text = some (tb', b)) :
    tb'.arrays = tb.arrays ∧ tb'.cur = tb.cur := by
  unfold Table.removeToken at h
  split at h <;> simp at h <;> (obtain ⟨rfl, _⟩ := h; exact ⟨rfl, rfl⟩)

theorem seen_removeToken (tb : Table F D) (t : Token F D) :
    (tb.removeToken t.text).map (fun r => (r.1.seen, r.2)) = tb.seen.removeToken t := by
  unfold Table.removeToken Dictionary.removeToken
  simp only [Table.seen]
  cases tb.trie.delete (textSliceToBytes t.text) <;> simp [Table.tokens]

/-- The sub-segments `CalcToken` finds point into the table. -/
theorem calcToken_refs [Unicode] {d d' : Dictionary F D} (h : Gse.calcToken d = some d') {t : Token F D} (ht : t ∈ d'.tokens) {s : Seg}
    (hs : s ∈ t.segments) {i : Nat} (hi : s.tok = .idx i) : i < d'.tokens.length := by
  rw [(calcToken_same h).length]
  simp only [Gse.calcToken, Option.bind_eq_bind, Option.bind_eq_some_iff, Option.some.injEq] at h
  obtain ⟨toks, h1, rfl⟩ := h
  obtain ⟨k, hk⟩ := List.mem_iff_getElem?.mp ht
  rcases mapOpt_get h1 k with ⟨_, h2⟩ | ⟨a, b, _, h2, h3⟩
  · rw [show toks[k]? = some t from hk] at h2; cases h2
  · rw [show toks[k]? = some t from hk] at h2; cases h2
    obtain ⟨segs, _, h3⟩ := Option.bind_eq_some_iff.mp h3
    obtain ⟨kept, h4, h5⟩ := Option.bind_eq_some_iff.mp h3
    cases h5
    have := (filterOpt_sub h4).2 s hs
    simp only [keepSub, hi, Dictionary.deref, Option.bind_eq_bind, Option.bind_eq_some_iff] at this
    obtain ⟨x, hx, _⟩ := this
    have := (List.getElem?_eq_some_iff.mp hx).1
    simpa [withDistances] using this

theorem key_index (l : List (PTok F D)) : l.map key = (l.map PTok.index).map Token.core := by
  simp [List.map_map, Function.comp_def, key, Token.core, PTok.index]

theorem seen_calcToken [Unicode] {tb : Table F D} (h : Inv tb) : tb.calcToken.map seen = Gse.calcToken tb.seen := by
  have hl : tb.cur < tb.arrays.length := by have := h.cur; omega
  unfold Table.calcToken
  cases e : Gse.calcToken tb.seen with
  | none => rfl
  | some d =>
    have := calcToken_same e
    simp only [Option.map_some, Option.some.injEq, Table.seen, Table.tokens, List.getElem?_set_self hl, Option.getD_some, place_index_toks]
    cases d
    simp only [Dictionary.mk.injEq]
    exact ⟨this.trie.symm, this.maxLen.symm, trivial, this.total.symm⟩

theorem Once.calcToken [Unicode] {tb tb' : Table F D} (h : Inv tb) (hc : tb.calcToken = some tb') : Once tb tb' := by
  have hl : tb.cur < tb.arrays.length := by have := h.cur; omega
  unfold Table.calcToken at hc
  obtain ⟨d, e, rfl⟩ := Option.map_eq_some_iff.mp hc
  have hs := calcToken_same e
  refine ⟨⟨Nat.le_refl _, fun a l ha hx => ?_, _, List.getElem?_set_self hl, ?_⟩, ⟨by simp [h.cur], fun a l ha t ht s hs' => ?_⟩, fun hne => absurd rfl hne⟩
  · dsimp only
    rw [List.getElem?_set_ne (by omega)]; exact hx
  · have h1 : d.tokens.map Token.core = tb.tokens.map key := by rw [key_index]; exact hs.tokens
    rw [key_index (d.tokens.map _), place_index_toks, h1]
    exact List.prefix_rfl
  · dsimp only at ha
    by_cases hlt : a = tb.cur
    · subst hlt
      rw [List.getElem?_set_self hl] at ha
      cases ha
      obtain ⟨t0, ht0, rfl⟩ := List.mem_map.mp ht
      obtain ⟨s0, hs0, rfl⟩ := List.mem_map.mp hs'
      cases e2 : s0.tok with
      | pseudo w => simp [Seg.place, e2, TokRef.place, RefOK]
      | idx i =>
        simp only [Seg.place, e2, TokRef.place]
        exact ⟨Nat.le_refl _, _, List.getElem?_set_self hl, by simpa using calcToken_refs e ht0 hs0 e2, List.prefix_rfl⟩
    · rw [List.getElem?_set_ne (fun e => hlt e.symm)] at ha
      have halt : a < tb.cur := by
        have := (List.getElem?_eq_some_iff.mp ha).1
        have := h.cur
        omega
      refine (h.refs a l ha t ht s hs').mono (Nat.le_refl _) List.prefix_rfl fun b lb hb hb1 hb2 => ⟨lb, ?_, (Nat.le_refl _), hb2⟩
      dsimp only
      rw [List.getElem?_set_ne (by omega)]; exact hb1

theorem toToken_index [Unicode] (cfg : SplitCfg) (t : Bytes) (f : F) (p : Bytes) :
    (Table.toToken cfg t f p : PTok F D).index = Gse.toToken cfg t f p := rfl

theorem seen_step [Unicode] {cfg : SplitCfg} {tb : Table F D} (h : Inv tb) (full : Bool) (op : DictOp F) :
    (tb.step cfg full op).map seen = op.step cfg tb.seen := by
  cases op with
  | add t f p => simp [Table.step, DictOp.step, segAddToken, seen_addToken h, toToken_index]
  | addForce t f p =>
    simp only [Table.step, DictOp.step, segAddTokenForce, segAddToken, Option.map_map]
    rw [seen_calcToken (Once.addToken h full rfl).inv, seen_addToken h, toToken_index]
    simp [Function.comp_def]
  | remove t =>
    simp only [Table.step, DictOp.step, segRemoveToken, ← seen_removeToken, Option.map_map]
    rfl
  | reAdd t f p =>
    simp only [Table.step, DictOp.step, segReAddToken, ← seen_removeToken]
    have e : (Gse.toToken cfg t f p : Token F D).text = splitTextToWords cfg t := rfl
    rw [e]
    cases hr : tb.removeToken (splitTextToWords cfg t) with
    | none => rfl
    | some x =>
      obtain ⟨tb', b⟩ := x
      cases b with
      | true => rfl
      | false =>
        obtain ⟨h1, h2⟩ := removeToken_arrays hr
        simp [seen_addToken (h.congr h1 h2), toToken_index]
  | recalc => exact seen_calcToken h

theorem Once.step [Unicode] {cfg : SplitCfg} {tb tb' : Table F D} (h : Inv tb) {full : Bool} {op : DictOp F} (hs : tb.step cfg full op = some tb') : Once tb tb' := by
  cases op with
  | add t f p => cases hs; exact Once.addToken h full rfl
  | addForce t f p =>
    have h1 := Once.addToken (t := Table.toToken cfg t f p) h full rfl
    have h2 := Once.calcToken h1.inv hs
    have hc : tb'.cur = (tb.addToken full (Table.toToken cfg t f p)).1.cur := by
      simp only [Table.step, Table.calcToken, Option.map_eq_some_iff] at hs
      obtain ⟨d, _, rfl⟩ := hs
      rfl
    refine ⟨h1.toLater.trans h1.inv h2.toLater, h2.inv, fun hne => ?_⟩
    rw [hc] at hne
    exact h2.old _ _ (by have := h1.cur; omega) (h1.left hne)
  | remove t =>
    obtain ⟨⟨tb1, b⟩, h1, rfl⟩ := Option.map_eq_some_iff.mp hs
    obtain ⟨h2, h3⟩ := removeToken_arrays h1
    exact (Once.refl h).congr h2 h3
  | reAdd t f p =>
    simp only [Table.step] at hs
    cases hr : tb.removeToken (splitTextToWords cfg t) with
    | none => rw [hr] at hs; cases hs
    | some x =>
      obtain ⟨tb1, b⟩ := x
      rw [hr] at hs
      obtain ⟨h2, h3⟩ := removeToken_arrays hr
      have h4 := (Once.refl h).congr h2 h3
      cases b with
      | true => cases hs; exact h4
      | false =>
        cases hs
        have h5 := Once.addToken (t := Table.toToken cfg t f p) h4.inv full rfl
        refine ⟨h4.toLater.trans h4.inv h5.toLater, h5.inv, fun hne => ?_⟩
        rw [← tokens_congr h2 h3, ← h3]
        exact h5.left (by rw [h3]; exact hne)
  | recalc => exact Once.calcToken h hs

/-- A history from any table. -/
theorem later_run [Unicode] {cfg : SplitCfg} : ∀ (ops : List (DictOp F × Bool)) {tb tb' : Table F D}, Inv tb → Table.run cfg ops tb = some tb' → Inv tb' ∧ Later tb tb'
  | [], tb, tb', h, hr => by cases hr; exact ⟨h, .refl h⟩
  | op :: ops, tb, tb', h, hr => by
    obtain ⟨tb1, h1, h2⟩ := Option.bind_eq_some_iff.mp hr
    have h3 := Once.step h h1
    obtain ⟨h4, h5⟩ := later_run ops h3.inv h2
    exact ⟨h4, h3.toLater.trans h3.inv h5⟩

theorem seen_run [Unicode] {cfg : SplitCfg} : ∀ (ops : List (DictOp F × Bool)) {tb : Table F D}, Inv tb →
    (Table.run cfg ops tb).map seen = runOps cfg (ops.map (·.1)) tb.seen
  | [], tb, _ => rfl
  | op :: ops, tb, h => by
    simp only [Table.run, List.map_cons, runOps, ← seen_step h op.2 op.1]
    cases hs : tb.step cfg op.2 op.1 with
    | none => rfl
    | some tb1 => exact seen_run ops (Once.step h hs).inv

/-! ## Reading through pointers -/

/-- The pointer `r` goes into a table that is a beginning of `L`. -/
def Into (tb : Table F D) (L : List (Token F D)) : PRef → Prop
  | .entry b j => ∃ lb, tb.arrays[b]? = some lb ∧ j < lb.length ∧ lb.map PTok.index <+: L
  | .pseudo _ => True

theorem into_deref {tb : Table F D} (h : Inv tb) {d : Dictionary F D} {r : PRef} (hr : Into tb d.tokens r) :
    ∃ t, tb.deref r = some t ∧ d.deref r.index = some t.index ∧ ∀ s ∈ t.segments, Into tb d.tokens s.tok := by
  cases r with
  | pseudo w => exact ⟨_, rfl, rfl, by simp⟩
  | entry b j =>
    obtain ⟨lb, h1, h2, h3⟩ := hr
    refine ⟨lb[j], by simp [Table.deref, h1, h2], ?_, fun s hs => ?_⟩
    · obtain ⟨u, hu⟩ := h3
      simp only [PRef.index, Dictionary.deref]
      rw [← hu, List.getElem?_append_left (by simpa using h2)]
      simp [h2]
    · have := h.refs b lb h1 _ (List.getElem_mem h2) s hs
      cases e : s.tok with
      | pseudo w => trivial
      | entry c k =>
        rw [e] at this
        obtain ⟨_, lc, g1, g2, g3⟩ := this
        exact ⟨lc, g1, g2, g3.trans h3⟩

/-- `tokenToString`, `tokenToSlice` and `tokenToPos` on the table with indices, in one. -/
def treeOf [Unicode] {α : Type} (item : Bytes → Bytes → List α) (d : Dictionary F D) : Nat → TokRef → Option (List α)
  | 0, _ => none
  | n + 1, r =>
    match d.deref r with
    | none => none
    | some t =>
      match Gse.subLoop d (treeOf item d n) t.segments true with
      | none => none
      | some o => (textSliceToString t.text).map fun s => o ++ item s t.pos

theorem tokenToSlice_tree [Unicode] (d : Dictionary F D) : ∀ n, tokenToSlice d n = treeOf (fun s _ => [s]) d n
  | 0 => rfl
  | n + 1 => by
    funext r
    simp only [tokenToSlice, treeOf, tokenToSlice_tree d n]
    cases d.deref r with
    | none => rfl
    | some t =>
      dsimp only
      split <;> simp_all

theorem tokenToPos_tree [Unicode] (d : Dictionary F D) : ∀ n, tokenToPos d n = treeOf (fun s p => [⟨s, p⟩]) d n
  | 0 => rfl
  | n + 1 => by
    funext r
    simp only [tokenToPos, treeOf, tokenToPos_tree d n]
    cases d.deref r with
    | none => rfl
    | some t =>
      dsimp only
      split <;> simp_all

theorem tokenToString_tree [Unicode] (d : Dictionary F D) : ∀ n, tokenToString d n = treeOf slashed d n
  | 0 => rfl
  | n + 1 => by
    funext r
    simp only [tokenToString, treeOf, tokenToString_tree d n]
    cases d.deref r with
    | none => rfl
    | some t =>
      dsimp only
      split <;> simp_all

theorem subLoop_into [Unicode] {tb : Table F D} (h : Inv tb) {d : Dictionary F D} {α : Type} {f : PRef → Option (List α)} {g : TokRef → Option (List α)}
    (hfg : ∀ r, Into tb d.tokens r → f r = g r.index) : ∀ (ss : List PSeg) (only : Bool), (∀ s ∈ ss, Into tb d.tokens s.tok) →
    tb.subLoop f ss only = Gse.subLoop d g (ss.map PSeg.index) only
  | [], _, _ => rfl
  | s :: ss, only, hs => by
    obtain ⟨t, h1, h2, _⟩ := into_deref h (hs s (by simp))
    have hn : tb.nonTerminal s = Gse.nonTerminal d s.index := by
      have h2' : d.deref s.index.tok = some t.index := h2
      simp only [Table.nonTerminal, Gse.nonTerminal, h1, h2', PTok.index, List.length_map]
      rfl
    have ih := fun b => subLoop_into h hfg ss b fun x hx => hs x (by simp [hx])
    simp only [Table.subLoop, List.map_cons, Gse.subLoop, hn, ih, hfg s.tok (hs s (by simp))]
    rfl

theorem tree_into [Unicode] {tb : Table F D} (h : Inv tb) {d : Dictionary F D} {α : Type} (item : Bytes → Bytes → List α) :
    ∀ (n : Nat) (r : PRef), Into tb d.tokens r → tb.tree item n r = treeOf item d n r.index
  | 0, _, _ => rfl
  | n + 1, r, hr => by
    obtain ⟨t, h1, h2, h3⟩ := into_deref h hr
    simp only [Table.tree, treeOf, h1, h2, PTok.index, subLoop_into h (tree_into h item n) t.segments true h3]
    split <;> simp_all

theorem concat_eq {β : Type} {f : PSeg → Option (List β)} {g : Seg → Option (List β)} : ∀ (segs : List PSeg), (∀ s ∈ segs, f s = g s.index) →
    concat f segs = concatOpt g (segs.map PSeg.index)
  | [], _ => rfl
  | s :: ss, h => by
    simp only [concat, List.map_cons, concatOpt, h s (by simp), concat_eq ss fun x hx => h x (by simp [hx])]
    cases g s.index <;> rfl

theorem reads_into [Unicode] {tb : Table F D} (h : Inv tb) {d : Dictionary F D} {segs : List PSeg} (hs : ∀ s ∈ segs, Into tb d.tokens s.tok)
    (fuel : Nat) (mode : Bool) : ReadAs tb d segs fuel mode := by
  have hd : ∀ s ∈ segs, ∀ {α : Type} (item : Bytes → Bytes → List α), ((tb.deref s.tok).bind fun t => (textSliceToString t.text).map fun x => item x t.pos) =
      (d.deref s.index.tok).bind fun t => (textSliceToString t.text).map fun x => item x t.pos := by
    intro s hs' α item
    obtain ⟨t, h1, h2, _⟩ := into_deref h (hs s hs')
    have h2' : d.deref s.index.tok = some t.index := h2
    rw [h1, h2']
    rfl
  refine ⟨?_, ?_, ?_⟩
  · cases mode with
    | true => exact concat_eq segs fun s hs' => by rw [tokenToSlice_tree]; exact tree_into h _ fuel _ (hs s hs')
    | false => exact concat_eq segs fun s hs' => hd s hs' fun x _ => [x]
  · cases mode with
    | true => exact concat_eq segs fun s hs' => by rw [tokenToPos_tree]; exact tree_into h _ fuel _ (hs s hs')
    | false => exact concat_eq segs fun s hs' => hd s hs' fun x p => [(⟨x, p⟩ : SegPos)]
  · cases mode with
    | true => exact concat_eq segs fun s hs' => by rw [tokenToString_tree]; exact tree_into h _ fuel _ (hs s hs')
    | false => exact concat_eq segs fun s hs' => hd s hs' slashed

end Table
end Gse
