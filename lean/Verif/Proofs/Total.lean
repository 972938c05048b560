import Verif.Spec.Ieee
import Verif.Proofs.History

/-!
# The total frequency is at least every stored frequency
-/

namespace Gse

open Spec

variable {F D : Type} [F64 F] [F32 D] [Narrow F D]

/-- The total is the sum over the table; a property of all frequencies passed holds of the table. -/
structure TotalInv (P : F → Prop) (d : Dictionary F D) : Prop where
  total : d.totalFreq = (d.tokens.map (·.freq)).foldl F64.add (F64.ofNat 0)
  all : ∀ t ∈ d.tokens, P t.freq

omit [F32 D] [Narrow F D] in
theorem TotalInv.same {P : F → Prop} {d d' : Dictionary F D} (h : TotalInv P d) (s : SameCore d d') : TotalInv P d' := by
  have hf : d'.tokens.map (·.freq) = d.tokens.map (·.freq) := by
    have := congrArg (List.map fun c : List Bytes × F × Bytes => c.2.1) s.tokens
    simpa [Function.comp_def, Token.core] using this
  refine ⟨by rw [s.total, hf]; exact h.total, fun t ht => ?_⟩
  have : t.freq ∈ d'.tokens.map (·.freq) := List.mem_map_of_mem ht
  rw [hf] at this
  obtain ⟨u, hu, e⟩ := List.mem_map.1 this
  rw [← e]; exact h.all u hu

omit [F32 D] [Narrow F D] in
theorem TotalInv.add {P : F → Prop} {d : Dictionary F D} (h : TotalInv P d) (t : Token F D) (ht : P t.freq) :
    TotalInv P (d.addToken t).1 := by
  unfold Dictionary.addToken
  dsimp only
  cases d.trie.get (textSliceToBytes t.text) with
  | some _ => exact h
  | none =>
    dsimp only
    cases d.trie.insert (textSliceToBytes t.text) d.numTokens with
    | none => exact h
    | some trie =>
      refine ⟨?_, ?_⟩
      · simp [h.total]
      · intro u hu
        simp only [List.mem_append, List.mem_singleton] at hu
        rcases hu with hu | rfl
        · exact h.all u hu
        · exact ht

omit [F32 D] [Narrow F D] in
theorem TotalInv.remove {P : F → Prop} {d : Dictionary F D} (h : TotalInv P d) (t : Token F D) {r : Dictionary F D × Bool}
    (hr : d.removeToken t = some r) : TotalInv P r.1 := by
  unfold Dictionary.removeToken at hr
  cases hd : d.trie.delete (textSliceToBytes t.text) with
  | noPath => rw [hd] at hr; cases hr; exact h
  | ok t' => rw [hd] at hr; cases hr; exact ⟨h.total, h.all⟩
  | unspecified => rw [hd] at hr; cases hr

theorem totalInv_step [Unicode] {P : F → Prop} {cfg : SplitCfg} {d d' : Dictionary F D} {op : DictOp F} (h : TotalInv P d)
    (hp : ∀ f, opFreq op = some f → P f) (hr : op.step cfg d = some d') : TotalInv P d' := by
  cases op with
  | add t f p => cases hr; exact h.add _ (hp f rfl)
  | addForce t f p =>
    simp only [DictOp.step, segAddTokenForce, Option.map_map, Option.map_eq_some_iff] at hr
    obtain ⟨x, h1, h2⟩ := hr
    simp only [Function.comp] at h2
    subst h2
    exact (h.add (toToken cfg t f p) (hp f rfl)).same (calcToken_same h1)
  | remove t =>
    simp only [DictOp.step, segRemoveToken, Option.map_eq_some_iff] at hr
    obtain ⟨x, h1, h2⟩ := hr
    subst h2
    exact h.remove _ h1
  | reAdd t f p =>
    simp only [DictOp.step, Option.map_eq_some_iff] at hr
    obtain ⟨x, h1, h2⟩ := hr
    subst h2
    unfold segReAddToken at h1
    cases hr1 : d.removeToken (toToken cfg t f p) with
    | none => rw [hr1] at h1; cases h1
    | some r =>
      obtain ⟨d1, b⟩ := r
      have h2 := h.remove _ hr1
      rw [hr1] at h1
      cases b with
      | true => cases h1; exact h2
      | false => cases h1; exact h2.add _ (hp f rfl)
  | recalc => exact h.same (calcToken_same hr)

theorem totalInv_run [Unicode] {P : F → Prop} {cfg : SplitCfg} : ∀ (ops : List (DictOp F)) {d d' : Dictionary F D}, TotalInv P d →
    (∀ op ∈ ops, ∀ f, opFreq op = some f → P f) → runOps cfg ops d = some d' → TotalInv P d'
  | [], _, _, h, _, hr => by cases hr; exact h
  | op :: ops, d, d', h, hp, hr => by
    simp only [runOps, Option.bind_eq_some_iff] at hr
    obtain ⟨d1, h1, h2⟩ := hr
    exact totalInv_run ops (totalInv_step h (hp op (by simp)) h1) (fun o ho => hp o (by simp [ho])) h2

omit [F32 D] [Narrow F D] in
theorem totalInv_new (P : F → Prop) : TotalInv P (Dictionary.new : Dictionary F D) := ⟨rfl, by simp [Dictionary.new]⟩

/-! ## IEEE numbers -/

section ieee

variable {M : MathFns}

theorem datum_le_trans {x y z : Datum} (hy : y ≠ .nan) (h1 : Datum.lt y x = false) (h2 : Datum.lt z y = false) : Datum.lt z x = false := by
  by_contra hc
  rcases Datum.lt_cotrans hy (by simpa using hc) with h | h
  · rw [h2] at h; cases h
  · rw [h1] at h; cases h

theorem foldl_ge : ∀ (l : List (Binary64 M)) (a : Binary64 M), a.datum.NonNeg → (∀ f ∈ l, f.datum.NonNeg) →
    (l.foldl F64.add a).datum.NonNeg ∧ Datum.lt (l.foldl F64.add a).datum a.datum = false ∧
    ∀ f ∈ l, Datum.lt (l.foldl F64.add a).datum f.datum = false
  | [], a, ha, _ => ⟨ha, Datum.lt_self _, by simp⟩
  | f :: l, a, ha, h => by
    have hf := h f (by simp)
    have hs : (F64.add a f).datum.NonNeg := Datum.NonNeg.add (f := f64) ha hf
    obtain ⟨h1, h2, h3⟩ := foldl_ge l (F64.add a f) hs (fun g hg => h g (by simp [hg]))
    have e1 : Datum.lt (F64.add a f).datum f.datum = false := Datum.add_ge ha hf f.num.ok
    have e2 : Datum.lt (F64.add a f).datum a.datum = false := by
      have : (F64.add a f).datum = Datum.add f64 f.datum a.datum := Datum.add_comm _ _
      rw [this]; exact Datum.add_ge hf ha a.num.ok
    refine ⟨h1, datum_le_trans hs.ne_nan e2 h2, ?_⟩
    intro g hg
    rcases List.mem_cons.1 hg with rfl | hg
    · exact datum_le_trans hs.ne_nan e1 h2
    · exact h3 g hg

/-- With frequencies from zero up the total is a number from zero up, not below any frequency in the table. -/
theorem total_ge [Unicode] {cfg : SplitCfg} {ops : List (DictOp (Binary64 M))} {d : Dictionary (Binary64 M) D} [Narrow (Binary64 M) D]
    (hr : runOps cfg ops Dictionary.new = some d) (hf : FreqsNonNeg ops) :
    d.totalFreq.datum.NonNeg ∧ ∀ t ∈ d.tokens, t.freq.datum.NonNeg ∧ Datum.lt d.totalFreq.datum t.freq.datum = false := by
  have inv := totalInv_run (P := fun f : Binary64 M => f.datum.NonNeg) ops (totalInv_new _) hf hr
  obtain ⟨h1, _, h3⟩ := foldl_ge (d.tokens.map (·.freq)) (F64.ofNat 0 : Binary64 M)
    (Datum.make_nonNeg (f := f64) (s := false) (q := ((0 : Nat) : ℚ)) (by norm_num)) (by
    intro f hf
    obtain ⟨t, ht, rfl⟩ := List.mem_map.1 hf
    exact inv.all t ht)
  rw [inv.total]
  exact ⟨h1, fun t ht => ⟨inv.all t ht, h3 _ (List.mem_map_of_mem ht)⟩⟩

end ieee

end Gse
