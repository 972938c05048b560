import Verif.Model.Shipped
import Verif.Proofs.PosData
import Verif.Props.IeeeRest

/-!
# Part-of-speech cutting with the tables of the code
-/

namespace Gse

open Spec

set_option exponentiation.threshold 400

variable {M : MathFns}

theorem mem_of_lookup {β : Type} {l : List (Nat × β)} {x : Nat} {v : β} (h : l.lookup x = some v) : (x, v) ∈ l := by
  obtain ⟨l1, l2, e, _⟩ := List.lookup_eq_some_iff.1 h
  rw [e]; simp

theorem stateOK_tag {y : Nat} (h : stateOK y = true) : (∃ a, StateTag y a) ∧ y % 100 < 64 := by
  simp only [stateOK, Bool.and_eq_true, decide_eq_true_eq] at h
  obtain ⟨⟨h1, h2⟩, h3⟩ := h
  refine ⟨?_, h3⟩
  have : y / 100 = 1 ∨ y / 100 = 2 ∨ y / 100 = 3 ∨ y / 100 = 4 := by omega
  rcases this with h | h | h | h
  · exact ⟨.B, h⟩
  · exact ⟨.E, h⟩
  · exact ⟨.M, h⟩
  · exact ⟨.S, h⟩

theorem legalStates_tags {x y : Nat} (h : legalStates x y = true) : ∃ a b, StateTag x a ∧ StateTag y b ∧ Legal a b := by
  unfold legalStates at h
  split at h
  · next h1 h2 => exact ⟨.B, .E, h1, h2, .be⟩
  · next h1 h2 => exact ⟨.B, .M, h1, h2, .bm⟩
  · next h1 h2 => exact ⟨.M, .E, h1, h2, .me⟩
  · next h1 h2 => exact ⟨.M, .M, h1, h2, .mm⟩
  · next h1 h2 => exact ⟨.E, .B, h1, h2, .eb⟩
  · next h1 h2 => exact ⟨.E, .S, h1, h2, .es⟩
  · next h1 h2 => exact ⟨.S, .B, h1, h2, .sb⟩
  · next h1 h2 => exact ⟨.S, .S, h1, h2, .ss⟩
  · cases h

section tables
variable {em : Nat → Rune → Option (Binary64 M)}

theorem shipped_trans {x y : Nat} {v : Binary64 M} (h : ((shippedPos em).trans x).get y = some v) :
    ∃ row ∈ PosData.trans, row.1 = x ∧ ∃ p ∈ row.2, p.1 = y ∧ v = decimal p.2 := by
  have h1 := mem_of_lookup (h : (((PosData.trans.lookup x).getD []).map fun p => (p.1, (decimal p.2 : Binary64 M))).lookup y = some v)
  obtain ⟨p, hp, e⟩ := List.mem_map.1 h1
  cases hl : PosData.trans.lookup x with
  | none => rw [hl] at hp; cases hp
  | some l =>
    rw [hl] at hp
    refine ⟨(x, l), mem_of_lookup hl, rfl, p, hp, ?_⟩
    cases e
    exact ⟨rfl, rfl⟩

/-- What was checked of one transition. -/
theorem shipped_trans_ok {x y : Nat} {v : Binary64 M} (h : ((shippedPos em).trans x).get y = some v) :
    legalStates x y = true ∧ stateOK y = true ∧ y ∈ liveStates ∧ ∃ p : Nat × Nat, v = decimal p ∧ p.1 ≤ 2 ^ 334 * 10 ^ p.2 := by
  obtain ⟨row, hr, rfl, p, hp, rfl, rfl⟩ := shipped_trans h
  have h1 := List.all_eq_true.1 trans_check row hr
  rw [Bool.and_eq_true] at h1
  have h2 := List.all_eq_true.1 h1.2 p hp
  simp only [Bool.and_eq_true, decide_eq_true_eq, List.contains_iff_mem] at h2
  exact ⟨h2.1.1.1, h2.1.1.2, h2.1.2, p.2, rfl, h2.2⟩

theorem live_next {y : Nat} (h : y ∈ liveStates) : ∃ z, PosTrans (shippedPos em) y z := by
  have h1 := List.all_eq_true.1 live_check y h
  cases hl : (PosData.trans.lookup y).getD [] with
  | nil => rw [hl] at h1; cases h1
  | cons p l =>
    refine ⟨p.1, decimal p.2, ?_⟩
    show (((PosData.trans.lookup y).getD []).map fun p => (p.1, (decimal p.2 : Binary64 M))).lookup p.1 = _
    rw [hl]
    simp

theorem shipped_poss_length : (shippedPos em).poss.length = 64 := by
  show PosData.poss.length = 64
  decide +kernel

/-- The state tables of the code are consistent. -/
theorem shippedPos_ok : PosTablesOK (shippedPos em) where
  legal x y h := by
    obtain ⟨v, h⟩ := h
    exact legalStates_tags (shipped_trans_ok h).1
  live x y h := by
    obtain ⟨v, h⟩ := h
    exact live_next (shipped_trans_ok h).2.2.1
  start r := by
    cases hr : PosData.chars.lookup r with
    | none =>
      have : (shippedPos em).states r = PosData.trans.map (·.1) := by
        show (PosData.chars.lookup r).getD _ = _
        rw [hr]; rfl
      rw [this]
      have h100 : 100 ∈ PosData.trans.map (·.1) := by decide +kernel
      exact ⟨100, h100, live_next (by decide)⟩
    | some l =>
      have : (shippedPos em).states r = l := by
        show (PosData.chars.lookup r).getD _ = _
        rw [hr]; rfl
      rw [this]
      have h1 := List.all_eq_true.1 chars_check _ (mem_of_lookup hr)
      rw [Bool.and_eq_true] at h1
      obtain ⟨y, hy, h2⟩ := List.any_eq_true.1 h1.1
      exact ⟨y, hy, live_next (List.contains_iff_mem.1 h2)⟩
  tag y h := by
    rw [shipped_poss_length]
    rcases h with ⟨r, h⟩ | ⟨x, v, h⟩
    · cases hr : PosData.chars.lookup r with
      | none =>
        have : (shippedPos em).states r = PosData.trans.map (·.1) := by
          show (PosData.chars.lookup r).getD _ = _
          rw [hr]; rfl
        rw [this] at h
        obtain ⟨row, hrow, rfl⟩ := List.mem_map.1 h
        have h1 := List.all_eq_true.1 trans_check row hrow
        rw [Bool.and_eq_true] at h1
        exact stateOK_tag h1.1
      | some l =>
        have : (shippedPos em).states r = l := by
          show (PosData.chars.lookup r).getD _ = _
          rw [hr]; rfl
        rw [this] at h
        have h1 := List.all_eq_true.1 chars_check _ (mem_of_lookup hr)
        rw [Bool.and_eq_true] at h1
        exact stateOK_tag (List.all_eq_true.1 h1.2 y h)
    · exact stateOK_tag (shipped_trans_ok h).2.1

theorem lit_size {q : ℚ} (h0 : q ≤ 0) (h : -(2 ^ 334 : Nat) ≤ q) : SizeAt 334 1 (lit q : Binary64 M) ∧ (lit q : Binary64 M).datum.NonPos := by
  refine ⟨make_size _ (by decide) (by decide) (by decide) ?_, lit_nonPos h0⟩
  rw [abs_of_nonpos h0, show (2 : ℚ) ^ (334 : ℤ) = 2 ^ 334 from zpow_natCast _ 334]
  rw [Nat.cast_pow, show ((2 : Nat) : ℚ) = 2 from rfl] at h
  rw [Nat.cast_one, one_mul]
  linarith

theorem decimal_size {p : Nat × Nat} (h : p.1 ≤ 2 ^ 334 * 10 ^ p.2) : SizeAt 334 1 (decimal p : Binary64 M) ∧ (decimal p : Binary64 M).datum.NonPos := by
  have hp : (0 : ℚ) < 10 ^ p.2 := pow_pos (by norm_num) _
  refine lit_size ?_ ?_
  · have : (0 : ℚ) ≤ (p.1 : ℚ) / 10 ^ p.2 := div_nonneg (Nat.cast_nonneg _) hp.le
    linarith
  · have h1 : (p.1 : ℚ) ≤ ((2 ^ 334 : Nat) : ℚ) * 10 ^ p.2 := by
      have : ((p.1 : Nat) : ℚ) ≤ ((2 ^ 334 * 10 ^ p.2 : Nat) : ℚ) := Nat.cast_le.2 h
      rw [Nat.cast_mul, Nat.cast_pow 10] at this
      exact_mod_cast this
    have := (div_le_iff₀ hp).2 h1
    linarith

/-- The values of the tables are in range, if those of `probEmit` are. -/
theorem shippedPos_values (hem : ∀ y r v, em y r = some v → SizeAt 334 1 v ∧ v.datum.NonPos) : PosValues (shippedPos em) where
  inf := rfl
  minFloat := lit_size (by norm_num) (by
    have h : (314 * 10 ^ 98 : Nat) ≤ 2 ^ 334 := by decide +kernel
    have h1 : ((314 * 10 ^ 98 : Nat) : ℚ) ≤ ((2 ^ 334 : Nat) : ℚ) := Nat.cast_le.2 h
    have h2 : ((314 * 10 ^ 98 : Nat) : ℚ) = 3.14e100 := by norm_num
    rw [h2] at h1
    linarith)
  start y v h := by
    obtain ⟨p, h1, h2⟩ := Option.map_eq_some_iff.1 (h : (PosData.start.lookup y).map decimal = some v)
    have := List.all_eq_true.1 start_check _ (mem_of_lookup h1)
    rw [← h2]
    exact decimal_size (by simpa using this)
  emit := hem
  trans x y v h := by
    obtain ⟨_, _, _, p, h1, h2⟩ := shipped_trans_ok h
    rw [h1]
    exact decimal_size h2

end tables

section cut
variable [Unicode] [UnicodeOK] (em : Nat → Rune → Option (Binary64 M)) (hem : ∀ y r v, em y r = some v → SizeAt 334 1 v ∧ v.datum.NonPos)
include hem

/-- C50: with the tables of the code and any emissions up to zero, `pos.Cut(text, true)` returns for every text of up to 2^52
characters, and its words are all the text and not empty. -/
theorem C50_shipped (cfg : SplitCfg) (ops : List (DictOp (Binary64 M))) (d : Dictionary (Binary64 M) Binary32)
    (hr : runOps cfg ops Dictionary.new = some d) (ch : Choice) (s : Bytes) (hb : 2 * (runes s).length ≤ 2 ^ 53) :
    ∃ out, posCut ch (shippedPos em) d s true = some out ∧ (out.map SegPos.text).flatten = encode (runes s) ∧
      (ValidText s → (out.map SegPos.text).flatten = s) ∧ ∀ p ∈ out, p.text ≠ [] := by
  have hf := (shippedPos_values hem).finite
  obtain ⟨out, h1, h2, h3, _⟩ := C50_hmm cfg ops d hr ch _ shippedPos_ok _ _ hf s hb
  exact ⟨out, h1, h2, h3, C50_hmm_nonempty cfg ops d hr ch _ shippedPos_ok _ _ hf s hb out h1⟩

omit [UnicodeOK] in
/-- C65: with the tables of the code the state model gives a run of Han characters the best sequence of states. -/
theorem C65_shipped (ch : Choice) (s : Bytes) (hs : s ≠ []) (hb : 2 * (runes s).length ≤ 2 ^ 53) :
    ∃ ts ws, IsBestPos (shippedPos em) (runes s) ts ∧ StateWords PosData.poss (runes s) ts ws ∧
      cutDetailInternal ch (shippedPos em) s = some ws :=
  C65_ieee ch _ (shippedPos_values hem) shippedPos_ok s hs hb

/-- C65: with the tables of the code the result of `Cut(text, true)` depends on no map order and no sorting algorithm. -/
theorem C65_shipped_deterministic (cfg : SplitCfg) (ops : List (DictOp (Binary64 M))) (d : Dictionary (Binary64 M) Binary32)
    (hr : runOps cfg ops Dictionary.new = some d) (ch ch' : Choice) (keys : List Nat) (hk : keys.Perm (shippedPos em).keys)
    (s : Bytes) (hb : 8 * s.length ≤ 2 ^ 53) (hmm : Bool) :
    posCut ch (shippedPos em) d s hmm = posCut ch' { shippedPos em with keys := keys } d s hmm :=
  C65_ieee_deterministic cfg ops d hr ch ch' _ keys hk (shippedPos_values hem) shippedPos_ok s hb hmm

/-- C66: with the tables of the code `Cut(text, true)` follows the route with the largest sum of log-frequencies. -/
theorem C66_shipped (hlog : LogLike M.log) (cfg : SplitCfg) (ops : List (DictOp (Binary64 M))) (d : Dictionary (Binary64 M) Binary32)
    (hr : runOps cfg ops Dictionary.new = some d) (hf : FreqsNonNeg ops) (hfin : d.totalFreq.datum.IsFin) (ch : Choice)
    (s : Bytes) (hs : ∀ u ∈ chars s, posChar u = true) (hb : 2 * (runes s).length ≤ 2 ^ 53) :
    ∃ ps gs outs, IsBestRouteBy (F64.ofNat 0) d (runes s) ps ∧ IsRuns (fun t : List Rune => t.length = 1) ps gs ∧
      List.Forall₂ (PosRun d (cutDetail ch (shippedPos em))) gs outs ∧ posCutDAG d (cutDetail ch (shippedPos em)) s = some outs.flatten ∧
      ∀ t, t <:+: runes s → ∃ o, cutDetail ch (shippedPos em) (encode t) = some o ∧
        DetailOut (cutDetailInternal ch (shippedPos em)) (chars (encode t)) o :=
  C66_ieee_hmm hlog cfg ops d hr hf hfin ch _ shippedPos_ok (shippedPos_values hem) s hs hb

/-- C46: with the tables and constants of the code `TextRankWithPOS` returns for every text of up to 2^36 bytes and ranks the items
of `Cut(text, true)`; `C46_ieee` says how. -/
theorem C46_shipped (cfg : SplitCfg) (ops : List (DictOp (Binary64 M))) (d : Dictionary (Binary64 M) Binary32)
    (hr : runOps cfg ops Dictionary.new = some d) (ch' ch : Choice) (s : Bytes) (hs : s.length ≤ 2 ^ 36) (topK : Int) (allow : List Bytes) :
    ∃ items, posCut ch' (shippedPos em) d s true = some items ∧ 4 * items.length ≤ 2 ^ 40 ∧
      textRankWithPOS ch' ch shippedRank (shippedPos em) d s topK allow = some (textRankItems ch shippedRank items topK allow) :=
  C46_returns cfg ops d hr ch' ch _ _ shippedPos_ok _ _ (shippedPos_values hem).finite s (by have := runes_length_le s; omega) hs topK allow

end cut

section examples

/-- Emissions of one character. -/
def oneEmit : Nat → Rune → Option (Binary64 sampleMath) := fun y r => if y = 100 ∧ r = 0x4E00 then some (lit (-3.618715666782108)) else none

example : ∀ y r v, oneEmit y r = some v → SizeAt 334 1 v ∧ v.datum.NonPos := by
  intro y r v h
  unfold oneEmit at h
  split at h
  · cases h
    refine lit_size (by norm_num) ?_
    have : (4 : Nat) ≤ 2 ^ 334 := by decide +kernel
    have h1 : ((4 : Nat) : ℚ) ≤ ((2 ^ 334 : Nat) : ℚ) := Nat.cast_le.2 this
    have h2 : ((4 : Nat) : ℚ) = 4 := by norm_num
    rw [h2] at h1
    have h3 : (3.618715666782108 : ℚ) ≤ 4 := by norm_num
    linarith
  · cases h
example : PosData.chars.lookup 0x9FA0 = some [413] := by decide +kernel
example : ((PosData.trans.lookup 101).getD []).map (·.1) = [201, 301] := by decide +kernel

end examples

end Gse
