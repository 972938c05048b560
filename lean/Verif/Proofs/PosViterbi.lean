import Mathlib.Data.List.Induction
import Verif.Spec.Pos
import Verif.Proofs.Idf
import Verif.Proofs.Hmm

/-! # The Viterbi search of hmm/pos -/

namespace Gse
open Spec

set_option linter.unusedSectionVars false
set_option linter.unusedSimpArgs false

/-! ## Maps built by assignment -/

section maps
variable {K V : Type} [DecidableEq K]

theorem mem_keys_set (m : GoMap K V) (k : K) (v : V) (k' : K) : k' ∈ (m.set k v).map Prod.fst ↔ k' = k ∨ k' ∈ m.map Prod.fst := by
  unfold GoMap.set
  split
  · rename_i h
    rw [List.map_map]
    have he : (m.map (Prod.fst ∘ fun p => if p.1 = k then (k, v) else p)) = m.map Prod.fst := by
      apply List.map_congr_left
      intro p _
      simp only [Function.comp]
      split
      · rename_i e; exact e.symm
      · rfl
    rw [he]
    constructor
    · exact Or.inr
    · rintro (rfl | h')
      · by_contra hc
        rw [lookup_none.2 hc] at h; simp at h
      · exact h'
  · simp [or_comm]

theorem nodup_set {m : GoMap K V} (h : (m.map Prod.fst).Nodup) (k : K) (v : V) : ((m.set k v).map Prod.fst).Nodup := by
  unfold GoMap.set
  split
  · rw [List.map_map]
    have he : (m.map (Prod.fst ∘ fun p => if p.1 = k then (k, v) else p)) = m.map Prod.fst := by
      apply List.map_congr_left
      intro p _
      simp only [Function.comp]
      split
      · rename_i e; exact e.symm
      · rfl
    rw [he]; exact h
  · rename_i hn
    rw [List.map_append]
    simp only [List.map_cons, List.map_nil]
    rw [List.nodup_append]
    refine ⟨h, by simp, ?_⟩
    intro a ha b hb
    simp at hb
    subst hb
    rintro rfl
    exact hn (by
      cases e : m.lookup a with
      | none => exact absurd ha (lookup_none.1 e)
      | some _ => rfl)

theorem get_set (m : GoMap K V) (k : K) (v : V) (k' : K) : (m.set k v).get k' = if k' = k then some v else m.get k' := by
  unfold GoMap.set GoMap.get
  split
  · rename_i h
    induction m with
    | nil => simp at h
    | cons p m ih =>
      obtain ⟨a, b⟩ := p
      rw [List.map_cons, List.lookup_cons, List.lookup_cons]
      simp only
      by_cases hak : a = k
      · subst hak
        rw [if_pos rfl]
        by_cases hk : k' = a
        · subst hk; simp
        · have hb : (k' == a) = false := by simpa using hk
          simp only [hb, if_neg hk]
          clear ih h
          induction m with
          | nil => rfl
          | cons q m ih2 =>
            obtain ⟨a2, b2⟩ := q
            rw [List.map_cons, List.lookup_cons, List.lookup_cons]
            simp only
            by_cases h2 : a2 = a
            · subst h2
              rw [if_pos rfl]
              simp only [hb]
              exact ih2
            · rw [if_neg h2]
              simp only
              rw [ih2]
      · rw [if_neg hak]
        simp only
        have hka : (k == a) = false := by simpa using Ne.symm hak
        rw [List.lookup_cons] at h
        simp only [hka] at h
        rw [ih h]
        by_cases hk : k' = a
        · subst hk; simp [hak]
        · have hb : (k' == a) = false := by simpa using hk
          simp only [hb]
  · rename_i h
    have hn : k ∉ m.map Prod.fst := by
      intro hc
      apply h
      cases e : m.lookup k with
      | none => exact absurd hc (lookup_none.1 e)
      | some _ => rfl
    clear h
    induction m with
    | nil =>
      simp only [List.nil_append, List.lookup_cons, List.lookup_nil]
      by_cases hk : k' = k
      · simp [hk]
      · have : (k' == k) = false := by simpa using hk
        simp [this, hk]
    | cons p m ih =>
      obtain ⟨a, b⟩ := p
      simp only [List.map_cons, List.mem_cons, not_or] at hn
      rw [List.cons_append, List.lookup_cons, List.lookup_cons, ih hn.2]
      by_cases hk : k' = a
      · subst hk
        simp [Ne.symm hn.1]
      · have hb : (k' == a) = false := by simpa using hk
        simp only [hb]

theorem get_foldl_set {V : Type} (f : K → V) (l : List K) (m : GoMap K V) (k : K) :
    (l.foldl (fun m y => m.set y (f y)) m).get k = if k ∈ l then some (f k) else m.get k := by
  induction l generalizing m with
  | nil => simp
  | cons y l ih =>
    rw [List.foldl_cons, ih]
    by_cases h1 : k ∈ l
    · simp [h1]
    · rw [if_neg h1, get_set]
      by_cases h2 : k = y
      · subst h2; simp
      · simp [h1, h2]

theorem nodup_foldl_set {V : Type} (f : K → V) (l : List K) (m : GoMap K V) (h : (m.map Prod.fst).Nodup) :
    ((l.foldl (fun m y => m.set y (f y)) m).map Prod.fst).Nodup := by
  induction l generalizing m with
  | nil => exact h
  | cons y l ih => exact ih _ (nodup_set h _ _)

theorem get_isSome {m : GoMap K V} {k : K} : (m.get k).isSome = true ↔ k ∈ m.map Prod.fst := by
  unfold GoMap.get
  cases e : m.lookup k with
  | none => simpa using lookup_none.1 e
  | some v =>
    simp only [Option.isSome_some, true_iff]
    by_contra hc
    rw [lookup_none.2 hc] at e; simp at e

end maps

variable {F : Type} [F64 F]

/-! ## The candidate chosen -/

theorem posMax_mem (T : PosTables F) (col : PosCol F) (r : Rune) (y : Nat) (G : Nat → Prop) (l : List Nat) (m : Nat)
    (hG : ∀ a b, a ∈ m :: l → b ∈ m :: l → G a → ¬ G b → F64.lt (posCand T col r y b).1 (posCand T col r y a).1 = true ∧
      F64.lt (posCand T col r y a).1 (posCand T col r y b).1 = false ∧ F64.eq (posCand T col r y b).1 (posCand T col r y a).1 = false) :
    ∃ z, z ∈ m :: l ∧ posMax T col r y l false (posCand T col r y m) = posCand T col r y z ∧ ((∃ a ∈ m :: l, G a) → G z) := by
  induction l generalizing m with
  | nil =>
    refine ⟨m, by simp, rfl, ?_⟩
    rintro ⟨a, ha, hg⟩
    simp at ha; subst ha; exact hg
  | cons y0 l ih =>
    unfold posMax
    simp only [Bool.false_or]
    generalize hb : (F64.lt (posCand T col r y m).1 (posCand T col r y y0).1 ||
      F64.eq (posCand T col r y y0).1 (posCand T col r y m).1 &&
        decide ((posCand T col r y m).2 < (posCand T col r y y0).2)) = b
    cases b with
    | true =>
      simp only [if_true]
      obtain ⟨z, h1, h2, h3⟩ := ih y0 (fun a b ha hb => hG a b (by simp_all) (by simp_all))
      refine ⟨z, by simp_all, h2, ?_⟩
      rintro ⟨a, ha, hg⟩
      apply h3
      rcases List.mem_cons.1 ha with rfl | ha
      · refine ⟨y0, by simp, ?_⟩
        by_contra hn
        obtain ⟨_, h5, h6⟩ := hG a y0 (by simp) (by simp) hg hn
        rw [h5, h6] at hb
        simp at hb
      · exact ⟨a, ha, hg⟩
    | false =>
      simp only [Bool.false_eq_true, if_false]
      obtain ⟨z, h1, h2, h3⟩ := ih m (fun a b ha hb => hG a b (by
        rcases List.mem_cons.1 ha with rfl | ha
        · simp
        · simp [ha]) (by
        rcases List.mem_cons.1 hb with rfl | hb
        · simp
        · simp [hb]))
      refine ⟨z, by
        rcases List.mem_cons.1 h1 with rfl | h1
        · simp
        · simp [h1], h2, ?_⟩
      rintro ⟨a, ha, hg⟩
      apply h3
      rcases List.mem_cons.1 ha with rfl | ha
      · exact ⟨a, by simp, hg⟩
      · rcases List.mem_cons.1 ha with rfl | ha
        · refine ⟨m, by simp, ?_⟩
          by_contra hn
          obtain ⟨h5, _, _⟩ := hG a m (by simp) (by simp) hg hn
          rw [h5] at hb
          simp at hb
        · exact ⟨a, by simp [ha], hg⟩

section laws
variable [L : F64Laws F]

/-- `r` is not below `c`, and among equals has the larger state. -/
def PosDom (r c : F × Nat) : Prop := F64.lt r.1 c.1 = false ∧ (F64.lt c.1 r.1 = false → c.2 ≤ r.2)

theorem PosDom.refl {r : F × Nat} (h : L.good r.1) : PosDom r r := ⟨lt_irrefl64 h, fun _ => Nat.le_refl _⟩

theorem PosDom.trans {r c e : F × Nat} (hr : L.good r.1) (hc : L.good c.1) (he : L.good e.1) (h1 : PosDom r c) (h2 : PosDom c e) :
    PosDom r e := by
  refine ⟨le_trans64 hr hc he h1.1 h2.1, fun h => ?_⟩
  have a : F64.lt e.1 c.1 = false := le_trans64 he hr hc h h1.1
  have b : F64.lt c.1 r.1 = false := le_trans64 hc he hr h2.1 h
  exact Nat.le_trans (h2.2 a) (h1.2 b)

theorem posMax_dom (T : PosTables F) (col : PosCol F) (r : Rune) (y : Nat) (l : List Nat) (max : F × Nat) (hm : L.good max.1)
    (hl : ∀ a ∈ l, L.good (posCand T col r y a).1) :
    L.good (posMax T col r y l false max).1 ∧ PosDom (posMax T col r y l false max) max ∧
      ∀ a ∈ l, PosDom (posMax T col r y l false max) (posCand T col r y a) := by
  induction l generalizing max with
  | nil => exact ⟨hm, .refl hm, by simp⟩
  | cons y0 l ih =>
    have hc := hl y0 (by simp)
    have hl' : ∀ a ∈ l, L.good (posCand T col r y a).1 := fun a ha => hl a (by simp [ha])
    unfold posMax
    simp only [Bool.false_or]
    have he := L.eq_iff hc hm
    generalize hb : (F64.lt max.1 (posCand T col r y y0).1 ||
      F64.eq (posCand T col r y y0).1 max.1 && decide (max.2 < (posCand T col r y y0).2)) = b
    cases b with
    | true =>
      simp only [if_true]
      obtain ⟨h1, h2, h3⟩ := ih _ hc hl'
      have hd : PosDom (posCand T col r y y0) max := by
        rw [Bool.or_eq_true, Bool.and_eq_true, decide_eq_true_eq] at hb
        rcases hb with hb | ⟨hb, hb'⟩
        · exact ⟨L.lt_asymm hm hc hb, fun h => by rw [hb] at h; simp at h⟩
        · exact ⟨(he.1 hb).1, fun _ => Nat.le_of_lt hb'⟩
      refine ⟨h1, .trans h1 hc hm h2 hd, ?_⟩
      intro a ha
      rcases List.mem_cons.1 ha with rfl | ha
      · exact h2
      · exact h3 a ha
    | false =>
      simp only [Bool.false_eq_true, if_false]
      obtain ⟨h1, h2, h3⟩ := ih _ hm hl'
      have hd : PosDom max (posCand T col r y y0) := by
        rw [Bool.or_eq_false_iff, Bool.and_eq_false_iff] at hb
        refine ⟨hb.1, fun h => ?_⟩
        rcases hb.2 with hb' | hb'
        · have := he.2 ⟨h, hb.1⟩
          rw [hb'] at this; simp at this
        · simpa using hb'
      refine ⟨h1, h2, ?_⟩
      intro a ha
      rcases List.mem_cons.1 ha with rfl | ha
      · exact .trans h1 hm hc h2 hd
      · exact h3 a ha

end laws

/-! ## Paths -/

theorem posScoreFrom_append (T : PosTables F) (v : F) (y0 : Nat) (ps : List (Rune × Nat)) (p q : Rune × Nat) :
    posScoreFrom T v y0 (ps ++ [p, q]) =
      F64.add (F64.add (posScoreFrom T v y0 (ps ++ [p])) (T.transAt p.2 q.2)) (T.emitAt q.2 q.1) := by
  induction ps generalizing v y0 with
  | nil => rfl
  | cons x xs ih => exact ih _ _

theorem posScore_append (T : PosTables F) (obs : List Rune) (r0 r : Rune) (ts : List Nat) (y0 y : Nat) (h : ts.length = obs.length) :
    posScore T (obs ++ [r0] ++ [r]) (ts ++ [y0] ++ [y]) =
      F64.add (F64.add (posScore T (obs ++ [r0]) (ts ++ [y0])) (T.transAt y0 y)) (T.emitAt y r) := by
  unfold posScore
  rw [List.append_assoc, List.append_assoc, List.zip_append h.symm, List.zip_append h.symm]
  generalize obs.zip ts = l
  cases l with
  | nil => rfl
  | cons x xs => exact posScoreFrom_append T _ _ xs _ _

theorem posSet_snoc (T : PosTables F) (obs : List Rune) (r : Rune) (h : obs ≠ []) : posSet T (obs ++ [r]) = posNext T (posSet T obs) r := by
  cases obs with
  | nil => exact absurd rfl h
  | cons a obs => simp [posSet]

theorem posPath_snoc {T : PosTables F} {obs : List Rune} {r : Rune} {p : List Nat} {y0 y : Nat}
    (h : IsPosPath T obs (p ++ [y0])) (ht : PosTrans T y0 y) (hs : posSet T (obs ++ [r]) y) : IsPosPath T (obs ++ [r]) (p ++ [y0] ++ [y]) := by
  refine ⟨by have := h.length; simp at this ⊢; omega, ?_, ?_⟩
  · rw [List.isChain_append]
    exact ⟨h.chain, List.isChain_singleton _, by simpa using ht⟩
  · intro p' y' q e
    rcases List.eq_nil_or_concat q with rfl | ⟨q', z, rfl⟩
    · obtain ⟨e1, e2⟩ := List.append_inj' e rfl
      simp at e2
      subst e2
      have : (obs ++ [r]).take (p'.length + 1) = obs ++ [r] := by
        apply List.take_of_length_le
        have := h.length
        rw [e1] at this
        simp at this ⊢; omega
      rw [this]; exact hs
    · have e' : p ++ [y0] ++ [y] = (p' ++ y' :: q') ++ [z] := by simpa using e
      obtain ⟨e1, _⟩ := List.append_inj' e' rfl
      have h1 := h.allowed p' y' q' e1
      have hl : p'.length + 1 ≤ obs.length := by
        have := h.length
        rw [e1] at this
        simp at this; omega
      rw [List.take_append_of_le_length hl]
      exact h1

theorem posPath_last {T : PosTables F} {obs : List Rune} {p : List Nat} {y : Nat} (h : IsPosPath T obs (p ++ [y])) : posSet T obs y := by
  have := h.allowed p y [] rfl
  rwa [List.take_of_length_le (by have := h.length; simp at this; omega)] at this

theorem posPath_unsnoc {T : PosTables F} {obs : List Rune} {r : Rune} {p' : List Nat} {y : Nat} (ho : obs ≠ [])
    (h : IsPosPath T (obs ++ [r]) (p' ++ [y])) :
    ∃ p1 y1, p' = p1 ++ [y1] ∧ p1.length + 1 = obs.length ∧ PosTrans T y1 y ∧ IsPosPath T obs (p1 ++ [y1]) := by
  have hl := h.length
  simp at hl
  have hne : p' ≠ [] := by rintro rfl; exact ho (List.length_eq_zero_iff.1 (by simpa using hl.symm))
  obtain ⟨p1, y1, rfl⟩ : ∃ p1 y1, p' = p1 ++ [y1] := ⟨_, _, (List.dropLast_append_getLast hne).symm⟩
  refine ⟨p1, y1, rfl, by simpa using hl, ?_, ?_⟩
  · have := (List.isChain_append.1 h.chain).2.2
    simpa using this
  · refine ⟨by simpa using hl, (List.isChain_append.1 h.chain).1, ?_⟩
    intro a b c e
    have h2 := h.allowed a b (c ++ [y]) (by rw [e]; simp)
    have hlen : a.length + 1 ≤ obs.length := by
      have := congrArg List.length e
      simp at this hl; omega
    rwa [List.take_append_of_le_length hlen] at h2

/-! ## Columns -/

theorem posExpect_mem (T : PosTables F) (prev : List Nat) (y : Nat) :
    (GoMap.get (posExpect T prev) y).isSome = true ↔ ∃ x ∈ prev, PosTrans T x y := by
  rw [get_isSome]
  unfold posExpect
  have inner : ∀ (l : GoMap Nat F) (m : GoMap Nat Unit), y ∈ (l.foldl (fun m p => m.set p.1 ()) m).map Prod.fst ↔
      y ∈ l.map Prod.fst ∨ y ∈ m.map Prod.fst := by
    intro l
    induction l with
    | nil => simp
    | cons p l ih =>
      intro m
      rw [List.foldl_cons, ih, mem_keys_set, List.map_cons, List.mem_cons]
      tauto
  have outer : ∀ (l : List Nat) (m : GoMap Nat Unit),
      y ∈ (l.foldl (fun m x => (T.trans x).foldl (fun m p => m.set p.1 ()) m) m).map Prod.fst ↔
        (∃ x ∈ l, PosTrans T x y) ∨ y ∈ m.map Prod.fst := by
    intro l
    induction l with
    | nil => simp
    | cons x l ih =>
      intro m
      rw [List.foldl_cons, ih, inner]
      have : y ∈ (T.trans x).map Prod.fst ↔ PosTrans T x y := by
        rw [← get_isSome, Option.isSome_iff_exists]; rfl
      rw [this]
      simp only [List.mem_cons, exists_eq_or_imp]
      constructor
      · rintro (h | h | h)
        · exact .inl (.inr h)
        · exact .inl (.inl h)
        · exact .inr h
      · rintro ((h | h) | h)
        · exact .inr (.inl h)
        · exact .inl h
        · exact .inr (.inr h)
  rw [outer]
  simp

theorem trans_length (T : PosTables F) (x : Nat) : (T.trans x).length > 0 ↔ ∃ z, PosTrans T x z := by
  constructor
  · intro h
    cases e : T.trans x with
    | nil => rw [e] at h; simp at h
    | cons p l =>
      have : p.1 ∈ (T.trans x).map Prod.fst := by rw [e]; simp
      rw [← get_isSome, Option.isSome_iff_exists] at this
      exact ⟨p.1, this⟩
  · rintro ⟨z, v, h⟩
    cases e : T.trans x with
    | nil => rw [e] at h; simp [GoMap.get] at h
    | cons p l => simp

theorem posPrev_mem (ch : Choice) (T : PosTables F) (t : Nat) (col : PosCol F) (x : Nat) :
    x ∈ posPrev ch T t col ↔ (∃ e, GoMap.get col x = some e) ∧ ∃ z, PosTrans T x z := by
  unfold posPrev
  rw [List.mem_filter, ((ch.iter_perm _ col).map _).mem_iff, ← get_isSome, Option.isSome_iff_exists, decide_eq_true_eq, trans_length]

/-- The invariant of the columns: `col` is the column of the last character of `obs`, `acc` those before it. -/
structure PosInv (T : PosTables F) (size : Nat → F → Prop) (obs : List Rune) (col : PosCol F) (acc : List (PosCol F)) : Prop where
  ne : obs ≠ []
  nodup : (col.map Prod.fst).Nodup
  keys : ∀ y, (∃ e, GoMap.get col y = some e) ↔ posSet T obs y
  path : ∀ y v x, GoMap.get col y = some (v, x) → ∃ p, posBack (col :: acc) y = p ++ [y] ∧ IsPosPath T obs (p ++ [y]) ∧
    v = posScore T obs (p ++ [y]) ∧ size (2 * obs.length) v
  live : ∃ y, posSet T obs y ∧ ∃ z, PosTrans T y z

variable {T : PosTables F} {bound : Nat} {size : Nat → F → Prop}

theorem size_emit (hf : PosFinite T bound size) (y : Nat) (r : Rune) : size 1 (T.emitAt y r) := by
  unfold PosTables.emitAt
  cases h : T.emit y r with
  | none => exact hf.minFloat
  | some v => exact hf.emit y r v h

theorem posInv_first (hT : PosTablesOK T) (hf : PosFinite T bound size) (hb : 2 ≤ bound) (r : Rune) :
    PosInv T size [r] (posFirst T r) [] := by
  refine ⟨by simp, ?_, ?_, ?_, ?_⟩
  · exact nodup_foldl_set (fun y => (F64.add (T.emitAt y r) (T.startAt y), 0)) _ _ (by simp)
  · intro y
    unfold posFirst
    rw [get_foldl_set (fun y => (F64.add (T.emitAt y r) (T.startAt y), 0))]
    simp only [posSet, List.foldl_nil]
    by_cases h : y ∈ T.states r
    · simp [h]
    · simp [h, GoMap.get]
  · intro y v x hg
    have hset : y ∈ T.states r ∧ v = F64.add (T.emitAt y r) (T.startAt y) := by
      unfold posFirst at hg
      rw [get_foldl_set (fun y => (F64.add (T.emitAt y r) (T.startAt y), 0))] at hg
      by_cases h : y ∈ T.states r
      · rw [if_pos h] at hg; simp at hg; exact ⟨h, hg.1.symm⟩
      · rw [if_neg h] at hg; simp [GoMap.get] at hg
    refine ⟨[], by simp [posBack], ⟨rfl, List.isChain_singleton _, ?_⟩, ?_, ?_⟩
    · intro p y' q e
      cases p with
      | nil => simp at e; rw [← e.1]; exact hset.1
      | cons a p => simp at e
    · rw [hset.2]; simp [posScore, posPairScore, posScoreFrom]
    · rw [hset.2]
      have h2 : size (1 + 1) (F64.add (T.emitAt y r) (T.startAt y)) := hf.add (size_emit hf y r) (hf.start y) (by omega)
      exact h2
  · obtain ⟨y, h1, h2⟩ := hT.start r
    exact ⟨y, h1, h2⟩

/-- One step: which states, and the predecessor of each. -/
theorem posStep_get (ch : Choice) (hf : PosFinite T bound size) {obs : List Rune} {col : PosCol F} {acc : List (PosCol F)}
    (hb : 2 * obs.length + 2 ≤ bound) (h : PosInv T size obs col acc) (t : Nat) (r : Rune) :
    (((posStep ch T t col r).map Prod.fst).Nodup) ∧
    (∀ y, (∃ e, GoMap.get (posStep ch T t col r) y = some e) ↔ posNext T (posSet T obs) r y) ∧
    ∀ y v x, GoMap.get (posStep ch T t col r) y = some (v, x) →
      (∃ v0 x0, GoMap.get col x = some (v0, x0) ∧ PosTrans T x y ∧
        v = F64.add (F64.add v0 (T.transAt x y)) (T.emitAt y r) ∧ size (2 * obs.length + 2) v) ∧
      ∃ z l, posPrev ch T t col = z :: l ∧ (v, x) = posMax T col r y l false (posCand T col r y z) := by
  have hprev : ∀ x, x ∈ posPrev ch T t col ↔ posSet T obs x ∧ ∃ z, PosTrans T x z := by
    intro x; rw [posPrev_mem, h.keys]
  have hsucc : ∀ y, (GoMap.get (posExpect T (posPrev ch T t col)) y).isSome = true ↔ posSucc T (posSet T obs) y := by
    intro y
    rw [posExpect_mem]
    unfold posSucc
    constructor
    · rintro ⟨x, h1, h2⟩; exact ⟨x, ((hprev x).1 h1).1, h2⟩
    · rintro ⟨x, h1, h2⟩; exact ⟨x, (hprev x).2 ⟨h1, y, h2⟩, h2⟩
  obtain ⟨y00, hy00, z00, hz00⟩ := h.live
  have hobs : ∀ y, y ∈ posObs ch T t (posPrev ch T t col) r ↔ posNext T (posSet T obs) r y := by
    intro y
    unfold posObs posNext
    simp only
    have hfil : ∀ y, y ∈ (T.states r).filter (fun y => (GoMap.get (posExpect T (posPrev ch T t col)) y).isSome) ↔
        y ∈ T.states r ∧ posSucc T (posSet T obs) y := by
      intro y; rw [List.mem_filter, hsucc]
    by_cases he : ((T.states r).filter fun y => (GoMap.get (posExpect T (posPrev ch T t col)) y).isSome).length = 0
    · rw [if_pos he]
      have hnone : ∀ z ∈ T.states r, ¬ posSucc T (posSet T obs) z := by
        intro z hz hs
        have := (hfil z).2 ⟨hz, hs⟩
        rw [List.length_eq_zero_iff.1 he] at this
        simp at this
      have hit : ∀ y, y ∈ (ch.iter (2 * t + 1) (posExpect T (posPrev ch T t col))).map Prod.fst ↔ posSucc T (posSet T obs) y := by
        intro y
        rw [((ch.iter_perm _ _).map _).mem_iff, ← get_isSome, hsucc]
      have hne : ¬ ((ch.iter (2 * t + 1) (posExpect T (posPrev ch T t col))).map Prod.fst).length = 0 := by
        intro e
        have := (hit z00).2 ⟨y00, hy00, hz00⟩
        rw [List.length_eq_zero_iff.1 e] at this
        simp at this
      have hne' : ¬ ((ch.iter (2 * t + 1) (posExpect T (posPrev ch T t col))).map (·.1)).length = 0 := hne
      rw [if_neg hne']
      rw [show ((ch.iter (2 * t + 1) (posExpect T (posPrev ch T t col))).map (·.1)) =
        (ch.iter (2 * t + 1) (posExpect T (posPrev ch T t col))).map Prod.fst from rfl, hit]
      exact ⟨fun hs => ⟨hs, .inr hnone⟩, fun hs => hs.1⟩
    · rw [if_neg he, if_neg he, hfil]
      constructor
      · rintro ⟨h1, h2⟩; exact ⟨h2, .inl h1⟩
      · rintro ⟨h2, h1 | h1⟩
        · exact ⟨h1, h2⟩
        · exfalso
          apply he
          rw [List.length_eq_zero_iff, List.filter_eq_nil_iff]
          intro z hz hs
          exact h1 z hz ((hsucc z).1 hs)
  have hget : ∀ y, GoMap.get (posStep ch T t col r) y =
      if y ∈ posObs ch T t (posPrev ch T t col) r then some (posMax T col r y (posPrev ch T t col) true (F64.ofNat 0, 0)) else none := by
    intro y
    unfold posStep
    simp only
    rw [get_foldl_set (fun y => posMax T col r y (posPrev ch T t col) true (F64.ofNat 0, 0))]
    rfl
  refine ⟨?_, ?_, ?_⟩
  · unfold posStep
    exact nodup_foldl_set (fun y => posMax T col r y (posPrev ch T t col) true (F64.ofNat 0, 0)) _ _ (by simp)
  · intro y
    rw [hget, ← hobs]
    by_cases hy : y ∈ posObs ch T t (posPrev ch T t col) r <;> simp [hy]
  · intro y v x hg
    rw [hget] at hg
    have hy : y ∈ posObs ch T t (posPrev ch T t col) r := by
      by_contra hc; rw [if_neg hc] at hg; simp at hg
    rw [if_pos hy, Option.some.injEq] at hg
    obtain ⟨⟨x0, hx0, ht0⟩, _⟩ := (hobs y).1 hy
    have hx0p := (hprev x0).2 ⟨hx0, y, ht0⟩
    obtain ⟨z, l, hzl⟩ := List.exists_cons_of_ne_nil (List.ne_nil_of_mem hx0p)
    rw [hzl] at hg hx0p
    unfold posMax at hg
    simp only [Bool.true_or, if_true] at hg
    -- sizes of the candidates
    have hmem : ∀ a ∈ z :: l, ∃ v0 w0, GoMap.get col a = some (v0, w0) ∧ size (2 * obs.length) v0 := by
      intro a ha
      rw [← hzl] at ha
      obtain ⟨e, he⟩ := (h.keys a).2 ((hprev a).1 ha).1
      obtain ⟨v0, w0⟩ := e
      obtain ⟨_, _, _, _, hs⟩ := h.path a v0 w0 he
      exact ⟨v0, w0, he, hs⟩
    have hcand : ∀ a v0 w0, GoMap.get col a = some (v0, w0) →
        posCand T col r y a = (F64.add (F64.add v0 (T.transAt a y)) (T.emitAt y r), a) := by
      intro a v0 w0 he
      unfold posCand
      rw [he]; rfl
    have hgood : ∀ a ∈ z :: l, PosTrans T a y → size (2 * obs.length + 2) (posCand T col r y a).1 := by
      intro a ha ⟨w, hw⟩
      obtain ⟨v0, w0, he, hs⟩ := hmem a ha
      rw [hcand a v0 w0 he]
      have htr : T.transAt a y = w := by unfold PosTables.transAt; rw [hw]; rfl
      rw [htr]
      have h2 : size (2 * obs.length + 1 + 1) (F64.add (F64.add v0 w) (T.emitAt y r)) :=
        hf.add (hf.add hs (hf.trans a y w hw) (by omega)) (size_emit hf y r) (by omega)
      exact h2
    have hbad : ∀ a ∈ z :: l, ¬ PosTrans T a y → (posCand T col r y a).1 = T.inf := by
      intro a ha hn
      obtain ⟨v0, w0, he, hs⟩ := hmem a ha
      rw [hcand a v0 w0 he]
      have htr : T.transAt a y = T.inf := by
        unfold PosTables.transAt
        cases hw : (T.trans a).get y with
        | none => rfl
        | some w => exact absurd ⟨w, hw⟩ hn
      simp only
      rw [htr, hf.add_inf hs, hf.inf_add (size_emit hf y r)]
    obtain ⟨m, hm1, hm2, hm3⟩ := posMax_mem T col r y (fun a => PosTrans T a y) l z (by
      intro a b ha hb' hga hnb
      have h1 := hgood a ha hga
      rw [hbad b hb' hnb]
      exact ⟨hf.inf_lt h1, hf.not_lt_inf h1, hf.inf_ne h1⟩)
    have hm4 := hm3 ⟨x0, hx0p, ht0⟩
    refine ⟨?_, z, l, hzl, hg.symm⟩
    rw [hm2] at hg
    obtain ⟨v0, w0, he, hs⟩ := hmem m hm1
    have hsz := hgood m hm1 hm4
    rw [hcand m v0 w0 he] at hg hsz
    simp only [Prod.mk.injEq] at hg
    obtain ⟨rfl, rfl⟩ := hg
    exact ⟨v0, w0, he, hm4, rfl, hsz⟩

theorem posBack_cons (col : PosCol F) (cols : List (PosCol F)) (y x : Nat) (v : F) (h : GoMap.get col y = some (v, x)) :
    posBack (col :: cols) y = posBack cols x ++ [y] := by
  rw [posBack, h]; rfl

theorem posInv_step (ch : Choice) (hT : PosTablesOK T) (hf : PosFinite T bound size) {obs : List Rune} {col : PosCol F} {acc : List (PosCol F)}
    (hb : 2 * obs.length + 2 ≤ bound) (h : PosInv T size obs col acc) (t : Nat) (r : Rune) :
    PosInv T size (obs ++ [r]) (posStep ch T t col r) (col :: acc) := by
  obtain ⟨s1, s2, s3⟩ := posStep_get ch hf hb h t r
  refine ⟨by simp, s1, ?_, ?_, ?_⟩
  · intro y; rw [s2, posSet_snoc T obs r h.ne]
  · intro y v x hg
    obtain ⟨⟨v0, x0, g0, g1, g2, g3⟩, _⟩ := s3 y v x hg
    obtain ⟨p, p1, p2, p3, p4⟩ := h.path x v0 x0 g0
    have hy : posSet T (obs ++ [r]) y := by
      rw [posSet_snoc T obs r h.ne, ← s2]; exact ⟨_, hg⟩
    refine ⟨p ++ [x], by rw [posBack_cons _ _ _ _ _ hg, p1], posPath_snoc p2 g1 hy, ?_, by simpa [Nat.mul_add] using g3⟩
    obtain ⟨obs', r0, rfl⟩ : ∃ obs' r0, obs = obs' ++ [r0] := ⟨_, _, (List.dropLast_append_getLast h.ne).symm⟩
    rw [posScore_append T obs' r0 r p x y (by have := p2.length; simpa using this), g2, p3]
  · obtain ⟨y0, h1, z, hz⟩ := h.live
    have hex : ∃ y, posNext T (posSet T obs) r y := by
      by_cases hc : ∃ w ∈ T.states r, posSucc T (posSet T obs) w
      · obtain ⟨w, hw1, hw2⟩ := hc
        exact ⟨w, hw2, .inl hw1⟩
      · exact ⟨z, ⟨y0, h1, hz⟩, .inr fun w hw hs => hc ⟨w, hw, hs⟩⟩
    obtain ⟨y, hy⟩ := hex
    obtain ⟨x, _, hx⟩ := hy.1
    exact ⟨y, by rw [posSet_snoc T obs r h.ne]; exact hy, hT.live x y hx⟩

theorem posCols_inv (ch : Choice) (T : PosTables F) {P : List Rune → PosCol F → List (PosCol F) → Prop}
    (step : ∀ obs r col acc t, P obs col acc → P (obs ++ [r]) (posStep ch T t col r) (col :: acc)) :
    ∀ (rs : List Rune) (t : Nat) (obs : List Rune) (col : PosCol F) (acc : List (PosCol F)), P obs col acc →
      ∃ col' acc', posCols ch T t rs col acc = col' :: acc' ∧ P (obs ++ rs) col' acc' := by
  intro rs
  induction rs with
  | nil => intro t obs col acc h; exact ⟨col, acc, rfl, by simpa using h⟩
  | cons r rs ih =>
    intro t obs col acc h
    obtain ⟨col', acc', h1, h2⟩ := ih (t + 1) (obs ++ [r]) _ _ (step obs r col acc t h)
    exact ⟨col', acc', by rw [posCols]; exact h1, by simpa using h2⟩

/-- All columns of a text. -/
theorem posCols_all (ch : Choice) (hT : PosTablesOK T) (hf : PosFinite T bound size) (r : Rune) (rs : List Rune)
    (hb : 2 * (r :: rs).length ≤ bound) :
    ∃ col acc, posCols ch T 1 rs (posFirst T r) [] = col :: acc ∧ PosInv T size (r :: rs) col acc := by
  obtain ⟨col, acc, h1, h2⟩ := posCols_inv ch T (P := fun obs col acc => 2 * obs.length ≤ bound → PosInv T size obs col acc)
    (by
      intro obs r col acc t h hb'
      simp at hb'
      exact posInv_step ch hT hf (by omega) (h (by omega)) t r) rs 1 [r] (posFirst T r) []
    (fun hb' => posInv_first hT hf (by simpa using hb') r)
  exact ⟨col, acc, h1, h2 hb⟩

/-- `viterbi` returns an allowed sequence of states. -/
theorem posViterbi_path (ch : Choice) (hT : PosTablesOK T) (hf : PosFinite T bound size) (rs : List Rune) (hne : rs ≠ [])
    (hb : 2 * rs.length ≤ bound) : ∃ ts, posViterbi ch T rs = some ts ∧ IsPosPath T rs ts := by
  cases rs with
  | nil => exact absurd rfl hne
  | cons r rs =>
    obtain ⟨col, acc, h1, h2⟩ := posCols_all ch hT hf r rs hb
    unfold posViterbi
    simp only
    rw [h1]
    simp only [List.headD_cons]
    have hp := ch.sort_perm (fun a b => posLess b a) ((ch.iter 0 col).map fun p => (p.2.1, p.1))
    cases hs : ch.sort (fun a b => posLess b a) ((ch.iter 0 col).map fun p => (p.2.1, p.1)) with
    | nil =>
      exfalso
      rw [hs] at hp
      have h3 := hp.symm.eq_nil
      have h4 : col = [] := by
        have := (ch.iter_perm 0 col).length_eq
        rw [List.map_eq_nil_iff.1 h3] at this
        exact List.length_eq_zero_iff.1 this.symm
      obtain ⟨y, hy, _⟩ := h2.live
      obtain ⟨e, he⟩ := (h2.keys y).2 hy
      rw [h4] at he
      simp [GoMap.get] at he
    | cons p l =>
      rw [hs] at hp
      have hm : p ∈ (ch.iter 0 col).map fun p => (p.2.1, p.1) := hp.mem_iff.1 (by simp)
      obtain ⟨q, hq, rfl⟩ := List.mem_map.1 hm
      have hq := (ch.iter_perm 0 col).mem_iff.1 hq
      obtain ⟨a, b⟩ := q
      have hg : GoMap.get col a = some b := (lookup_mem h2.nodup).2 hq
      obtain ⟨p', e1, e2, _⟩ := h2.path a b.1 b.2 hg
      exact ⟨_, rfl, by rw [e1]; exact e2⟩

/-! ## Optimality -/

section best
variable [L : F64Laws F]

theorem good_emitAt (g : GoodPos T) (y : Nat) (r : Rune) : L.good (T.emitAt y r) := by
  unfold PosTables.emitAt
  cases h : T.emit y r with
  | none => exact g.minFloat
  | some v => exact g.emit y r v h

theorem good_transAt (g : GoodPos T) (x y : Nat) : L.good (T.transAt x y) := by
  unfold PosTables.transAt
  cases h : (T.trans x).get y with
  | none => exact g.inf
  | some v => exact g.trans x y v h

theorem good_posScoreFrom (g : GoodPos T) (v : F) (y0 : Nat) (ps : List (Rune × Nat)) (hv : L.good v) : L.good (posScoreFrom T v y0 ps) := by
  induction ps generalizing v y0 with
  | nil => exact hv
  | cons p ps ih => exact ih _ _ (L.good_add (L.good_add hv (good_transAt g _ _)) (good_emitAt g _ _))

theorem good_posScore (g : GoodPos T) (obs : List Rune) (ts : List Nat) : L.good (posScore T obs ts) := by
  unfold posScore
  cases obs.zip ts with
  | nil => exact L.good_zero
  | cons p ps => exact good_posScoreFrom g _ _ _ (L.good_add (good_emitAt g _ _) (g.start _))

/-- Optimality of a path up to each of its states. -/
def PosPathBest (T : PosTables F) (obs : List Rune) (ts : List Nat) : Prop :=
  ∀ p y q, ts = p ++ y :: q → ∀ p', IsPosPath T (obs.take (p.length + 1)) (p' ++ [y]) →
    F64.lt (posScore T (obs.take (p.length + 1)) (p ++ [y])) (posScore T (obs.take (p.length + 1)) (p' ++ [y])) = false ∧
    (F64.lt (posScore T (obs.take (p.length + 1)) (p' ++ [y])) (posScore T (obs.take (p.length + 1)) (p ++ [y])) = false →
      ∀ t t', p.getLast? = some t → p'.getLast? = some t' → t' ≤ t)

theorem posBest_step (ch : Choice) (g : GoodPos T) (hf : PosFinite T bound size) {obs : List Rune} {col : PosCol F}
    {acc : List (PosCol F)} (hb : 2 * obs.length + 2 ≤ bound) (h : PosInv T size obs col acc)
    (hbest : ∀ y e, GoMap.get col y = some e → PosPathBest T obs (posBack (col :: acc) y)) (t : Nat) (r : Rune) (y : Nat) (e : F × Nat)
    (he : GoMap.get (posStep ch T t col r) y = some e) : PosPathBest T (obs ++ [r]) (posBack (posStep ch T t col r :: col :: acc) y) := by
  obtain ⟨v, x⟩ := e
  obtain ⟨s1, s2, s3⟩ := posStep_get ch hf hb h t r
  obtain ⟨⟨v0, x0, g0, g1, g2, _⟩, z, l, hzl, hmax⟩ := s3 y v x he
  obtain ⟨p0, p1, p2, p3, _⟩ := h.path x v0 x0 g0
  rw [posBack_cons _ _ _ _ _ he]
  intro p y' q eq p' hp'
  rcases List.eq_nil_or_concat q with rfl | ⟨q', z', rfl⟩
  · obtain ⟨e1, e2⟩ := List.append_inj' eq rfl
    simp at e2
    subst e2
    have hpl : p.length = obs.length := by
      rw [← e1, p1]; exact p2.length
    have htk : (obs ++ [r]).take (p.length + 1) = obs ++ [r] := List.take_of_length_le (by simp; omega)
    rw [htk] at hp' ⊢
    obtain ⟨q1, y1, rfl, hq1, ht1, hpath1⟩ := posPath_unsnoc h.ne hp'
    rw [← e1, p1]
    -- the entry of y1
    obtain ⟨e3, he3⟩ := (h.keys y1).2 (posPath_last hpath1)
    obtain ⟨v1, x1⟩ := e3
    obtain ⟨b1, b2, b3, b4, _⟩ := h.path y1 v1 x1 he3
    have hb1 : b1.length + 1 = obs.length := by have := b3.length; simpa using this
    have hp0 : p0.length + 1 = obs.length := by have := p2.length; simpa using this
    have hle := (hbest y1 _ he3 b1 y1 [] b2 q1 (by rw [List.take_of_length_le (by omega)]; exact hpath1)).1
    rw [List.take_of_length_le (by omega)] at hle
    obtain ⟨obs', r0, rfl⟩ : ∃ obs' r0, obs = obs' ++ [r0] := ⟨_, _, (List.dropLast_append_getLast h.ne).symm⟩
    have l1 : b1.length = obs'.length := by simpa using hb1
    have l2 : p0.length = obs'.length := by simpa using hp0
    have l3 : q1.length = obs'.length := by simpa using hq1
    have gg := fun ts => good_posScore g (obs' ++ [r0]) ts
    have gg' := fun ts => good_posScore g (obs' ++ [r0] ++ [r]) ts
    have hstep : F64.lt (posScore T (obs' ++ [r0] ++ [r]) (b1 ++ [y1] ++ [y])) (posScore T (obs' ++ [r0] ++ [r]) (q1 ++ [y1] ++ [y])) = false := by
      rw [posScore_append T obs' r0 r b1 y1 y l1, posScore_append T obs' r0 r q1 y1 y l3]
      exact add_mono_right (L.good_add (gg _) (good_transAt g _ _)) (L.good_add (gg _) (good_transAt g _ _)) (good_emitAt g _ _)
        (add_mono_right (gg _) (gg _) (good_transAt g _ _) hle)
    -- the chosen candidate dominates that of y1
    have hc : ∀ a v2 x2, GoMap.get col a = some (v2, x2) →
        posCand T col r y a = (F64.add (F64.add v2 (T.transAt a y)) (T.emitAt y r), a) := by
      intro a v2 x2 h'
      unfold posCand
      rw [h']; rfl
    have hmemget : ∀ a ∈ z :: l, L.good (posCand T col r y a).1 := by
      intro a ha
      rw [← hzl, posPrev_mem] at ha
      obtain ⟨⟨⟨v2, x2⟩, h'⟩, _⟩ := ha
      rw [hc a v2 x2 h']
      obtain ⟨_, _, _, h6, _⟩ := h.path a v2 x2 h'
      rw [h6]
      exact L.good_add (L.good_add (gg _) (good_transAt g _ _)) (good_emitAt g _ _)
    obtain ⟨d1, d2, d3⟩ := posMax_dom T col r y l (posCand T col r y z) (hmemget z (by simp)) (fun a ha => hmemget a (by simp [ha]))
    have hy1mem : y1 ∈ z :: l := by
      rw [← hzl, posPrev_mem]; exact ⟨⟨_, he3⟩, y, ht1⟩
    have hdom : PosDom (v, x) (posCand T col r y y1) := by
      rw [hmax]
      rcases List.mem_cons.1 hy1mem with rfl | hm
      · exact d2
      · exact d3 y1 hm
    rw [hc y1 v1 x1 he3] at hdom
    have ev : v = posScore T (obs' ++ [r0] ++ [r]) (p0 ++ [x] ++ [y]) := by
      rw [posScore_append T obs' r0 r p0 x y l2, g2, p3]
    have ec : F64.add (F64.add v1 (T.transAt y1 y)) (T.emitAt y r) = posScore T (obs' ++ [r0] ++ [r]) (b1 ++ [y1] ++ [y]) := by
      rw [posScore_append T obs' r0 r b1 y1 y l1, b4]
    unfold PosDom at hdom
    rw [ec, ev] at hdom
    obtain ⟨hd1, hd2⟩ := hdom
    refine ⟨le_trans64 (gg' _) (gg' _) (gg' _) hd1 hstep, ?_⟩
    intro hge t1 t2 ht1 ht2
    have e1 : t2 = y1 := by simpa using ht2.symm
    have e2 : t1 = x := by simpa using ht1.symm
    subst e1 e2
    exact hd2 (le_trans64 (gg' _) (gg' _) (gg' _) hstep hge)
  · have e' : posBack (col :: acc) x ++ [y] = (p ++ y' :: q') ++ [z'] := by simpa using eq
    obtain ⟨e1, _⟩ := List.append_inj' e' rfl
    have hl : p.length + 1 ≤ obs.length := by
      have := p2.length
      rw [← p1, e1] at this
      simp at this; omega
    rw [List.take_append_of_le_length hl] at hp' ⊢
    exact hbest x _ g0 p y' q' e1 p' hp'

theorem posBest_first (g : GoodPos T) (r : Rune) (y : Nat) :
    PosPathBest T [r] (posBack [posFirst T r] y) := by
  intro p y' q e p' hp'
  have e0 : posBack [posFirst T r] y = [y] := by simp [posBack]
  rw [e0] at e
  cases p with
  | cons a p => simp at e
  | nil =>
    have hp0 : p' = [] := by
      have := hp'.length
      simp at this
      exact this
    subst hp0
    exact ⟨lt_irrefl64 (good_posScore g _ _), fun _ t t' h => by simp at h⟩

/-- `viterbi` returns the best allowed sequence of states. -/
theorem posViterbi_best (ch : Choice) (g : GoodPos T) (hT : PosTablesOK T) (hf : PosFinite T bound size) (rs : List Rune) (hne : rs ≠ [])
    (hb : 2 * rs.length ≤ bound) : ∃ ts, posViterbi ch T rs = some ts ∧ IsBestPos T rs ts := by
  cases rs with
  | nil => exact absurd rfl hne
  | cons r rs =>
    obtain ⟨col, acc, h1, h2⟩ := posCols_inv ch T (P := fun obs col acc => 2 * obs.length ≤ bound → PosInv T size obs col acc ∧
        ∀ y e, GoMap.get col y = some e → PosPathBest T obs (posBack (col :: acc) y))
      (by
        intro obs r col acc t h hb'
        simp at hb'
        obtain ⟨i1, i2⟩ := h (by omega)
        exact ⟨posInv_step ch hT hf (by omega) i1 t r, fun y e he => posBest_step ch g hf (by omega) i1 i2 t r y e he⟩) rs 1 [r] (posFirst T r) []
      (fun hb' => ⟨posInv_first hT hf (by simpa using hb') r, fun y e _ => posBest_first g r y⟩)
    obtain ⟨h2, h3⟩ := h2 hb
    have h2 : PosInv T size (r :: rs) col acc := h2
    have h3 : ∀ y e, GoMap.get col y = some e → PosPathBest T (r :: rs) (posBack (col :: acc) y) := h3
    unfold posViterbi
    simp only
    rw [h1]
    simp only [List.headD_cons]
    have gg := fun ts => good_posScore g (r :: rs) ts
    have hgood : ∀ p ∈ (ch.iter 0 col).map (fun p => (p.2.1, p.1)), L.good p.1 ∧ ∃ x, GoMap.get col p.2 = some (p.1, x) := by
      intro p hp
      obtain ⟨q, hq, rfl⟩ := List.mem_map.1 hp
      have hq := (ch.iter_perm 0 col).mem_iff.1 hq
      obtain ⟨a, b⟩ := q
      have hg : GoMap.get col a = some b := (lookup_mem h2.nodup).2 hq
      obtain ⟨_, _, _, h6, _⟩ := h2.path a b.1 b.2 hg
      exact ⟨by simp only; rw [h6]; exact gg _, b.2, hg⟩
    have hless : ∀ a b : F × Nat, L.good a.1 → L.good b.1 → (posLess a b = true ↔ (F64.lt a.1 b.1 = true ∨
        (F64.lt a.1 b.1 = false ∧ F64.lt b.1 a.1 = false ∧ a.2 < b.2))) := by
      intro a b ha hb'
      unfold posLess
      have := L.eq_iff ha hb'
      cases he : F64.eq a.1 b.1 with
      | true =>
        obtain ⟨e1, e2⟩ := this.1 he
        simp [e1, e2]
      | false =>
        simp only [Bool.false_eq_true, if_false]
        constructor
        · exact .inl
        · rintro (h | ⟨e1, e2, _⟩)
          · exact h
          · have := this.2 ⟨e1, e2⟩
            rw [he] at this; simp at this
    have hsw : StrictWeakOn (fun a b => posLess b a) ((ch.iter 0 col).map fun p => (p.2.1, p.1)) := by
      constructor
      · intro a ha b hb' h
        obtain ⟨ga, _⟩ := hgood a ha
        obtain ⟨gb, _⟩ := hgood b hb'
        rw [Bool.eq_false_iff]
        intro h'
        rcases (hless b a gb ga).1 h with h5 | ⟨h5, h6, h7⟩ <;> rcases (hless a b ga gb).1 h' with h8 | ⟨h8, h9, h10⟩
        · rw [L.lt_asymm gb ga h5] at h8; simp at h8
        · rw [h5] at h9; simp at h9
        · rw [h6] at h8; simp at h8
        · omega
      · intro a ha b hb' c hc h
        obtain ⟨ga, _⟩ := hgood a ha
        obtain ⟨gb, _⟩ := hgood b hb'
        obtain ⟨gc, _⟩ := hgood c hc
        simp only
        rw [hless b a gb ga, hless c b gc gb]
        rcases (hless c a gc ga).1 h with h5 | ⟨h5, h6, h7⟩
        · rcases L.lt_cotrans gc gb ga h5 with h8 | h8
          · exact .inr (.inl h8)
          · exact .inl (.inl h8)
        · by_cases h8 : F64.lt b.1 a.1 = true
          · exact .inl (.inl h8)
          by_cases h9 : F64.lt c.1 b.1 = true
          · exact .inr (.inl h9)
          have h8 : F64.lt b.1 a.1 = false := by simpa using h8
          have h9 : F64.lt c.1 b.1 = false := by simpa using h9
          have h10 : F64.lt a.1 b.1 = false := by
            exact le_trans64 ga gc gb h6 h9
          have h11 : F64.lt b.1 c.1 = false := le_trans64 gb ga gc h8 h6
          by_cases h12 : b.2 < a.2
          · exact .inl (.inr ⟨h8, h10, h12⟩)
          · exact .inr (.inr ⟨h9, h11, by omega⟩)
    have hp := ch.sort_perm (fun a b => posLess b a) ((ch.iter 0 col).map fun p => (p.2.1, p.1))
    have hso := ch.sort_sorted (fun a b => posLess b a) ((ch.iter 0 col).map fun p => (p.2.1, p.1)) hsw
    cases hs : ch.sort (fun a b => posLess b a) ((ch.iter 0 col).map fun p => (p.2.1, p.1)) with
    | nil =>
      exfalso
      rw [hs] at hp
      have h3 := hp.symm.eq_nil
      have h4 : col = [] := by
        have := (ch.iter_perm 0 col).length_eq
        rw [List.map_eq_nil_iff.1 h3] at this
        exact List.length_eq_zero_iff.1 this.symm
      obtain ⟨y, hy, _⟩ := h2.live
      obtain ⟨e, he⟩ := (h2.keys y).2 hy
      rw [h4] at he
      simp [GoMap.get] at he
    | cons p l =>
      rw [hs] at hp hso
      obtain ⟨gp, x, hg⟩ := hgood p (hp.mem_iff.1 (by simp))
      obtain ⟨p', e1, e2, e3, _⟩ := h2.path p.2 p.1 x hg
      refine ⟨_, rfl, ?_⟩
      have hdom : ∀ ts', IsPosPath T (r :: rs) ts' → ∀ p1 y1, ts' = p1 ++ [y1] →
          F64.lt (posScore T (r :: rs) (p' ++ [p.2])) (posScore T (r :: rs) ts') = false ∧
          (F64.lt (posScore T (r :: rs) ts') (posScore T (r :: rs) (p' ++ [p.2])) = false → y1 ≤ p.2) := by
        intro ts' hts' p1 y1 ets
        subst ets
        obtain ⟨e4, he4⟩ := (h2.keys y1).2 (posPath_last hts')
        obtain ⟨v1, x1⟩ := e4
        obtain ⟨b1, b2, b3, b4, _⟩ := h2.path y1 v1 x1 he4
        have hle := (h3 y1 _ he4 b1 y1 [] b2 p1 (by
          have := b3.length
          rw [List.take_of_length_le (by simp at this ⊢; omega)]; exact hts')).1
        rw [List.take_of_length_le (by have := b3.length; simp at this ⊢; omega)] at hle
        have hmem : (v1, y1) ∈ p :: l := by
          rw [hp.mem_iff]
          refine List.mem_map.2 ⟨(y1, (v1, x1)), ?_, rfl⟩
          rw [(ch.iter_perm 0 col).mem_iff]
          exact (lookup_mem h2.nodup).1 he4
        have gv1 : L.good v1 := by rw [b4]; exact gg _
        have hd : F64.lt p.1 v1 = false ∧ (F64.lt v1 p.1 = false → y1 ≤ p.2) := by
          rcases List.mem_cons.1 hmem with e | hm
          · rw [← e]; exact ⟨lt_irrefl64 gv1, fun _ => Nat.le_refl _⟩
          · have hn := List.rel_of_pairwise_cons hso hm
            rw [Bool.eq_false_iff, ne_eq, hless p (v1, y1) gp gv1] at hn
            have h5 : F64.lt p.1 v1 = false := by
              rw [Bool.eq_false_iff]; exact fun h => hn (.inl h)
            refine ⟨h5, fun h6 => ?_⟩
            by_contra hc
            exact hn (.inr ⟨h5, h6, by simp only; omega⟩)
        rw [← e3]
        rw [b4] at hd gv1
        refine ⟨le_trans64 gp gv1 (gg _) hd.1 hle, fun h => hd.2 (le_trans64 gv1 (gg _) gp hle h)⟩
      have hsplit : ∀ ts', IsPosPath T (r :: rs) ts' → ∃ p1 y1, ts' = p1 ++ [y1] := by
        intro ts' hts'
        have hn : ts' ≠ [] := by
          rintro rfl
          have := hts'.length
          simp at this
        exact ⟨_, _, (List.dropLast_append_getLast hn).symm⟩
      have hbest := h3 p.2 _ hg
      rw [e1] at hbest ⊢
      refine ⟨e2, ?_, ?_, ?_, ?_⟩
      · intro ts' hts'
        obtain ⟨p1, y1, e⟩ := hsplit ts' hts'
        exact (hdom ts' hts' p1 y1 e).1
      · intro ts' hts' hlt t t' ht ht'
        obtain ⟨p1, y1, e⟩ := hsplit ts' hts'
        have h5 : t = p.2 := by simpa using ht.symm
        have h6 : t' = y1 := by rw [e] at ht'; simpa using ht'.symm
        rw [h5, h6]
        exact (hdom ts' hts' p1 y1 e).2 hlt
      · intro a b c e a' ha'
        exact (hbest a b c e a' ha').1
      · intro a b c e a' ha'
        exact (hbest a b c e a' ha').2

end best

/-- There is only one best sequence of states. -/
theorem bestPos_unique {rs : List Rune} {ts ts' : List Nat} (h : IsBestPos T rs ts) (h' : IsBestPos T rs ts') : ts = ts' := by
  have hlen : ts.length = ts'.length := h.path.length.trans h'.path.length.symm
  have hpre : ∀ {ts : List Nat}, IsPosPath T rs ts → ∀ p y q, ts = p ++ y :: q → IsPosPath T (rs.take (p.length + 1)) (p ++ [y]) := by
    intro ts hp p y q e
    have hl := hp.length
    rw [e] at hl
    simp at hl
    refine ⟨by simp; omega, ?_, ?_⟩
    · have := hp.chain
      rw [e] at this
      exact (List.isChain_append.1 (by simpa using this : List.IsChain (PosTrans T) ((p ++ [y]) ++ q))).1
    · intro a b c e2
      have h1 := hp.allowed a b (c ++ q) (by
        rw [e, ← List.singleton_append, ← List.append_assoc, e2]; simp)
      have hl2 := congrArg List.length e2
      simp at hl2
      rw [List.take_take, Nat.min_eq_left (by omega)]
      exact h1
  have step : ∀ p p' q, p.length = p'.length → ts = p ++ q → ts' = p' ++ q → p.getLast? = p'.getLast? := by
    intro p p' q hl e e'
    rcases List.eq_nil_or_concat p with rfl | ⟨p0, t, rfl⟩
    · have : p' = [] := List.length_eq_zero_iff.1 (by simpa using hl.symm)
      rw [this]
    rcases List.eq_nil_or_concat p' with rfl | ⟨p0', t', rfl⟩
    · simp at hl
    cases q with
    | nil =>
      rw [List.append_nil] at e e'
      have h1 := h.tie _ h'.path (h'.highest _ h.path) t t' (by simp [e]) (by simp [e'])
      have h2 := h'.tie _ h.path (h.highest _ h'.path) t' t (by simp [e']) (by simp [e])
      simp [Nat.le_antisymm h2 h1]
    | cons y q =>
      have c1 := hpre h.path _ y q e
      have c2 := hpre h'.path _ y q e'
      have hl' : (p0 ++ [t]).length = (p0' ++ [t']).length := by simpa using hl
      have hl2 : (p0.concat t).length = (p0'.concat t').length := by simpa using hl
      have h1 := h.tie' _ y q e _ (by rw [hl2]; exact c2) (by
        have := h'.highest' _ y q e' _ (by rw [← hl2]; exact c1)
        rw [hl2]; exact this) t t' (by simp) (by simp)
      have h2 := h'.tie' _ y q e' _ (by rw [← hl2]; exact c1) (by
        have := h.highest' _ y q e _ (by rw [hl2]; exact c2)
        rw [← hl2]; exact this) t' t (by simp) (by simp)
      simp [Nat.le_antisymm h2 h1]
  have : ∀ n, ∀ p p' q, p.length = n → p'.length = n → ts = p ++ q → ts' = p' ++ q → ts = ts' := by
    intro n
    induction n with
    | zero =>
      intro p p' q hp hp' e e'
      rw [List.length_eq_zero_iff.1 hp] at e
      rw [List.length_eq_zero_iff.1 hp'] at e'
      rw [e, e']
    | succ n ih =>
      intro p p' q hp hp' e e'
      have hs := step p p' q (hp.trans hp'.symm) e e'
      have hpn : p ≠ [] := by rintro rfl; simp at hp
      have hpn' : p' ≠ [] := by rintro rfl; simp at hp'
      rw [List.getLast?_eq_getLast_of_ne_nil hpn, List.getLast?_eq_getLast_of_ne_nil hpn', Option.some.injEq] at hs
      refine ih p.dropLast p'.dropLast (p.getLast hpn :: q) (by simp [hp]) (by simp [hp']) ?_ ?_
      · rw [e]
        conv => lhs; rw [← List.dropLast_append_getLast hpn]
        simp
      · rw [e']
        conv => lhs; rw [← List.dropLast_append_getLast hpn']
        simp [hs]
  exact this ts.length ts ts' [] rfl hlen.symm (by simp) (by simp)

end Gse
