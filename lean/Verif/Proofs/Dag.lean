import Verif.Model.Dag
import Verif.Spec.Dag
import Verif.Proofs.History
import Verif.Proofs.Encode
import Verif.Proofs.Segment

/-! # Facts about the DAG model -/

namespace Gse
open Spec Trie

set_option linter.unusedSectionVars false
set_option linter.unusedSimpArgs false

variable {F D : Type} [F64 F] [F32 D] [Narrow F D] {T : F}

/-- Every trie value is a table index. -/
def IdxOK (d : Dictionary F D) : Prop := ∀ k v, d.trie.value k = some v → v < d.tokens.length

theorem storedTok_some {d : Dictionary F D} {w : Bytes} {v : Nat} (h : IdxOK d) (hv : d.trie.value w = some v) :
    ∃ tok, d.tokens[v]? = some tok ∧ storedTok d w = some tok := by
  refine ⟨d.tokens[v]'(h w v hv), by simp [h w v hv], ?_⟩
  simp [storedTok, hv, h w v hv]

theorem storedTok_none {d : Dictionary F D} {w : Bytes} (h : IdxOK d) : storedTok d w = none ↔ d.trie.value w = none := by
  cases hv : d.trie.value w with
  | none => simp [storedTok, hv]
  | some v =>
    obtain ⟨tok, _, h2⟩ := storedTok_some h hv
    simp [h2]

theorem startsStored_iff {d : Dictionary F D} {w : Bytes} (h : IdxOK d) (hw : w ≠ []) :
    StartsStored d w ↔ d.trie.isNode w = true := by
  rw [isNode_iff]
  constructor
  · rintro ⟨k, tok, hk, hp⟩
    cases hv : d.trie.value k with
    | none => simp [storedTok, hv] at hk
    | some v => exact .inr ⟨k, v, hv, hp⟩
  · rintro (h1 | ⟨k, v, hv, hp⟩)
    · exact absurd h1 hw
    · obtain ⟨tok, _, h2⟩ := storedTok_some h hv
      exact ⟨k, tok, h2, hp⟩

/-- `Find` in terms of the stored words. -/
theorem find_stored {d : Dictionary F D} {w : Bytes} {tok : Token F D} (hs : storedTok d w = some tok) :
    d.find w = some (tok.freq, tok.pos, true) := by
  cases hv : d.trie.value w with
  | none => simp [storedTok, hv] at hs
  | some v =>
    have : d.tokens[v]? = some tok := by simpa [storedTok, hv] using hs
    simp [Dictionary.find, jump, isNode_of_value hv, hv, this]

theorem find_starts {d : Dictionary F D} {w : Bytes} (h : IdxOK d) (hw : w ≠ []) (hs : storedTok d w = none)
    (hn : StartsStored d w) : d.find w = some (F64.ofNat 0, [], true) := by
  have hv := (storedTok_none h).1 hs
  have := (startsStored_iff h hw).1 hn
  simp [Dictionary.find, jump, this, hv, hw]

theorem find_unknown {d : Dictionary F D} {w : Bytes} (h : IdxOK d) (hs : storedTok d w = none)
    (hn : ¬ StartsStored d w) : d.find w = some (F64.ofNat 0, [], false) := by
  have hv := (storedTok_none h).1 hs
  by_cases hw : w = []
  · subst hw; simp [Dictionary.find, jump, isNode, hv]
  · have := mt (startsStored_iff h hw).2 hn
    simp [Dictionary.find, jump, this, hv]

theorem encode_ne_nil {t : List Rune} (h : t ≠ []) : encode t ≠ [] := by
  cases t with
  | nil => exact absurd rfl h
  | cons r rs => simp [encodeRune_ne_nil]

theorem startsStored_of_stored {d : Dictionary F D} {w : Bytes} {tok : Token F D} (hs : storedTok d w = some tok) :
    StartsStored d w := ⟨w, tok, hs, List.prefix_rfl⟩

/-- `Find` on runes: the frequency is positive exactly for `posWord`, the flag says whether a stored word starts so. -/
theorem findRunes_spec {d : Dictionary F D} {t : List Rune} (h : IdxOK d) (ht : t ≠ []) :
    ∃ f p b, findRunes d t = some (f, p, b) ∧ (b = true ↔ StartsStored d (encode t)) ∧
      F64.lt (F64.ofNat 0) f = posWord d t ∧ (if b then f else F64.ofNat 1) = pieceFreq d t := by
  unfold findRunes
  cases hs : storedTok d (encode t) with
  | some tok =>
    exact ⟨tok.freq, tok.pos, true, find_stored hs, by simp [startsStored_of_stored hs], by simp [posWord, hs],
      by simp [pieceFreq, hs]⟩
  | none =>
    by_cases hn : StartsStored d (encode t)
    · refine ⟨_, _, true, find_starts h (encode_ne_nil ht) hs hn, by simp [hn], ?_, by simp [pieceFreq, hs, hn]⟩
      simp [posWord, hs, F64.zero_lt_zero]
    · refine ⟨_, _, false, find_unknown h hs hn, by simp [hn], ?_, by simp [pieceFreq, hs, hn]⟩
      simp [posWord, hs, F64.zero_lt_zero]

theorem posWord_starts {d : Dictionary F D} {t u : List Rune} (hu : posWord d u = true) (hp : t <+: u) :
    StartsStored d (encode t) := by
  unfold posWord at hu
  cases hs : storedTok d (encode u) with
  | none => simp [hs] at hu
  | some tok =>
    obtain ⟨v, rfl⟩ := hp
    exact ⟨encode (t ++ v), tok, hs, by rw [encode_append]; exact List.prefix_append _ _⟩

theorem slice_ne_nil {α : Type} (rs : List α) (k j : Nat) (hk : k < rs.length) (hj : k < j) : slice rs k j ≠ [] := by
  intro h
  have := congrArg List.length h
  simp [slice] at this
  omega

theorem slice_prefix {α : Type} (rs : List α) (k i j : Nat) (h : i ≤ j) : slice rs k i <+: slice rs k j := by
  unfold slice
  exact List.take_prefix_take_left (by omega)

/-- The ends of the positive words starting at `k` and reaching position `i` or further. -/
def endsFrom (d : Dictionary F D) (rs : List Rune) (k i : Nat) : List Nat :=
  (List.range' i (rs.length - i)).filter fun j => posWord d (slice rs k (j + 1))

theorem dagEnds_eq {d : Dictionary F D} (h : IdxOK d) (rs : List Rune) (k : Nat) (n i : Nat) (hk : k ≤ i) (hi : i < rs.length)
    (hn : rs.length - i ≤ n) : dagEnds d rs k n i = some (endsFrom d rs k i) := by
  induction n generalizing i with
  | zero => omega
  | succ n ih =>
    obtain ⟨f, p, b, h1, h2, h3, _⟩ := findRunes_spec (t := slice rs k (i + 1)) h (slice_ne_nil _ _ _ (by omega) (by omega))
    unfold dagEnds
    rw [h1]
    simp only
    have hcons : List.range' i (rs.length - i) = i :: List.range' (i + 1) (rs.length - (i + 1)) := by
      obtain ⟨m, hm⟩ : ∃ m, rs.length - i = m + 1 := ⟨rs.length - i - 1, by omega⟩
      rw [hm, List.range'_succ]
      congr 2; omega
    cases b with
    | false =>
      simp only [Bool.not_false, if_true, Option.some.injEq]
      have hno : ¬ StartsStored d (encode (slice rs k (i + 1))) := by simpa using h2
      symm
      unfold endsFrom
      rw [List.filter_eq_nil_iff]
      intro j hj hpos
      simp at hj
      exact hno (posWord_starts hpos (slice_prefix rs k _ _ (by omega)))
    | true =>
      simp only [Bool.not_true, Bool.false_eq_true, if_false]
      rw [h3]
      by_cases he : i + 1 ≥ rs.length
      · rw [if_pos he]
        have : rs.length - (i + 1) = 0 := by omega
        unfold endsFrom
        rw [hcons, this]
        cases hp : posWord d (slice rs k (i + 1)) <;> simp [hp]
      · rw [if_neg he, ih (i + 1) (by omega) (by omega) (by omega)]
        unfold endsFrom
        rw [hcons, List.filter_cons]
        cases hp : posWord d (slice rs k (i + 1)) <;> simp

/-- `dag[k]` in the specification. -/
def dagSpec (d : Dictionary F D) (rs : List Rune) (k : Nat) : List Nat :=
  if endsFrom d rs k k = [] then [k] else endsFrom d rs k k

theorem dagAt_eq {d : Dictionary F D} (h : IdxOK d) (rs : List Rune) (k : Nat) (hk : k < rs.length) :
    dagAt d rs k = some (dagSpec d rs k) := by
  unfold dagAt
  rw [dagEnds_eq h rs k _ k (by omega) hk (by omega)]
  rfl

theorem mapOpt_eq_map {α β : Type} {f : α → Option β} {g : α → β} {l : List α} (h : ∀ a ∈ l, f a = some (g a)) :
    mapOpt f l = some (l.map g) := by
  induction l with
  | nil => rfl
  | cons a l ih =>
    simp only [mapOpt, Option.bind_eq_bind, h a (by simp), ih (fun b hb => h b (by simp [hb]))]
    rfl

theorem getDag_eq {d : Dictionary F D} (h : IdxOK d) (rs : List Rune) :
    getDag d rs = some ((List.range rs.length).map (dagSpec d rs)) :=
  mapOpt_eq_map fun k hk => dagAt_eq h rs k (by simpa using hk)

theorem mem_endsFrom {d : Dictionary F D} {rs : List Rune} {k i j : Nat} :
    j ∈ endsFrom d rs k i ↔ i ≤ j ∧ j < rs.length ∧ posWord d (slice rs k (j + 1)) = true := by
  simp only [endsFrom, List.mem_filter, List.mem_range'_1]
  constructor
  · rintro ⟨h1, h2⟩; exact ⟨h1.1, by omega, h2⟩
  · rintro ⟨h1, h2, h3⟩; exact ⟨⟨h1, by omega⟩, h3⟩

theorem slice_eq_take_drop {α : Type} (rs : List α) (k j : Nat) : slice rs k j = (rs.drop k).take (j - k) := rfl

theorem drop_eq_slice_append {α : Type} (rs : List α) (k j : Nat) (h : k ≤ j) : rs.drop k = slice rs k j ++ rs.drop j := by
  unfold slice
  have : rs.drop j = (rs.drop k).drop (j - k) := by rw [List.drop_drop]; congr 1; omega
  rw [this, List.take_append_drop]

/-- A positive word starting at `k` gives an end. -/
theorem startsWord_iff {d : Dictionary F D} {rs : List Rune} {k : Nat} (hk : k < rs.length) :
    StartsWord d (rs.drop k) ↔ endsFrom d rs k k ≠ [] := by
  constructor
  · rintro ⟨u, hu, hne, hpos⟩
    have hlen : 0 < u.length := List.length_pos_iff.2 hne
    have hle : u.length ≤ rs.length - k := by simpa using hu.length_le
    have hus : u = slice rs k (k + u.length - 1 + 1) := by
      rw [slice_eq_take_drop]
      have : k + u.length - 1 + 1 - k = u.length := by omega
      rw [this]
      exact List.prefix_iff_eq_take.1 hu
    have : (k + u.length - 1) ∈ endsFrom d rs k k := mem_endsFrom.2 ⟨by omega, by omega, by rw [← hus]; exact hpos⟩
    exact List.ne_nil_of_mem this
  · intro h
    obtain ⟨j, hj⟩ := List.exists_mem_of_ne_nil _ h
    obtain ⟨h1, h2, h3⟩ := mem_endsFrom.1 hj
    exact ⟨slice rs k (j + 1), by rw [slice_eq_take_drop]; exact List.take_prefix _ _, slice_ne_nil _ _ _ hk (by omega), h3⟩

theorem mem_dagSpec {d : Dictionary F D} {rs : List Rune} {k j : Nat} (hk : k < rs.length) :
    j ∈ dagSpec d rs k ↔ k ≤ j ∧ j < rs.length ∧
      (posWord d (slice rs k (j + 1)) = true ∨ (j = k ∧ ¬ StartsWord d (rs.drop k))) := by
  unfold dagSpec
  rw [startsWord_iff hk]
  split
  · rename_i h
    have h0 : ∀ j, ¬ (k ≤ j ∧ j < rs.length ∧ posWord d (slice rs k (j + 1)) = true) := by
      intro j hj
      have := mem_endsFrom.2 hj
      rw [h] at this; simp at this
    simp only [List.mem_singleton, h, ne_eq, not_true_eq_false, not_false_eq_true, and_true]
    constructor
    · rintro rfl; exact ⟨Nat.le_refl _, hk, .inr rfl⟩
    · rintro ⟨a, b, c | c⟩
      · exact absurd ⟨a, b, c⟩ (h0 j)
      · exact c
  · rename_i h
    simp [mem_endsFrom, h]

/-- A candidate end gives a first piece of a route, and conversely. -/
theorem route_cons {d : Dictionary F D} {rs : List Rune} {k j : Nat} {ps : List (List Rune)} (hk : k < rs.length)
    (hj : j ∈ dagSpec d rs k) (hr : IsRoute d (rs.drop (j + 1)) ps) : IsRoute d (rs.drop k) (slice rs k (j + 1) :: ps) := by
  obtain ⟨h1, h2, h3⟩ := (mem_dagSpec hk).1 hj
  rw [drop_eq_slice_append rs k (j + 1) (by omega)]
  refine .cons (slice_ne_nil _ _ _ hk (by omega)) ?_ hr
  rcases h3 with h3 | ⟨rfl, h3⟩
  · exact .inl h3
  · right
    refine ⟨by rw [slice_length _ _ _ (by omega)]; omega, ?_⟩
    rw [← drop_eq_slice_append rs j (j + 1) (by omega)]
    exact h3

theorem route_uncons {d : Dictionary F D} {rs : List Rune} {k : Nat} {t : List Rune} {ps : List (List Rune)} (hk : k < rs.length)
    (hr : IsRoute d (rs.drop k) (t :: ps)) :
    ∃ j ∈ dagSpec d rs k, t = slice rs k (j + 1) ∧ IsRoute d (rs.drop (j + 1)) ps ∧ t.length = j + 1 - k := by
  generalize he : rs.drop k = text at hr
  cases hr with
  | @cons _ rest _ hne hkind hrest =>
    have hlen : 0 < t.length := List.length_pos_iff.2 hne
    have hle : t.length ≤ rs.length - k := by
      have := congrArg List.length he
      simp at this; omega
    have ht : t = slice rs k (k + t.length - 1 + 1) := by
      rw [slice_eq_take_drop, he]
      have : k + t.length - 1 + 1 - k = t.length := by omega
      rw [this]; simp
    have hd : rs.drop (k + t.length - 1 + 1) = rest := by
      have : k + t.length - 1 + 1 = k + t.length := by omega
      rw [this, ← List.drop_drop, he]; simp
    refine ⟨k + t.length - 1, ?_, ht, by rw [hd]; exact hrest, by omega⟩
    rw [mem_dagSpec hk, ← ht, he]
    refine ⟨by omega, by omega, ?_⟩
    rcases hkind with h | ⟨h1, h2⟩
    · exact .inl h
    · exact .inr ⟨by omega, h2⟩

/-! ## The routes -/

theorem routeCand_eq {d : Dictionary F D} (h : IdxOK d) (rs : List Rune) (idx i : Nat) (rest : F)
    (h1 : idx ≤ i) (h2 : i < rs.length) :
    routeCand d rs (T) idx i rest = some ⟨F64.add (pieceScoreBy T d (slice rs idx (i + 1))) rest, i⟩ := by
  obtain ⟨f, p, b, e1, _, _, e4⟩ := findRunes_spec (t := slice rs idx (i + 1)) h (slice_ne_nil _ _ _ (by omega) (by omega))
  unfold routeCand
  rw [e1]
  simp only [pieceScoreBy, ← e4]

/-- The score of the route stored at a position. -/
def routeFreq (routes : List (Nat × Route F)) (j : Nat) : F := ((routes.lookup j).map (·.freq)).getD (F64.ofNat 0)

/-- The candidate at `idx` ending at `i`. -/
noncomputable def candOf (T : F) (d : Dictionary F D) (rs : List Rune) (routes : List (Nat × Route F)) (idx i : Nat) : Route F :=
  ⟨F64.add (pieceScoreBy T d (slice rs idx (i + 1))) (routeFreq routes (i + 1)), i⟩

theorem routeAt_eq {d : Dictionary F D} (h : IdxOK d) (rs : List Rune) (idx : Nat) (routes : List (Nat × Route F))
    (is : List Nat) (v : Option (Route F)) (his : ∀ i ∈ is, idx ≤ i ∧ i < rs.length) :
    routeAt d rs (T) idx routes is v =
      some (is.foldl (fun v i => some (routeBetter v (candOf T d rs routes idx i))) v) := by
  induction is generalizing v with
  | nil => rfl
  | cons i is ih =>
    obtain ⟨h1, h2⟩ := his i (by simp)
    unfold routeAt
    rw [routeCand_eq h rs idx i _ h1 h2]
    simp only
    rw [ih _ (fun j hj => his j (by simp [hj]))]
    rfl

theorem foldl_better_mem {d : Dictionary F D} {rs : List Rune} {idx : Nat} {routes : List (Nat × Route F)}
    (is : List Nat) (v : Route F) :
    ∃ r, is.foldl (fun v i => some (routeBetter v (candOf T d rs routes idx i))) (some v) = some r ∧
      (r = v ∨ ∃ i ∈ is, r = candOf T d rs routes idx i) := by
  induction is generalizing v with
  | nil => exact ⟨v, rfl, .inl rfl⟩
  | cons i is ih =>
    obtain ⟨r, h1, h2⟩ := ih (routeBetter (some v) (candOf T d rs routes idx i))
    refine ⟨r, h1, ?_⟩
    rcases h2 with h2 | ⟨j, hj, h2⟩
    · unfold routeBetter at h2
      simp only at h2
      split at h2
      · exact .inr ⟨i, by simp, h2⟩
      · exact .inl h2
    · exact .inr ⟨j, by simp [hj], h2⟩

/-- The entry `calc` computes for a position: one of the candidates. -/
theorem best_exists {d : Dictionary F D} {rs : List Rune} {idx : Nat} {routes : List (Nat × Route F)}
    (is : List Nat) (hne : is ≠ []) :
    ∃ i ∈ is, is.foldl (fun v i => some (routeBetter v (candOf T d rs routes idx i))) none = some (candOf T d rs routes idx i) := by
  cases is with
  | nil => exact absurd rfl hne
  | cons i is =>
    obtain ⟨r, h1, h2⟩ := foldl_better_mem (d := d) (rs := rs) (idx := idx) (routes := routes) is (candOf T d rs routes idx i)
    rcases h2 with rfl | ⟨j, hj, rfl⟩
    · exact ⟨i, by simp, h1⟩
    · exact ⟨j, by simp [hj], h1⟩

/-- The map of routes is complete from position `k` on. -/
structure RoutesFrom (T : F) (d : Dictionary F D) (rs : List Rune) (k : Nat) (routes : List (Nat × Route F)) : Prop where
  above : ∀ e ∈ routes, k ≤ e.1
  last : routes.lookup rs.length = some ⟨F64.ofNat 0, 0⟩
  entry : ∀ j, k ≤ j → j < rs.length → ∃ i ∈ dagSpec d rs j, routes.lookup j = some (candOf T d rs routes j i) ∧
    (dagSpec d rs j).foldl (fun v i => some (routeBetter v (candOf T d rs routes j i))) none = some (candOf T d rs routes j i)

theorem dagSpec_ne_nil {d : Dictionary F D} (rs : List Rune) (k : Nat) : dagSpec d rs k ≠ [] := by
  unfold dagSpec
  split
  · simp
  · assumption

theorem lookup_cons_ne (routes : List (Nat × Route F)) (k j : Nat) (r : Route F) (h : j ≠ k) :
    List.lookup j ((k, r) :: routes) = routes.lookup j := by
  rw [List.lookup_cons]
  have : (j == k) = false := by simpa using h
  rw [this]

theorem candOf_cons {d : Dictionary F D} {rs : List Rune} {routes : List (Nat × Route F)} {k j i : Nat} {r : Route F}
    (h : k < i + 1) : candOf T d rs ((k, r) :: routes) j i = candOf T d rs routes j i := by
  simp [candOf, routeFreq, lookup_cons_ne routes k (i + 1) r (by omega)]

theorem foldl_congr_mem {α β : Type} (f g : β → α → β) (l : List α) (b : β) (h : ∀ b, ∀ a ∈ l, f b a = g b a) :
    l.foldl f b = l.foldl g b := by
  induction l generalizing b with
  | nil => rfl
  | cons a l ih =>
    rw [List.foldl_cons, List.foldl_cons, h b a (by simp)]
    exact ih _ fun b a ha => h b a (by simp [ha])

theorem calcLoop_eq {d : Dictionary F D} (h : IdxOK d) (rs : List Rune) (k : Nat) (hk : k ≤ rs.length)
    (routes : List (Nat × Route F)) (hR : RoutesFrom T d rs k routes) :
    ∃ R, calcLoop d rs (T) ((List.range rs.length).map (dagSpec d rs)) k routes = some R ∧ RoutesFrom T d rs 0 R := by
  induction k generalizing routes with
  | zero => exact ⟨routes, rfl, hR⟩
  | succ k ih =>
    have hget : ((List.range rs.length).map (dagSpec d rs)).getD k [] = dagSpec d rs k := by
      simp [List.getD_eq_getElem?_getD, show k < rs.length by omega]
    have hmem : ∀ i ∈ dagSpec d rs k, k ≤ i ∧ i < rs.length := fun i hi =>
      let ⟨a, b, _⟩ := (mem_dagSpec (by omega)).1 hi; ⟨a, b⟩
    obtain ⟨i, hi, hbest⟩ := best_exists (d := d) (rs := rs) (idx := k) (routes := routes) (dagSpec d rs k) (dagSpec_ne_nil rs k)
    unfold calcLoop
    rw [hget, routeAt_eq h rs k routes _ none hmem, hbest]
    simp only
    apply ih (by omega)
    refine ⟨?_, ?_, ?_⟩
    · intro e he
      rcases List.mem_cons.1 he with rfl | he
      · exact Nat.le_refl _
      · have := hR.above e he; omega
    · rw [lookup_cons_ne _ _ _ _ (by omega)]; exact hR.last
    · intro j hj hjn
      by_cases hjk : j = k
      · subst hjk
        refine ⟨i, hi, ?_, ?_⟩
        · rw [candOf_cons (by have := hmem i hi; omega)]; simp [List.lookup_cons]
        · rw [candOf_cons (by have := hmem i hi; omega), ← hbest]
          apply foldl_congr_mem
          intro b a ha
          rw [candOf_cons (by have := hmem a ha; omega)]
      · obtain ⟨i', hi', h1, h2⟩ := hR.entry j (by omega) hjn
        have hmem' : ∀ i ∈ dagSpec d rs j, j ≤ i ∧ i < rs.length := fun i hi =>
          let ⟨a, b, _⟩ := (mem_dagSpec hjn).1 hi; ⟨a, b⟩
        refine ⟨i', hi', ?_, ?_⟩
        · rw [candOf_cons (by have := hmem' i' hi'; omega), lookup_cons_ne _ _ _ _ hjk, h1]
        · rw [candOf_cons (by have := hmem' i' hi'; omega), ← h2]
          apply foldl_congr_mem
          intro b a ha
          rw [candOf_cons (by have := hmem' a ha; omega)]

theorem calcRoutes_eq {d : Dictionary F D} (h : IdxOK d) (rs : List Rune) :
    ∃ R, calcRoutes d rs = some R ∧ RoutesFrom (F64.log d.totalFreq) d rs 0 R := by
  unfold calcRoutes
  rw [getDag_eq h]
  exact calcLoop_eq h rs rs.length (Nat.le_refl _) _ ⟨by simp, by simp [List.lookup_cons], fun j h1 h2 => by omega⟩

/-- The walk along the routes is a route through the rest of the text, and its score is the stored one. -/
theorem walk_eq {d : Dictionary F D} {rs : List Rune} {R : List (Nat × Route F)} (hR : RoutesFrom T d rs 0 R) (n x : Nat)
    (hx : x ≤ rs.length) (hn : rs.length - x ≤ n) :
    ∃ ps, walk rs R n x = some ps ∧ IsRoute d (rs.drop x) ps ∧ routeFreq R x = scoreBy T d ps := by
  induction n generalizing x with
  | zero =>
    have : x = rs.length := by omega
    subst this
    refine ⟨[], by simp [walk], by simpa using IsRoute.nil, by simp [routeFreq, hR.last, scoreBy]⟩
  | succ n ih =>
    by_cases hlt : x < rs.length
    · obtain ⟨i, hi, h1, _⟩ := hR.entry x (by omega) hlt
      obtain ⟨a, b, _⟩ := (mem_dagSpec hlt).1 hi
      obtain ⟨ps, e1, e2, e3⟩ := ih (i + 1) (by omega) (by omega)
      refine ⟨slice rs x (i + 1) :: ps, ?_, route_cons hlt hi e2, ?_⟩
      · unfold walk
        have hy : ((R.lookup x).map (·.index)).getD 0 + 1 = i + 1 := by simp [h1, candOf]
        rw [if_pos hlt]
        dsimp only
        rw [hy, if_pos ⟨by omega, by omega⟩, e1]
        rfl
      · simp only [routeFreq, h1, Option.map_some, Option.getD_some, candOf, scoreBy, List.foldr_cons]
        rw [show ps.foldr (fun t acc => F64.add (pieceScoreBy T d t) acc) (F64.ofNat 0) = scoreBy T d ps from rfl, ← e3]
        rfl
    · have : x = rs.length := by omega
      subst this
      refine ⟨[], by simp [walk], by simpa using IsRoute.nil, by simp [routeFreq, hR.last, scoreBy]⟩

theorem isRoute_flatten {d : Dictionary F D} {text : List Rune} {ps : List (List Rune)} (h : IsRoute d text ps) : ps.flatten = text := by
  induction h with
  | nil => rfl
  | cons _ _ _ ih => simp [ih]

end Gse
