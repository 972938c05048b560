import Verif.Spec.TextRank
import Verif.Proofs.Idf
import Verif.Proofs.PosViterbi

/-! TextRank: counting pairs, the graph, the rounds and the scale. -/

namespace Gse
open Spec

set_option linter.unusedSectionVars false

section
variable {F D : Type} [F64 F] [F32 D] [Narrow F D]

/-! ### Counting pairs -/

theorem allowedAt_succ (allow : List Bytes) (p : SegPos) (rest : List SegPos) (i : Nat) (w : Bytes) :
    AllowedAt allow (p :: rest) (i + 1) w ↔ AllowedAt allow rest i w := by simp [AllowedAt]

theorem allowedAt_zero (allow : List Bytes) (p : SegPos) (rest : List SegPos) (w : Bytes) :
    AllowedAt allow (p :: rest) 0 w ↔ p.pos ∈ allow ∧ p.text = w := by simp [AllowedAt]

theorem filter_take_length (allow : List Bytes) (b : Bytes) (l : List SegPos) (k : Nat) :
    ((List.range l.length).filter fun j => decide (j < k ∧ AllowedAt allow l j b)).length =
      ((l.take k).filter fun q => decide (q.pos ∈ allow ∧ q.text = b)).length := by
  induction l generalizing k with
  | nil => simp
  | cons p l ih =>
    cases k with
    | zero => simp
    | succ k =>
      rw [List.length_cons, List.range_succ_eq_map, List.take_succ_cons, List.filter_cons, List.filter_cons, List.filter_map]
      have e : ((fun j => decide (j < k + 1 ∧ AllowedAt allow (p :: l) j b)) ∘ Nat.succ) = fun j => decide (j < k ∧ AllowedAt allow l j b) := by
        funext j
        simp only [Function.comp, Nat.succ_eq_add_one, allowedAt_succ, Nat.add_lt_add_iff_right]
      rw [e]
      have h := ih k
      by_cases hc : p.pos ∈ allow ∧ p.text = b
      · rw [if_pos (by simp [allowedAt_zero, hc]), if_pos (by simp [hc])]
        rw [List.length_cons, List.length_cons, List.length_map, h]
      · rw [if_neg (by simpa [allowedAt_zero] using hc), if_neg (by simpa using hc), List.length_map, h]

theorem coCount_cons (allow : List Bytes) (p : SegPos) (rest : List SegPos) (a b : Bytes) :
    coCount allow (p :: rest) a b =
      (if p.pos ∈ allow ∧ p.text = a then ((rest.take 4).filter fun q => decide (q.pos ∈ allow ∧ q.text = b)).length else 0) +
        coCount allow rest a b := by
  have e2 : ∀ i, ((List.range (rest.length + 1)).filter fun j =>
      decide (i + 1 < j ∧ j ≤ i + 1 + 4 ∧ AllowedAt allow (p :: rest) (i + 1) a ∧ AllowedAt allow (p :: rest) j b)) =
      ((List.range rest.length).filter fun j => decide (i < j ∧ j ≤ i + 4 ∧ AllowedAt allow rest i a ∧ AllowedAt allow rest j b)).map Nat.succ := by
    intro i
    rw [List.range_succ_eq_map, List.filter_cons_of_neg (by simp), List.filter_map]
    congr 2
    funext j
    simp only [Function.comp, Nat.succ_eq_add_one, allowedAt_succ]
    congr 1
    simp only [eq_iff_iff]
    constructor
    · rintro ⟨h1, h2, h3⟩; exact ⟨by omega, by omega, h3⟩
    · rintro ⟨h1, h2, h3⟩; exact ⟨by omega, by omega, h3⟩
  have e1 : ((List.range (rest.length + 1)).filter fun j =>
      decide (0 < j ∧ j ≤ 0 + 4 ∧ AllowedAt allow (p :: rest) 0 a ∧ AllowedAt allow (p :: rest) j b)).length =
      if p.pos ∈ allow ∧ p.text = a then ((rest.take 4).filter fun q => decide (q.pos ∈ allow ∧ q.text = b)).length else 0 := by
    rw [List.range_succ_eq_map, List.filter_cons_of_neg (by simp), List.filter_map, List.length_map, ← filter_take_length]
    by_cases hc : p.pos ∈ allow ∧ p.text = a
    · rw [if_pos hc]
      congr 2
      funext j
      simp only [Function.comp, Nat.succ_eq_add_one, allowedAt_succ, allowedAt_zero]
      congr 1
      simp only [eq_iff_iff]
      constructor
      · rintro ⟨h1, h2, _, h3⟩; exact ⟨by omega, h3⟩
      · rintro ⟨h1, h3⟩; exact ⟨by omega, by omega, hc, h3⟩
    · rw [if_neg hc, List.length_eq_zero_iff, List.filter_eq_nil_iff]
      intro j _
      simp only [Function.comp, allowedAt_zero, decide_eq_true_eq]
      rintro ⟨_, _, h, _⟩
      exact hc h
  unfold coCount
  rw [List.length_cons]
  conv => lhs; rw [show List.range (rest.length + 1) = 0 :: (List.range rest.length).map Nat.succ from List.range_succ_eq_map]
  rw [List.flatMap_cons, List.length_append, ← List.range_succ_eq_map, e1, List.flatMap_map]
  congr 1
  simp only [Nat.succ_eq_add_one, e2]
  rw [List.length_flatMap, List.length_flatMap]
  simp

theorem rankPairs_count (allow : List Bytes) (items : List SegPos) (a b : Bytes) :
    (rankPairs allow items).count (a, b) = coCount allow items a b := by
  induction items with
  | nil => simp [rankPairs, coCount]
  | cons p rest ih =>
    rw [rankPairs, List.count_append, ih, coCount_cons]
    congr 1
    by_cases hp : p.pos ∈ allow
    · rw [if_pos hp, List.count, List.countP_map, List.countP_eq_length_filter, List.filter_filter]
      by_cases ha : p.text = a
      · rw [if_pos ⟨hp, ha⟩]
        congr 2
        funext q
        rw [Bool.eq_iff_iff]
        simp only [Function.comp, Bool.and_eq_true, beq_iff_eq, decide_eq_true_eq, ha, Prod.mk.injEq, true_and]
        exact and_comm
      · rw [if_neg (fun h => ha h.2), List.length_eq_zero_iff, List.filter_eq_nil_iff]
        intro q _
        simp [ha]
    · rw [if_neg hp, if_neg (fun h => hp h.1)]; rfl

/-- The map of counts after a list of pairs. -/
theorem countPairs_get [F64Count F] (L : List (Bytes × Bytes)) (m : GoMap (Bytes × Bytes) F) (c : Bytes × Bytes → Nat)
    (hm : (m.map Prod.fst).Nodup) (h : ∀ p, m.get p = if c p = 0 then none else some (F64.ofNat (c p)))
    (hb : ∀ p, c p + L.count p ≤ 2 ^ 53) :
    ((L.foldl countPair m).map Prod.fst).Nodup ∧
      ∀ p, (L.foldl countPair m).get p = if c p + L.count p = 0 then none else some (F64.ofNat (c p + L.count p)) := by
  induction L generalizing m c with
  | nil => exact ⟨hm, fun p => by rw [List.count_nil, Nat.add_zero]; exact h p⟩
  | cons q L ih =>
    rw [List.foldl_cons]
    have hq := hb q
    rw [List.count_cons_self] at hq
    have e : countPair m q = m.set q (F64.ofNat (c q + 1)) := by
      unfold countPair
      rw [h q]
      by_cases h0 : c q = 0
      · rw [if_pos h0, h0]
      · rw [if_neg h0]
        simp only
        rw [F64Count.ofNat_add _ _ (by omega)]
    rw [e]
    obtain ⟨h1, h2⟩ := ih (m.set q (F64.ofNat (c q + 1))) (fun p => if p = q then c q + 1 else c p) (nodup_set hm _ _) (by
      intro p
      rw [get_set]
      by_cases hp : p = q
      · simp [hp]
      · simp [hp, h p]) (by
      intro p
      have := hb p
      by_cases hp : p = q
      · subst hp; simp only [if_true]; rw [List.count_cons_self] at this; omega
      · simp only [hp, if_false]; rw [List.count_cons_of_ne (fun h => hp h.symm)] at this; exact this)
    refine ⟨h1, fun p => ?_⟩
    rw [h2 p]
    by_cases hp : p = q
    · subst hp; simp only [if_true, List.count_cons_self]
      rw [show c p + (L.count p + 1) = c p + 1 + L.count p by omega]
    · simp only [hp, if_false, List.count_cons_of_ne (fun h => hp h.symm)]

theorem rankPairs_length (allow : List Bytes) (items : List SegPos) : (rankPairs allow items).length ≤ 4 * items.length := by
  induction items with
  | nil => simp [rankPairs]
  | cons p rest ih =>
    rw [rankPairs, List.length_append, List.length_cons]
    have : (if p.pos ∈ allow then ((rest.take 4).filter fun q => decide (q.pos ∈ allow)).map fun q => (p.text, q.text) else []).length ≤ 4 := by
      split
      · rw [List.length_map]
        exact Nat.le_trans (List.length_filter_le _ _) (by rw [List.length_take]; omega)
      · simp
    omega

theorem cm_edges [F64Count F] (ch : Choice) (allow : List Bytes) (items : List SegPos) (hlen : 4 * items.length ≤ 2 ^ 53) :
    IsEdges (F := F) allow items (ch.iter 0 ((rankPairs allow items).foldl countPair [])) := by
  obtain ⟨h1, h2⟩ := countPairs_get (F := F) (rankPairs allow items) [] (fun _ => 0) (by simp) (by intro p; rfl) (by
    intro p
    have := List.count_le_length (a := p) (l := rankPairs allow items)
    have := rankPairs_length allow items
    omega)
  have hp := ch.iter_perm 0 ((rankPairs allow items).foldl countPair ([] : GoMap (Bytes × Bytes) F))
  refine ⟨(hp.map _).nodup_iff.2 h1, fun a b v => ?_⟩
  rw [hp.mem_iff, ← lookup_mem h1]
  have := h2 (a, b)
  rw [rankPairs_count] at this
  simp only [Nat.zero_add] at this
  unfold GoMap.get at this
  rw [this]
  by_cases h0 : coCount allow items a b = 0
  · simp [h0]
  · rw [if_neg h0]
    simp only [Option.some.injEq]
    exact ⟨fun h => ⟨by omega, h.symm⟩, fun h => h.2.symm⟩

/-! ### The graph -/

def toEdge (e : Bytes × F) : Edge F := ⟨e.1, e.2⟩

theorem addEnd_get (u : Graph F) (a b : Bytes) (w : F) (n : Bytes) :
    ((u.addEnd a b w).graph.get n).getD [] = (u.graph.get n).getD [] ++ (if a = n then [⟨b, w⟩] else []) := by
  unfold Graph.addEnd
  cases h : u.graph.get a with
  | none =>
    simp only
    rw [get_set]
    by_cases hn : n = a
    · subst hn; simp [h]
    · simp [hn, Ne.symm hn]
  | some es =>
    simp only
    rw [get_set]
    by_cases hn : n = a
    · subst hn; simp [h]
    · simp [hn, Ne.symm hn]

theorem addEnd_keys {u : Graph F} (h : u.keys = u.graph.map Prod.fst) (hn : u.keys.Nodup) (a b : Bytes) (w : F) :
    (u.addEnd a b w).keys = (u.addEnd a b w).graph.map Prod.fst ∧ (u.addEnd a b w).keys.Nodup ∧
      ∀ n, n ∈ (u.addEnd a b w).keys ↔ n = a ∨ n ∈ u.keys := by
  unfold Graph.addEnd
  have hd : (u.graph.map Prod.fst).Nodup := h ▸ hn
  cases hg : u.graph.get a with
  | none =>
    have ha : a ∉ u.graph.map Prod.fst := lookup_none.1 hg
    simp only
    rw [set_absent ha, h, List.map_append]
    refine ⟨rfl, ?_, fun n => by simp [or_comm]⟩
    rw [List.nodup_append]
    refine ⟨hd, by simp, ?_⟩
    intro x hx y hy
    simp only [List.mem_singleton] at hy
    rintro rfl
    exact ha (hy ▸ hx)
  | some es =>
    have ha : a ∈ u.graph.map Prod.fst := get_isSome.1 (by rw [hg]; rfl)
    simp only
    have e : (u.graph.set a (es ++ [⟨b, w⟩])).map Prod.fst = u.graph.map Prod.fst := by
      unfold GoMap.set
      rw [if_pos (by unfold GoMap.get at hg; rw [hg]; rfl), List.map_map]
      apply List.map_congr_left
      intro p _
      simp only [Function.comp]
      split
      · rename_i hp; exact hp.symm
      · rfl
    rw [e]
    refine ⟨h, hn, fun n => ⟨.inr, ?_⟩⟩
    rintro (rfl | h')
    · rw [h]; exact ha
    · exact h'

structure GraphInv (es : List ((Bytes × Bytes) × F)) (u : Graph F) : Prop where
  keys : u.keys = u.graph.map Prod.fst
  nodup : u.keys.Nodup
  mem : ∀ n, n ∈ u.keys ↔ ∃ e ∈ es, e.1.1 = n ∨ e.1.2 = n
  get : ∀ n, (u.graph.get n).getD [] = (nbrs es n).map toEdge

theorem graph_step {es : List ((Bytes × Bytes) × F)} {u : Graph F} (h : GraphInv es u) (e : (Bytes × Bytes) × F) :
    GraphInv (es ++ [e]) (u.addEdge e.1.1 e.1.2 e.2) := by
  obtain ⟨a1, a2, a3⟩ := addEnd_keys h.keys h.nodup e.1.1 e.1.2 e.2
  obtain ⟨b1, b2, b3⟩ := addEnd_keys a1 a2 e.1.2 e.1.1 e.2
  refine ⟨b1, b2, fun n => ?_, fun n => ?_⟩
  · rw [Graph.addEdge, b3, a3, h.mem]
    simp only [List.mem_append, List.mem_singleton]
    constructor
    · rintro (h | h | ⟨x, hx, h⟩)
      · exact ⟨e, .inr rfl, .inr h.symm⟩
      · exact ⟨e, .inr rfl, .inl h.symm⟩
      · exact ⟨x, .inl hx, h⟩
    · rintro ⟨x, hx | rfl, h⟩
      · exact .inr (.inr ⟨x, hx, h⟩)
      · rcases h with h | h
        · exact .inr (.inl h.symm)
        · exact .inl h.symm
  · rw [Graph.addEdge, addEnd_get, addEnd_get, h.get]
    unfold nbrs
    rw [List.flatMap_append, List.map_append, List.append_assoc]
    congr 1
    simp only [List.flatMap_cons, List.flatMap_nil, List.append_nil, List.map_append]
    congr 1
    · split <;> simp [toEdge]
    · split <;> simp [toEdge]

theorem graph_inv (es : List ((Bytes × Bytes) × F)) :
    GraphInv es (es.foldl (fun g p => g.addEdge p.1.1 p.1.2 p.2) Graph.new) := by
  have key : ∀ (es pre : List ((Bytes × Bytes) × F)) (u : Graph F), GraphInv pre u →
      GraphInv (pre ++ es) (es.foldl (fun g p => g.addEdge p.1.1 p.1.2 p.2) u) := by
    intro es
    induction es with
    | nil => intro pre u h; simpa using h
    | cons e es ih =>
      intro pre u h
      have := ih (pre ++ [e]) _ (graph_step h e)
      rw [List.append_assoc] at this
      exact this
  have := key es [] Graph.new ⟨rfl, by simp [Graph.new], by simp [Graph.new], by intro n; simp [Graph.new, GoMap.get, nbrs]⟩
  simpa using this

/-! ### Sorted words -/

theorem stringsSorted_pairwise : ∀ {l : List Bytes}, stringsSorted l = true → l.Pairwise fun a b => bytesLt b a = false := by
  intro l
  induction l with
  | nil => intro _; exact .nil
  | cons a l ih =>
    intro h
    cases l with
    | nil => simp
    | cons b l =>
      simp only [stringsSorted, Bool.and_eq_true, Bool.not_eq_true'] at h
      have h2 := ih h.2
      refine List.pairwise_cons.2 ⟨?_, h2⟩
      intro c hc
      rcases List.mem_cons.1 hc with rfl | hc
      · exact h.1
      · by_contra hca
        rw [Bool.not_eq_false] at hca
        rcases bytesLt_cotrans (b := b) hca with h3 | h3
        · rw [(List.pairwise_cons.1 h2).1 c hc] at h3; simp at h3
        · rw [h.1] at h3; simp at h3

theorem sortedKeys_spec (ch : Choice) {u : Graph F} (hn : u.keys.Nodup) :
    (u.sortedKeys ch).Perm u.keys ∧ (u.sortedKeys ch).Pairwise TextBefore := by
  have hp : (u.sortedKeys ch).Perm u.keys := by
    unfold Graph.sortedKeys
    split
    · exact .refl _
    · exact ch.sort_perm _ _
  refine ⟨hp, ?_⟩
  have h1 : (u.sortedKeys ch).Pairwise fun a b => bytesLt b a = false := by
    unfold Graph.sortedKeys
    split
    · rename_i h; exact stringsSorted_pairwise h
    · exact ch.sort_sorted _ _ ⟨fun a _ b _ h => bytesLt_asymm h, fun a _ b _ c _ h => bytesLt_cotrans h⟩
  have h2 : (u.sortedKeys ch).Nodup := hp.nodup_iff.2 hn
  refine (h1.and h2).imp ?_
  intro a b ⟨h3, h4⟩
  rw [← bytesLt_iff]
  by_contra hc
  rw [Bool.not_eq_true] at hc
  exact h4 (bytesLt_total hc h3)

/-! ### Rounds -/

theorem foldl_set_pairs {V W : Type} (f : Bytes → V → W) (g : GoMap Bytes V) (d : Bytes → V) (hg : ∀ p ∈ g, p.2 = d p.1) (m : GoMap Bytes W) :
    g.foldl (fun m p => m.set p.1 (f p.1 p.2)) m = (g.map Prod.fst).foldl (fun m k => m.set k (f k (d k))) m := by
  induction g generalizing m with
  | nil => rfl
  | cons p g ih =>
    rw [List.foldl_cons, List.map_cons, List.foldl_cons, hg p (by simp)]
    exact ih (fun q hq => hg q (by simp [hq])) _

theorem nbrs_mem {es : List ((Bytes × Bytes) × F)} {n b : Bytes} {w : F} (h : (b, w) ∈ nbrs es n) : ∃ e ∈ es, e.1.1 = b ∨ e.1.2 = b := by
  unfold nbrs at h
  rw [List.mem_flatMap] at h
  obtain ⟨e, he, h⟩ := h
  rw [List.mem_append] at h
  rcases h with h | h
  · split at h
    · simp only [List.mem_singleton, Prod.mk.injEq] at h
      exact ⟨e, he, .inr h.1.symm⟩
    · simp at h
  · split at h
    · simp only [List.mem_singleton, Prod.mk.injEq] at h
      exact ⟨e, he, .inl h.1.symm⟩
    · simp at h

theorem graph_get {es : List ((Bytes × Bytes) × F)} {u : Graph F} (h : GraphInv es u) : ∀ p ∈ u.graph, p.2 = (nbrs es p.1).map toEdge := by
  intro p hp
  have hd : (u.graph.map Prod.fst).Nodup := h.keys ▸ h.nodup
  have := (lookup_mem hd).2 (show (p.1, p.2) ∈ u.graph from hp)
  have h2 := h.get p.1
  unfold GoMap.get at h2
  rw [this] at h2
  exact h2

theorem wsInit_get (ch : Choice) {es : List ((Bytes × Bytes) × F)} {u : Graph F} (h : GraphInv es u) (n : Bytes) :
    (u.wsInit ch).get n = if n ∈ u.keys then some u.wsDef else none := by
  have hp := ch.iter_perm 1 u.graph
  unfold Graph.wsInit
  rw [foldl_set_pairs (fun _ _ => u.wsDef) _ (fun k => (nbrs es k).map toEdge) (fun p hq => graph_get h p (hp.subset hq)), get_foldl_set]
  have : n ∈ (ch.iter 1 u.graph).map Prod.fst ↔ n ∈ u.keys := by rw [h.keys]; exact (hp.map _).mem_iff
  simp only [this]
  rfl

theorem wsInit_nodup (ch : Choice) {es : List ((Bytes × Bytes) × F)} {u : Graph F} (h : GraphInv es u) : ((u.wsInit ch).map Prod.fst).Nodup := by
  have hp := ch.iter_perm 1 u.graph
  unfold Graph.wsInit
  rw [foldl_set_pairs (fun _ _ => u.wsDef) _ (fun k => (nbrs es k).map toEdge) (fun p hq => graph_get h p (hp.subset hq))]
  exact nodup_foldl_set _ _ _ (by simp)

theorem outSum_at (ch : Choice) {es : List ((Bytes × Bytes) × F)} {u : Graph F} (h : GraphInv es u) {n : Bytes} (hn : n ∈ u.keys) :
    at0 (u.outSum ch) n = outWeight es n := by
  have hp := ch.iter_perm 1 u.graph
  unfold at0 Graph.outSum
  rw [foldl_set_pairs (fun _ es => es.foldl (fun sum e => F64.add sum e.weight) (F64.ofNat 0)) _ (fun k => (nbrs es k).map toEdge)
    (fun p hq => graph_get h p (hp.subset hq)), get_foldl_set, if_pos (by rw [h.keys] at hn; exact (hp.map _).mem_iff.2 hn), Option.getD_some]
  unfold outWeight
  rw [List.foldl_map]
  rfl

theorem newRank_eq (ch : Choice) (K : RankConst F) {es : List ((Bytes × Bytes) × F)} {u : Graph F} (h : GraphInv es u) {ws : GoMap Bytes F}
    {v : Bytes → F} (hv : ∀ n ∈ u.keys, at0 ws n = v n) (n : Bytes) : u.newRank K (u.outSum ch) ws n = rankNew K es v n := by
  unfold Graph.newRank rankNew
  rw [h.get n]
  simp only
  congr 2
  rw [List.foldl_map]
  apply List.foldl_ext
  intro s e he
  have hk : e.1 ∈ u.keys := (h.mem _).2 (nbrs_mem (w := e.2) he)
  show F64.add s (F64.mul (F64.div e.2 (at0 (u.outSum ch) e.1)) (at0 ws e.1)) = _
  rw [outSum_at ch h hk, hv _ hk]

theorem sweep_eq (ch : Choice) (K : RankConst F) {es : List ((Bytes × Bytes) × F)} {u : Graph F} (h : GraphInv es u) (l : List Bytes)
    (hl : ∀ n ∈ l, n ∈ u.keys) {ws : GoMap Bytes F} {v : Bytes → F} (hn : (ws.map Prod.fst).Nodup) (hk : ∀ n, n ∈ ws.map Prod.fst ↔ n ∈ u.keys)
    (hv : ∀ n ∈ u.keys, at0 ws n = v n) :
    ((u.sweep K (u.outSum ch) l ws).map Prod.fst).Nodup ∧ (∀ n, n ∈ (u.sweep K (u.outSum ch) l ws).map Prod.fst ↔ n ∈ u.keys) ∧
      ∀ n ∈ u.keys, at0 (u.sweep K (u.outSum ch) l ws) n = rankRound K es l v n := by
  induction l generalizing ws v with
  | nil => exact ⟨hn, hk, hv⟩
  | cons a l ih =>
    unfold Graph.sweep rankRound
    rw [List.foldl_cons, List.foldl_cons]
    have ha := hl a (by simp)
    refine ih (fun n hx => hl n (by simp [hx])) (nodup_set hn _ _) ?_ ?_
    · intro n
      rw [mem_keys_set, hk]
      exact ⟨fun h' => h'.elim (fun e => e ▸ ha) id, .inr⟩
    · intro n hx
      rw [newRank_eq ch K h hv]
      unfold at0
      rw [get_set]
      by_cases hna : n = a
      · subst hna; simp
      · rw [if_neg hna, Function.update_of_ne hna]; exact hv n hx

theorem sweeps_eq (ch : Choice) (K : RankConst F) {es : List ((Bytes × Bytes) × F)} {u : Graph F} (h : GraphInv es u) (l : List Bytes)
    (hl : ∀ n ∈ l, n ∈ u.keys) (x : Nat) {ws : GoMap Bytes F} {v : Bytes → F} (hn : (ws.map Prod.fst).Nodup)
    (hk : ∀ n, n ∈ ws.map Prod.fst ↔ n ∈ u.keys) (hv : ∀ n ∈ u.keys, at0 ws n = v n) :
    ((u.sweeps K (u.outSum ch) l x ws).map Prod.fst).Nodup ∧ (∀ n, n ∈ (u.sweeps K (u.outSum ch) l x ws).map Prod.fst ↔ n ∈ u.keys) ∧
      ∀ n ∈ u.keys, at0 (u.sweeps K (u.outSum ch) l x ws) n = (rankRound K es l)^[x] v n := by
  induction x generalizing ws v with
  | zero => exact ⟨hn, hk, hv⟩
  | succ x ih =>
    obtain ⟨h1, h2, h3⟩ := sweep_eq ch K h l hl hn hk hv
    exact ih h1 h2 h3

/-! ### Smallest and largest value -/

theorem notLow_snoc {vs : List F} {w x : F} : NotLow (vs ++ [w]) x ↔ NotLow vs x ∨ (x = w ∧ ∃ u ∈ vs, F64.lt w u = false) := by
  constructor
  · rintro ⟨p, q, e, u, hu, hx⟩
    rcases List.eq_nil_or_concat q with rfl | ⟨q, y, rfl⟩
    · obtain ⟨rfl, e2⟩ := List.append_inj' e rfl
      simp only [List.cons.injEq, and_true] at e2
      subst e2
      exact .inr ⟨rfl, u, hu, hx⟩
    · left
      rw [List.concat_eq_append, ← List.cons_append, ← List.append_assoc] at e
      obtain ⟨rfl, _⟩ := List.append_inj' e rfl
      exact ⟨p, q, rfl, u, hu, hx⟩
  · rintro (⟨p, q, e, h⟩ | ⟨rfl, h⟩)
    · exact ⟨p, q ++ [w], by rw [e]; simp, h⟩
    · exact ⟨vs, [], rfl, h⟩

theorem notLow_mem {vs : List F} {x : F} (h : NotLow vs x) : x ∈ vs := by
  obtain ⟨p, q, rfl, _⟩ := h; simp

/-- The value `x` is a number between the constants. -/
def RankRange [F64Count F] (K : RankConst F) (x : F) : Prop :=
  F64Count.num x ∧ F64.lt x K.maxFloat = true ∧ F64.lt K.tiny x = true

theorem minMax_spec [F64Count F] (K : RankConst F) (vs : List F) (h : ∀ v ∈ vs, RankRange K v) :
    (vs ≠ [] → IsLeastSeen vs (minMax K vs).1) ∧ IsTopSeen K vs (minMax K vs).2 := by
  have key : ∀ (l pre : List F) (mm : F × F), (∀ v ∈ pre ++ l, RankRange K v) → (pre ≠ [] → IsLeastSeen pre mm.1) → (pre = [] → mm.1 = K.maxFloat) →
      IsTopSeen K pre mm.2 → (pre ++ l ≠ [] → IsLeastSeen (pre ++ l) (l.foldl minMaxStep mm).1) ∧ IsTopSeen K (pre ++ l) (l.foldl minMaxStep mm).2 := by
    intro l
    induction l with
    | nil => intro pre mm _ h1 _ h3; simpa using ⟨h1, h3⟩
    | cons w l ih =>
      intro pre mm hr h1 h2 h3
      have hw := hr w (by simp)
      have e : pre ++ w :: l = (pre ++ [w]) ++ l := by simp
      rw [e, List.foldl_cons]
      rw [e] at hr
      have hpre : ∀ v ∈ pre, RankRange K v := fun v hv => hr v (by simp [hv])
      by_cases h0 : pre = []
      · subst h0
        have e1 : minMaxStep mm w = (w, mm.2) := by
          unfold minMaxStep
          rw [h2 rfl, if_pos hw.2.1]
        rw [e1]
        refine ih ([] ++ [w]) (w, mm.2) hr (fun _ => ⟨by simp, ?_⟩) (by simp) ?_
        · intro v hv
          simp only [List.nil_append, List.mem_singleton] at hv
          subst hv
          exact num_irrefl hw.1
        · rcases h3 with ⟨⟨p, q, e, _⟩, _⟩ | ⟨_, h4⟩
          · simp at e
          · refine .inr ⟨fun x hx => ?_, h4⟩
            rw [notLow_snoc] at hx
            rcases hx with ⟨p, q, e, _⟩ | ⟨_, u, hu, _⟩
            · simp at e
            · simp at hu
      · obtain ⟨hm1, hm2⟩ := h1 h0
        have hmn := (hpre _ hm1).1
        unfold minMaxStep
        by_cases hlt : F64.lt w mm.1 = true
        · rw [if_pos hlt]
          have hall : ∀ u ∈ pre, F64.lt w u = true := by
            intro u hu
            rcases F64Count.lt_cotrans hw.1 (hpre u hu).1 hmn hlt with h4 | h4
            · exact h4
            · rw [hm2 u hu] at h4; simp at h4
          refine ih (pre ++ [w]) (w, mm.2) hr (fun _ => ⟨by simp, ?_⟩) (by simp) ?_
          · intro v hv
            rcases List.mem_append.1 hv with hv | hv
            · exact F64Count.lt_asymm hw.1 (hpre v hv).1 (hall v hv)
            · simp only [List.mem_singleton] at hv
              subst hv; exact num_irrefl hw.1
          · have hno : ∀ x, NotLow (pre ++ [w]) x ↔ NotLow pre x := by
              intro x
              rw [notLow_snoc]
              refine ⟨fun h => h.elim id ?_, .inl⟩
              rintro ⟨_, u, hu, h5⟩
              rw [hall u hu] at h5; simp at h5
            unfold IsTopSeen
            simp only [hno]
            exact h3
        · rw [if_neg hlt]
          rw [Bool.not_eq_true] at hlt
          have hwlow : NotLow (pre ++ [w]) w := notLow_snoc.2 (.inr ⟨rfl, mm.1, hm1, hlt⟩)
          have hleast : IsLeastSeen (pre ++ [w]) mm.1 := by
            refine ⟨by simp [hm1], fun v hv => ?_⟩
            rcases List.mem_append.1 hv with hv | hv
            · exact hm2 v hv
            · simp only [List.mem_singleton] at hv
              subst hv; exact hlt
          by_cases hgt : F64.lt mm.2 w = true
          · rw [if_pos hgt]
            refine ih (pre ++ [w]) (mm.1, w) hr (fun _ => hleast) (by simp) (.inl ⟨hwlow, ?_⟩)
            intro x hx
            rw [notLow_snoc] at hx
            rcases hx with hx | ⟨rfl, _⟩
            · rcases h3 with ⟨h4, h5⟩ | ⟨h4, _⟩
              · have hxn := (hpre x (notLow_mem hx)).1
                have hmn' := (hpre _ (notLow_mem h4)).1
                rw [Bool.eq_false_iff]
                intro hwx
                rcases F64Count.lt_cotrans hmn' hxn hw.1 hgt with h6 | h6
                · rw [h5 x hx] at h6; simp at h6
                · rw [F64Count.lt_asymm hw.1 hxn hwx] at h6; simp at h6
              · exact absurd hx (h4 x)
            · exact num_irrefl hw.1
          · rw [if_neg hgt]
            rw [Bool.not_eq_true] at hgt
            refine ih (pre ++ [w]) mm hr (fun _ => hleast) (by simp) ?_
            rcases h3 with ⟨h4, h5⟩ | ⟨h4, h5⟩
            · refine .inl ⟨notLow_snoc.2 (.inl h4), fun x hx => ?_⟩
              rw [notLow_snoc] at hx
              rcases hx with hx | ⟨rfl, _⟩
              · exact h5 x hx
              · exact hgt
            · rw [h5, hw.2.2] at hgt; simp at hgt
  have := key vs [] (K.maxFloat, K.tiny) (by simpa using h) (by simp) (fun _ => rfl) (.inr ⟨by rintro x ⟨p, q, e, _⟩; simp at e, rfl⟩)
  unfold minMax
  simpa using this

theorem minMax_rank (mm : F × F) (w : F) : rankWeight mm w = scaled mm.1 mm.2 w := rfl

theorem descending_iff {vs : List F} : Descending vs ↔ ∀ x, ¬ NotLow vs x := by
  constructor
  · rintro h x ⟨p, q, rfl, u, hu, hx⟩
    have := (List.pairwise_append.1 h).2.2 u hu x (by simp)
    rw [hx] at this; simp at this
  · intro h
    induction vs using List.reverseRecOn with
    | nil => exact .nil
    | append_singleton vs w ih =>
      refine List.pairwise_append.2 ⟨ih fun x hx => h x (notLow_snoc.2 (.inl hx)), by simp, ?_⟩
      intro u hu x hx
      simp only [List.mem_singleton] at hx
      subst hx
      by_contra hc
      rw [Bool.not_eq_true] at hc
      exact h x (notLow_snoc.2 (.inr ⟨rfl, u, hu, hc⟩))

/-- The co-occurrences in the order they are read. -/
def readEdges (ch : Choice) (allow : List Bytes) (items : List SegPos) : List ((Bytes × Bytes) × F) :=
  ch.iter 0 ((rankPairs allow items).foldl countPair [])

/-- The graph. -/
def rankGraph (ch : Choice) (allow : List Bytes) (items : List SegPos) : Graph F :=
  (readEdges ch allow items).foldl (fun g p => g.addEdge p.1.1 p.1.2 p.2) Graph.new

/-- The map of values. -/
def rankMap (ch : Choice) (K : RankConst F) (allow : List Bytes) (items : List SegPos) : GoMap Bytes F :=
  (rankGraph ch allow items : Graph F).sweeps K ((rankGraph ch allow items).outSum ch)
    ((rankGraph ch allow items : Graph F).sortedKeys ch) 10 ((rankGraph ch allow items).wsInit ch)

/-- The whole result before it is shortened. -/
def rankAll (ch : Choice) (K : RankConst F) (allow : List Bytes) (items : List SegPos) : List (WordWeight F) :=
  ch.sort (fun a b => WordWeight.less b a) ((ch.iter 3 (rankMap ch K allow items)).map fun p =>
    ⟨p.1, rankWeight (minMax K ((ch.iter 2 (rankMap ch K allow items)).map (·.2))) p.2⟩)

theorem textRankItems_eq (ch : Choice) (K : RankConst F) (allow : List Bytes) (items : List SegPos) (topK : Int) :
    textRankItems ch K items topK allow = if 0 < topK then (rankAll ch K allow items).take topK.toNat else rankAll ch K allow items := by
  have e : textRankItems ch K items topK allow = if topK > 0 ∧ ((rankAll ch K allow items).length : Int) > topK
      then (rankAll ch K allow items).take topK.toNat else rankAll ch K allow items := rfl
  rw [e]
  by_cases h : 0 < topK
  · rw [if_pos h]
    split
    · rfl
    · rw [List.take_of_length_le (by omega)]
  · rw [if_neg h, if_neg (by omega)]

theorem rankMap_spec [F64Count F] (ch : Choice) (K : RankConst F) (allow : List Bytes) (items : List SegPos) (hlen : 4 * items.length ≤ 2 ^ 53) :
    IsEdges allow items (readEdges ch allow items : List ((Bytes × Bytes) × F)) ∧ ∃ words, IsRankWords allow items words ∧
      ((rankMap ch K allow items).map Prod.fst).Nodup ∧ ((rankMap ch K allow items).map Prod.fst).Perm words ∧
      ∀ p ∈ rankMap ch K allow items, p.2 = rankValue K (readEdges ch allow items) words p.1 := by
  have he : IsEdges allow items (readEdges ch allow items : List ((Bytes × Bytes) × F)) := cm_edges ch allow items hlen
  have hg : GraphInv (readEdges ch allow items : List ((Bytes × Bytes) × F)) (rankGraph ch allow items) := graph_inv _
  obtain ⟨k1, k2⟩ := sortedKeys_spec ch hg.nodup
  have hwords : IsRankWords allow items ((rankGraph ch allow items : Graph F).sortedKeys ch) := by
    refine ⟨k2, fun w => ?_⟩
    rw [k1.mem_iff, hg.mem]
    constructor
    · rintro ⟨⟨⟨a, b⟩, v⟩, hm, h⟩
      have h1 := ((he.mem a b v).1 hm).1
      rcases h with rfl | rfl
      · exact ⟨b, .inl h1⟩
      · exact ⟨a, .inr h1⟩
    · rintro ⟨v, h | h⟩
      · exact ⟨((w, v), _), (he.mem w v _).2 ⟨h, rfl⟩, .inl rfl⟩
      · exact ⟨((v, w), _), (he.mem v w _).2 ⟨h, rfl⟩, .inr rfl⟩
  refine ⟨he, _, hwords, ?_⟩
  have hlen2 : (rankGraph ch allow items : Graph F).graph.length = ((rankGraph ch allow items : Graph F).sortedKeys ch).length := by
    rw [k1.length_eq, hg.keys, List.length_map]
  obtain ⟨h1, h2, h3⟩ := sweeps_eq ch K hg _ (fun n hn => k1.mem_iff.1 hn) 10 (wsInit_nodup ch hg) (fun n => by
      rw [← get_isSome, wsInit_get ch hg]
      split <;> simp [*]) (v := fun _ => F64.div (F64.ofNat 1) (F64.ofNat ((rankGraph ch allow items : Graph F).sortedKeys ch).length)) (fun n hn => by
      unfold at0
      rw [wsInit_get ch hg, if_pos hn, Option.getD_some]
      unfold Graph.wsDef
      rw [if_pos, hlen2]
      rw [hg.keys] at hn
      have := List.length_pos_of_mem hn
      rwa [List.length_map] at this)
  refine ⟨h1, ?_, ?_⟩
  · refine (List.perm_ext_iff_of_nodup h1 (k1.nodup_iff.2 hg.nodup)).2 fun n => ?_
    rw [k1.mem_iff]; exact h2 n
  · intro p hp
    have hk : p.1 ∈ (rankGraph ch allow items : Graph F).keys := (h2 p.1).1 (List.mem_map_of_mem hp)
    have := h3 p.1 hk
    unfold at0 GoMap.get at this
    rw [(lookup_mem h1).2 (show (p.1, p.2) ∈ _ from hp)] at this
    exact this

end
end Gse
