import Verif.Proofs.Dag

/-! # Optimality of the DAG route, grouping of its pieces -/

namespace Gse
open Spec Trie

set_option linter.unusedSectionVars false
set_option linter.unusedSimpArgs false

variable {F D : Type} [F64 F] [F32 D] [Narrow F D] {T : F}

theorem isRoute_pieces {d : Dictionary F D} {text : List Rune} {ps : List (List Rune)} (h : IsRoute d text ps) :
    ∀ t ∈ ps, t ≠ [] ∧ (posWord d t = true ∨ t.length = 1) := by
  induction h with
  | nil => simp
  | cons h1 h2 _ ih =>
    intro t ht
    rcases List.mem_cons.1 ht with rfl | ht
    · exact ⟨h1, h2.imp id (·.1)⟩
    · exact ih t ht

theorem isRoute_nil {d : Dictionary F D} {ps : List (List Rune)} (h : IsRoute d [] ps) : ps = [] := by
  have h1 := isRoute_flatten h
  have hp := isRoute_pieces h
  cases ps with
  | nil => rfl
  | cons t ps =>
    simp at h1
    exact absurd h1.1 (hp t (by simp)).1

/-- `<` is a strict weak order on `good` and `==` its equivalence. -/
structure OrderOK (good : F → Prop) : Prop where
  lt_asymm : ∀ {a b : F}, good a → good b → F64.lt a b = true → F64.lt b a = false
  lt_cotrans : ∀ {a b c : F}, good a → good b → good c → F64.lt a c = true → F64.lt a b = true ∨ F64.lt b c = true
  eq_iff : ∀ {a b : F}, good a → good b → (F64.eq a b = true ↔ F64.lt a b = false ∧ F64.lt b a = false)

theorem F64Laws.order [L : F64Laws F] : OrderOK L.good := ⟨L.lt_asymm, L.lt_cotrans, L.eq_iff⟩

/-- The scores of the routes through the rests of `rs` are `good`, and adding the score of a piece is monotone. -/
structure ScoreLaws (T : F) (d : Dictionary F D) (rs : List Rune) (good : F → Prop) : Prop where
  order : OrderOK good
  score : ∀ x ≤ rs.length, ∀ q, IsRoute d (rs.drop x) q → good (scoreBy T d q)
  mono : ∀ t a b, t ≠ [] → posWord d t = true ∨ t.length = 1 → good a → good b → good (F64.add (pieceScoreBy T d t) a) →
    good (F64.add (pieceScoreBy T d t) b) → F64.lt a b = false →
    F64.lt (F64.add (pieceScoreBy T d t) a) (F64.add (pieceScoreBy T d t) b) = false

section order
variable {good : F → Prop} (O : OrderOK good)
include O

theorem OrderOK.irrefl {a : F} (h : good a) : F64.lt a a = false := by
  cases e : F64.lt a a with
  | false => rfl
  | true => rw [O.lt_asymm h h e] at e; exact e.symm

theorem OrderOK.trans {a b c : F} (ha : good a) (hb : good b) (hc : good c) (h1 : F64.lt a b = false) (h2 : F64.lt b c = false) :
    F64.lt a c = false := by
  cases e : F64.lt a c with
  | false => rfl
  | true => rcases O.lt_cotrans ha hb hc e with h | h <;> simp_all

end order

theorem lt_irrefl' [L : F64Laws F] {a : F} (h : L.good a) : F64.lt a a = false := F64Laws.order.irrefl h

theorem not_lt_trans [L : F64Laws F] {a b c : F} (ha : L.good a) (hb : L.good b) (hc : L.good c) (h1 : F64.lt a b = false)
    (h2 : F64.lt b c = false) : F64.lt a c = false := F64Laws.order.trans ha hb hc h1 h2

/-- `r` is at least as good a choice as `c`. -/
def Dom (r c : Route F) : Prop := F64.lt r.freq c.freq = false ∧ (F64.lt c.freq r.freq = false → c.index ≤ r.index)

section laws
variable {good : F → Prop}

theorem Dom.refl (O : OrderOK good) {r : Route F} (h : good r.freq) : Dom r r := ⟨O.irrefl h, fun _ => Nat.le_refl _⟩

theorem Dom.trans (O : OrderOK good) {r c e : Route F} (hr : good r.freq) (hc : good c.freq) (he : good e.freq) (h1 : Dom r c) (h2 : Dom c e) :
    Dom r e := by
  refine ⟨O.trans hr hc he h1.1 h2.1, fun h => ?_⟩
  have a := h2.2 (O.trans he hr hc h h1.1)
  have b := h1.2 (O.trans hc he hr h2.1 h)
  omega

theorem better_dom (O : OrderOK good) {v r : Route F} (hv : good v.freq) (hr : good r.freq) :
    Dom (routeBetter (some v) r) v ∧ Dom (routeBetter (some v) r) r ∧ good (routeBetter (some v) r).freq := by
  unfold routeBetter
  simp only
  cases h1 : F64.lt v.freq r.freq with
  | true =>
    simp only [Bool.true_or, if_true]
    exact ⟨⟨O.lt_asymm hv hr h1, by simp [h1]⟩, Dom.refl O hr, hr⟩
  | false =>
    simp only [Bool.false_or]
    cases h2 : F64.eq v.freq r.freq with
    | true =>
      have h3 := (O.eq_iff hv hr).1 h2
      by_cases h4 : v.index < r.index
      · simp only [h4, decide_true, Bool.and_self, if_true]
        exact ⟨⟨h3.2, fun _ => by omega⟩, Dom.refl O hr, hr⟩
      · simp only [h4, decide_false, Bool.and_false, Bool.false_eq_true, if_false]
        exact ⟨Dom.refl O hv, ⟨h1, fun _ => by omega⟩, hv⟩
    | false =>
      simp only [Bool.false_and, Bool.false_eq_true, if_false]
      refine ⟨Dom.refl O hv, ⟨h1, fun h => ?_⟩, hv⟩
      have := (O.eq_iff hv hr).2 ⟨h1, h⟩
      simp [h2] at this

theorem foldl_dom (O : OrderOK good) (c : Nat → Route F) (is : List Nat) (v : Route F) (hv : good v.freq) (hc : ∀ i ∈ is, good (c i).freq) :
    ∃ r, is.foldl (fun v i => some (routeBetter v (c i))) (some v) = some r ∧ good r.freq ∧ Dom r v ∧ ∀ i ∈ is, Dom r (c i) := by
  induction is generalizing v with
  | nil => exact ⟨v, rfl, hv, Dom.refl O hv, by simp⟩
  | cons i is ih =>
    obtain ⟨h1, h2, h3⟩ := better_dom O hv (hc i (by simp))
    obtain ⟨r, e1, e2, e3, e4⟩ := ih (routeBetter (some v) (c i)) h3 (fun j hj => hc j (by simp [hj]))
    refine ⟨r, e1, e2, e3.trans O e2 h3 hv h1, ?_⟩
    intro j hj
    rcases List.mem_cons.1 hj with rfl | hj
    · exact e3.trans O e2 h3 (hc _ (by simp)) h2
    · exact e4 j hj

theorem foldl_best (O : OrderOK good) (c : Nat → Route F) (is : List Nat) (r : Route F) (hc : ∀ i ∈ is, good (c i).freq)
    (h : is.foldl (fun v i => some (routeBetter v (c i))) none = some r) : good r.freq ∧ ∀ i ∈ is, Dom r (c i) := by
  cases is with
  | nil => simp at h
  | cons i is =>
    obtain ⟨r', e1, e2, e3, e4⟩ := foldl_dom O c is (c i) (hc i (by simp)) (fun j hj => hc j (by simp [hj]))
    have : r' = r := by
      have h' : is.foldl (fun v i => some (routeBetter v (c i))) (some (c i)) = some r := h
      rw [e1] at h'; simpa using h'
    subst this
    refine ⟨e2, fun j hj => ?_⟩
    rcases List.mem_cons.1 hj with rfl | hj
    · exact e3
    · exact e4 j hj

theorem good_score [L : F64Laws F] {d : Dictionary F D} (hg : GoodScoresBy T d) {ps : List (List Rune)} (h : ∀ t ∈ ps, t ≠ [] ∧ (posWord d t = true ∨ t.length = 1)) :
    L.good (scoreBy T d ps) := by
  induction ps with
  | nil => exact L.good_zero
  | cons t ps ih =>
    obtain ⟨a, b⟩ := h t (by simp)
    exact L.good_add (hg t a b) (ih fun u hu => h u (by simp [hu]))

theorem scoreLaws_of_good [L : F64Laws F] {d : Dictionary F D} (hg : GoodScoresBy T d) (rs : List Rune) : ScoreLaws T d rs L.good :=
  ⟨F64Laws.order, fun _ _ _ hq => good_score hg (isRoute_pieces hq), fun t _ _ h1 h2 ha hb _ _ h => L.add_mono ha hb (hg t h1 h2) h⟩

theorem score_cons (d : Dictionary F D) (t : List Rune) (ps : List (List Rune)) :
    scoreBy T d (t :: ps) = F64.add (pieceScoreBy T d t) (scoreBy T d ps) := rfl

/-- The scores along the stored routes, and every alternative. -/
theorem routes_best {d : Dictionary F D} {rs : List Rune} (S : ScoreLaws T d rs good) {R : List (Nat × Route F)} (hR : RoutesFrom T d rs 0 R)
    (m x : Nat) (hm : rs.length - x ≤ m) (hx : x ≤ rs.length) :
    ∀ q', IsRoute d (rs.drop x) q' →
      F64.lt (routeFreq R x) (scoreBy T d q') = false ∧
      (∀ t' q'' i, q' = t' :: q'' → x < rs.length → i ∈ dagSpec d rs x → R.lookup x = some (candOf T d rs R x i) →
        F64.lt (scoreBy T d q') (routeFreq R x) = false → t'.length ≤ i + 1 - x) := by
  induction m generalizing x with
  | zero =>
    have : x = rs.length := by omega
    subst this
    intro q' hq'
    rw [List.drop_length] at hq'
    have : q' = [] := isRoute_nil hq'
    subst this
    refine ⟨?_, by simp⟩
    simp only [routeFreq, hR.last, Option.map_some, Option.getD_some, scoreBy, List.foldr_nil]
    exact F64.zero_lt_zero
  | succ m ih =>
    intro q' hq'
    by_cases hlt : x < rs.length
    · -- the stored entry
      obtain ⟨i, hi, h1, h2⟩ := hR.entry x (by omega) hlt
      have hgoodc : ∀ j ∈ dagSpec d rs x, good (candOf T d rs R x j).freq ∧ good (routeFreq R (j + 1)) := by
        intro j hj
        obtain ⟨a, b, c⟩ := (mem_dagSpec hlt).1 hj
        obtain ⟨ps, _, e2, e3⟩ := walk_eq hR rs.length (j + 1) (by omega) (by omega)
        refine ⟨?_, by rw [e3]; exact S.score _ (by omega) _ e2⟩
        have h3 := S.score x hx _ (route_cons hlt hj e2)
        rw [score_cons, ← e3] at h3
        exact h3
      obtain ⟨gr, hdom⟩ := foldl_best S.order (candOf T d rs R x) (dagSpec d rs x) _ (fun j hj => (hgoodc j hj).1) h2
      have hfx : routeFreq R x = (candOf T d rs R x i).freq := by simp [routeFreq, h1]
      cases q' with
      | nil =>
        have := isRoute_flatten hq'
        simp at this; omega
      | cons t' q'' =>
        obtain ⟨j, hj, ht', hq'', hlen⟩ := route_uncons hlt hq'
        obtain ⟨a, b, _⟩ := (mem_dagSpec hlt).1 hj
        obtain ⟨gc, g1⟩ := hgoodc j hj
        have gq : good (scoreBy T d q'') := S.score (j + 1) (by omega) _ hq''
        have gq' : good (scoreBy T d (t' :: q'')) := S.score x hx _ hq'
        have step : F64.lt (candOf T d rs R x j).freq (scoreBy T d (t' :: q'')) = false := by
          obtain ⟨p1, p2⟩ := isRoute_pieces hq' t' (by simp)
          rw [score_cons] at gq' ⊢
          rw [ht'] at p1 p2 gq' ⊢
          exact S.mono _ _ _ p1 p2 g1 gq gc gq' (ih (j + 1) (by omega) (by omega) q'' hq'').1
        rw [hfx]
        refine ⟨S.order.trans gr gc gq' (hdom j hj).1 step, ?_⟩
        rintro t1 q1 i1 he hx' hi1 hl1 hle
        obtain ⟨rfl, rfl⟩ := List.cons.inj he
        have hii : i1 = i := by
          rw [h1] at hl1
          have := congrArg (fun o => (o.map Route.index).getD 0) hl1
          simpa [candOf] using this.symm
        have h3 := (hdom j hj).2 (S.order.trans gc gq' gr step hle)
        have h4 : j ≤ i := h3
        omega
    · have : x = rs.length := by omega
      subst this
      exact ih rs.length (by omega) (by omega) q' hq'

theorem best_cons {d : Dictionary F D} {t rest : List Rune} {ps : List (List Rune)} (hr : IsRoute d (t ++ rest) (t :: ps))
    (hb : IsBestRouteBy T d rest ps)
    (h1 : ∀ q', IsRoute d (t ++ rest) q' → F64.lt (scoreBy T d (t :: ps)) (scoreBy T d q') = false)
    (h2 : ∀ t' q', IsRoute d (t ++ rest) (t' :: q') → F64.lt (scoreBy T d (t' :: q')) (scoreBy T d (t :: ps)) = false →
      t'.length ≤ t.length) : IsBestRouteBy T d (t ++ rest) (t :: ps) := by
  have hfl : (t :: ps).flatten = t ++ rest := isRoute_flatten hr
  refine ⟨hr, ?_, ?_⟩
  · intro p q hpq q' hq'
    cases p with
    | nil =>
      simp at hpq; subst hpq
      rw [hfl] at hq'
      exact h1 q' hq'
    | cons a p =>
      simp at hpq
      exact hb.highest p q hpq.2 q' hq'
  · intro p u q hpq t' q' hq' hle
    cases p with
    | nil =>
      simp at hpq
      obtain ⟨rfl, rfl⟩ := hpq
      rw [hfl] at hq'
      exact h2 t' q' hq' hle
    | cons a p =>
      simp at hpq
      exact hb.longest p u q hpq.2 t' q' hq' hle

theorem walk_best {d : Dictionary F D} {rs : List Rune} (S : ScoreLaws T d rs good) {R : List (Nat × Route F)} (hR : RoutesFrom T d rs 0 R)
    (n x : Nat) (hx : x ≤ rs.length) (hn : rs.length - x ≤ n) :
    ∃ ps, walk rs R n x = some ps ∧ IsBestRouteBy T d (rs.drop x) ps := by
  induction n generalizing x with
  | zero =>
    have : x = rs.length := by omega
    subst this
    refine ⟨[], by simp [walk], by simpa using IsRoute.nil, ?_, by simp⟩
    intro p q hpq q' hq'
    simp at hpq
    obtain ⟨rfl, rfl⟩ := hpq
    have := routes_best S hR 0 rs.length (by omega) (by omega) q' (by simpa using hq')
    simpa [routeFreq, hR.last, scoreBy] using this.1
  | succ n ih =>
    by_cases hlt : x < rs.length
    · obtain ⟨ps0, w1, w2, w3⟩ := walk_eq hR (n + 1) x hx hn
      obtain ⟨i, hi, h1, _⟩ := hR.entry x (by omega) hlt
      obtain ⟨a, b, _⟩ := (mem_dagSpec hlt).1 hi
      obtain ⟨ps, e1, e2⟩ := ih (i + 1) (by omega) (by omega)
      have hw : walk rs R (n + 1) x = some (slice rs x (i + 1) :: ps) := by
        unfold walk
        have hy : ((R.lookup x).map (·.index)).getD 0 + 1 = i + 1 := by simp [h1, candOf]
        rw [if_pos hlt]
        dsimp only
        rw [hy, if_pos ⟨by omega, by omega⟩, e1]
        rfl
      have h0 : ps0 = slice rs x (i + 1) :: ps := by rw [hw] at w1; simpa using w1.symm
      subst h0
      refine ⟨_, hw, ?_⟩
      have hsplit := drop_eq_slice_append rs x (i + 1) (by omega)
      have hb := routes_best S hR rs.length x (by omega) hx
      rw [w3] at hb
      rw [hsplit] at w2 hb ⊢
      refine best_cons w2 e2 (fun q' hq' => (hb q' hq').1) ?_
      intro t' q' hq' hle
      have := (hb _ hq').2 t' q' i rfl hlt hi h1 hle
      rw [slice_length _ _ _ (by omega)]
      exact this
    · have : x = rs.length := by omega
      subst this
      obtain ⟨ps, e1, e2⟩ := ih rs.length (by omega) (by omega)
      have hw : walk rs R (n + 1) rs.length = some [] := by simp [walk]
      refine ⟨[], hw, ?_⟩
      have : ps = [] := isRoute_nil (by simpa using e2.route)
      subst this
      exact e2

/-- There is only one best route. -/
theorem best_route_unique {d : Dictionary F D} (text : List Rune) (ps qs : List (List Rune))
    (h : IsBestRouteBy T d text ps) (h' : IsBestRouteBy T d text qs) : ps = qs := by
  induction ps generalizing text qs with
  | nil =>
    have h1 := isRoute_flatten h.route
    have h2 := isRoute_flatten h'.route
    cases qs with
    | nil => rfl
    | cons t qs =>
      subst h1
      simp at h2
      exact absurd h2.1 (isRoute_pieces h'.route t (by simp)).1
  | cons t ps ih =>
    have h1 := isRoute_flatten h.route
    have h2 := isRoute_flatten h'.route
    cases qs with
    | nil =>
      rw [← h2] at h1
      simp at h1
      exact absurd h1.1 (isRoute_pieces h.route t (by simp)).1
    | cons u qs =>
      have s1 := h.highest [] (t :: ps) rfl (u :: qs) (by rw [h1]; exact h'.route)
      have s2 := h'.highest [] (u :: qs) rfl (t :: ps) (by rw [h2]; exact h.route)
      have l1 := h.longest [] t ps rfl u qs (by rw [h1]; exact h'.route) s2
      have l2 := h'.longest [] u qs rfl t ps (by rw [h2]; exact h.route) s1
      have hfl : t ++ ps.flatten = u ++ qs.flatten := by
        simpa using h1.trans h2.symm
      obtain ⟨rfl, hrest⟩ := List.append_inj hfl (by omega)
      congr 1
      have tail : ∀ {v : List Rune} {vs : List (List Rune)}, IsBestRouteBy T d text (v :: vs) → IsBestRouteBy T d vs.flatten vs := by
        intro v vs hb
        refine ⟨?_, ?_, ?_⟩
        · have := hb.route
          generalize hT : text = T at this
          cases this with
          | cons _ _ hr => rw [isRoute_flatten hr]; exact hr
        · intro p q hpq q' hq'
          exact hb.highest (v :: p) q (by simp [hpq]) q' hq'
        · intro p t q hpq t' q' hq' hle
          exact hb.longest (v :: p) t q (by simp [hpq]) t' q' hq' hle
      refine ih ps.flatten qs (tail h) ?_
      rw [hrest]; exact tail h'

end laws

/-! ## Runs of pieces -/

theorem runs_nil {α : Type} (p : α → Prop) : IsRuns p ([] : List α) [] := ⟨rfl, by simp, by simp⟩

theorem runs_single {α : Type} (p : α → Prop) (b : List α) (hb : b ≠ []) (h : ∀ x ∈ b, p x) : IsRuns p b [b] := by
  refine ⟨by simp, ?_, ?_⟩
  · intro g hg; simp at hg; subst hg; exact .inr ⟨hb, h⟩
  · intro a g h' c e
    have := congrArg List.length e
    simp at this
    omega

theorem runs_cons {α : Type} {p : α → Prop} {x : α} {xs : List α} {gs : List (List α)} (hx : ¬ p x) (h : IsRuns p xs gs) :
    IsRuns p (x :: xs) ([x] :: gs) := by
  refine ⟨by simp [h.flat], ?_, ?_⟩
  · intro g hg
    rcases List.mem_cons.1 hg with rfl | hg
    · exact .inl ⟨x, rfl, hx⟩
    · exact h.kind g hg
  · rintro a g h' b e ⟨h1, h2⟩
    cases a with
    | nil => simp at e; exact hx (h1 x (by simp [← e.1]))
    | cons c a => simp at e; exact h.maximal a g h' b e.2 ⟨h1, h2⟩

theorem runs_run {α : Type} {p : α → Prop} {x : α} {b xs : List α} {gs : List (List α)} (hb : b ≠ []) (hall : ∀ y ∈ b, p y)
    (hx : ¬ p x) (h : IsRuns p (x :: xs) ([x] :: gs)) : IsRuns p (b ++ x :: xs) (b :: [x] :: gs) := by
  refine ⟨by rw [List.flatten_cons, h.flat], ?_, ?_⟩
  · intro g hg
    rcases List.mem_cons.1 hg with rfl | hg
    · exact .inr ⟨hb, hall⟩
    · exact h.kind g hg
  · rintro a g h' c e ⟨h1, h2⟩
    cases a with
    | nil => simp at e; exact hx (h2 x (by simp [← e.2.1]))
    | cons c' a =>
      simp only [List.cons_append, List.cons.injEq] at e
      exact h.maximal a g h' c e.2 ⟨h1, h2⟩

theorem asciiAlnum_iff (r : Rune) : asciiAlnum r = true ↔ (48 ≤ r ∧ r ≤ 57) ∨ (65 ≤ r ∧ r ≤ 90) ∨ (97 ≤ r ∧ r ≤ 122) := by
  unfold asciiAlnum
  constructor
  · intro h
    rw [List.any_eq_true] at h
    obtain ⟨b, hb, e⟩ := h
    simp only [decide_eq_true_eq] at e
    subst e
    revert b
    decide +kernel
  · intro h
    rw [List.any_eq_true]
    refine ⟨UInt8.ofNat r, ?_, ?_⟩
    · have : ∀ r < 123, (48 ≤ r ∧ r ≤ 57) ∨ (65 ≤ r ∧ r ≤ 90) ∨ (97 ≤ r ∧ r ≤ 122) →
          UInt8.ofNat r ∈ str "0123456789abcdefghijklmnopqrstuvwxyzABCDEFGHIJKLMNOPQRSTUVWXYZ" := by decide +kernel
      exact this r (by omega) h
    · rw [decide_eq_true_eq]
      exact toNat_ofNat_lt (by omega)

theorem engFrag_iff (t : List Rune) : engFrag t = true ↔ EngPiece t := by
  unfold engFrag EngPiece
  split
  · rename_i r
    simp only [Bool.or_eq_true, Bool.and_eq_true, decide_eq_true_eq, List.cons.injEq, and_true]
    constructor
    · intro h
      exact ⟨r, rfl, (asciiAlnum_iff r).2 (by omega)⟩
    · rintro ⟨r', rfl, h⟩
      have := (asciiAlnum_iff r).1 h
      omega
  · rename_i hne
    simp only [Bool.false_eq_true, false_iff, not_exists, not_and]
    rintro r rfl
    exact absurd rfl (hne r)

theorem noHmmLoop_runs (frags pend : List (List Rune)) (hp : ∀ t ∈ pend, EngPiece t) :
    ∃ gs, IsRuns EngPiece (pend ++ frags) gs ∧ noHmmLoop frags pend.flatten = gs.map fun g => encode g.flatten := by
  have hlen : ∀ pend : List (List Rune), (∀ t ∈ pend, EngPiece t) → (pend.flatten.length > 0 ↔ pend ≠ []) := by
    intro pend hp
    cases pend with
    | nil => simp
    | cons t pend =>
      obtain ⟨r, rfl, _⟩ := hp t (by simp)
      simp
  induction frags generalizing pend with
  | nil =>
    unfold noHmmLoop
    by_cases he : pend = []
    · subst he
      exact ⟨[], runs_nil _, by simp⟩
    · refine ⟨[pend], by simpa using runs_single _ pend he hp, ?_⟩
      rw [if_pos ((hlen pend hp).2 he)]
      rfl
  | cons t frags ih =>
    unfold noHmmLoop
    by_cases he : EngPiece t
    · rw [if_pos ((engFrag_iff t).2 he)]
      have := ih (pend ++ [t]) (by
        intro u hu
        rcases List.mem_append.1 hu with hu | hu
        · exact hp u hu
        · simp at hu; subst hu; exact he)
      simpa using this
    · rw [if_neg (mt (engFrag_iff t).1 he)]
      obtain ⟨gs, h1, h2⟩ := ih [] (by simp)
      have h2 : noHmmLoop frags [] = _ := h2
      have h3 := runs_cons he (by simpa using h1)
      by_cases hpe : pend = []
      · subst hpe
        exact ⟨[t] :: gs, h3, by simp [h2]⟩
      · refine ⟨pend :: [t] :: gs, runs_run hpe hp he h3, ?_⟩
        rw [if_pos ((hlen pend hp).2 hpe), h2]
        simp

theorem flatten_singles (g : List (List Rune)) (h : ∀ t ∈ g, t.length = 1) :
    g.flatten.length = g.length ∧ g.flatten.map encodeRune = g.map encode := by
  induction g with
  | nil => simp
  | cons t g ih =>
    obtain ⟨a, b⟩ := ih fun u hu => h u (by simp [hu])
    obtain ⟨r, rfl⟩ := List.length_eq_one_iff.1 (h t (by simp))
    simp [a, b, encode]

theorem flushBuf_out {d : Dictionary F D} (hi : IdxOK d) (cut : Bytes → Option (List Bytes)) (pend : List (List Rune))
    (hp : ∀ t ∈ pend, t.length = 1) (hne : pend ≠ []) (hcut : pend.length ≠ 1 → ∃ o, cut (encode pend.flatten) = some o) :
    ∃ o, flushBuf d cut pend.flatten = some o ∧ RunOut d cut pend o := by
  obtain ⟨hl, hm⟩ := flatten_singles pend hp
  have hpos : 0 < pend.length := List.length_pos_iff.2 hne
  unfold flushBuf
  rw [if_neg (by omega), hl]
  by_cases h1 : pend.length = 1
  · rw [if_pos h1]
    obtain ⟨t, rfl⟩ := List.length_eq_one_iff.1 h1
    exact ⟨_, rfl, by simpa using RunOut.one (hp t (by simp))⟩
  · rw [if_neg h1]
    obtain ⟨o, ho⟩ := hcut h1
    have hne' : pend.flatten ≠ [] := by intro e; rw [e] at hl; simp at hl; omega
    unfold hmmBuf findRunes
    cases hs : storedTok d (encode pend.flatten) with
    | some tok =>
      rw [find_stored hs]
      simp only [Bool.not_true, Bool.false_or]
      cases he : F64.eq tok.freq (F64.ofNat 0) with
      | true => exact ⟨o, by simpa using ho, .hmm (by omega) hp (fun tok' h' => by rw [hs] at h'; simp at h'; exact h' ▸ he) ho⟩
      | false => exact ⟨_, rfl, by rw [hm]; exact .known (by omega) hp hs he⟩
    | none =>
      refine ⟨o, ?_, .hmm (by omega) hp (by simp [hs]) ho⟩
      by_cases hn : StartsStored d (encode pend.flatten)
      · rw [find_starts hi (encode_ne_nil hne') hs hn]
        simpa [F64.zero_eq_zero] using ho
      · rw [find_unknown hi hs hn]
        simpa using ho

theorem hmmLoop_runs {d : Dictionary F D} (hi : IdxOK d) (cut : Bytes → Option (List Bytes))
    (frags pend : List (List Rune)) (hp : ∀ t ∈ pend, t.length = 1) (hfr : ∀ t ∈ frags, t ≠ [])
    (hcut : ∀ g : List (List Rune), 2 ≤ g.length → g <:+: pend ++ frags → (∀ t ∈ g, t.length = 1) → ∃ o, cut (encode g.flatten) = some o) :
    ∃ gs outs, IsRuns (fun t : List Rune => t.length = 1) (pend ++ frags) gs ∧ List.Forall₂ (RunOut d cut) gs outs ∧
      hmmLoop d cut frags pend.flatten = some outs.flatten := by
  induction frags generalizing pend with
  | nil =>
    unfold hmmLoop
    by_cases he : pend = []
    · subst he
      exact ⟨[], [], runs_nil _, .nil, by simp [flushBuf]⟩
    · obtain ⟨o, h1, h2⟩ := flushBuf_out hi cut pend hp he (fun h1 => hcut pend (by
        have : 0 < pend.length := List.length_pos_iff.2 he
        omega) (by simp) hp)
      exact ⟨[pend], [o], by simpa using runs_single _ pend he hp, .cons h2 .nil, by simpa using h1⟩
  | cons t frags ih =>
    unfold hmmLoop
    by_cases he : t.length = 1
    · rw [if_pos he]
      have := ih (pend ++ [t]) (by
        intro u hu
        rcases List.mem_append.1 hu with hu | hu
        · exact hp u hu
        · simp at hu; subst hu; exact he) (fun u hu => hfr u (by simp [hu])) (by simpa using hcut)
      simpa using this
    · rw [if_neg he]
      obtain ⟨gs, outs, h1, h2, h3⟩ := ih [] (by simp) (fun u hu => hfr u (by simp [hu])) (by
        intro g hg hin
        refine hcut g hg ?_
        simp at hin
        exact hin.trans ((List.suffix_cons t frags).isInfix.trans (List.suffix_append pend _).isInfix))
      have h3 : hmmLoop d cut frags [] = _ := h3
      have hr := runs_cons (p := fun t : List Rune => t.length = 1) he (by simpa using h1)
      by_cases hpe : pend = []
      · subst hpe
        refine ⟨[t] :: gs, [encode t] :: outs, hr, .cons (.word he) h2, ?_⟩
        simp [flushBuf, h3]
      · obtain ⟨o, e1, e2⟩ := flushBuf_out hi cut pend hp hpe (fun hl => hcut pend (by
          have : 0 < pend.length := List.length_pos_iff.2 hpe
          omega) (List.prefix_append _ _).isInfix hp)
        refine ⟨pend :: [t] :: gs, o :: [encode t] :: outs, runs_run hpe hp he hr, .cons e2 (.cons (.word he) h2), ?_⟩
        rw [e1]
        simp [h3]

end Gse
