import Verif.Spec.Greedy
import Verif.Proofs.Best
import Verif.Proofs.DagBest
import Verif.Proofs.IeeeOps

/-!
# Greedy matching: proofs
-/

set_option linter.unusedSectionVars false

namespace Gse

open Spec

section seg
variable {F : Type} [F64 F] [Narrow F Binary32] [Unicode]

theorem datum_add_nan {f : Format} (x : Datum) : Datum.add f x .nan = .nan := by cases x <;> rfl

theorem datum_nan_add {f : Format} (x : Datum) : Datum.add f .nan x = .nan := by cases x <;> rfl

/-- The first edge that reaches a word stays. -/
def FInv (d : Dictionary F Binary32) (ws : List Bytes) (c : Nat) (js : List (Jumper Binary32)) : Prop :=
  ∀ l j r, js[l]? = some j → j.token = some r → ∃ i dist, i < c ∧ edge d ws false i (l + 1) = some (r, dist) ∧
    j.minDistance = F32.add (baseOf js i) dist ∧ ∀ i' < i, edge d ws false i' (l + 1) = none

/-- Edges over more than one word have no distance. -/
theorem edge_nan {d : Dictionary F Binary32} (hN : ∀ w t, storedTok d w = some t → t.distance.datum = .nan) {ws : List Bytes} {i k : Nat}
    (h2 : i + 2 ≤ k) {r : TokRef} {dist : Binary32} (h : edge d ws false i k = some (r, dist)) : dist.datum = .nan := by
  unfold edge at h
  split at h
  · split at h
    · next v hv =>
      simp only [Bool.false_eq_true, false_and, if_false, Option.map_eq_some_iff, Prod.mk.injEq] at h
      obtain ⟨t, ht, _, e⟩ := h
      rw [← e]
      exact hN _ t (by unfold storedTok; rw [hv]; exact ht)
    · rw [if_neg (by omega)] at h; cases h
  · cases h

theorem finv_step {d : Dictionary F Binary32} (hN : ∀ w t, storedTok d w = some t → t.distance.datum = .nan) {ws : List Bytes} {c : Nat}
    {js js' : List (Jumper Binary32)} (hi : JInv d ws false c js) (ho : FInv d ws c js)
    (h : ∀ l, js'[l]? = stepped d ws false c js l) : FInv d ws (c + 1) js' := by
  have hbase : ∀ i, i ≤ c → baseOf js' i = baseOf js i := fun i hi => stepped_base h hi
  intro l j' r' hj' ht'
  rw [h, stepped] at hj'
  cases he : edge d ws false c (l + 1) with
  | none =>
    rw [he] at hj'
    obtain ⟨i, dist, h1, h2, h3, h4⟩ := ho l j' r' hj' ht'
    exact ⟨i, dist, by omega, h2, by rw [hbase i (by omega)]; exact h3, h4⟩
  | some x =>
    obtain ⟨r, dist⟩ := x
    rw [he] at hj'
    simp only [Option.map_eq_some_iff] at hj'
    obtain ⟨j, hj, e⟩ := hj'
    obtain ⟨hcl, hlw⟩ := edge_lt he
    obtain ⟨j0, hj0, hcase⟩ := hi.cell l (by omega)
    rw [hj] at hj0; cases hj0
    rcases hcase with ⟨h1, h2, h3⟩ | ⟨i, r0, dist0, h1, h2, h3, h4⟩
    · rw [← e] at ht' ⊢
      have : updateJumper j (baseOf js c) r dist = ⟨F32.add (baseOf js c) dist, some r⟩ := by
        unfold updateJumper
        rw [h2, F32.isZero_zero]
        rfl
      rw [this] at ht' ⊢
      cases ht'
      exact ⟨c, dist, by omega, he, by rw [hbase c (Nat.le_refl _)], h3⟩
    · have hnan : j.minDistance.datum = .nan := by
        rw [h4]
        show Datum.add f32 _ dist0.datum = .nan
        rw [edge_nan hN (by omega) h2, datum_add_nan]
      have : updateJumper j (baseOf js c) r dist = j := by
        unfold updateJumper
        have e1 : F32.isZero j.minDistance = false := by
          show Datum.eq j.minDistance.datum _ = false
          rw [hnan]; rfl
        have e2 : ∀ y : Binary32, F32.gt j.minDistance y = false := by
          intro y
          show Datum.lt y.datum j.minDistance.datum = false
          rw [hnan]; cases y.datum <;> rfl
        simp [e1, e2]
      rw [← e, this] at ht'
      rw [← e, this]
      obtain ⟨i, dist, g1, g2, g3, g4⟩ := ho l j r' hj ht'
      exact ⟨i, dist, by omega, g2, by rw [hbase i (by omega)]; exact g3, g4⟩

theorem path_longest [UnicodeOK] {cfg : SplitCfg} {d : Dictionary F Binary32} (hwf : d.Coh cfg) {ws : List Bytes} (hs : IsSplitText cfg ws)
    {k : Nat} {refs : List TokRef} {c : Binary32}
    (h : Path (fun i k r dist => edge d ws false i k = some (r, dist) ∧ ∀ i' < i, edge d ws false i' k = none) k refs c) :
    k ≤ ws.length → ∃ ts, refs.map d.deref = ts.map some ∧ LongestBack d (ws.take k) ts := by
  induction h with
  | nil => intro _; exact ⟨[], rfl, by simpa using LongestBack.nil⟩
  | @snoc i k refs c r dist hp he ih =>
    intro hk
    obtain ⟨he, hmin⟩ := he
    have hlt := edge_lt he
    obtain ⟨ts, h1, h2⟩ := ih (by omega)
    obtain ⟨t, hd, htx, hdist, hpiece, _, href⟩ := edge_token hwf hs he
    have hcut : ws.take k = ws.take i ++ t.text := by
      rw [htx, slice]
      have e : ws.take k = (ws.take k).take i ++ (ws.take k).drop i := (List.take_append_drop _ _).symm
      rw [e, List.take_take, Nat.min_eq_left (by omega), List.drop_take]
    refine ⟨ts ++ [t], by simp [h1, hd], ?_⟩
    rw [hcut]
    refine h2.snoc hpiece ?_
    intro ws' u hu hp'
    rw [← hcut] at hu
    have hl := congrArg List.length hu
    simp only [List.length_append, List.length_take] at hl
    have hpos := List.length_pos_iff.2 hp'.1
    have hux : u.text = slice ws ws'.length k := by
      have : (ws.take k).drop ws'.length = u.text := by rw [← hu]; simp
      rw [← this, slice, List.drop_take]
    obtain ⟨r', hr', _⟩ := edge_of_piece (sm := false) hwf (show ws'.length < k by omega) hlt.2 (by simp) hux hp'
    have : ¬ ws'.length < i := fun hc => by
      have := hmin _ hc
      rw [hr'] at this; cases this
    have := slice_length ws i k hlt.2
    rw [← htx] at this
    omega

/-- Segmentation without distances. -/
theorem segmentWords_nan [UnicodeOK] {cfg : SplitCfg} {d : Dictionary F Binary32} (hwf : d.Coh cfg)
    (hN : ∀ w t, storedTok d w = some t → t.distance.datum = .nan) {ws : List Bytes} (hs : IsSplitText cfg ws) :
    ∃ segs ts, segmentWords (some d) ws false = some segs ∧ segs.map (fun g => d.deref g.tok) = ts.map some ∧ LongestBack d ws ts := by
  obtain ⟨js, segs, ts, hinv, ho, h1, h2, hpath, h3, _⟩ :=
    segmentWords_gen (sm := false) hwf hs (by simp) (FInv d ws)
      (fun _ i k _ _ => ∀ i' < i, edge d ws false i' k = none) (by
        intro l j r hj ht
        have := List.mem_of_getElem? hj
        rw [List.eq_of_mem_replicate this] at ht
        simp at ht)
      (fun c js js' _ hi ho _ h => finv_step hN hi ho h) (by
      intro js hinv ho l j hj hl
      obtain ⟨j', _, r, _, h1, _, h3, _⟩ := jinv_done hwf hs (by simp) hinv hl
      rw [hj] at h1; cases h1
      obtain ⟨i, dist, _, e1, e2, e3⟩ := ho l j r hj h3
      exact ⟨i, r, dist, e1, h3, e2, e3⟩)
  obtain ⟨ts', e1, e2⟩ := path_longest hwf hs hpath (Nat.le_refl _)
  rw [List.take_length] at e2
  refine ⟨segs, ts', h1, ?_, e2⟩
  rw [← e1, ← h2, List.map_map]; rfl

/-- There is only one way. -/
theorem longestBack_unique {F D : Type} [F64 F] [F32 D] [Narrow F D] {d : Dictionary F D} {ws : List Bytes} {ts us : List (Token F D)} (h : LongestBack d ws ts)
    (h' : LongestBack d ws us) : ts = us := by
  induction h generalizing us with
  | nil =>
    generalize hw : ([] : List Bytes) = ws at h'
    cases h' with
    | nil => rfl
    | @snoc ws us u _ hp _ =>
      have : u.text = [] := (List.append_eq_nil_iff.1 hw.symm).2
      exact absurd this hp.1
  | @snoc ws ts t _ hp hmax ih =>
    generalize hw : ws ++ t.text = ws0 at h'
    cases h' with
    | nil => exact absurd (List.append_eq_nil_iff.1 hw).2 hp.1
    | @snoc ws' us u h1 hp' hmax' =>
      have l1 := hmax _ u hw.symm hp'
      have l2 := hmax' _ t hw hp
      obtain ⟨e1, e2⟩ := List.append_inj' hw (by omega)
      subst e1
      rw [ih h1, piece_unique hp hp' e2]

end seg

section cut
variable {F D : Type} [F64 F] [F32 D] [Narrow F D] {T : F}

/-- If each stored choice is as `At` says, so is the walk. -/
theorem walk_greedy {At : List Rune → List Rune → Prop} {d : Dictionary F D} {rs : List Rune} {R : List (Nat × Route F)} (hR : RoutesFrom T d rs 0 R)
    (hAt : ∀ x i, x < rs.length → i ∈ dagSpec d rs x → R.lookup x = some (candOf T d rs R x i) →
      (dagSpec d rs x).foldl (fun v i => some (routeBetter v (candOf T d rs R x i))) none = some (candOf T d rs R x i) →
      At (rs.drop x) (slice rs x (i + 1)))
    (n x : Nat) (hx : x ≤ rs.length) (hn : rs.length - x ≤ n) :
    ∃ ps, walk rs R n x = some ps ∧ IsRoute d (rs.drop x) ps ∧ Greedy At (rs.drop x) ps := by
  induction n generalizing x with
  | zero =>
    have : x = rs.length := by omega
    subst this
    exact ⟨[], by simp [walk], by simpa using IsRoute.nil, by simpa using Greedy.nil⟩
  | succ n ih =>
    by_cases hlt : x < rs.length
    · obtain ⟨ps0, w1, w2, w3⟩ := walk_eq hR (n + 1) x hx hn
      obtain ⟨i, hi, h1, h2⟩ := hR.entry x (by omega) hlt
      obtain ⟨a, b, _⟩ := (mem_dagSpec hlt).1 hi
      obtain ⟨ps, e1, e2, e3⟩ := ih (i + 1) (by omega) (by omega)
      have hw : walk rs R (n + 1) x = some (slice rs x (i + 1) :: ps) := by
        unfold walk
        have hy : ((R.lookup x).map (·.index)).getD 0 + 1 = i + 1 := by simp [h1, candOf]
        rw [if_pos hlt]
        dsimp only
        rw [hy, if_pos ⟨by omega, by omega⟩, e1]
        rfl
      have h0 : ps0 = slice rs x (i + 1) :: ps := by rw [hw] at w1; simpa using w1.symm
      subst h0
      refine ⟨_, hw, w2, ?_⟩
      have hsplit := drop_eq_slice_append rs x (i + 1) (by omega)
      have := hAt x i hlt hi h1 h2
      rw [hsplit] at this ⊢
      exact .cons (slice_ne_nil _ _ _ hlt (by omega)) this e3
    · have : x = rs.length := by omega
      subst this
      exact ⟨[], by simp [walk], by simpa using IsRoute.nil, by simpa using Greedy.nil⟩

/-- The ends of words come in increasing order. -/
theorem dagSpec_sorted (d : Dictionary F D) (rs : List Rune) (k : Nat) : (dagSpec d rs k).Pairwise (· < ·) := by
  unfold dagSpec
  split
  · simp
  · exact List.Pairwise.filter _ List.pairwise_lt_range'

theorem cand_index {d : Dictionary F D} {rs : List Rune} {R : List (Nat × Route F)} {x i j : Nat} (h : candOf T d rs R x i = candOf T d rs R x j) : i = j :=
  congrArg Route.index h

/-- The words that start the rest of the text, as slices. -/
theorem prefix_slice {rs : List Rune} {x : Nat} {u : List Rune} (hu : u <+: rs.drop x) (hne : u ≠ []) :
    ∃ j, x ≤ j ∧ j < rs.length ∧ u = slice rs x (j + 1) ∧ u.length = j + 1 - x := by
  have hl := List.length_pos_iff.2 hne
  have hle := hu.length_le
  simp only [List.length_drop] at hle
  refine ⟨x + u.length - 1, by omega, by omega, ?_, by omega⟩
  rw [slice, show x + u.length - 1 + 1 - x = u.length by omega]
  exact (List.prefix_iff_eq_take.1 hu)

theorem shortestAt_of_head {d : Dictionary F D} {rs : List Rune} {x i : Nat} (hx : x < rs.length) (hi : i ∈ dagSpec d rs x)
    (hmin : ∀ j ∈ dagSpec d rs x, i ≤ j) : ShortestAt d (rs.drop x) (slice rs x (i + 1)) := by
  obtain ⟨a, b, c⟩ := (mem_dagSpec hx).1 hi
  have hl := slice_length rs x (i + 1) (by omega)
  rcases c with c | ⟨rfl, c⟩
  · left
    refine ⟨c, ?_⟩
    intro u hu hne hpw
    obtain ⟨j, h1, h2, rfl, h4⟩ := prefix_slice hu hne
    have := hmin j ((mem_dagSpec hx).2 ⟨h1, h2, .inl hpw⟩)
    omega
  · exact .inr ⟨by omega, c⟩

theorem longestAt_of_last {d : Dictionary F D} {rs : List Rune} {x i : Nat} (hx : x < rs.length) (hi : i ∈ dagSpec d rs x)
    (hmax : ∀ j ∈ dagSpec d rs x, j ≤ i) : LongestAt d (rs.drop x) (slice rs x (i + 1)) := by
  obtain ⟨a, b, c⟩ := (mem_dagSpec hx).1 hi
  have hl := slice_length rs x (i + 1) (by omega)
  rcases c with c | ⟨rfl, c⟩
  · left
    refine ⟨c, ?_⟩
    intro u hu hne hpw
    obtain ⟨j, h1, h2, rfl, h4⟩ := prefix_slice hu hne
    have := hmax j ((mem_dagSpec hx).2 ⟨h1, h2, .inl hpw⟩)
    omega
  · exact .inr ⟨by omega, c⟩

/-- If no comparison succeeds the first candidate stays. -/
theorem foldl_first (c : Nat → Route F) (h : ∀ i r, F64.lt (c i).freq r = false ∧ F64.eq (c i).freq r = false) (i : Nat) (is : List Nat) :
    (i :: is).foldl (fun v i => some (routeBetter v (c i))) none = some (c i) := by
  rw [List.foldl_cons]
  show is.foldl _ (some (c i)) = _
  induction is with
  | nil => rfl
  | cons j is ih =>
    rw [List.foldl_cons]
    have : routeBetter (some (c i)) (c j) = c i := by simp [routeBetter, h i]
    rw [this]; exact ih

/-- If all are equal the last stays. -/
theorem foldl_last (c : Nat → Route F) (is : List Nat) (h : ∀ i ∈ is, ∀ j ∈ is, F64.eq (c i).freq (c j).freq = true) (hc : ∀ i, (c i).index = i)
    (hs : is.Pairwise (· < ·)) (r : Route F) (hr : is.foldl (fun v i => some (routeBetter v (c i))) none = some r) :
    ∃ i ∈ is, r = c i ∧ ∀ j ∈ is, j ≤ i := by
  cases is with
  | nil => simp at hr
  | cons i is =>
    rw [List.foldl_cons] at hr
    have key : ∀ (is : List Nat) (i : Nat), (i :: is).Pairwise (· < ·) → (∀ a ∈ i :: is, ∀ b ∈ i :: is, F64.eq (c a).freq (c b).freq = true) →
        is.foldl (fun v i => some (routeBetter v (c i))) (some (c i)) = some r → ∃ k ∈ i :: is, r = c k ∧ ∀ j ∈ i :: is, j ≤ k := by
      intro is
      induction is with
      | nil => intro i _ _ h; cases h; exact ⟨i, by simp, rfl, by simp⟩
      | cons j is ih =>
        intro i hs he h
        rw [List.foldl_cons] at h
        have hij : i < j := (List.pairwise_cons.1 hs).1 j (by simp)
        have : routeBetter (some (c i)) (c j) = c j := by
          simp [routeBetter, he i (by simp) j (by simp), hc, hij]
        rw [this] at h
        obtain ⟨k, h1, h2, h3⟩ := ih j (List.pairwise_cons.1 hs).2 (fun a ha b hb => he a (by simp [ha]) b (by simp [hb])) h
        refine ⟨k, by simp [h1], h2, ?_⟩
        intro b hb
        rcases List.mem_cons.1 hb with rfl | hb
        · have := h3 j (by simp); omega
        · exact h3 b hb
    exact key is i hs h hr

end cut

end Gse
