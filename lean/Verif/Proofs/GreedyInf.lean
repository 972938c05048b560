import Verif.Proofs.Greedy
import Verif.Proofs.Error

/-!
# Greedy matching: infinite distances
-/

set_option linter.unusedSectionVars false

namespace Gse

open Spec

section seg
variable {F : Type} [F64 F] [Narrow F Binary32] [Unicode]

/-- Finite, and not above the number that adding 32 leaves as it is. -/
def BFin (x : Binary32) : Prop := x.datum.IsFin ∧ |x.datum.val| ≤ 2 ^ (30 : ℤ)

theorem c32_datum : (F32.c32 : Binary32).datum = .fin false 32 := by
  show Datum.ofNat f32 32 = _
  rw [Datum.ofNat_exact (f := f32) (by decide) (by decide)]
  rfl

theorem zero32_datum : (F32.zero : Binary32).datum = .fin false 0 := by
  show Datum.ofNat f32 0 = _
  rw [Datum.ofNat_exact (f := f32) (by decide) (by decide)]
  rfl

theorem bfin_zero : BFin F32.zero := by
  unfold BFin
  rw [zero32_datum]
  exact ⟨trivial, by simp [Datum.val]⟩

theorem bfin_add {x : Binary32} (h : BFin x) : BFin (F32.add x F32.c32) := by
  obtain ⟨h1, h2⟩ := h
  obtain ⟨s, hs⟩ := h1.eq
  have e : (F32.add x F32.c32 : Binary32).datum = Datum.make f32 (s && false) (x.datum.val + 32) := by
    show Datum.add f32 x.datum (F32.c32 : Binary32).datum = _
    rw [c32_datum, hs]; rfl
  have hb : |f32.round (x.datum.val + 32)| ≤ 2 ^ (30 : ℤ) :=
    f32.round_bounded (e := 5) (by decide) h2 (by norm_num)
  obtain ⟨g1, g2⟩ := Datum.make_val (f := f32) (s && false) (q := x.datum.val + 32) (lt_of_le_of_lt hb (by
    show (2 : ℚ) ^ (30 : ℤ) < 2 ^ (128 : Nat)
    norm_num))
  unfold BFin
  rw [e]
  exact ⟨g1, by rw [g2]; exact hb⟩

theorem bfin_or_inf_add {x y : Binary32} (h : BFin x ∨ x.datum = .inf false) (hy : y.datum = .inf false) : (F32.add x y).datum = .inf false := by
  show Datum.add f32 x.datum y.datum = _
  rw [hy]
  rcases h with h | h
  · obtain ⟨s, hs⟩ := h.1.eq
    rw [hs]; rfl
  · rw [h]; rfl

theorem gt_inf_fin {x y : Binary32} (hx : x.datum = .inf false) (hy : BFin y) : F32.gt x y = true := by
  show Datum.lt y.datum x.datum = true
  obtain ⟨s, hs⟩ := hy.1.eq
  rw [hx, hs]; rfl

theorem gt_inf_inf {x y : Binary32} (hy : y.datum = .inf false) : F32.gt x y = false := by
  show Datum.lt y.datum x.datum = false
  rw [hy]; cases x.datum <;> rfl

theorem isZero_inf {x : Binary32} (hx : x.datum = .inf false) : F32.isZero x = false := by
  show Datum.eq x.datum _ = false
  rw [hx, Datum.ofNat_exact (f := f32) (by decide) (by decide)]
  rfl

/-- No word up to `l` is stored by itself. -/
def Unk (d : Dictionary F Binary32) (ws : List Bytes) (l : Nat) : Prop := ∀ m ≤ l, storedTok d (slice ws m (m + 1)).flatten = none

/-- What the table holds. -/
def GInv (d : Dictionary F Binary32) (ws : List Bytes) (c : Nat) (js : List (Jumper Binary32)) : Prop :=
  ∀ l j r, js[l]? = some j → j.token = some r → ∃ i dist, i < c ∧ edge d ws false i (l + 1) = some (r, dist) ∧
    j.minDistance = F32.add (baseOf js i) dist ∧
    ((l < c ∧ Unk d ws l ∧ i = l ∧ BFin j.minDistance) ∨
     (¬ (l < c ∧ Unk d ws l) ∧ j.minDistance.datum = .inf false ∧ ∀ i' < i, edge d ws false i' (l + 1) = none))

/-- The distance of an edge. -/
theorem edge_inf {d : Dictionary F Binary32} {ws : List Bytes}
    (hN : ∀ i k t, storedTok d (slice ws i k).flatten = some t → t.distance.datum = .inf false) {i k : Nat}
    {r : TokRef} {dist : Binary32} (h : edge d ws false i k = some (r, dist)) :
    ((∃ t, storedTok d (slice ws i k).flatten = some t) ∧ dist.datum = .inf false) ∨
    (storedTok d (slice ws i k).flatten = none ∧ k = i + 1 ∧ dist = F32.c32) := by
  unfold edge at h
  split at h
  · split at h
    · next v hv =>
      simp only [Bool.false_eq_true, false_and, if_false, Option.map_eq_some_iff, Prod.mk.injEq] at h
      obtain ⟨t, ht, _, e⟩ := h
      have : storedTok d (slice ws i k).flatten = some t := by unfold storedTok; rw [hv]; exact ht
      rw [← e]
      exact .inl ⟨⟨t, this⟩, hN _ _ t this⟩
    · next hv =>
      split at h
      · next hk =>
        refine .inr ⟨by unfold storedTok; rw [hv]; rfl, hk, ?_⟩
        simp only [Option.map_eq_some_iff, Prod.mk.injEq] at h
        obtain ⟨_, _, _, e⟩ := h
        exact e.symm
      · cases h
  · cases h

theorem unk_succ {d : Dictionary F Binary32} {ws : List Bytes} {c : Nat} :
    Unk d ws c ↔ (∀ m < c, Unk d ws m) ∧ storedTok d (slice ws c (c + 1)).flatten = none := by
  constructor
  · intro h
    exact ⟨fun m hm k hk => h k (by omega), h c (Nat.le_refl _)⟩
  · rintro ⟨h1, h2⟩ m hm
    rcases Nat.lt_or_ge m c with h | h
    · exact h1 m h m (Nat.le_refl _)
    · have : m = c := by omega
      rw [this]; exact h2

/-- What the table holds before word `c`. -/
theorem ginv_base [UnicodeOK] {cfg : SplitCfg} {d : Dictionary F Binary32} (hwf : d.Coh cfg) {ws : List Bytes} (hs : IsSplitText cfg ws) {c : Nat} {js : List (Jumper Binary32)}
    (hi : JInv d ws false c js) (ho : GInv d ws c js) (hc : c < ws.length) :
    (BFin (baseOf js c) ∧ ∀ m < c, Unk d ws m) ∨ ((baseOf js c).datum = .inf false ∧ ¬ ∀ m < c, Unk d ws m) := by
  cases c with
  | zero => exact .inl ⟨by simpa [baseOf] using bfin_zero, by omega⟩
  | succ c =>
    obtain ⟨j, hj, hcase⟩ := hi.cell c (by omega)
    have hall : (∀ m < c + 1, Unk d ws m) ↔ Unk d ws c :=
      ⟨fun h => h c (by omega), fun h m hm k hk => h k (by omega)⟩
    rw [baseOf_succ hj, hall]
    rcases hcase with ⟨_, _, h3⟩ | ⟨i, r, dist, _, h2, h3, h4⟩
    · obtain ⟨x, hx⟩ := edge_single (sm := false) hwf hs (by simp) (l := c) (by omega)
      rw [h3 c (by omega)] at hx; cases hx
    · obtain ⟨_, _, _, _, _, h | h⟩ := ho c j r hj h3
      · exact .inl ⟨h.2.2.2, h.2.1⟩
      · exact .inr ⟨h.2.1, fun hu => h.1 ⟨by omega, hu⟩⟩

theorem ginv_step [UnicodeOK] {cfg : SplitCfg} {d : Dictionary F Binary32} (hwf : d.Coh cfg) {ws : List Bytes} (hs : IsSplitText cfg ws)
    (hN : ∀ i k t, storedTok d (slice ws i k).flatten = some t → t.distance.datum = .inf false) {c : Nat} (hc : c < ws.length)
    {js js' : List (Jumper Binary32)} (hi : JInv d ws false c js) (ho : GInv d ws c js)
    (h : ∀ l, js'[l]? = stepped d ws false c js l) : GInv d ws (c + 1) js' := by
  have hbase : ∀ i, i ≤ c → baseOf js' i = baseOf js i := fun i hi => stepped_base h hi
  have hb := ginv_base hwf hs hi ho hc
  intro l j' r' hj' ht'
  rw [h, stepped] at hj'
  cases he : edge d ws false c (l + 1) with
  | none =>
    rw [he] at hj'
    obtain ⟨i, dist, h1, h2, h3, h4⟩ := ho l j' r' hj' ht'
    refine ⟨i, dist, by omega, h2, by rw [hbase i (by omega)]; exact h3, ?_⟩
    have hlc : l ≠ c := by
      rintro rfl
      obtain ⟨x, hx⟩ := edge_single (sm := false) hwf hs (by simp) hc
      rw [he] at hx; cases hx
    rcases h4 with ⟨a, b⟩ | ⟨a, b⟩
    · exact .inl ⟨by omega, b⟩
    · exact .inr ⟨fun hx => a ⟨by omega, hx.2⟩, b⟩
  | some x =>
    obtain ⟨r, dist⟩ := x
    rw [he] at hj'
    simp only [Option.map_eq_some_iff] at hj'
    obtain ⟨j, hj, e⟩ := hj'
    obtain ⟨hcl, hlw⟩ := edge_lt he
    obtain ⟨j0, hj0, hcase⟩ := hi.cell l (by omega)
    rw [hj] at hj0; cases hj0
    have hd := edge_inf hN he
    -- the new distance, and what it means for word `l`
    have hnew : (BFin (F32.add (baseOf js c) dist) ∧ l = c ∧ Unk d ws l) ∨
        ((F32.add (baseOf js c) dist).datum = .inf false ∧ ¬ (l < c + 1 ∧ Unk d ws l)) := by
      rcases hd with ⟨⟨t, ht⟩, hinf⟩ | ⟨hn, hk, rfl⟩
      · refine .inr ⟨bfin_or_inf_add (hb.imp And.left And.left) hinf, ?_⟩
        rintro ⟨hl, hu⟩
        have : l = c := by omega
        subst this
        rw [hu l (Nat.le_refl _)] at ht; cases ht
      · have : l = c := by omega
        subst this
        rcases hb with ⟨b1, b2⟩ | ⟨b1, b2⟩
        · exact .inl ⟨bfin_add b1, rfl, unk_succ.2 ⟨b2, hn⟩⟩
        · refine .inr ⟨?_, fun hx => b2 (unk_succ.1 hx.2).1⟩
          show Datum.add f32 (baseOf js l).datum (F32.c32 : Binary32).datum = _
          rw [b1, c32_datum]; rfl
    have hset : ∀ (hmin : ∀ i' < c, edge d ws false i' (l + 1) = none ∨ BFin (F32.add (baseOf js c) dist)),
        updateJumper j (baseOf js c) r dist = ⟨F32.add (baseOf js c) dist, some r⟩ →
        ∃ i dist, i < c + 1 ∧ edge d ws false i (l + 1) = some (r', dist) ∧ j'.minDistance = F32.add (baseOf js' i) dist ∧
          ((l < c + 1 ∧ Unk d ws l ∧ i = l ∧ BFin j'.minDistance) ∨
           (¬ (l < c + 1 ∧ Unk d ws l) ∧ j'.minDistance.datum = .inf false ∧ ∀ i' < i, edge d ws false i' (l + 1) = none)) := by
      intro hmin hup
      rw [hup] at e
      subst e
      cases ht'
      refine ⟨c, dist, by omega, he, by rw [hbase c (Nat.le_refl _)], ?_⟩
      rcases hnew with ⟨a, rfl, b⟩ | ⟨a, b⟩
      · exact .inl ⟨by omega, b, rfl, a⟩
      · refine .inr ⟨b, a, fun i' hi' => ?_⟩
        rcases hmin i' hi' with h | h
        · exact h
        · obtain ⟨s, hs⟩ := h.1.eq
          rw [a] at hs; cases hs
    rcases hcase with ⟨h1, h2, h3⟩ | ⟨i0, r0, dist0, g1, g2, g3, g4⟩
    · refine hset (fun i' hi' => .inl (h3 i' hi')) ?_
      unfold updateJumper
      rw [h2, F32.isZero_zero]
      rfl
    · obtain ⟨i, dist1, k1, k2, k3, k4⟩ := ho l j r0 hj g3
      rcases k4 with ⟨k4, _⟩ | ⟨_, k5, k6⟩
      · omega
      · rcases hnew with ⟨a, rfl, b⟩ | ⟨a, b⟩
        · refine hset (fun _ _ => .inr a) ?_
          simp only [updateJumper, isZero_inf k5, gt_inf_fin k5 a, Bool.false_or, if_true]
        · have : updateJumper j (baseOf js c) r dist = j := by
            simp only [updateJumper, isZero_inf k5, gt_inf_inf a, Bool.false_or, Bool.false_eq_true, if_false]
          rw [this] at e
          subst e
          rw [g3] at ht'; cases ht'
          exact ⟨i, dist1, by omega, k2, by rw [hbase i (by omega)]; exact k3, .inr ⟨b, k5, k6⟩⟩

theorem mem_take_slice {ws : List Bytes} {k : Nat} (hk : k ≤ ws.length) {w : Bytes} (h : w ∈ ws.take k) :
    ∃ m < k, w = (slice ws m (m + 1)).flatten := by
  obtain ⟨m, hm, rfl⟩ := List.mem_iff_getElem.1 h
  simp only [List.length_take] at hm
  refine ⟨m, by omega, ?_⟩
  rw [List.getElem_take, slice, show m + 1 - m = 1 by omega, List.drop_eq_getElem_cons (by omega)]
  exact (List.append_nil _).symm

theorem slice_mem_take {ws : List Bytes} {k m : Nat} (hk : k ≤ ws.length) (hm : m < k) : (slice ws m (m + 1)).flatten ∈ ws.take k := by
  rw [slice, show m + 1 - m = 1 by omega, List.drop_eq_getElem_cons (by omega)]
  simp only [List.take_succ_cons, List.take_zero, List.flatten_cons, List.flatten_nil, List.append_nil]
  exact List.mem_take_iff_getElem.2 ⟨m, by omega, by simp⟩

theorem path_infBack [UnicodeOK] {cfg : SplitCfg} {d : Dictionary F Binary32} (hwf : d.Coh cfg) {ws : List Bytes} (hs : IsSplitText cfg ws)
    {k : Nat} {refs : List TokRef} {c : Binary32}
    (h : Path (fun i k r dist => edge d ws false i k = some (r, dist) ∧
      ((Unk d ws (k - 1) ∧ i = k - 1) ∨ (¬ Unk d ws (k - 1) ∧ ∀ i' < i, edge d ws false i' k = none))) k refs c) :
    k ≤ ws.length → ∃ ts, refs.map d.deref = ts.map some ∧ InfBack d (ws.take k) ts ∧
      (0 < k → Unk d ws (k - 1) → ts = (ws.take k).map unknownTok) := by
  induction h with
  | nil => intro _; exact ⟨[], rfl, by simpa using InfBack.unknown (d := d) (ws := []) (by simp), by simp⟩
  | @snoc i k refs c r dist hp he ih =>
    intro hk
    obtain ⟨he, hmin⟩ := he
    have hlt := edge_lt he
    obtain ⟨ts, h1, h2, h2'⟩ := ih (by omega)
    obtain ⟨t, hd, htx, hdist, hpiece, _, href⟩ := edge_token hwf hs he
    have hcut : ws.take k = ws.take i ++ t.text := by
      rw [htx, slice]
      have e : ws.take k = (ws.take k).take i ++ (ws.take k).drop i := (List.take_append_drop _ _).symm
      rw [e, List.take_take, Nat.min_eq_left (by omega), List.drop_take]
    have hrefs : (refs ++ [r]).map d.deref = (ts ++ [t]).map some := by simp [h1, hd]
    rcases hmin with ⟨hu, hik⟩ | ⟨hu, hmin⟩
    · -- an unknown word after unknown words
      have hki : k = i + 1 := by omega
      have hti : ts = (ws.take i).map unknownTok := by
        rcases Nat.eq_zero_or_pos i with rfl | h0
        · cases hp with
          | nil => simpa using h1.symm
          | snoc hp' he' => exact absurd (edge_lt he'.1).1 (by omega)
        · exact h2' h0 (fun m hm => hu m (by omega))
      have htok : t = unknownTok (slice ws i (i + 1)).flatten := by
        have hno := hu i (by omega)
        rcases hpiece.2 with hst | ⟨w, rfl, _⟩
        · rw [htx, hki, hno] at hst; cases hst
        · have : ([w] : List Bytes) = slice ws i k := htx
          rw [← hki, ← this]; simp
      have htext : t.text = [(slice ws i (i + 1)).flatten] := by rw [htok]; rfl
      have hall : ts ++ [t] = (ws.take k).map unknownTok := by
        rw [hcut, List.map_append, hti, htext, List.map_singleton, ← htok]
      refine ⟨ts ++ [t], hrefs, ?_, fun _ _ => hall⟩
      rw [hall]
      refine .unknown (fun w hw => ?_)
      obtain ⟨m, hm, rfl⟩ := mem_take_slice hk hw
      exact hu m (by omega)
    · refine ⟨ts ++ [t], hrefs, ?_, fun _ h => absurd h hu⟩
      have hex : ∃ w ∈ ws.take i ++ t.text, storedTok d w ≠ none := by
        rw [← hcut]
        simp only [Unk, not_forall] at hu
        obtain ⟨m, hm, hne⟩ := hu
        exact ⟨_, slice_mem_take hk (by omega), hne⟩
      rw [hcut]
      refine h2.snoc hpiece hex ?_
      intro ws' u hu' hp'
      rw [← hcut] at hu'
      have hl := congrArg List.length hu'
      simp only [List.length_append, List.length_take] at hl
      have hpos := List.length_pos_iff.2 hp'.1
      have hux : u.text = slice ws ws'.length k := by
        have : (ws.take k).drop ws'.length = u.text := by rw [← hu']; simp
        rw [← this, slice, List.drop_take]
      obtain ⟨r', hr', _⟩ := edge_of_piece (sm := false) hwf (show ws'.length < k by omega) hlt.2 (by simp) hux hp'
      have : ¬ ws'.length < i := fun hc => by
        have := hmin _ hc
        rw [hr'] at this; cases this
      have := slice_length ws i k hlt.2
      rw [← htx] at this
      omega

/-- Segmentation when the distances of all words in the text are infinite. -/
theorem segmentWords_inf [UnicodeOK] {cfg : SplitCfg} {d : Dictionary F Binary32} (hwf : d.Coh cfg) {ws : List Bytes} (hs : IsSplitText cfg ws)
    (hN : ∀ i k t, storedTok d (slice ws i k).flatten = some t → t.distance.datum = .inf false) :
    ∃ segs ts, segmentWords (some d) ws false = some segs ∧ segs.map (fun g => d.deref g.tok) = ts.map some ∧ InfBack d ws ts := by
  obtain ⟨js, segs, ts, hinv, ho, h1, h2, hpath, h3, _⟩ :=
    segmentWords_gen (sm := false) hwf hs (by simp) (GInv d ws)
      (fun _ i k _ _ => (Unk d ws (k - 1) ∧ i = k - 1) ∨ (¬ Unk d ws (k - 1) ∧ ∀ i' < i, edge d ws false i' k = none)) (by
        intro l j r hj ht
        have := List.mem_of_getElem? hj
        rw [List.eq_of_mem_replicate this] at ht
        simp at ht)
      (fun c js js' hc hi ho _ h => ginv_step hwf hs hN hc hi ho h) (by
      intro js hinv ho l j hj hl
      obtain ⟨j', _, r, _, h1, _, h3, _⟩ := jinv_done hwf hs (by simp) hinv hl
      rw [hj] at h1; cases h1
      obtain ⟨i, dist, _, e1, e2, e3⟩ := ho l j r hj h3
      refine ⟨i, r, dist, e1, h3, e2, ?_⟩
      rw [Nat.add_sub_cancel]
      rcases e3 with ⟨_, a, b, _⟩ | ⟨a, _, b⟩
      · exact .inl ⟨a, b⟩
      · exact .inr ⟨fun hu => a ⟨hl, hu⟩, b⟩)
  obtain ⟨ts', e1, e2, _⟩ := path_infBack hwf hs hpath (Nat.le_refl _)
  rw [List.take_length] at e2
  refine ⟨segs, ts', h1, ?_, e2⟩
  rw [← e1, ← h2, List.map_map]; rfl

end seg

end Gse
