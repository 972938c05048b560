import Verif.Proofs.Path
import Mathlib.Data.List.Induction

/-! `segmentWords` returns the best segmentation when every distance is positive. -/

namespace Gse

set_option linter.unusedSectionVars false
open Spec Trie F32Laws

variable {F D : Type} [F64 F] [F32 D] [Narrow F D] [Unicode]

theorem piece_dist [F32Laws D] {d : Dictionary F D} (hd : PosDist d) {t : Token F D} (h : IsPiece d t) :
    good t.distance ∧ F32.gt t.distance F32.zero = true := by
  rcases h.2 with h | ⟨w, rfl, _⟩
  · exact hd _ _ h
  · exact ⟨good_c32, pos_c32⟩

/-- What is kept besides `JInv`. -/
structure OInv [F32Laws D] (d : Dictionary F D) (ws : List Bytes) (sm : Bool) (c : Nat) (js : List (Jumper D)) : Prop where
  goodAll : ∀ j ∈ js, good j.minDistance
  best : ∀ l j r, js[l]? = some j → j.token = some r → ∃ i dist, i < c ∧ edge d ws sm i (l + 1) = some (r, dist) ∧
    j.minDistance = F32.add (baseOf js i) dist ∧
    ∀ i' r' dist', i' < c → edge d ws sm i' (l + 1) = some (r', dist') →
      F32.gt j.minDistance (F32.add (baseOf js i') dist') = false ∧
      (i' < i → F32.gt (F32.add (baseOf js i') dist') j.minDistance = true)

theorem good_base [F32Laws D] {js : List (Jumper D)} (h : ∀ j ∈ js, good j.minDistance) (i : Nat) : good (baseOf js i) := by
  unfold baseOf
  split
  · exact good_zero
  · cases hj : js[i - 1]? with
    | none => exact good_zero
    | some j => exact h j (List.mem_of_getElem? hj)

theorem gt_irrefl [F32Laws D] {a : D} (h : good a) : F32.gt a a = false := by
  cases e : F32.gt a a with
  | false => rfl
  | true => rw [gt_asymm h h e] at e; exact absurd e (by simp)

theorem oinv_init [F32Laws D] (d : Dictionary F D) (ws : List Bytes) (sm : Bool) :
    OInv d ws sm 0 (List.replicate ws.length ⟨F32.zero, none⟩) := by
  refine ⟨?_, ?_⟩
  · intro j hj
    rw [List.eq_of_mem_replicate hj]
    exact good_zero
  · intro l j r hj ht
    have := List.mem_of_getElem? hj
    rw [List.eq_of_mem_replicate this] at ht
    simp at ht

theorem oinv_step [UnicodeOK] [F32Laws D] {cfg : SplitCfg} {d : Dictionary F D} (hwf : d.Coh cfg) (hd : PosDist d)
    {ws : List Bytes} (hs : IsSplitText cfg ws) {sm : Bool} {c : Nat} {js js' : List (Jumper D)}
    (hc : c < ws.length) (hi : JInv d ws sm c js) (ho : OInv d ws sm c js) (hlen : js'.length = ws.length)
    (h : ∀ l, js'[l]? = stepped d ws sm c js l) : OInv d ws sm (c + 1) js' := by
  have hbase : ∀ i, i ≤ c → baseOf js' i = baseOf js i := fun i hi => stepped_base h hi
  have hgb := good_base ho.goodAll
  have hedge : ∀ {i k r dist}, edge d ws sm i k = some (r, dist) → good dist ∧ F32.gt dist F32.zero = true := by
    intro i k r dist he
    obtain ⟨t, _, _, e, hp, _⟩ := edge_token hwf hs he
    rw [← e]; exact piece_dist hd hp
  refine ⟨?_, ?_⟩
  · intro j hj
    obtain ⟨l, hl⟩ := List.mem_iff_getElem?.1 hj
    rw [h l, stepped] at hl
    cases he : edge d ws sm c (l + 1) with
    | none => rw [he] at hl; exact ho.goodAll j (List.mem_of_getElem? hl)
    | some x =>
      obtain ⟨r, dist⟩ := x
      rw [he] at hl
      simp only [Option.map_eq_some_iff] at hl
      obtain ⟨j0, hj0, rfl⟩ := hl
      unfold updateJumper
      simp only
      split
      · exact good_add (hgb c) (hedge he).1
      · exact ho.goodAll j0 (List.mem_of_getElem? hj0)
  · intro l j r hj ht
    have hl : l < ws.length := by
      rw [← hlen]; exact (List.getElem?_eq_some_iff.1 hj).1
    rw [h l, stepped] at hj
    cases he : edge d ws sm c (l + 1) with
    | none =>
      rw [he] at hj
      obtain ⟨i, dist, h1, h2, h3, h4⟩ := ho.best l j r hj ht
      refine ⟨i, dist, by omega, h2, by rw [hbase i (by omega), h3], ?_⟩
      intro i' r' dist' hi' he'
      have : i' ≠ c := by rintro rfl; rw [he] at he'; simp at he'
      rw [hbase i' (by omega)]
      exact h4 i' r' dist' (by omega) he'
    | some x =>
      obtain ⟨rc, dc⟩ := x
      rw [he] at hj
      simp only [Option.map_eq_some_iff] at hj
      obtain ⟨j0, hj0, rfl⟩ := hj
      have hgd := hedge he
      have hgnew : good (F32.add (baseOf js c) dc) := good_add (hgb c) hgd.1
      have hg0 := ho.goodAll j0 (List.mem_of_getElem? hj0)
      unfold updateJumper at ht ⊢
      simp only at ht ⊢
      split at ht
      · rename_i hup
        rw [if_pos hup]
        simp at ht
        subst ht
        refine ⟨c, dc, by omega, he, by rw [hbase c (by omega)], ?_⟩
        intro i' r' dist' hi' he'
        by_cases e : i' = c
        · subst e
          rw [he] at he'
          simp at he'
          obtain ⟨rfl, rfl⟩ := he'
          rw [hbase i' (by omega)]
          exact ⟨gt_irrefl hgnew, by omega⟩
        · rw [hbase i' (by omega)]
          have hi'c : i' < c := by omega
          have hgo : good (F32.add (baseOf js i') dist') := good_add (hgb i') (hedge he').1
          -- the old cell was visited
          obtain ⟨j1, hj1, hcase⟩ := hi.cell l hl
          rw [hj0] at hj1; cases hj1
          rcases hcase with ⟨_, _, h3⟩ | ⟨i1, r1, dist1, h1, h2, h3, h4⟩
          · rw [h3 i' hi'c] at he'; simp at he'
          · obtain ⟨i, dist, g1, g2, g3, g4⟩ := ho.best l j0 r1 hj0 h3
            have hpos : F32.isZero j0.minDistance = false := by
              rw [h4]
              exact isZero_pos (good_add (hgb i1) (hedge h2).1) (add_pos (hgb i1) (hedge h2).1 (hedge h2).2)
            rw [hpos] at hup
            simp at hup
            have h5 := (g4 i' r' dist' hi'c he').1
            have h6 : F32.gt (F32.add (baseOf js i') dist') (F32.add (baseOf js c) dc) = true := by
              rcases gt_cotrans hg0 hgo hgnew hup with h7 | h7
              · rw [h5] at h7; simp at h7
              · exact h7
            exact ⟨gt_asymm hgo hgnew h6, fun _ => h6⟩
      · rename_i hno
        rw [if_neg hno]
        obtain ⟨i, dist, g1, g2, g3, g4⟩ := ho.best l j0 r hj0 ht
        refine ⟨i, dist, by omega, g2, by rw [hbase i (by omega), g3], ?_⟩
        intro i' r' dist' hi' he'
        rw [hbase i' (by omega)]
        by_cases e : i' = c
        · subst e
          rw [he] at he'
          simp at he'
          obtain ⟨rfl, rfl⟩ := he'
          simp at hno
          exact ⟨hno.2, by omega⟩
        · exact g4 i' r' dist' (by omega) he'

/-- What a table entry says in the end. -/
def Chosen (d : Dictionary F D) (ws : List Bytes) (sm : Bool) (js : List (Jumper D)) (i k : Nat) (_ : TokRef) (dist : D) : Prop :=
  baseOf js k = F32.add (baseOf js i) dist ∧
    ∀ i' r' dist', edge d ws sm i' k = some (r', dist') →
      F32.gt (baseOf js k) (F32.add (baseOf js i') dist') = false ∧
      (i' < i → F32.gt (F32.add (baseOf js i') dist') (baseOf js k) = true)

theorem wordsOf_append (a b : List (Token F D)) : wordsOf (a ++ b) = wordsOf a ++ wordsOf b := by simp [wordsOf]

theorem wordsOf_single (t : Token F D) : wordsOf [t] = t.text := by simp [wordsOf]

theorem cost_snoc (p : List (Token F D)) (t : Token F D) : cost (p ++ [t]) = F32.add (cost p) t.distance := by simp [cost]

theorem good_cost [F32Laws D] {d : Dictionary F D} (hd : PosDist d) (ts : List (Token F D)) (h : ∀ t ∈ ts, IsPiece d t) :
    good (cost ts) := by
  unfold cost
  have : ∀ c : D, good c → good (ts.foldl (fun c t => F32.add c t.distance) c) := by
    induction ts with
    | nil => intro c hc; exact hc
    | cons t ts ih =>
      intro c hc
      exact ih (fun x hx => h x (by simp [hx])) _ (good_add hc (piece_dist hd (h t (by simp))).1)
  exact this _ good_zero

/-- The last token of a segmentation of the first `k` words is an edge. -/
theorem seg_last_edge [UnicodeOK] {cfg : SplitCfg} {d : Dictionary F D} (hwf : d.Coh cfg)
    {ws : List Bytes} {sm : Bool} {k : Nat} (hk : k ≤ ws.length) {p : List (Token F D)} {t : Token F D}
    (h : IsSegmentation d (ws.take k) (p ++ [t])) (hex : sm = true → k = ws.length → p ≠ []) :
    ∃ i r, i + t.text.length = k ∧ IsSegmentation d (ws.take i) p ∧ edge d ws sm i k = some (r, t.distance) ∧ i < k := by
  obtain ⟨h1, h2⟩ := h
  rw [wordsOf_append, wordsOf_single] at h1
  have hlen : (wordsOf p).length + t.text.length = k := by
    have := congrArg List.length h1
    simp at this; omega
  have hpiece := h2 t (by simp)
  have htl := List.length_pos_iff.2 hpiece.1
  have hp1 : wordsOf p = ws.take (wordsOf p).length := by
    have := congrArg (List.take (wordsOf p).length) h1
    rw [List.take_left, List.take_take, Nat.min_eq_left (by omega)] at this
    exact this
  have ht1 : t.text = slice ws (wordsOf p).length k := by
    have := congrArg (List.drop (wordsOf p).length) h1
    rw [List.drop_left, List.drop_take] at this
    exact this
  have hpn : p ≠ [] → 0 < (wordsOf p).length := by
    intro hne
    obtain ⟨t0, p0, rfl⟩ := List.exists_cons_of_ne_nil hne
    have := List.length_pos_iff.2 (h2 t0 (by simp)).1
    simp [wordsOf]; omega
  obtain ⟨r, hr, _⟩ := edge_of_piece (sm := sm) hwf (i := (wordsOf p).length) (k := k) (by omega) hk (by
    rintro ⟨h3, h4, h5⟩
    have := hpn (hex h3 h5); omega) ht1 hpiece
  exact ⟨(wordsOf p).length, r, hlen, ⟨hp1, fun x hx => h2 x (by simp [hx])⟩, hr, by omega⟩

theorem lower_bound [UnicodeOK] [F32Laws D] {cfg : SplitCfg} {d : Dictionary F D} (hwf : d.Coh cfg) (hd : PosDist d)
    {ws : List Bytes} {sm : Bool} {js : List (Jumper D)} (hgood : ∀ j ∈ js, good j.minDistance)
    (hall : ∀ k i r dist, edge d ws sm i k = some (r, dist) →
      F32.gt (baseOf js k) (F32.add (baseOf js i) dist) = false) :
    ∀ k (us : List (Token F D)), k ≤ ws.length → IsSegmentation d (ws.take k) us → (sm = true → k = ws.length → us.length ≠ 1) →
      F32.gt (baseOf js k) (cost us) = false := by
  intro k
  induction k using Nat.strongRecOn with
  | ind k ih =>
    intro us hk hus hex
    have hgb := good_base hgood
    rcases List.eq_nil_or_concat us with rfl | ⟨p, t, rfl⟩
    · have h1 := hus.1
      simp [wordsOf] at h1
      have : k = 0 := by
        rcases h1 with h1 | h1
        · exact h1
        · subst h1; simp at hk; exact hk
      subst this
      simp only [baseOf, if_true, cost, List.foldl_nil]
      exact gt_irrefl good_zero
    · rw [List.concat_eq_append] at hus hex ⊢
      obtain ⟨i, r, h1, h2, h3, h4⟩ := seg_last_edge (sm := sm) hwf hk hus (by
        rintro h5 h6 rfl; exact hex h5 h6 (by simp))
      have hb := hall k i r _ h3
      have hi := ih i h4 p (by omega) h2 (by omega)
      have hpt := (piece_dist hd (hus.2 t (by simp))).1
      have hgp := good_cost hd p h2.2
      have hm := add_mono (hgb i) hgp hpt hi
      rw [cost_snoc]
      cases hx : F32.gt (baseOf js k) (F32.add (cost p) t.distance) with
      | false => rfl
      | true =>
        rcases gt_cotrans (hgb k) (good_add (hgb i) hpt) (good_add hgp hpt) hx with h | h
        · rw [hb] at h; simp at h
        · rw [hm] at h; simp at h

theorem segmentWords_best [UnicodeOK] [F32Laws D] {cfg : SplitCfg} {d : Dictionary F D} (hwf : d.Coh cfg) (hd : PosDist d)
    {ws : List Bytes} (hs : IsSplitText cfg ws) {sm : Bool} (hsm : ¬ (sm = true ∧ ws.length = 1)) :
    ∃ segs ts, segmentWords (some d) ws sm = some segs ∧ segs.map (·.tok) = ts.map (refOf d) ∧
      (ts.map (refOf d)).map d.deref = ts.map some ∧ positions d (ts.map (refOf d)) 0 = some segs ∧ IsBest d sm ws ts := by
  obtain ⟨js, segs, ts, hinv, ho, h1, h2, hpath, h3, hseg, hcost, hpos, _, _, htwo⟩ :=
    segmentWords_gen hwf hs hsm (OInv d ws sm) (Chosen d ws sm) (oinv_init d ws sm)
      (fun c js js' hc hi ho hlen h => oinv_step hwf hd hs hc hi ho hlen h) (by
      intro js hinv ho l j hj hl
      obtain ⟨j', _, r, _, h1, _, h3, _⟩ := jinv_done hwf hs hsm hinv hl
      rw [hj] at h1; cases h1
      obtain ⟨i, dist, g1, g2, g3, g4⟩ := ho.best l j r hj h3
      refine ⟨i, r, dist, g2, h3, g3, ?_, ?_⟩
      · rw [baseOf_succ hj, g3]
      · intro i' r' dist' he'
        rw [baseOf_succ hj]
        have := edge_lt he'
        exact g4 i' r' dist' (by omega) he')
  refine ⟨segs, ts, h1, h2, h3, hpos, ?_⟩
  have hgb := good_base ho.goodAll
  have hall : ∀ k i r dist, edge d ws sm i k = some (r, dist) → F32.gt (baseOf js k) (F32.add (baseOf js i) dist) = false := by
    intro k i r dist he
    have hlt := edge_lt he
    obtain ⟨l, rfl⟩ : ∃ l, k = l + 1 := ⟨k - 1, by omega⟩
    obtain ⟨j, _, r', _, hj, _, h4, _⟩ := jinv_done hwf hs hsm hinv (l := l) (by omega)
    obtain ⟨i0, dist0, g1, g2, g3, g4⟩ := ho.best l j r' hj h4
    rw [baseOf_succ hj]
    exact (g4 i r dist (by omega) he).1
  have hlb := lower_bound hwf hd ho.goodAll hall
  -- along the path
  have key : ∀ {k refs c}, Path (fun i k r dist => edge d ws sm i k = some (r, dist) ∧ Chosen d ws sm js i k r dist) k refs c →
      ∀ ts' : List (Token F D), refs = ts'.map (refOf d) → refs.map d.deref = ts'.map some →
      c = baseOf js k ∧ IsSegmentation d (ws.take k) ts' ∧ cost ts' = c ∧
      ∀ p t q, ts' = p ++ t :: q → ∃ k', k' ≤ k ∧ k' ≤ ws.length ∧ (q ≠ [] → k' < k) ∧ (q = [] → k' = k) ∧
        IsSegmentation d (ws.take k') (p ++ [t]) ∧ cost (p ++ [t]) = baseOf js k' ∧
        (∀ i' r' dist', edge d ws sm i' k' = some (r', dist') → k' < i' + t.text.length ∨ i' + t.text.length = k' ∨
          F32.gt (F32.add (baseOf js i') dist') (baseOf js k') = true) := by
    intro k refs c hp
    induction hp with
    | nil =>
      intro ts' h4 _
      have : ts' = [] := by simpa using h4.symm
      subst this
      exact ⟨by simp [baseOf], ⟨by simp [wordsOf], by simp⟩, rfl, by simp⟩
    | @snoc i k refs c r dist _ he ih =>
      intro ts' h4 h5
      obtain ⟨he, hch⟩ := he
      have hlt := edge_lt he
      have hne : ts' ≠ [] := by rintro rfl; simp at h4
      obtain ⟨ts0, t0, rfl⟩ := (List.eq_nil_or_concat ts').resolve_left hne
      rw [List.concat_eq_append] at *
      simp only [List.map_append, List.map_cons, List.map_nil] at h4 h5
      obtain ⟨h4a, h4b⟩ := List.append_inj' h4 rfl
      obtain ⟨h5a, h5b⟩ := List.append_inj' h5 rfl
      obtain ⟨g1, g2, g3, g4⟩ := ih ts0 h4a h5a
      obtain ⟨t, hd1, htx, hdist, hpc, _, _⟩ := edge_token hwf hs he
      have ht0 : t0 = t := by
        simp at h5b
        rw [hd1] at h5b; simpa using h5b.symm
      subst ht0
      have hsegk : IsSegmentation d (ws.take k) (ts0 ++ [t0]) := by
        refine ⟨?_, ?_⟩
        · rw [wordsOf_append, wordsOf_single, g2.1, htx, slice]
          have e : ws.take k = (ws.take k).take i ++ (ws.take k).drop i := (List.take_append_drop _ _).symm
          rw [e, List.take_take, Nat.min_eq_left (by omega), List.drop_take]
        · intro x hx
          rcases List.mem_append.1 hx with h | h
          · exact g2.2 x h
          · simp at h; subst h; exact hpc
      have hck : F32.add c dist = baseOf js k := by rw [hch.1, g1]
      have hcs : cost (ts0 ++ [t0]) = F32.add c dist := by rw [cost_snoc, g3, hdist]
      refine ⟨hck, hsegk, hcs, ?_⟩
      intro p t q hpq
      rcases List.eq_nil_or_concat q with rfl | ⟨q0, x, rfl⟩
      · obtain ⟨rfl, e⟩ := List.append_inj' hpq rfl
        simp at e; subst e
        refine ⟨k, Nat.le_refl _, hlt.2, by simp, by simp, hsegk, by rw [hcs, hck], ?_⟩
        intro i' r' dist' he'
        have htl : t0.text.length = k - i := by rw [htx, slice_length _ _ _ hlt.2]
        have hlt' := edge_lt he'
        by_cases hi' : i' < i
        · exact .inr (.inr ((hch.2 i' r' dist' he').2 hi'))
        · by_cases hi2 : i' = i
          · right; left; omega
          · left; omega
      · rw [List.concat_eq_append] at *
        have hpq' : ts0 ++ [t0] = (p ++ t :: q0) ++ [x] := by simpa using hpq
        obtain ⟨e1, e2⟩ := List.append_inj' hpq' rfl
        obtain ⟨k', a1, a2, a3, a4, a5⟩ := g4 p t q0 e1
        exact ⟨k', by omega, a2, fun _ => by omega, by simp, a5⟩
  obtain ⟨_, _, _, hpre⟩ := key hpath ts rfl h3
  refine ⟨hseg, ?_, ?_, ?_⟩
  · intro h4 h5
    by_cases hn : 2 ≤ ws.length
    · have := htwo h4 hn; omega
    · have : ws.length = 0 := by
        have : ws.length ≠ 1 := fun e => hsm ⟨h4, e⟩
        omega
      have hw : ws = [] := List.length_eq_zero_iff.1 this
      obtain ⟨t, ht⟩ := List.length_eq_one_iff.1 h5
      have h6 := hseg.1
      rw [ht, hw, wordsOf_single] at h6
      exact (hseg.2 t (by simp [ht])).1 h6
  · intro p t q hpq p' t' halt hex
    obtain ⟨k, a1, a2, a3, a4, a5, a6, _⟩ := hpre p t q hpq
    rw [a6]
    rw [a5.1] at halt
    refine hlb k _ a2 halt ?_
    intro h4 h5 h6
    have hq : q = [] := by
      by_cases hq : q = []
      · exact hq
      · have := a3 hq; omega
    have : p' = [] := List.length_eq_zero_iff.1 (by simpa using h6)
    exact hex h4 hq this
  · intro p t q hpq p' t' halt hex hle
    obtain ⟨k, a1, a2, a3, a4, a5, a6, a7⟩ := hpre p t q hpq
    rw [a5.1] at halt
    rw [a6] at hle
    obtain ⟨i, r, b1, b2, b3, b4⟩ := seg_last_edge (sm := sm) hwf a2 halt (by
      intro h4 h5
      have hq : q = [] := by
        by_cases hq : q = []
        · exact hq
        · have := a3 hq; omega
      exact hex h4 hq)
    rcases a7 i r _ b3 with h | h | h
    · omega
    · omega
    · exfalso
      have hpt := (piece_dist hd (halt.2 t' (by simp))).1
      have hgp := good_cost hd p' b2.2
      have hi := hlb i p' (by omega) b2 (by omega)
      have hm := add_mono (hgb i) hgp hpt hi
      rw [cost_snoc] at hle
      rcases gt_cotrans (good_add (hgb i) hpt) (good_add hgp hpt) (hgb k) h with h | h
      · rw [hm] at h; simp at h
      · rw [hle] at h; simp at h

theorem piece_unique {d : Dictionary F D} {t t' : Token F D} (h : IsPiece d t) (h' : IsPiece d t') (e : t.text = t'.text) : t = t' := by
  rcases h.2 with a | ⟨w, a, b⟩ <;> rcases h'.2 with a' | ⟨w', a', b'⟩
  · rw [e, a'] at a; exact (Option.some.inj a).symm
  · rw [e, a'] at a; simp [unknownTok, b'] at a
  · rw [← e, a] at a'; simp [unknownTok, b] at a'
  · rw [a, a'] at e ⊢
    simp [unknownTok] at e; rw [e]

theorem best_init [F32Laws D] {d : Dictionary F D} {two : Bool} {ws : List Bytes} {p : List (Token F D)} {t : Token F D}
    (h : IsBest d two ws (p ++ [t])) : IsBest d false (wordsOf p) p := by
  refine ⟨⟨rfl, fun x hx => h.seg.2 x (by simp [hx])⟩, by simp, ?_, ?_⟩
  · intro p0 t0 q e p' t' halt _
    exact h.cheapest p0 t0 (q ++ [t]) (by simp [e]) p' t' halt (by simp)
  · intro p0 t0 q e p' t' halt _
    exact h.longest p0 t0 (q ++ [t]) (by simp [e]) p' t' halt (by simp)

/-- The best segmentation is unique. -/
theorem best_unique [F32Laws D] {d : Dictionary F D} (two : Bool) (ws : List Bytes) (ts : List (Token F D)) :
    ∀ us, IsBest d two ws ts → IsBest d two ws us → ts = us := by
  induction ts using List.reverseRecOn generalizing two ws with
  | nil =>
    intro us h h'
    rcases List.eq_nil_or_concat us with rfl | ⟨p, t, rfl⟩
    · rfl
    · rw [List.concat_eq_append] at h'
      have h1 := h.seg.1
      rw [← h'.seg.1, wordsOf_append, wordsOf_single] at h1
      have : t.text = [] := by
        have := congrArg List.length h1
        simp [wordsOf] at this
        exact List.length_eq_zero_iff.1 (by omega)
      exact absurd this (h'.seg.2 t (by simp)).1
  | append_singleton p t ih =>
    intro us h h'
    rcases List.eq_nil_or_concat us with rfl | ⟨p', t', rfl⟩
    · have h1 := h'.seg.1
      rw [← h.seg.1, wordsOf_append, wordsOf_single] at h1
      have : t.text = [] := by
        have := congrArg List.length h1
        simp [wordsOf] at this
        exact List.length_eq_zero_iff.1 (by omega)
      exact absurd this (h.seg.2 t (by simp)).1
    · rw [List.concat_eq_append] at *
      have hw : wordsOf (p ++ [t]) = wordsOf (p' ++ [t']) := by rw [h.seg.1, h'.seg.1]
      have s1 : IsSegmentation d (wordsOf (p ++ [t])) (p' ++ [t']) := by rw [hw]; exact ⟨rfl, h'.seg.2⟩
      have s2 : IsSegmentation d (wordsOf (p' ++ [t'])) (p ++ [t]) := by rw [← hw]; exact ⟨rfl, h.seg.2⟩
      have n1 : two = true → ([] : List (Token F D)) = [] → p' ≠ [] := by
        rintro h1 _ rfl; exact h'.atLeast h1 (by simp)
      have n2 : two = true → ([] : List (Token F D)) = [] → p ≠ [] := by
        rintro h1 _ rfl; exact h.atLeast h1 (by simp)
      have c1 := h.cheapest p t [] rfl p' t' s1 n1
      have c2 := h'.cheapest p' t' [] rfl p t s2 n2
      have l1 := h.longest p t [] rfl p' t' s1 n1 c2
      have l2 := h'.longest p' t' [] rfl p t s2 n2 c1
      rw [wordsOf_append, wordsOf_append, wordsOf_single, wordsOf_single] at hw
      obtain ⟨e1, e2⟩ := List.append_inj' hw (by omega)
      have ht := piece_unique (h.seg.2 t (by simp)) (h'.seg.2 t' (by simp)) e2
      have hp : p = p' := ih false (wordsOf p) p' (best_init h) (by rw [e1]; exact best_init h')
      rw [ht, hp]

end Gse
