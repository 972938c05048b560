import Verif.Proofs.Segment
import Verif.Spec.Segment

/-! `segmentWords`: table invariant, back-tracking, positions. -/

namespace Gse

set_option linter.unusedSectionVars false
open Spec Trie

variable {F D : Type} [F64 F] [F32 D] [Narrow F D] [Unicode]

/-- A way through the text: edges from word 0 up to word `k`, with the distances added from the left. -/
inductive Path (E : Nat → Nat → TokRef → D → Prop) : Nat → List TokRef → D → Prop
  | nil : Path E 0 [] F32.zero
  | snoc {i k : Nat} {refs : List TokRef} {c : D} {r : TokRef} {dist : D} :
      Path E i refs c → E i k r dist → Path E k (refs ++ [r]) (F32.add c dist)

theorem Path.mono {E E' : Nat → Nat → TokRef → D → Prop} (h : ∀ i k r dist, E i k r dist → E' i k r dist) {k : Nat}
    {refs : List TokRef} {c : D} (hp : Path E k refs c) : Path E' k refs c := by
  induction hp with
  | nil => exact .nil
  | snoc _ he ih => exact ih.snoc (h _ _ _ _ he)

/-- `edge` as a relation. -/
def IsEdge (d : Dictionary F D) (ws : List Bytes) (sm : Bool) (i k : Nat) (r : TokRef) (dist : D) : Prop :=
  edge d ws sm i k = some (r, dist)

/-- The reference by which the search stores a token. -/
def refOf (d : Dictionary F D) (t : Token F D) : TokRef :=
  match d.trie.value t.text.flatten with
  | some v => .idx v
  | none => .pseudo t.text.flatten

theorem edge_lt {d : Dictionary F D} {ws : List Bytes} {sm : Bool} {i k : Nat} {x : TokRef × D}
    (h : edge d ws sm i k = some x) : i < k ∧ k ≤ ws.length := by
  unfold edge at h
  split at h
  · assumption
  · simp at h

/-- What an edge stands for. -/
theorem edge_token [UnicodeOK] {cfg : SplitCfg} {d : Dictionary F D} (hwf : d.Coh cfg) {ws : List Bytes} (hs : IsSplitText cfg ws)
    {sm : Bool} {i k : Nat} {r : TokRef} {dist : D} (h : edge d ws sm i k = some (r, dist)) :
    ∃ t, d.deref r = some t ∧ t.text = slice ws i k ∧ t.distance = dist ∧ IsPiece d t ∧
      ¬ (sm = true ∧ i = 0 ∧ k = ws.length ∧ 2 ≤ ws.length) ∧ r = refOf d t := by
  have hlt := edge_lt h
  unfold edge at h
  rw [if_pos hlt] at h
  have hne : slice ws i k ≠ [] := by
    intro e
    have := slice_length ws i k hlt.2
    rw [e] at this; simp at this; omega
  cases hv : d.trie.value (slice ws i k).flatten with
  | some v =>
    rw [hv] at h
    simp only at h
    split at h
    · simp at h
    · rename_i hex
      obtain ⟨t, ht, htx, _⟩ := hs.slice hwf (by omega) hv
      rw [ht] at h
      simp at h
      obtain ⟨rfl, rfl⟩ := h
      refine ⟨t, by simp [Dictionary.deref, ht], htx, rfl, ⟨by rw [htx]; exact hne, .inl ?_⟩, fun hh => hex ⟨hh.1, hh.2.1, hh.2.2.1⟩, by simp [refOf, htx, hv]⟩
      rw [htx, storedTok, hv]; simpa using ht
  | none =>
    rw [hv] at h
    simp only at h
    split at h
    · rename_i hk
      subst hk
      have hi : i < ws.length := by omega
      rw [List.getElem?_eq_getElem hi] at h
      simp at h
      obtain ⟨rfl, rfl⟩ := h
      rw [slice_succ ws i hi] at hv ⊢
      refine ⟨_, rfl, by simp, rfl, ⟨by simp, .inr ⟨ws[i], rfl, ?_⟩⟩, by omega, ?_⟩
      · simp at hv
        simp [storedTok, hv]
      · simp at hv
        simp [refOf, hv]
    · simp at h

/-- Every position has a one-word edge. -/
theorem edge_single [UnicodeOK] {cfg : SplitCfg} {d : Dictionary F D} (hwf : d.Coh cfg) {ws : List Bytes} (hs : IsSplitText cfg ws)
    {sm : Bool} (hsm : ¬ (sm = true ∧ ws.length = 1)) {l : Nat} (hl : l < ws.length) :
    ∃ x, edge d ws sm l (l + 1) = some x := by
  unfold edge
  rw [if_pos (by omega)]
  cases hv : d.trie.value (slice ws l (l + 1)).flatten with
  | some v =>
    simp only
    rw [if_neg (by rintro ⟨h1, h2, h3⟩; exact hsm ⟨h1, by omega⟩)]
    obtain ⟨t, ht, _, _⟩ := hs.slice hwf (by omega) hv
    rw [ht]; exact ⟨_, rfl⟩
  | none =>
    simp only [if_true]
    rw [List.getElem?_eq_getElem hl]; exact ⟨_, rfl⟩

/-- Conversely: every usable token between two words is an edge. -/
theorem edge_of_piece [UnicodeOK] {cfg : SplitCfg} {d : Dictionary F D} (hwf : d.Coh cfg) {ws : List Bytes}
    {sm : Bool} {i k : Nat} (hik : i < k) (hk : k ≤ ws.length) (hex : ¬ (sm = true ∧ i = 0 ∧ k = ws.length))
    {t : Token F D} (ht : t.text = slice ws i k) (hp : IsPiece d t) :
    ∃ r, edge d ws sm i k = some (r, t.distance) ∧ d.deref r = some t := by
  unfold edge
  rw [if_pos ⟨hik, hk⟩]
  rcases hp.2 with h | ⟨w, h, hn⟩
  · unfold storedTok at h
    rw [ht] at h
    obtain ⟨v, hv, htok⟩ := Option.bind_eq_some_iff.1 h
    rw [hv]
    simp only
    rw [if_neg hex, htok]
    exact ⟨.idx v, rfl, by simpa [Dictionary.deref] using htok⟩
  · have htx : t.text = [w] := by rw [h]; rfl
    rw [htx] at ht
    have hlen := slice_length ws i k hk
    rw [← ht] at hlen
    simp at hlen
    have hk1 : k = i + 1 := by omega
    subst hk1
    have hi : i < ws.length := by omega
    rw [slice_succ ws i hi] at ht
    have hw : w = ws[i] := by simpa using ht
    have hv : d.trie.value (slice ws i (i + 1)).flatten = none := by
      rw [slice_succ ws i hi]
      simp only [List.flatten_cons, List.flatten_nil, List.append_nil]
      rw [hw] at hn
      unfold storedTok at hn
      cases hv : d.trie.value ws[i] with
      | none => rfl
      | some v =>
        have := hwf.idx _ _ hv
        rw [hv] at hn
        simp at hn
        omega
    rw [hv]
    simp only [if_true]
    rw [List.getElem?_eq_getElem hi]
    refine ⟨.pseudo ws[i], ?_, ?_⟩
    · rw [h]; rfl
    · rw [h, hw]; rfl

/-! ### Table invariant -/

/-- State of the table after the first `c` outer iterations. -/
structure JInv (d : Dictionary F D) (ws : List Bytes) (sm : Bool) (c : Nat) (js : List (Jumper D)) : Prop where
  len : js.length = ws.length
  cell : ∀ l, l < ws.length → ∃ j, js[l]? = some j ∧
    ((j.token = none ∧ j.minDistance = F32.zero ∧ ∀ i, i < c → edge d ws sm i (l + 1) = none) ∨
     (∃ i r dist, i < c ∧ edge d ws sm i (l + 1) = some (r, dist) ∧ j.token = some r ∧
        j.minDistance = F32.add (baseOf js i) dist))

theorem stepped_base {d : Dictionary F D} {ws : List Bytes} {sm : Bool} {c : Nat} {js js' : List (Jumper D)}
    (h : ∀ l, js'[l]? = stepped d ws sm c js l) {i : Nat} (hi : i ≤ c) : baseOf js' i = baseOf js i := by
  unfold baseOf
  split
  · rfl
  · rename_i h0
    have : js'[i - 1]? = js[i - 1]? := by
      rw [h, stepped]
      have : edge d ws sm c (i - 1 + 1) = none := by
        unfold edge; rw [if_neg (by omega)]
      rw [this]
    rw [this]

theorem jinv_init (d : Dictionary F D) (ws : List Bytes) (sm : Bool) :
    JInv d ws sm 0 (List.replicate ws.length ⟨F32.zero, none⟩) := by
  refine ⟨by simp, ?_⟩
  intro l hl
  exact ⟨⟨F32.zero, none⟩, by simp [hl], .inl ⟨rfl, rfl, by omega⟩⟩

theorem jinv_step {d : Dictionary F D} {ws : List Bytes} {sm : Bool} {c : Nat} {js js' : List (Jumper D)}
    (hc : c < ws.length) (hi : JInv d ws sm c js) (hlen : js'.length = ws.length) (h : ∀ l, js'[l]? = stepped d ws sm c js l) :
    JInv d ws sm (c + 1) js' := by
  refine ⟨hlen, ?_⟩
  intro l hl
  obtain ⟨j, hj, hcase⟩ := hi.cell l hl
  have hst := h l
  rw [stepped, hj] at hst
  cases he : edge d ws sm c (l + 1) with
  | none =>
    rw [he] at hst
    refine ⟨j, hst, ?_⟩
    rcases hcase with ⟨h1, h2, h3⟩ | ⟨i, r, dist, h1, h2, h3, h4⟩
    · left
      refine ⟨h1, h2, ?_⟩
      intro i hic
      by_cases e : i = c
      · subst e; exact he
      · exact h3 i (by omega)
    · right
      exact ⟨i, r, dist, by omega, h2, h3, by rw [h4, stepped_base h (by omega)]⟩
  | some x =>
    obtain ⟨r, dist⟩ := x
    rw [he] at hst
    simp only [Option.map_some] at hst
    refine ⟨_, hst, .inr ?_⟩
    unfold updateJumper
    simp only
    split
    · exact ⟨c, r, dist, by omega, he, rfl, by rw [stepped_base h (by omega)]⟩
    · rename_i hno
      rcases hcase with ⟨h1, h2, h3⟩ | ⟨i, r', dist', h1, h2, h3, h4⟩
      · rw [h2, F32.isZero_zero] at hno
        simp at hno
      · exact ⟨i, r', dist', by omega, h2, h3, by rw [h4, stepped_base h (by omega)]⟩

theorem segLoop_inv [UnicodeOK] {cfg : SplitCfg} {d : Dictionary F D} (hwf : d.Coh cfg) {ws : List Bytes} (hs : IsSplitText cfg ws)
    (sm : Bool) (P : Nat → List (Jumper D) → Prop)
    (hP : ∀ c js js', c < ws.length → JInv d ws sm c js → P c js → js'.length = ws.length →
      (∀ l, js'[l]? = stepped d ws sm c js l) → P (c + 1) js') (k : Nat) :
    ∀ c js, c + k = ws.length → JInv d ws sm c js → P c js →
      ∃ js', segLoop d ws sm k c js = some js' ∧ JInv d ws sm ws.length js' ∧ P ws.length js' := by
  induction k with
  | zero =>
    intro c js hc hi hp
    have : c = ws.length := by omega
    subst this
    exact ⟨js, rfl, hi, hp⟩
  | succ k ih =>
    intro c js hc hi hp
    obtain ⟨js', h1, h2, h3⟩ := segStep_spec hwf hs sm c (by omega) js hi.len
    obtain ⟨js'', h4, h5, h6⟩ := ih (c + 1) js' (by omega) (jinv_step (by omega) hi h2 h3) (hP c js js' (by omega) hi hp h2 h3)
    exact ⟨js'', by simp [segLoop, h1, h4], h5, h6⟩

/-- The finished table: every position has a token. -/
theorem jinv_done [UnicodeOK] {cfg : SplitCfg} {d : Dictionary F D} (hwf : d.Coh cfg) {ws : List Bytes} (hs : IsSplitText cfg ws)
    {sm : Bool} (hsm : ¬ (sm = true ∧ ws.length = 1)) {js : List (Jumper D)} (h : JInv d ws sm ws.length js) {l : Nat} (hl : l < ws.length) :
    ∃ j i r dist, js[l]? = some j ∧ edge d ws sm i (l + 1) = some (r, dist) ∧ j.token = some r ∧
      j.minDistance = F32.add (baseOf js i) dist := by
  obtain ⟨j, hj, hcase⟩ := h.cell l hl
  rcases hcase with ⟨_, _, h3⟩ | ⟨i, r, dist, _, h2, h3, h4⟩
  · obtain ⟨x, hx⟩ := edge_single hwf hs hsm hl
    rw [h3 l hl] at hx; simp at hx
  · exact ⟨j, i, r, dist, hj, h2, h3, h4⟩

theorem baseOf_succ {js : List (Jumper D)} {l : Nat} {j : Jumper D} (h : js[l]? = some j) : baseOf js (l + 1) = j.minDistance := by
  simp [baseOf, h]

/-- Back-tracking from word `k`; `E` is anything known about the entries of the table. -/
theorem backtrack [UnicodeOK] {cfg : SplitCfg} {d : Dictionary F D} (hwf : d.Coh cfg) {ws : List Bytes} (hs : IsSplitText cfg ws)
    {sm : Bool} {js : List (Jumper D)} (E : Nat → Nat → TokRef → D → Prop)
    (hdone : ∀ l, l < ws.length → ∃ j i r dist, js[l]? = some j ∧ edge d ws sm i (l + 1) = some (r, dist) ∧ j.token = some r ∧
      j.minDistance = F32.add (baseOf js i) dist ∧ E i (l + 1) r dist) (k : Nat) (hk : k ≤ ws.length) :
    ∃ refs, Path E k refs (baseOf js k) ∧
      (∀ fuel num, k ≤ fuel → countSegs d js fuel k num = some (num + refs.length)) ∧
      (∀ fuel (A B : List TokRef), k ≤ fuel → A.length = refs.length → fillSegs d js fuel k refs.length (A ++ B) = some (refs ++ B)) := by
  induction k using Nat.strongRecOn with
  | ind k ih =>
    cases k with
    | zero =>
      refine ⟨[], ?_, ?_, ?_⟩
      · exact .nil
      · intro fuel num _; cases fuel <;> simp [countSegs]
      · intro fuel A B _ hA
        have : A = [] := List.length_eq_zero_iff.1 (by simpa using hA)
        subst this
        cases fuel <;> simp [fillSegs]
    | succ l =>
      obtain ⟨j, i, r, dist, hj, he, htok, hmin, hE⟩ := hdone l (by omega)
      have hlt := edge_lt he
      obtain ⟨t, hd, htx, _⟩ := edge_token hwf hs he
      have htl : t.text.length = l + 1 - i := by rw [htx, slice_length _ _ _ hlt.2]
      obtain ⟨refs, hp, hcount, hfill⟩ := ih i hlt.1 (by omega)
      refine ⟨refs ++ [r], ?_, ?_, ?_⟩
      · rw [baseOf_succ hj, hmin]; exact hp.snoc hE
      · intro fuel num hf
        cases fuel with
        | zero => omega
        | succ f =>
          simp only [countSegs, hj, Option.bind_eq_bind, Option.bind_some, htok, hd, htl]
          have : l + 1 - (l + 1 - i) = i := by omega
          rw [this, hcount f (num + 1) (by omega)]
          simp; omega
      · intro fuel A B hf hA
        cases fuel with
        | zero => omega
        | succ f =>
          simp only [List.length_append, List.length_cons, List.length_nil, Nat.zero_add] at hA ⊢
          simp only [fillSegs, hj, Option.bind_eq_bind, Option.bind_some, htok, hd, htl]
          have e1 : l + 1 - (l + 1 - i) = i := by omega
          rw [e1, if_neg (by simp; omega)]
          have hAne : A ≠ [] := by intro e; subst e; simp at hA
          obtain ⟨A', x, rfl⟩ := List.eq_nil_or_concat A |>.resolve_left hAne
          simp only [List.concat_eq_append, List.length_append, List.length_cons, List.length_nil, Nat.zero_add, Nat.add_right_cancel_iff] at hA
          have hset : (A'.concat x ++ B).set (refs.length + 1 - 1) r = A' ++ (r :: B) := by
            simp only [List.concat_eq_append, Nat.add_sub_cancel, List.append_assoc, List.cons_append, List.nil_append]
            rw [List.set_append_right _ _ (by omega)]
            simp [hA]
          rw [hset, Nat.add_sub_cancel, hfill f A' (r :: B) (by omega) hA]
          simp

/-- Tokens along a path. -/
theorem path_tokens [UnicodeOK] {cfg : SplitCfg} {d : Dictionary F D} (hwf : d.Coh cfg) {ws : List Bytes} (hs : IsSplitText cfg ws)
    {sm : Bool} {k : Nat} {refs : List TokRef} {c : D} (h : Path (IsEdge d ws sm) k refs c) :
    ∃ ts, refs.map d.deref = ts.map some ∧ IsSegmentation d (ws.take k) ts ∧ cost ts = c ∧ refs = ts.map (refOf d) ∧
      (sm = true → k = ws.length → 2 ≤ ws.length → 2 ≤ ts.length) := by
  induction h with
  | nil => exact ⟨[], rfl, ⟨by simp [wordsOf], by simp⟩, rfl, rfl, by omega⟩
  | @snoc i k refs c r dist hp he ih =>
    obtain ⟨ts, h1, ⟨h2, h3⟩, h4, h8, _⟩ := ih
    obtain ⟨t, hd, htx, hdist, hpiece, hex, href⟩ := edge_token hwf hs he
    have hlt := edge_lt he
    refine ⟨ts ++ [t], by simp [h1, hd], ⟨?_, ?_⟩, ?_, by simp [← h8, href], ?_⟩
    · have : wordsOf (ts ++ [t]) = wordsOf ts ++ t.text := by simp [wordsOf]
      rw [this, h2, htx, slice]
      have e : ws.take k = (ws.take k).take i ++ (ws.take k).drop i := (List.take_append_drop _ _).symm
      rw [e, List.take_take, Nat.min_eq_left (by omega), List.drop_take]
    · intro t' ht'
      rcases List.mem_append.1 ht' with h | h
      · exact h3 t' h
      · simp at h; subst h; exact hpiece
    · simp [cost, ← h4, hdist]
    · intro h5 h6 h7
      have hi0 : i ≠ 0 := fun e => hex ⟨h5, e, h6, h7⟩
      have : ts ≠ [] := by
        rintro rfl
        simp [wordsOf] at h2
        have : ws = [] := by
          rcases h2 with h2 | h2
          · omega
          · exact h2
        subst this; simp at h7
      have := List.length_pos_iff.2 this
      simp; omega

/-- Positions: contiguous, non-empty, with the right lengths. -/
theorem positions_spec {d : Dictionary F D} (refs : List TokRef) (ts : List (Token F D)) (h : refs.map d.deref = ts.map some)
    (hne : ∀ t ∈ ts, t.text.flatten ≠ []) :
    ∀ p, ∃ segs, positions d refs p = some segs ∧ segs.map (·.tok) = refs ∧ Tiles p (p + (wordsOf ts).flatten.length) segs ∧
      List.Forall₂ (fun s t => s.stop = s.start + t.text.flatten.length) segs ts := by
  induction refs generalizing ts with
  | nil =>
    intro p
    cases ts with
    | nil => exact ⟨[], rfl, rfl, .nil _, .nil⟩
    | cons _ _ => simp at h
  | cons r refs ih =>
    intro p
    cases ts with
    | nil => simp at h
    | cons t ts =>
      simp at h
      obtain ⟨segs, h1, h2, h3, h4⟩ := ih ts h.2 (fun t ht => hne t (by simp [ht])) (p + t.text.flatten.length)
      refine ⟨⟨p, p + t.text.flatten.length, r⟩ :: segs, ?_, by simp [h2], ?_, .cons rfl h4⟩
      · simp only [positions, h.1, textSliceByteLen_eq, h1, Option.bind_eq_bind, Option.bind_some]
        try rfl
      · refine .cons rfl ?_ ?_
        · have := List.length_pos_iff.2 (hne t (by simp)); simp only; omega
        · have e : wordsOf (t :: ts) = t.text ++ wordsOf ts := by simp [wordsOf]
          rw [e]
          simp only [List.flatten_append, List.length_append]
          rw [← Nat.add_assoc]
          exact h3

theorem forall_deref {d : Dictionary F D} {segs : List Seg} {ts : List (Token F D)}
    (h2 : segs.map (·.tok) = ts.map (refOf d)) (h3 : (ts.map (refOf d)).map d.deref = ts.map some)
    (h7 : List.Forall₂ (fun s t => s.stop = s.start + t.text.flatten.length) segs ts) :
    List.Forall₂ (fun (g : Seg) t => d.deref g.tok = some t ∧ g.stop = g.start + t.text.flatten.length) segs ts := by
  rw [← h2, List.map_map] at h3
  clear h2
  induction h7 with
  | nil => exact .nil
  | cons h5 _ ih =>
    simp at h3
    exact .cons ⟨h3.1, h5⟩ (ih (by simpa using h3.2))

/-- `segmentWords` as a whole, for any further facts `P` kept by the outer loop that give `E` in the end. -/
theorem segmentWords_gen [UnicodeOK] {cfg : SplitCfg} {d : Dictionary F D} (hwf : d.Coh cfg) {ws : List Bytes} (hs : IsSplitText cfg ws)
    {sm : Bool} (hsm : ¬ (sm = true ∧ ws.length = 1)) (P : Nat → List (Jumper D) → Prop)
    (E : List (Jumper D) → Nat → Nat → TokRef → D → Prop)
    (hP0 : P 0 (List.replicate ws.length ⟨F32.zero, none⟩))
    (hP : ∀ c js js', c < ws.length → JInv d ws sm c js → P c js → js'.length = ws.length →
      (∀ l, js'[l]? = stepped d ws sm c js l) → P (c + 1) js')
    (hE : ∀ js, JInv d ws sm ws.length js → P ws.length js → ∀ l j, js[l]? = some j → l < ws.length →
      ∃ i r dist, edge d ws sm i (l + 1) = some (r, dist) ∧ j.token = some r ∧
      j.minDistance = F32.add (baseOf js i) dist ∧ E js i (l + 1) r dist) :
    ∃ js segs ts, JInv d ws sm ws.length js ∧ P ws.length js ∧
      segmentWords (some d) ws sm = some segs ∧ segs.map (·.tok) = ts.map (refOf d) ∧
      Path (fun i k r dist => edge d ws sm i k = some (r, dist) ∧ E js i k r dist) ws.length (ts.map (refOf d)) (baseOf js ws.length) ∧
      (ts.map (refOf d)).map d.deref = ts.map some ∧ IsSegmentation d ws ts ∧ cost ts = baseOf js ws.length ∧
      positions d (ts.map (refOf d)) 0 = some segs ∧
      Tiles 0 ws.flatten.length segs ∧ List.Forall₂ (fun s t => s.stop = s.start + t.text.flatten.length) segs ts ∧
      (sm = true → 2 ≤ ws.length → 2 ≤ ts.length) := by
  obtain ⟨js, hj, hinv, hPn⟩ := segLoop_inv hwf hs sm P hP ws.length 0 _ (by simp) (jinv_init d ws sm) hP0
  obtain ⟨refs, hp, hcount, hfill⟩ := backtrack (sm := sm) hwf hs (fun i k r dist => edge d ws sm i k = some (r, dist) ∧ E js i k r dist)
    (by
      intro l hl
      obtain ⟨j, hjl, _⟩ := hinv.cell l hl
      obtain ⟨i, r, dist, h1, h2, h3, h4⟩ := hE js hinv hPn l j hjl hl
      exact ⟨j, i, r, dist, hjl, h1, h2, h3, h1, h4⟩) ws.length (Nat.le_refl _)
  obtain ⟨ts, h1, h2, h3, h8', h4⟩ := path_tokens (sm := sm) hwf hs (hp.mono fun i k r dist h => h.1)
  subst h8'
  rw [List.take_length] at h2
  have hne : ∀ t ∈ ts, t.text.flatten ≠ [] := by
    intro t ht e
    have hpc := (h2.2 t ht).1
    obtain ⟨w, rest, hw⟩ := List.exists_cons_of_ne_nil hpc
    rw [hw] at e
    have hwm : w ∈ ws := by
      rw [← h2.1, wordsOf]
      exact List.mem_flatten.2 ⟨t.text, List.mem_map.2 ⟨t, ht, rfl⟩, by rw [hw]; simp⟩
    have := hs.ne_nil hwm
    simp at e
    exact this e.1
  obtain ⟨segs, h5, h6, h7, h8⟩ := positions_spec _ ts h1 hne 0
  rw [h2.1] at h7
  refine ⟨js, segs, ts, hinv, hPn, ?_, h6, hp, h1, h2, h3, h5, by simpa using h7, h8, fun h => h4 h rfl⟩
  unfold segmentWords
  have : ¬ ((sm && ws.length == 1) = true) := by simpa using hsm
  rw [if_neg this]
  simp only [hj, Option.bind_eq_bind, Option.bind_some]
  rw [hcount _ _ (by omega)]
  simp only [Option.bind_some, Nat.zero_add]
  have := hfill (ws.length + 1) (List.replicate (ts.map (refOf d)).length (.pseudo [])) [] (by omega) (by simp)
  simp only [List.append_nil] at this
  rw [this]
  simpa using h5

/-- `segmentWords` as a whole. -/
theorem segmentWords_spec [UnicodeOK] {cfg : SplitCfg} {d : Dictionary F D} (hwf : d.Coh cfg) {ws : List Bytes} (hs : IsSplitText cfg ws)
    {sm : Bool} (hsm : ¬ (sm = true ∧ ws.length = 1)) :
    ∃ segs ts, segmentWords (some d) ws sm = some segs ∧ segs.map (·.tok) = ts.map (refOf d) ∧
      (ts.map (refOf d)).map d.deref = ts.map some ∧ IsSegmentation d ws ts ∧
      positions d (ts.map (refOf d)) 0 = some segs ∧
      Tiles 0 ws.flatten.length segs ∧ List.Forall₂ (fun s t => s.stop = s.start + t.text.flatten.length) segs ts ∧
      (sm = true → 2 ≤ ws.length → 2 ≤ ts.length) := by
  obtain ⟨js, segs, ts, _, _, h1, h2, _, h3, h4, _, h5, h6⟩ := segmentWords_gen hwf hs hsm (fun _ _ => True) (fun _ _ _ _ _ => True)
    trivial (by simp) (by
      intro js hinv _ l j hj hl
      obtain ⟨j', i, r, dist, h1, h2, h3, h4⟩ := jinv_done hwf hs hsm hinv hl
      rw [hj] at h1; cases h1
      exact ⟨i, r, dist, h2, h3, h4, trivial⟩)
  exact ⟨segs, ts, h1, h2, h3, h4, h5, h6⟩

end Gse
