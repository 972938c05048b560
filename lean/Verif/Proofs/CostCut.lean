import Verif.Proofs.Cost
import Verif.Proofs.CutMem
import Verif.Proofs.Encode

/-!
# How much work `Find`, `Cut`, `CutAll`, `CutSearch` and `HMMCut` do
-/

namespace Gse
open Prog

set_option linter.unusedSectionVars false

variable {F D α β : Type}

/-- Work of a program without memory of its own. -/
abbrev takes (m : Mem F D) (p : Prog F D α) (n : Nat) : Prop := within m p (fun _ => none) n

theorem takes_bind {m : Mem F D} {f : α → Prog F D β} {p : Prog F D α} {v : α} (n k : Nat) {t : Nat} (ht : n + k ≤ t) (hp : takes m p n) (hv : Yields m p v)
    (hf : takes m (f v) k) : takes m (p >>= f) t := by
  refine within_bind n k ht hp (wp_mono ?_ _ _ (yields_wp (fun _ _ _ => rfl) p hv))
  rintro _ _ ⟨rfl, rfl⟩
  exact hf

theorem cap_ite {c : Prop} [Decidable c] {p q : Prog F D α} {n : Nat} {Q : α → Prop} (hp : Cap p n Q) (hq : Cap q n Q) : Cap (if c then p else q) n Q := by
  split <;> assumption

theorem cap_rdFreq (l : Loc) : Cap (rdFreq l : Prog F D F) 1 (fun _ => True) := cap_rd _ _ fun c => by cases c <;> trivial
theorem cap_rdEmit : Cap (rdEmit : Prog F D (EmitModel F)) 1 (fun _ => True) := cap_rd _ _ fun c => by cases c <;> trivial
theorem cap_lift (x : Option α) : Cap (liftP x : Prog F D α) 0 (fun _ => True) := by cases x <;> trivial

theorem runesAux_le_fuel : ∀ (n : Nat) (s : Bytes), (runesAux n s).length ≤ n
  | 0, _ => by simp [runesAux]
  | _ + 1, [] => by simp [runesAux]
  | n + 1, b :: t => by
    have := runesAux_le_fuel n ((b :: t).drop (decodeRune (b :: t)).2)
    simp only [runesAux, List.length_cons]; omega

theorem runes_le_bytes (s : Bytes) : (runes s).length ≤ s.length := runesAux_le_fuel _ _

theorem encodeRune_size (r : Rune) : 1 ≤ (encodeRune r).length ∧ (encodeRune r).length ≤ 4 := by
  unfold encodeRune
  split
  · simp
  · split
    · simp
    · split
      · simp
      · split <;> simp

theorem encode_size : ∀ (rs : List Rune), rs.length ≤ (encode rs).length ∧ (encode rs).length ≤ 4 * rs.length
  | [] => by simp
  | r :: rs => by
    have h1 := encode_size rs
    have h2 := encodeRune_size r
    simp only [encode_cons, List.length_append, List.length_cons]; omega

variable [F64 F] [F32 D] [Narrow F D]

theorem cap_find (w : Bytes) : Cap (findP w : Prog F D (F × Bytes × Bool)) 7 (fun _ => True) := by
  refine cap_bind 1 6 (by omega) (cap_rdBool _) fun nil _ => cap_ite trivial ?_
  refine cap_bind 1 5 (by omega) cap_rdTrie fun t _ => ?_
  split
  · trivial
  · refine cap_bind 1 4 (by omega) cap_rdTrie fun t _ => ?_
    split
    · exact cap_ite trivial trivial
    · refine cap_bind 1 3 (by omega) (cap_rdNat _) fun n _ => cap_ite ?_ trivial
      refine cap_bind 1 2 (by omega) (cap_rdTok _) fun x _ => ?_
      refine cap_bind 1 1 (by omega) (cap_rdNat _) fun n _ => cap_ite ?_ trivial
      exact cap_bind 1 0 (by omega) (cap_rdTok _) fun y _ => trivial

section
variable {m : Mem F D} {cfg : SplitCfg} {d : Dictionary F D} {M : Nat}

/-- What `Find` knows has `M` bytes at most. -/
def KnownUpTo (d : Dictionary F D) (M : Nat) : Prop := ∀ w f p, d.find w = some (f, p, true) → w.length ≤ M

theorem takes_dagEnds (h : HoldsDict m cfg d) (hM : KnownUpTo d M) (rs : List Rune) (k : Nat) :
    ∀ (n i : Nat) (l : List Nat), k ≤ i → i < rs.length → i - k ≤ M → dagEnds d rs k n i = some l →
      takes m (dagEndsP (F := F) (D := D) rs k n i) (7 * (M + 1 - (i - k))) ∧ l.length ≤ M - (i - k)
  | 0, _, _, _, _, _, hl => by cases hl
  | n + 1, i, l, hk, hi, hik, hl => by
    simp only [dagEnds, findRunes] at hl
    split at hl
    · cases hl
    · next freq pos ok hf =>
      have hy := yields_find h hf
      cases ok with
      | false =>
        simp only [Bool.not_false, if_true, Option.some.injEq] at hl
        subst hl
        exact ⟨takes_bind 7 0 (by omega) (cap_find _).within hy trivial, by simp⟩
      | true =>
        have hlen : i + 1 - k ≤ M := by
          have h1 := hM _ _ _ hf
          have h2 := (encode_size (slice rs k (i + 1))).1
          have h3 : (slice rs k (i + 1)).length = i + 1 - k := by simp [slice]; omega
          omega
        simp only [Bool.not_true, Bool.false_eq_true, if_false] at hl
        have hone : (if F64.lt (F64.ofNat 0) freq then [i] else []).length ≤ 1 := by split <;> simp
        split at hl
        · next hc =>
          simp only [Option.some.injEq] at hl
          subst hl
          refine ⟨takes_bind 7 0 (by omega) (cap_find _).within hy ?_, by omega⟩
          simp only [Bool.not_true, Bool.false_eq_true, if_false, if_pos hc]; trivial
        · next hc =>
          obtain ⟨r, hr, rfl⟩ := Option.map_eq_some_iff.mp hl
          obtain ⟨g1, g2⟩ := takes_dagEnds h hM rs k n (i + 1) r (by omega) (by omega) (by omega) hr
          refine ⟨takes_bind 7 (7 * (M + 1 - (i + 1 - k))) (by omega) (cap_find _).within hy ?_, by rw [List.length_append]; omega⟩
          simp only [Bool.not_true, Bool.false_eq_true, if_false, if_neg hc]
          exact takes_bind _ 0 (by omega) g1 (yields_dagEnds h rs k n (i + 1) r hr) trivial

theorem takes_dagAt (h : HoldsDict m cfg d) (hM : KnownUpTo d M) (rs : List Rune) (k : Nat) (hk : k < rs.length) (l : List Nat) (hl : dagAt d rs k = some l) :
    takes m (dagAtP (F := F) (D := D) rs k) (7 * (M + 1)) ∧ l.length ≤ M + 1 := by
  obtain ⟨r, hr, rfl⟩ := Option.map_eq_some_iff.mp hl
  obtain ⟨g1, g2⟩ := takes_dagEnds h hM rs k _ k r (by omega) hk (by omega) hr
  refine ⟨takes_bind (7 * (M + 1)) 0 (by omega) (by simpa using g1) (yields_dagEnds h rs k _ _ r hr) trivial, ?_⟩
  split
  · simp
  · omega

theorem takes_map {f : α → Prog F D β} {g : α → Option β} {n : Nat} (l : List α) (bs : List β) (hf : ∀ a b, a ∈ l → g a = some b → takes m (f a) n)
    (hy : ∀ a b, g a = some b → Yields m (f a) b) (h : mapOpt g l = some bs) : takes m (mapP f l) (l.length * n) := by
  induction l generalizing bs with
  | nil => trivial
  | cons a l ih =>
    simp only [mapOpt, Option.bind_eq_bind, Option.bind_eq_some_iff, Option.some.injEq] at h
    obtain ⟨b, hb, bs', hbs, rfl⟩ := h
    refine takes_bind n (l.length * n) (by simp only [List.length_cons]; rw [Nat.succ_mul]; omega) (hf a b (List.mem_cons_self ..) hb) (hy a b hb) ?_
    exact takes_bind _ 0 (by omega) (ih bs' (fun a b ha hb => hf a b (List.mem_cons_of_mem _ ha) hb) hbs) (yields_map hy l bs' hbs) trivial

theorem mapOpt_all {γ δ : Type} {g : γ → Option δ} {P : δ → Prop} (l : List γ) (bs : List δ) (hf : ∀ a b, a ∈ l → g a = some b → P b) (h : mapOpt g l = some bs) :
    ∀ b ∈ bs, P b := by
  induction l generalizing bs with
  | nil => simp only [mapOpt, Option.some.injEq] at h; subst h; simp
  | cons a l ih =>
    simp only [mapOpt, Option.bind_eq_bind, Option.bind_eq_some_iff, Option.some.injEq] at h
    obtain ⟨b, hb, bs', hbs, rfl⟩ := h
    intro x hx
    rcases List.mem_cons.mp hx with rfl | hx
    · exact hf a x (List.mem_cons_self ..) hb
    · exact ih bs' (fun a b ha => hf a b (List.mem_cons_of_mem _ ha)) hbs x hx

theorem takes_getDag (h : HoldsDict m cfg d) (hM : KnownUpTo d M) (rs : List Rune) (l : List (List Nat)) (hl : getDag d rs = some l) :
    takes m (getDagP (F := F) (D := D) rs) (rs.length * (7 * (M + 1))) ∧ ∀ e ∈ l, e.length ≤ M + 1 := by
  constructor
  · have := takes_map (f := dagAtP (F := F) (D := D) rs) (List.range rs.length) l (fun k b hk hb => (takes_dagAt h hM rs k (by simpa using hk) b hb).1) (yields_dagAt h rs) hl
    rw [List.length_range] at this
    exact this
  · exact mapOpt_all _ _ (fun k b hk hb => (takes_dagAt h hM rs k (by simpa using hk) b hb).2) hl

theorem cap_routeAt (rs : List Rune) (logT : F) (idx : Nat) (routes : List (Nat × Route F)) : ∀ (is : List Nat) (v : Option (Route F)),
    Cap (routeAtP (F := F) (D := D) rs logT idx routes is v) (7 * is.length) (fun _ => True)
  | [], _ => trivial
  | i :: is, v => by
    refine cap_bind (Q := fun _ => True) 7 (7 * is.length) (by simp only [List.length_cons]; omega) ?_ fun r _ => cap_routeAt rs logT idx routes is _
    exact cap_bind 7 0 (by omega) (cap_find _) fun _ _ => trivial

theorem cap_calcLoop (rs : List Rune) (logT : F) (dag : List (List Nat)) (hd : ∀ e ∈ dag, e.length ≤ M + 1) : ∀ (k : Nat) (routes : List (Nat × Route F)),
    Cap (calcLoopP (F := F) (D := D) rs logT dag k routes) (k * (7 * (M + 1))) (fun _ => True)
  | 0, _ => trivial
  | k + 1, routes => by
    have hlen : (dag.getD k []).length ≤ M + 1 := by
      rw [List.getD_eq_getElem?_getD]
      cases hk : dag[k]? with
      | none => simp
      | some e => exact hd e (List.mem_of_getElem? hk)
    refine cap_bind (7 * (M + 1)) (k * (7 * (M + 1))) (by have := Nat.succ_mul k (7 * (M + 1)); exact le_of_eq (by rw [this, Nat.add_comm])) (cap_mono (fun _ h => h) _ (by omega) (cap_routeAt _ _ _ _ _ _)) fun r _ => ?_
    cases r <;> exact cap_calcLoop rs logT dag hd k _

theorem takes_calcRoutes (h : HoldsDict m cfg d) (hM : KnownUpTo d M) (rs : List Rune) (r : List (Nat × Route F)) (hr : calcRoutes d rs = some r) :
    takes m (calcRoutesP (F := F) (D := D) rs) (14 * rs.length * (M + 1) + 2) := by
  simp only [calcRoutes] at hr
  split at hr
  · cases hr
  · next dag hd =>
    obtain ⟨g1, g2⟩ := takes_getDag h hM rs dag hd
    refine takes_bind _ (rs.length * (7 * (M + 1)) + 2) (by apply le_of_eq; ring) g1 (yields_getDag h rs dag hd) ?_
    refine Cap.within (Q := fun _ => True) ?_
    refine cap_bind 1 (rs.length * (7 * (M + 1)) + 1) (by omega) (cap_rdBool _) fun _ _ => cap_ite trivial ?_
    exact cap_bind 1 (rs.length * (7 * (M + 1))) (by omega) (cap_rdFreq _) fun _ _ => cap_calcLoop rs _ dag g2 _ _

variable [Unicode]

theorem takes_cutDAGNoHMM (h : HoldsDict m cfg d) (hM : KnownUpTo d M) (s : Bytes) (r : List Bytes) (hr : cutDAGNoHMM cfg d s = some r) :
    takes m (cutDAGNoHMMP (F := F) (D := D) s) (14 * (dagRunes cfg s).length * (M + 1) + 3) := by
  simp only [cutDAGNoHMM] at hr
  split at hr
  · cases hr
  · next routes hc =>
    refine takes_bind 1 (14 * (dagRunes cfg s).length * (M + 1) + 2) (by omega) cap_rdFlags.within (yields_flags h.segmenter.flags) ?_
    refine takes_bind _ 0 (by omega) (takes_calcRoutes h hM _ routes hc) (yields_calcRoutes h _ routes hc) ?_
    exact (cap_bind 0 0 (by omega) (cap_lift _) fun _ _ => cap_ret (Q := fun _ => True) trivial).within

theorem takes_cutAll (h : HoldsDict m cfg d) (hM : KnownUpTo d M) (s : Bytes) (r : List Bytes) (hr : cutAll cfg d s = some r) :
    takes m (cutAllP (F := F) (D := D) s) (7 * (dagRunes cfg s).length * (M + 1) + 1) := by
  obtain ⟨dag, hd, rfl⟩ := Option.map_eq_some_iff.mp hr
  refine takes_bind 1 (7 * (dagRunes cfg s).length * (M + 1)) (by omega) cap_rdFlags.within (yields_flags h.segmenter.flags) ?_
  exact takes_bind _ 0 (by apply le_of_eq; ring) (takes_getDag h hM _ dag hd).1 (yields_getDag h _ dag hd) trivial

/-! ## The hidden Markov model -/

variable (c : HmmConst F)

theorem cap_vtbLoop : ∀ (rs : List Rune) (col : Column F), Cap (vtbLoopP (F := F) (D := D) c rs col) (4 * rs.length) (fun _ => True)
  | [], _ => trivial
  | r :: rs, col => by
    have h : ∀ y, Cap (vtbNextP (F := F) (D := D) c col r y) 1 (fun _ => True) := fun y => cap_bind 1 0 (by omega) cap_rdEmit fun _ _ => trivial
    refine cap_bind (Q := fun _ => True) 4 (4 * rs.length) (by simp only [List.length_cons]; omega) ?_ fun col' _ => cap_vtbLoop rs col'
    exact cap_bind 1 3 (by omega) (h _) fun _ _ => cap_bind 1 2 (by omega) (h _) fun _ _ => cap_bind 1 1 (by omega) (h _) fun _ _ =>
      cap_bind 1 0 (by omega) (h _) fun _ _ => trivial

theorem cap_viterbi (rs : List Rune) : Cap (viterbiP (F := F) (D := D) c rs) (4 * rs.length) (fun _ => True) := by
  cases rs with
  | nil => trivial
  | cons r rs =>
    have h : ∀ y, Cap (vtbStartP (F := F) (D := D) c r y) 1 (fun _ => True) := fun y => cap_bind 1 0 (by omega) cap_rdEmit fun _ _ => trivial
    refine cap_bind (Q := fun _ => True) 4 (4 * rs.length) (by simp only [List.length_cons]; omega) ?_ fun col _ => cap_bind (4 * rs.length) 0 (by omega) (cap_vtbLoop c rs col) fun _ _ => trivial
    exact cap_bind 1 3 (by omega) (h _) fun _ _ => cap_bind 1 2 (by omega) (h _) fun _ _ => cap_bind 1 1 (by omega) (h _) fun _ _ =>
      cap_bind 1 0 (by omega) (h _) fun _ _ => trivial

theorem cap_internalCut (text : Bytes) : Cap (internalCutP (F := F) (D := D) c text) (4 * text.length) (fun _ => True) :=
  cap_bind (4 * text.length) 0 (by omega) (cap_mono (fun _ h => h) _ (by have := runes_le_bytes text; omega) (cap_viterbi c _)) fun _ _ => cap_lift _

theorem cap_hmmCutLoop (word skip : Matcher) : ∀ (n : Nat) (text : Bytes) (acc : List Bytes),
    Cap (hmmCutLoopP (F := F) (D := D) c word skip n text acc) (4 * text.length) (fun _ => True)
  | 0, _, _ => trivial
  | n + 1, text, acc => by
    have drop : ∀ (k : Nat) (acc' : List Bytes), Cap (hmmCutLoopP (F := F) (D := D) c word skip n (text.drop k) acc') (4 * text.length) (fun _ => True) := fun k acc' =>
      cap_mono (fun _ h => h) _ (by rw [List.length_drop]; omega) (cap_hmmCutLoop word skip n (text.drop k) acc')
    unfold hmmCutLoopP
    refine cap_ite trivial (cap_ite ?_ (cap_ite trivial (cap_ite (cap_ite (drop _ _) ?_) ?_)))
    · refine cap_bind _ _ ?_ (cap_internalCut c _) fun ws _ => cap_hmmCutLoop word skip n _ _
      rw [List.length_take, List.length_drop]; omega
    · split
      · trivial
      · rw [List.drop_drop]; exact drop _ _
    · split
      · trivial
      · exact drop _ _

theorem cap_hmmCut (text : Bytes) (reg : List Matcher) : Cap (hmmCutP (F := F) (D := D) c text reg) (4 * text.length) (fun _ => True) :=
  cap_hmmCutLoop c _ _ _ _ _

theorem cap_flushBuf (reg : List Matcher) (buf : List Rune) : Cap (flushBufP (F := F) (D := D) c reg buf) (11 * (encode buf).length) (fun _ => True) := by
  unfold flushBufP
  split
  · trivial
  · next hne =>
    refine cap_ite trivial ?_
    have := (encode_size buf).1
    exact cap_bind 7 (4 * (encode buf).length) (by omega) (cap_find _) fun x _ => cap_ite (cap_hmmCut c _ _) trivial

theorem cap_hmmLoop (reg : List Matcher) : ∀ (frags : List (List Rune)) (buf : List Rune),
    Cap (hmmLoopP (F := F) (D := D) c reg frags buf) (11 * (encode (buf ++ frags.flatten)).length) (fun _ => True)
  | [], buf => by simpa [hmmLoopP] using cap_flushBuf c reg buf
  | frag :: rest, buf => by
    unfold hmmLoopP
    split
    · simpa using cap_hmmLoop reg rest (buf ++ frag)
    · have h1 := cap_hmmLoop reg rest []
      refine cap_bind (11 * (encode buf).length) (11 * (encode (frag ++ rest.flatten)).length) (by simp [encode_append]; omega) (cap_flushBuf c reg buf) fun o _ => ?_
      exact cap_bind (11 * (encode ([] ++ rest.flatten)).length) 0 (by simp [encode_append]) h1 fun _ _ => trivial

theorem walk_flatten (rs : List Rune) (routes : List (Nat × Route F)) : ∀ (n x : Nat) (frags : List (List Rune)), walk rs routes n x = some frags →
    frags.flatten = rs.drop x
  | 0, x, frags, h => by
    unfold walk at h
    split at h
    · cases h
    · simp only [Option.some.injEq] at h; subst h
      rw [List.drop_eq_nil_of_le (by omega)]; rfl
  | n + 1, x, frags, h => by
    unfold walk at h
    split at h
    · dsimp only at h
      split at h
      · next hc =>
        obtain ⟨r, hr, rfl⟩ := Option.map_eq_some_iff.mp h
        rw [List.flatten_cons, walk_flatten rs routes n _ r hr]
        generalize ((routes.lookup x).map (·.index)).getD 0 + 1 = y at hc
        conv => rhs; rw [← List.take_append_drop (y - x) (rs.drop x)]
        rw [List.drop_drop, show x + (y - x) = y by omega]; rfl
      · cases h
    · simp only [Option.some.injEq] at h; subst h
      rw [List.drop_eq_nil_of_le (by omega)]; rfl

variable {em : EmitModel F}

theorem takes_cutDAG (h : HoldsDict m cfg d) (hM : KnownUpTo d M) (s : Bytes) (reg : List Matcher) (r : List Bytes)
    (hr : cutDAGHmm cfg d c em s reg = some r) :
    takes m (cutDAGP (F := F) (D := D) c s reg) (14 * (dagRunes cfg s).length * (M + 1) + 44 * (dagRunes cfg s).length + 3) := by
  simp only [cutDAGHmm, cutDAG] at hr
  split at hr
  · cases hr
  · next routes hc =>
    obtain ⟨frags, hf, hl⟩ := Option.bind_eq_some_iff.mp hr
    have hfl := walk_flatten _ _ _ _ _ hf
    rw [List.drop_zero] at hfl
    have hsz := (encode_size (dagRunes cfg s)).2
    refine takes_bind 1 (14 * (dagRunes cfg s).length * (M + 1) + 44 * (dagRunes cfg s).length + 2) (by omega) cap_rdFlags.within (yields_flags h.segmenter.flags) ?_
    refine takes_bind _ (44 * (dagRunes cfg s).length) (by omega) (takes_calcRoutes h hM _ routes hc) (yields_calcRoutes h _ routes hc) ?_
    refine takes_bind 0 (44 * (dagRunes cfg s).length) (by omega) (cap_lift _).within (yields_lift hf) ?_
    refine (cap_mono (fun _ h => h) _ ?_ (cap_hmmLoop c reg frags [])).within
    rw [List.nil_append, hfl]; omega

theorem takes_cut (h : HoldsDict m cfg d) (hM : KnownUpTo d M) (s : Bytes) (hmm : Bool) (fuel : Nat) (r : List Bytes)
    (hr : cut cfg d fuel (fun t => hmmCut c em t []) s (some hmm) = some r) :
    takes m (cutP (F := F) (D := D) c s hmm) (14 * (dagRunes cfg s).length * (M + 1) + 44 * (dagRunes cfg s).length + 3) := by
  cases hmm with
  | false => exact within_mono _ _ (by omega) (takes_cutDAGNoHMM h hM s r hr)
  | true => exact takes_cutDAG c h hM s [] r hr

theorem cap_gramsFrom (rs : List Rune) (incr : Nat) : ∀ (is : List Nat), Cap (gramsFromP (F := F) (D := D) rs incr is) (7 * is.length) (fun _ => True)
  | [] => trivial
  | i :: is => by
    refine cap_bind 7 (7 * is.length) (by simp only [List.length_cons]; omega) (cap_find _) fun x _ => ?_
    exact cap_bind (7 * is.length) 0 (by omega) (cap_gramsFrom rs incr is) fun _ _ => trivial

theorem cap_grams (rs : List Rune) (incr : Nat) (hi : 1 ≤ incr) : Cap (gramsP (F := F) (D := D) rs incr) (7 * rs.length) (fun _ => True) := by
  unfold gramsP
  split
  · trivial
  · exact cap_mono (fun _ h => h) _ (by rw [List.length_range]; omega) (cap_gramsFrom rs incr _)

theorem cap_searchWord (w : Bytes) : Cap (searchWordP (F := F) (D := D) w) (14 * w.length) (fun _ => True) := by
  have := runes_le_bytes w
  refine cap_bind (7 * w.length) (7 * w.length) (by omega) (cap_mono (fun _ h => h) _ (by omega) (cap_grams _ 2 (by omega))) fun _ _ => ?_
  exact cap_bind (7 * w.length) 0 (by omega) (cap_mono (fun _ h => h) _ (by omega) (cap_grams _ 3 (by omega))) fun _ _ => trivial

theorem cap_searchWords : ∀ (ws : List Bytes), Cap (mapP (searchWordP (F := F) (D := D)) ws) (14 * ws.flatten.length) (fun _ => True)
  | [] => trivial
  | w :: ws => by
    refine cap_bind (14 * w.length) (14 * ws.flatten.length) (by simp only [List.flatten_cons, List.length_append]; omega) (cap_searchWord w) fun _ _ => ?_
    exact cap_bind _ 0 (by omega) (cap_searchWords ws) fun _ _ => trivial

/-- `CutSearch`, for a cut that loses nothing. -/
theorem takes_cutSearch (h : HoldsDict m cfg d) (he : m .emit = some (.emit em)) (hM : KnownUpTo d M) (s : Bytes) (hmm : Bool) (fuel : Nat) (ws : List Bytes)
    (hr : cut cfg d fuel (fun t => hmmCut c em t []) s (some hmm) = some ws) (hw : ws.flatten = encode (dagRunes cfg s)) :
    takes m (cutSearchP (F := F) (D := D) c s hmm) (14 * (dagRunes cfg s).length * (M + 1) + 100 * (dagRunes cfg s).length + 3) := by
  have hsz := (encode_size (dagRunes cfg s)).2
  refine takes_bind (14 * (dagRunes cfg s).length * (M + 1) + 44 * (dagRunes cfg s).length + 3) (56 * (dagRunes cfg s).length) (by omega) (takes_cut c h hM s hmm fuel ws hr) (yields_cut c h he fuel s hmm ws hr) ?_
  refine (cap_mono (fun _ h => h) _ ?_ (cap_bind (t := 14 * ws.flatten.length) (14 * ws.flatten.length) 0 (by omega) (cap_searchWords ws) fun _ _ => cap_ret (Q := fun _ => True) trivial)).within
  rw [hw]; omega

end
end Gse
