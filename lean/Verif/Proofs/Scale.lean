import Verif.Spec.Scale
import Verif.Proofs.Content
import Verif.Proofs.Exact
import Verif.Props.Dict
import Verif.Props.Dag

/-!
# Frequencies times a factor
-/

namespace Gse
open Spec

set_option linter.unusedSectionVars false

section
variable [ParseFn] [Unicode]

/-- A frequency and the same times `k`. -/
def Times (k : ℝ) (T f f' : EReal) : Prop := f' = k * f ∧ Amount f ∧ f ≤ T

/-! ### The history -/

noncomputable def _root_.Gse.Spec.AbsDict.scale (k : ℝ) (m : AbsDict EReal) : AbsDict EReal :=
  ⟨fun w => (m.content w).map fun e => (k * e.1, e.2), m.stored.map fun e => (e.1, k * e.2)⟩

theorem scale_add (k : ℝ) (cfg : SplitCfg) (m : AbsDict EReal) (t : Bytes) (f : EReal) (p : Bytes) :
    (AbsDict.scale k m).add cfg t (k * f) p = AbsDict.scale k (m.add cfg t f p) := by
  unfold AbsDict.add
  cases h : m.content (normText cfg t) with
  | some e => simp [AbsDict.scale, h]
  | none =>
    simp only [AbsDict.scale, h, Option.map_none, List.map_append, List.map_cons, List.map_nil]
    congr 1
    funext w
    split <;> rfl

theorem scale_remove (k : ℝ) (cfg : SplitCfg) (m : AbsDict EReal) (t : Bytes) :
    (AbsDict.scale k m).remove cfg t = AbsDict.scale k (m.remove cfg t) := by
  unfold AbsDict.remove AbsDict.scale
  congr 1
  funext w
  dsimp only
  split <;> rfl

theorem scale_step (k : ℝ) (cfg : SplitCfg) (m : AbsDict EReal) (op : DictOp EReal) :
    (AbsDict.scale k m).step cfg (scaleOp k op) = AbsDict.scale k (m.step cfg op) := by
  cases op with
  | add t f p => exact scale_add k cfg m t f p
  | addForce t f p => exact scale_add k cfg m t f p
  | remove t => exact scale_remove k cfg m t
  | recalc => rfl
  | reAdd t f p =>
    unfold AbsDict.step scaleOp
    cases h : m.content (normText cfg t) with
    | none => simp [AbsDict.scale, h]
    | some e =>
      have : (AbsDict.scale k m).content (normText cfg t) = some (k * e.1, e.2) := by simp [AbsDict.scale, h]
      simp only [this, h]
      rw [scale_remove, scale_add]

theorem scale_run (k : ℝ) (cfg : SplitCfg) (ops : List (DictOp EReal)) :
    absRun cfg (ops.map (scaleOp k)) = AbsDict.scale k (absRun cfg ops) := by
  induction ops using List.reverseRecOn with
  | nil => rfl
  | append_singleton ops op ih =>
    rw [List.map_append, List.map_cons, List.map_nil, absRun_snoc, absRun_snoc, ih, scale_step]

theorem foldl_scale (k : ℝ) : ∀ (l : List EReal) (a : ℝ), (∀ f ∈ l, Amount f) →
    (l.map fun f => (k : EReal) * f).foldl F64.add ((k * a : ℝ) : EReal) = k * l.foldl F64.add (a : EReal)
  | [], a, _ => by simp
  | f :: l, a, h => by
    obtain ⟨x, _, rfl⟩ := h f (by simp)
    have e : F64.add (a : EReal) (x : EReal) = ((a + x : ℝ) : EReal) := (EReal.coe_add a x).symm
    have e' : F64.add ((k * a : ℝ) : EReal) ((k : EReal) * (x : EReal)) = ((k * (a + x) : ℝ) : EReal) := by
      rw [mul_add, EReal.coe_add, EReal.coe_mul k x]; rfl
    rw [List.map_cons, List.foldl_cons, List.foldl_cons, e, e', foldl_scale k l (a + x) fun g hg => h g (by simp [hg])]

variable {D : Type} [F32 D] [Narrow EReal D]

theorem freqsExact_scale {k : ℝ} (hk : 0 < k) {ops : List (DictOp EReal)} (hf : FreqsExact ops) : FreqsExact (ops.map (scaleOp k)) := by
  intro op hop f e
  obtain ⟨o, ho, rfl⟩ := List.mem_map.1 hop
  have key : ∀ g, opFreq o = some g → f = k * g → Amount f := by
    intro g hg e
    obtain ⟨x, hx, rfl⟩ := hf o ho g hg
    exact ⟨k * x, by positivity, by rw [e, EReal.coe_mul]⟩
  cases o <;> simp [scaleOp, opFreq] at e
  · exact key _ rfl e.symm
  · exact key _ rfl e.symm
  · exact key _ rfl e.symm

theorem scale_store {k : ℝ} {cfg : SplitCfg} {ops : List (DictOp EReal)} (hl : ops.length ≤ Trie.valueLimit) (hf : FreqsExact ops)
    {d d' : Dictionary EReal D} (hr : runOps cfg ops Dictionary.new = some d) (hr' : runOps cfg (ops.map (scaleOp k)) Dictionary.new = some d') :
    SameStore cfg (fun _ => True) (Times k d.totalFreq) d d' ∧ d'.totalFreq = k * d.totalFreq := by
  have hl' : (ops.map (scaleOp k)).length ≤ Trie.valueLimit := by simpa using hl
  have h : Rep cfg d (absRun cfg ops) := rep_run ops (rep_new cfg) (by simpa [Dictionary.numTokens, Dictionary.new] using hl) hr
  have h' : Rep cfg d' (absRun cfg (ops.map (scaleOp k))) :=
    rep_run _ (rep_new cfg) (by simpa [Dictionary.numTokens, Dictionary.new] using hl) hr'
  have hc := counts_run hr hf
  have inv := totalInv_run (P := Amount) ops (totalInv_new _) hf hr
  rw [scale_run] at h'
  refine ⟨⟨h.wf, h'.wf, fun w _ => ?_, ?_⟩, ?_⟩
  · rw [h.value_none_iff, h'.value_none_iff]
    simp [AbsDict.scale]
  · intro w v v' t t' _ e1 e2 e3 e4
    have a := h.content w
    have b := h'.content w
    rw [e1] at a; rw [e2] at b
    simp [e3] at a
    simp [e4, AbsDict.scale, ← a] at b
    have hm := hc.freq t (List.mem_of_getElem? e3)
    exact ⟨⟨b.1, hm.1, hm.2⟩, b.2.symm⟩
  · rw [(C06_counters cfg _ hl d hr).2.1, (C06_counters cfg _ hl' d' hr').2.1, scale_run]
    have key := foldl_scale k ((absRun cfg ops).stored.map (·.2)) 0 (by
      have hs : (absRun cfg ops).stored.map (·.2) = d.tokens.map (·.freq) := by
        have := congrArg (List.map Prod.snd) h.stored
        simpa [Function.comp_def] using this.symm
      rw [hs]
      intro f hf
      obtain ⟨t, ht, rfl⟩ := List.mem_map.1 hf
      exact inv.all t ht)
    have e0 : (F64.ofNat 0 : EReal) = ((0 : ℝ) : EReal) := by simp [F64.ofNat]
    rw [e0, ← key, mul_zero]
    simp [AbsDict.scale, Function.comp_def]

theorem amount_zero_or {x : EReal} (h : Amount x) : x = 0 ∨ ∃ r : ℝ, 0 < r ∧ x = (r : EReal) := by
  obtain ⟨r, hr, rfl⟩ := h
  rcases hr.eq_or_lt with rfl | h
  · exact .inl rfl
  · exact .inr ⟨r, h, rfl⟩

theorem log_real {r : ℝ} (h : 0 < r) : F64.log (r : EReal) = ((Real.log r : ℝ) : EReal) := by
  show ENNReal.log (EReal.toENNReal (r : EReal)) = _
  rw [EReal.toENNReal_of_ne_top (by simp), EReal.toReal_coe, ENNReal.log_ofReal_of_pos h]

theorem log_zero : F64.log (0 : EReal) = ⊥ := by
  show ENNReal.log (EReal.toENNReal 0) = _
  simp

theorem log2_zero : F64.log2 (0 : EReal) = ⊥ := by
  show ENNReal.log (EReal.toENNReal 0) / ((Real.log 2 : ℝ) : EReal) = _
  simp only [EReal.toENNReal_zero, ENNReal.log_zero]
  exact EReal.bot_div_of_pos_ne_top (by exact_mod_cast log2_pos) (by simp)

/-- A logarithm of the total less that of a frequency, in either order, does not change. -/
theorem times_log {k : ℝ} (hk : 0 < k) {T f f' : EReal} (hT : Amount T) (h : Times k T f f') :
    F64.log f' - F64.log (k * T) = F64.log f - F64.log T ∧ F64.log2 (k * T) - F64.log2 f' = F64.log2 T - F64.log2 f := by
  obtain ⟨rfl, hf, hle⟩ := h
  rcases amount_zero_or hf with rfl | ⟨r, hr, rfl⟩
  · rw [mul_zero, log_zero, log2_zero]
    refine ⟨by rw [EReal.bot_sub, EReal.bot_sub], ?_⟩
    rcases amount_zero_or hT with rfl | ⟨t, ht, rfl⟩
    · rw [mul_zero]
    · rw [← EReal.coe_mul, log2_real ht, log2_real (mul_pos hk ht)]
      rfl
  · rcases amount_zero_or hT with rfl | ⟨t, ht, rfl⟩
    · exact absurd (show r ≤ 0 by exact_mod_cast hle) (not_le.2 hr)
    · rw [← EReal.coe_mul, ← EReal.coe_mul, log_real hr, log_real ht, log_real (mul_pos hk hr), log_real (mul_pos hk ht),
        log2_real hr, log2_real ht, log2_real (mul_pos hk hr), log2_real (mul_pos hk ht), Real.log_mul hk.ne' hr.ne', Real.log_mul hk.ne' ht.ne']
      simp only [← EReal.coe_sub, EReal.coe_eq_coe_iff]
      constructor <;> ring

theorem times_zero {k : ℝ} {T : EReal} (hT : Amount T) : Times k T (F64.ofNat 0) (F64.ofNat 0) := by
  obtain ⟨t, ht, rfl⟩ := hT
  exact ⟨by simp [F64.ofNat], ⟨0, le_refl _, by simp [F64.ofNat]⟩, by simpa [F64.ofNat] using ht⟩

theorem times_pos {k : ℝ} (hk : 0 < k) {T f f' : EReal} (h : Times k T f f') : F64.lt (F64.ofNat 0) f' = F64.lt (F64.ofNat 0) f := by
  obtain ⟨rfl, ⟨r, hr, rfl⟩, _⟩ := h
  rw [exact_lt, exact_lt, ← EReal.coe_mul]
  have : (F64.ofNat 0 : EReal) = ((0 : ℝ) : EReal) := by simp [F64.ofNat]
  rw [this, decide_eq_decide, EReal.coe_lt_coe_iff, EReal.coe_lt_coe_iff, mul_pos_iff_of_pos_left hk]

theorem times_eq {k : ℝ} (hk : 0 < k) {T f f' : EReal} (h : Times k T f f') : F64.eq f' (F64.ofNat 0) = F64.eq f (F64.ofNat 0) := by
  obtain ⟨rfl, ⟨r, hr, rfl⟩, _⟩ := h
  rw [Bool.eq_iff_iff, exact_eq_true, exact_eq_true, ← EReal.coe_mul]
  simp [F64.ofNat, hk.ne']

/-! ### The route -/

/-- What `Find` answers in both dictionaries. -/
def FindTimes (k : ℝ) (T : EReal) (d d' : Dictionary EReal D) : Prop :=
  ∀ w, Option.Rel (fun e e' => Times k T e.1 e'.1 ∧ e.2 = e'.2) (d.find w) (d'.find w)

section route
variable {k : ℝ} (hk : 0 < k) {T : EReal} {d d' : Dictionary EReal D} (hf : FindTimes k T d d')
include hk hf

theorem dagEnds_times (rs : List Rune) (i : Nat) : ∀ n j, dagEnds d rs i n j = dagEnds d' rs i n j
  | 0, _ => rfl
  | n + 1, j => by
    unfold dagEnds
    have := hf (encode (slice rs i (j + 1)))
    revert this
    unfold findRunes
    generalize d.find _ = a
    generalize d'.find _ = b
    intro this
    cases this with
    | none => rfl
    | @some e e' hab =>
      obtain ⟨f, p, ok⟩ := e
      obtain ⟨f', p', ok'⟩ := e'
      obtain ⟨h1, h2⟩ := hab
      cases h2
      simp only [times_pos hk h1, dagEnds_times rs i n]

theorem getDag_times (rs : List Rune) : getDag d rs = getDag d' rs := by
  unfold getDag
  congr 1
  funext i
  unfold dagAt
  rw [dagEnds_times hk hf]

theorem cutAll_times (cfg : SplitCfg) (s : Bytes) : cutAll cfg d s = cutAll cfg d' s := by
  unfold cutAll
  simp only [getDag_times hk hf]

theorem gramsFrom_times (rs : List Rune) (incr : Nat) : ∀ is, gramsFrom d rs incr is = gramsFrom d' rs incr is
  | [] => rfl
  | i :: is => by
    unfold gramsFrom
    have := hf (encode (slice rs i (i + incr)))
    revert this
    unfold findRunes
    generalize d.find _ = a
    generalize d'.find _ = b
    intro this
    cases this with
    | none => rfl
    | @some e e' hab =>
      obtain ⟨f, p, ok⟩ := e
      obtain ⟨f', p', ok'⟩ := e'
      obtain ⟨h1, h2⟩ := hab
      cases h2
      simp only [times_pos hk h1, gramsFrom_times rs incr is]

theorem searchWord_times (w : Bytes) : searchWord d w = searchWord d' w := by
  unfold searchWord grams
  simp only [gramsFrom_times hk hf]

theorem hmmBuf_times (cut : Bytes → Option (List Bytes)) (buf : List Rune) : hmmBuf d cut buf = hmmBuf d' cut buf := by
  unfold hmmBuf findRunes
  have := hf (encode buf)
  revert this
  generalize d.find _ = a
  generalize d'.find _ = b
  intro this
  cases this with
  | none => rfl
  | @some e e' hab =>
    obtain ⟨f, p, ok⟩ := e
    obtain ⟨f', p', ok'⟩ := e'
    obtain ⟨h1, h2⟩ := hab
    cases h2
    simp only [times_eq hk h1]

theorem hmmLoop_times (cut : Bytes → Option (List Bytes)) : ∀ ps buf, hmmLoop d cut ps buf = hmmLoop d' cut ps buf
  | [], buf => by simp only [hmmLoop, flushBuf, hmmBuf_times hk hf]
  | f :: ps, buf => by
    unfold hmmLoop
    simp only [flushBuf, hmmBuf_times hk hf, hmmLoop_times cut ps]

/-- The ends in the graph belong to fragments that are found, when every character is. -/
theorem dagEnds_found (rs : List Rune) (i : Nat) : ∀ n j l, dagEnds d rs i n j = some l → ∀ x ∈ l, ∃ f p, findRunes d (slice rs i (x + 1)) = some (f, p, true)
  | 0, _, _, h => by simp [dagEnds] at h
  | n + 1, j, l, h => by
    unfold dagEnds at h
    split at h
    · cases h
    · next f p ok e =>
      cases ok
      · simp at h; subst h; simp
      · simp only [Bool.not_true, Bool.false_eq_true, if_false] at h
        have here : ∀ x ∈ (if F64.lt (F64.ofNat 0) f = true then [j] else []), ∃ f p, findRunes d (slice rs i (x + 1)) = some (f, p, true) := by
          intro x hx
          split at hx
          · simp at hx; subst hx; exact ⟨_, _, e⟩
          · simp at hx
        split at h
        · simp only [Option.some.injEq] at h; subst h; exact here
        · obtain ⟨m, hm, rfl⟩ := Option.map_eq_some_iff.1 h
          intro x hx
          rcases List.mem_append.1 hx with hx | hx
          · exact here x hx
          · exact dagEnds_found rs i n (j + 1) m hm x hx

theorem routeAt_times (hT : Amount T) (rs : List Rune) (idx : Nat) (routes : List (Nat × Route EReal)) :
    ∀ is v, (∀ x ∈ is, ∃ f p, findRunes d (slice rs idx (x + 1)) = some (f, p, true)) →
      routeAt d rs (F64.log T) idx routes is v = routeAt d' rs (F64.log (k * T)) idx routes is v
  | [], _, _ => rfl
  | i :: is, v, h => by
    unfold routeAt
    have e : ∀ rest, routeCand d rs (F64.log T) idx i rest = routeCand d' rs (F64.log (k * T)) idx i rest := by
      intro rest
      unfold routeCand
      obtain ⟨f, p, e⟩ := h i (by simp)
      have := hf (encode (slice rs idx (i + 1)))
      rw [e]
      unfold findRunes at e ⊢
      rw [e] at this
      revert this
      generalize d'.find _ = b
      intro this
      cases this with
      | @some _ e' hab =>
        obtain ⟨f', p', ok'⟩ := e'
        obtain ⟨h1, h2⟩ := hab
        cases h2
        have := (times_log hk hT h1).1
        simp only [if_true]
        congr 2
        exact congrArg (F64.add · rest) this.symm
    rw [e]
    split
    · rfl
    · exact routeAt_times hT rs idx routes is _ fun x hx => h x (by simp [hx])

theorem calcLoop_times (hT : Amount T) (rs : List Rune) (dag : List (List Nat))
    (hd : ∀ i, ∀ x ∈ dag.getD i [], ∃ f p, findRunes d (slice rs i (x + 1)) = some (f, p, true)) :
    ∀ n routes, calcLoop d rs (F64.log T) dag n routes = calcLoop d' rs (F64.log (k * T)) dag n routes
  | 0, _ => rfl
  | n + 1, routes => by
    unfold calcLoop
    rw [routeAt_times hk hf hT rs n routes _ _ (hd n)]
    split
    · rfl
    · exact calcLoop_times hT rs dag hd n _
    · exact calcLoop_times hT rs dag hd n _

theorem calcRoutes_times (hT : Amount T) (h1 : d.totalFreq = T) (h2 : d'.totalFreq = k * T) (rs : List Rune)
    (hr : ∀ r ∈ rs, ∃ f p, findRunes d [r] = some (f, p, true)) : calcRoutes d rs = calcRoutes d' rs := by
  unfold calcRoutes
  rw [← getDag_times hk hf]
  cases hg : getDag d rs with
  | none => rfl
  | some dag =>
    dsimp only
    rw [h1, h2]
    refine calcLoop_times hk hf hT rs dag ?_ _ _
    intro i x hx
    rcases mapOpt_get hg i with ⟨_, e⟩ | ⟨a, b, e1, e2, e3⟩
    · simp [e] at hx
    · obtain ⟨hi, rfl⟩ := List.getElem?_eq_some_iff.1 e1
      simp only [List.length_range] at hi
      simp only [List.getElem_range] at e3
      rw [List.getD_eq_getElem?_getD, e2, Option.getD_some] at hx
      unfold dagAt at e3
      obtain ⟨l, e4, rfl⟩ := Option.map_eq_some_iff.1 e3
      split at hx
      · simp only [List.mem_singleton] at hx
        subst hx
        rw [slice_succ rs x hi]
        exact hr _ (List.getElem_mem hi)
      · exact dagEnds_found hk hf rs i _ _ _ e4 x hx

end route

end
end Gse
