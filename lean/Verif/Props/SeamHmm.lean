import Verif.Proofs.SeamHmm
import Verif.Proofs.TrimCut
import Verif.Props.Hmm
import Verif.Props.Seam

/-!
# Cutting a text in two before an HMM cut

C88: `HMMCut` and `Cut(str, true)` of a text with a seam, and how what stands beside a word decides whether the HMM sees it.
-/

namespace Gse
open Spec

set_option linter.unusedSectionVars false

section
variable {F D : Type} [F64 F] [F32 D] [Narrow F D] [Unicode]

/-- C88: the runs of C30 are determined by the text. -/
theorem C88_runs_unique [UnicodeOK] (s : Bytes) (l l' : List (RunKind × Bytes)) (h : HmmRuns s l) (h' : HmmRuns s l') : l = l' := hmmRuns_unique h h'

/-- C88: when the seam is between characters of different kinds and not inside a decimal number, `HMMCut(a + b)` is `HMMCut(a)` followed by
`HMMCut(b)`, for every model. -/
theorem C88_hmm [UnicodeOK] (c : HmmConst F) (em : EmitModel F) (a b : Bytes) (h : KindSeam a b) :
    ∃ x y, hmmCut c em a [] = some x ∧ hmmCut c em b [] = some y ∧ hmmCut c em (a ++ b) [] = some (x ++ y) := by
  obtain ⟨ra, oa, a1, a2, a3⟩ := C30_runs c em a
  obtain ⟨rb, ob, b1, b2, b3⟩ := C30_runs c em b
  obtain ⟨rs, os, c1, c2, c3⟩ := C30_runs c em (a ++ b)
  have e := hmmRuns_unique c2 (hmmRuns_seam a2 h b2)
  subst e
  have e := forall2_unique (R := RunWords c em) (fun _ _ _ h h' => runWords_unique h h') c3 (List.rel_append a3 b3)
  subst e
  exact ⟨_, _, a1, b1, by rw [c1, List.flatten_append]⟩

/-! ### Pending characters -/

theorem encode_begins (q : List Rune) : BeginsChar (encode q) := by
  intro c hc h
  cases q with
  | nil => simp [encode] at hc
  | cons r q =>
    have hne := encodeRune_ne_nil r
    obtain ⟨b, t, e⟩ := List.exists_cons_of_ne_nil hne
    rw [encode_cons, e] at hc
    have := head_encodeRune r c (by rw [e]; simpa using hc)
    simp [isCont] at this
    omega

theorem digitB_iff {x : UInt8} (h : digitB x = true) : 48 ≤ x.toNat ∧ x.toNat ≤ 57 :=
  forall_byte (P := fun b => digitB b = true → 48 ≤ b.toNat ∧ b.toNat ≤ 57) (by decide +kernel) x h

theorem runes_one {x : UInt8} (h : x.toNat < 128) (rest : Bytes) : runes (x :: rest) = x.toNat :: runes rest := by
  rw [runes_cons _ (by simp)]
  simp only [decodeRune]
  rw [if_pos (by omega)]
  rfl

theorem kindSeam_encode [UnicodeOK] {l r : List Rune} (h : KindSeamRunes l r) (hl : ∀ x ∈ l, validRune x = true) (hr : ∀ x ∈ r, validRune x = true)
    {t q : List Rune} (ht : t <:+ l) (hq : q <+: r) : KindSeam (encode t) (encode q) := by
  have et : runes (encode t) = t := runes_encode t fun x hx => hl x (ht.subset hx)
  have eq : runes (encode q) = q := runes_encode q fun x hx => hr x (hq.subset hx)
  have hu : ∀ u, t.getLast? = some u → l.getLast? = some u := by
    intro u hu
    obtain ⟨z, rfl⟩ := ht
    rw [List.getLast?_append, hu]; rfl
  have hv : ∀ u, q.head? = some u → r.head? = some u := by
    intro u hu
    obtain ⟨z, rfl⟩ := hq
    rw [List.head?_append, hu]; rfl
  refine ⟨encode_begins q, ?_, ?_⟩
  · rw [et, eq]
    intro u v h1 h2
    exact h.kinds u v (hu u h1) (hv v h2)
  · intro x y hx hy
    have gx := digitB_iff hx
    have gy := digitB_iff hy
    obtain ⟨p1, p2⟩ := h.point x.toNat y.toNat gx gy
    constructor
    · rintro ⟨⟨w, hw⟩, ⟨z, hz⟩⟩
      refine p1 ⟨?_, ?_⟩
      · refine List.IsSuffix.trans ⟨runes w, ?_⟩ ht
        rw [← et, ← hw, runes_append_start w [x] (by intro c hc; simp at hc; subst hc; exact ascii_notCont (by omega)), runes_one (by omega)]
        rfl
      · refine List.IsPrefix.trans ⟨runes z, ?_⟩ hq
        rw [← eq, ← hz]
        show _ = runes (46 :: y :: z)
        rw [runes_one (by decide), runes_one (by omega)]
        rfl
    · rintro ⟨⟨w, hw⟩, ⟨z, hz⟩⟩
      refine p2 ⟨?_, ?_⟩
      · refine List.IsSuffix.trans ⟨runes w, ?_⟩ ht
        rw [← et, ← hw, runes_append_start w [x, 46] (by intro c hc; simp at hc; subst hc; exact ascii_notCont (by omega)), runes_one (by omega), runes_one (by decide)]
        rfl
      · refine List.IsPrefix.trans ⟨runes z, ?_⟩ hq
        rw [← eq, ← hz]
        show _ = runes (y :: z)
        rw [runes_one (by omega)]
        rfl

/-- A single character is one run. -/
theorem runs_one [UnicodeOK] (r : Rune) (h : validRune r = true) : HmmRuns (encodeRune r) [(runeKind r, encodeRune r)] := by
  have hne := encodeRune_ne_nil r
  have hr : runes (encodeRune r) = [r] := by
    have := runes_encode [r] (by simpa using h)
    simpa [encode] using this
  have noD : ¬ StartsDigit [] := by rintro ⟨b, t, h, _⟩; simp at h
  have noA : ¬ StartsAlnum [] := by rintro ⟨b, t, h, _⟩; simp at h
  unfold runeKind
  by_cases h1 : Unicode.isHan r = true
  · rw [if_pos h1]
    have := HmmRuns.han (rest := []) hne (by rw [hr]; simpa using h1) (by simp [StartsHan]) .nil
    simpa using this
  · rw [if_neg h1]
    cases h2 : asciiAlnum r with
    | true =>
      rw [if_pos rfl]
      have hlt := asciiAlnum_lt h2
      have e : encodeRune r = [UInt8.ofNat r] := by simp [encodeRune, hlt]
      have := HmmRuns.alnum (s := encodeRune r) (rest := []) hne (by
        rw [e]; intro b hb; simp at hb; subst hb
        have : (UInt8.ofNat r).toNat = r := by simp; omega
        rw [alnumB, this]; exact h2) noA (by rintro ⟨_, t, h, _⟩; simp [str] at h) .nil
      simpa using this
    | false =>
      rw [if_neg (by simp)]
      have := HmmRuns.other (s := encodeRune r) (rest := []) hne (by rw [hr]; simpa using h1) (by
        intro b hb
        by_cases hlt : r < 128
        · have e : encodeRune r = [UInt8.ofNat r] := by simp [encodeRune, hlt]
          rw [e] at hb; simp at hb; subst hb
          have : (UInt8.ofNat r).toNat = r := by simp; omega
          rw [alnumB, this]; exact h2
        · have := encodeRune_high hlt b hb
          cases ha : alnumB b with
          | false => rfl
          | true => exact absurd (alnum_ascii ha) this) (.inl rfl) .nil
      simpa using this

/-- C88: `HMMCut` of one character is that character. -/
theorem C88_single [UnicodeOK] (c : HmmConst F) (em : EmitModel F) (r : Rune) (h : validRune r = true) :
    hmmCut c em (encodeRune r) [] = some [encodeRune r] := by
  obtain ⟨rs, os, c1, c2, c3⟩ := C30_runs c em (encodeRune r)
  have e := hmmRuns_unique c2 (runs_one r h)
  subst e
  have hr : runes (encodeRune r) = [r] := by
    have := runes_encode [r] (by simpa using h)
    simpa [encode] using this
  have : List.Forall₂ (RunWords c em) [(runeKind r, encodeRune r)] [[encodeRune r]] := by
    refine .cons ?_ .nil
    cases hk : runeKind r with
    | skip => exact .skip
    | other => exact .other
    | han =>
      obtain ⟨v, ts, h1, h2, _⟩ := viterbi_tagging c em [r] (by simp)
      obtain ⟨t, rfl⟩ := List.length_eq_one_iff.1 (show ts.length = 1 from h2.length)
      have hw : TagWords [r] [t] [[r]] := by
        have := TagWords.word (w := [r]) (rest := []) (inner := []) (ts := []) (last := t) rfl (by simp) (h2.last t rfl) .nil
        simpa using this
      have := RunWords.han (c := c) (em := em) (s := encodeRune r) (by rw [hr]; exact h1) (by rw [hr]; exact hw)
      simpa [encode] using this
  have e := forall2_unique (R := RunWords c em) (fun _ _ _ h h' => runWords_unique h h') c3 this
  subst e
  simpa using c1

theorem hmmCut_some [UnicodeOK] (c : HmmConst F) (em : EmitModel F) (s : Bytes) : ∃ out, hmmCut c em s [] = some out ∧ out.flatten = s := by
  obtain ⟨out, h1, h2, _⟩ := C30_lossless c em s
  exact ⟨out, h1, h2⟩

/-- What is flushed, in terms of `HMMCut`. -/
theorem flushBuf_free [UnicodeOK] {d : Dictionary F D} (hi : IdxOK d) (c : HmmConst F) (em : EmitModel F) {q : List Rune} (hv : ∀ x ∈ q, validRune x = true)
    (h0 : q ≠ []) (hk : 2 ≤ q.length → ¬ Kept d q) : flushBuf d (fun t => hmmCut c em t []) q = hmmCut c em (encode q) [] := by
  by_cases h : 2 ≤ q.length
  · exact flushBuf_hmm hi _ h (hk h)
  · have : 0 < q.length := List.length_pos_iff.2 h0
    obtain ⟨r, rfl⟩ := List.length_eq_one_iff.1 (show q.length = 1 by omega)
    have e : encode [r] = encodeRune r := by simp [encode]
    rw [flushBuf, if_neg (by simp), if_pos (by simp), e, C88_single c em r (hv r (by simp))]

/-- What is flushed at a seam. -/
theorem flush_seam [UnicodeOK] {d : Dictionary F D} (hi : IdxOK d) (c : HmmConst F) (em : EmitModel F) {l r : List Rune} (h : KindSeamRunes l r)
    (hl : ∀ x ∈ l, validRune x = true) (hr : ∀ x ∈ r, validRune x = true) (hn : NoSpanKept d l r) {t q : List Rune} (ht : t <:+ l) (hq : q <+: r)
    (hk : 2 ≤ q.length → ¬ Kept d q) :
    ∃ z, flushBuf d (fun t => hmmCut c em t []) (t ++ q) = catO (some z) (flushBuf d (fun t => hmmCut c em t []) q) ∧ z.flatten = encode t ∧
      ((2 ≤ t.length → ¬ Kept d t) → some z = flushBuf d (fun t => hmmCut c em t []) t) := by
  have vt : ∀ x ∈ t, validRune x = true := fun x hx => hl x (ht.subset hx)
  have vq : ∀ x ∈ q, validRune x = true := fun x hx => hr x (hq.subset hx)
  by_cases t0 : t = []
  · subst t0
    exact ⟨[], by rw [List.nil_append, catO_nil], rfl, fun _ => by simp [flushBuf]⟩
  by_cases q0 : q = []
  · subst q0
    have e : flushBuf d (fun t => hmmCut c em t []) [] = some [] := by simp [flushBuf]
    rw [List.append_nil, e]
    by_cases hkt : 2 ≤ t.length ∧ Kept d t
    · refine ⟨t.map encodeRune, by rw [flushBuf_kept _ hkt.1 hkt.2, catO_nil_right], ?_, fun h => absurd hkt.2 (h hkt.1)⟩
      clear ht t0 vt hkt
      induction t with
      | nil => rfl
      | cons r t ih => simp [encode_cons, ih]
    · obtain ⟨out, o1, o2⟩ := hmmCut_some c em (encode t)
      refine ⟨out, ?_, o2, fun _ => ?_⟩
      · rw [flushBuf_free hi c em vt t0 (fun h2 hk => hkt ⟨h2, hk⟩), o1, catO_nil_right]
      · rw [flushBuf_free hi c em vt t0 (fun h2 hk => hkt ⟨h2, hk⟩), o1]
  have l1 := List.length_pos_iff.2 t0
  have l2 := List.length_pos_iff.2 q0
  obtain ⟨x, y, h1, h2, h3⟩ := C88_hmm c em (encode t) (encode q) (kindSeam_encode h hl hr ht hq)
  obtain ⟨out, o1, o2⟩ := hmmCut_some c em (encode t)
  rw [h1] at o1
  cases o1
  refine ⟨x, ?_, o2, fun hkt => ?_⟩
  · rw [flushBuf_free hi c em (q := t ++ q) (by
      intro r hr; rcases List.mem_append.1 hr with hr | hr
      · exact vt r hr
      · exact vq r hr) (by simp [t0]) (fun _ => hn t q t0 q0 ht hq), flushBuf_free hi c em vq q0 hk, encode_append, h3, h2]
    rfl
  · rw [flushBuf_free hi c em vt t0 hkt, h1]

/-! ### `Cut(str, true)` -/

/-- What `Cut(str, true)` does, in terms of the best route. -/
theorem cut_route_hmm [UnicodeOK] [F64Laws F] {cfg : SplitCfg} {ops : List (DictOp F)} {d : Dictionary F D}
    (hr : runOps cfg ops Dictionary.new = some d) (hg : GoodScores d) (c : HmmConst F) (em : EmitModel F) (s : Bytes) :
    ∃ ps, IsBestRoute d (dagText cfg s) ps ∧ cutDAGHmm cfg d c em s [] = hmmLoop d (fun t => hmmCut c em t []) ps [] := by
  obtain ⟨R, h1, h2⟩ := calcRoutes_eq (idxOK_of_run hr) (dagRunes cfg s)
  obtain ⟨ps, e1, e2⟩ := walk_best (scoreLaws_of_good hg _) h2 (dagRunes cfg s).length 0 (by omega) (by omega)
  refine ⟨ps, by rw [← dagRunes_eq]; simpa using e2, ?_⟩
  unfold cutDAGHmm cutDAG
  simp only [h1, e1, Option.bind_some]

theorem dagText_valid [UnicodeOK] (cfg : SplitCfg) (s : Bytes) : ∀ r ∈ dagText cfg s, validRune r = true := by
  rw [← dagRunes_eq]; exact dagRunes_valid cfg s

/-- C88: when a character beside the seam occurs in no stored word of several characters, no stored word lies across. -/
theorem C88_separator (d : Dictionary F D) (l r : List Rune) (c : Rune) (hc : l.getLast? = some c ∨ r.head? = some c)
    (h : ∀ u tok, storedTok d (encode u) = some tok → 2 ≤ u.length → c ∉ u) : NoSpanRunes d l r ∧ NoSpanKept d l r := by
  have key : ∀ x y : List Rune, x ≠ [] → y ≠ [] → x <:+ l → y <+: r → c ∈ x ++ y ∧ 2 ≤ (x ++ y).length := by
    intro x y hx hy h1 h2
    have l1 := List.length_pos_iff.2 hx
    have l2 := List.length_pos_iff.2 hy
    refine ⟨?_, by simp; omega⟩
    rcases hc with hc | hc
    · obtain ⟨z, rfl⟩ := h1
      rw [List.getLast?_append, List.getLast?_eq_some_getLast hx] at hc
      simp at hc; subst hc
      exact List.mem_append_left _ (List.getLast_mem hx)
    · obtain ⟨z, rfl⟩ := h2
      obtain ⟨e, y, rfl⟩ := List.exists_cons_of_ne_nil hy
      simp at hc; subst hc
      simp
  refine ⟨fun x y hx hy h1 h2 => ?_, fun x y hx hy h1 h2 ⟨tok, ht, _⟩ => ?_⟩
  · obtain ⟨k1, k2⟩ := key x y hx hy h1 h2
    cases hp : posWord d (x ++ y) with
    | false => rfl
    | true =>
      unfold posWord at hp
      obtain ⟨tok, ht, _⟩ := (Option.any_eq_true _ _).1 hp
      exact absurd k1 (h _ tok ht k2)
  · obtain ⟨k1, k2⟩ := key x y hx hy h1 h2
    exact h _ tok ht k2 k1

theorem seam_routes_hmm [UnicodeOK] [F64Laws F] {cfg : SplitCfg} {ops : List (DictOp F)} {d : Dictionary F D}
    (hr : runOps cfg ops Dictionary.new = some d) (hg : GoodScores d) (c : HmmConst F) (em : EmitModel F) {a b : Bytes} (hb : BeginsChar b)
    (hn : NoSpanRunes d (dagText cfg a) (dagText cfg b)) :
    ∃ p q, IsBestRoute d (dagText cfg a ++ dagText cfg b) (p ++ q) ∧ IsRoute d (dagText cfg a) p ∧ IsBestRoute d (dagText cfg b) q ∧
      cutDAGHmm cfg d c em (a ++ b) [] = hmmLoop d (fun t => hmmCut c em t []) (p ++ q) [] ∧
      cutDAGHmm cfg d c em b [] = hmmLoop d (fun t => hmmCut c em t []) q [] := by
  obtain ⟨ps, h1, h2⟩ := cut_route_hmm hr hg c em (a ++ b)
  obtain ⟨qs, k1, k2⟩ := cut_route_hmm hr hg c em b
  rw [dagText_seam cfg a b hb] at h1
  obtain ⟨p, q, rfl, g1, g2⟩ := route_seam ps _ h1.route hn
  have f2 := isRoute_flatten g2
  have hq := best_route_suffix h1 (by rw [f2]; exact g2)
  rw [f2] at hq
  have e := best_route_unique _ q qs hq k1
  subst e
  exact ⟨p, q, h1, g1, hq, h2, k2⟩

theorem trail_suffix {d : Dictionary F D} {l : List Rune} {p : List (List Rune)} (h : IsRoute d l p) :
    ∃ u g, p = u ++ g ∧ trail [] p = g.flatten ∧ trail [] p <:+ l ∧ (∀ t ∈ g, t.length = 1) ∧ (∀ t, u.getLast? = some t → t.length ≠ 1) := by
  obtain ⟨u, g, h1, h2, h3, h4⟩ := trail_spec p [] (by simp) fun t ht => (isRoute_pieces h t ht).1
  refine ⟨u, g, by simpa using h1, h2, ⟨u.flatten, ?_⟩, h3, h4⟩
  have h2' : trail [] p = g.flatten := h2
  rw [h2', ← isRoute_flatten h, show p = u ++ g by simpa using h1, List.flatten_append]

theorem lead_prefix {d : Dictionary F D} {l : List Rune} {q : List (List Rune)} (h : IsRoute d l q) :
    ∃ g v, q = g ++ v ∧ lead q = g.flatten ∧ lead q <+: l ∧ (∀ t ∈ g, t.length = 1) ∧ (∀ t, v.head? = some t → t.length ≠ 1) := by
  obtain ⟨g, v, h1, h2, h3, h4⟩ := lead_spec q
  refine ⟨g, v, h1, h2, ⟨v.flatten, ?_⟩, h3, h4⟩
  rw [h2, ← isRoute_flatten h, h1, List.flatten_append]

theorem lead_free {d : Dictionary F D} {r : List Rune} {q : List (List Rune)} (h : IsBestRoute d r q) (hf : StartFree d r) : 2 ≤ (lead q).length → ¬ Kept d (lead q) := by
  obtain ⟨g, v, h1, h2, _, h3, h4⟩ := lead_prefix h.route
  rw [h2, (flatten_singles g h3).1]
  exact hf g v (h1 ▸ h) h4 h3

theorem trail_free {d : Dictionary F D} {l : List Rune} {p : List (List Rune)} (h : IsBestRoute d l p) (hf : EndFree d l) :
    2 ≤ (trail [] p).length → ¬ Kept d (trail [] p) := by
  obtain ⟨u, g, h1, h2, _, h3, h4⟩ := trail_suffix h.route
  rw [h2, (flatten_singles g h3).1]
  exact hf u g (h1 ▸ h) h4 h3

theorem hmmLoop_some [UnicodeOK] [F64Laws F] {cfg : SplitCfg} {ops : List (DictOp F)} {d : Dictionary F D}
    (hr : runOps cfg ops Dictionary.new = some d) (c : HmmConst F) (em : EmitModel F) (s : Bytes) :
    ∃ out, cutDAGHmm cfg d c em s [] = some out ∧ out.flatten = encode (dagText cfg s) := by
  obtain ⟨out, h1, h2, _⟩ := C28_lossless cfg ops d hr c em 0 s
  exact ⟨out, h1, h2⟩

/-- C88: what comes before a seam has no influence on what `Cut(str, true)` makes of the text after it, in any arithmetic that satisfies the
laws and for every HMM model, unless the characters after the seam that are left single are together a stored word. -/
theorem C88_cut [UnicodeOK] [F64Laws F] (cfg : SplitCfg) (ops : List (DictOp F)) (d : Dictionary F D)
    (hr : runOps cfg ops Dictionary.new = some d) (hg : GoodScores d) (c : HmmConst F) (em : EmitModel F) (a b : Bytes) (hb : BeginsChar b)
    (hk : KindSeamRunes (dagText cfg a) (dagText cfg b)) (hn : NoSpanRunes d (dagText cfg a) (dagText cfg b))
    (hn' : NoSpanKept d (dagText cfg a) (dagText cfg b)) (fb : StartFree d (dagText cfg b)) :
    ∃ x y, cutDAGHmm cfg d c em b [] = some y ∧ cutDAGHmm cfg d c em (a ++ b) [] = some (x ++ y) ∧ x.flatten = encode (dagText cfg a) := by
  obtain ⟨p, q, h1, h2, h3, h4, h5⟩ := seam_routes_hmm hr hg c em hb hn
  obtain ⟨_, _, _, _, ht, _, _⟩ := trail_suffix h2
  obtain ⟨_, _, _, _, hq, _, _⟩ := lead_prefix h3.route
  obtain ⟨z, z1, _, _⟩ := flush_seam (idxOK_of_run hr) c em hk (dagText_valid cfg a) (dagText_valid cfg b) hn' ht hq (lead_free h3 fb)
  obtain ⟨_, w, hw⟩ := hmmLoop_seam _ q p [] (some z) z1
  obtain ⟨y, y1, y2⟩ := hmmLoop_some hr c em b
  obtain ⟨o, o1, o2⟩ := hmmLoop_some hr c em (a ++ b)
  rw [← h4, ← h5, y1, o1] at hw
  cases w with
  | none => simp [catO] at hw
  | some x =>
    simp [catO] at hw
    subst hw
    refine ⟨x, y, y1, o1, ?_⟩
    rw [List.flatten_append, y2, dagText_seam cfg a b hb, encode_append] at o2
    exact List.append_cancel_right o2

/-- C88: without rounding, and when no piece has the score of a word of frequency zero, `Cut(a + b, true)` is `Cut(a, true)` followed by
`Cut(b, true)`, for every HMM model, unless the characters left single on one side of the seam are together a stored word. -/
theorem C88_cut_exact [UnicodeOK] [F64Laws F] [F64Shift F] (cfg : SplitCfg) (ops : List (DictOp F)) (d : Dictionary F D)
    (hr : runOps cfg ops Dictionary.new = some d) (hg : GoodScores d) (c : HmmConst F) (em : EmitModel F) (a b : Bytes) (hb : BeginsChar b)
    (hk : KindSeamRunes (dagText cfg a) (dagText cfg b)) (hn : NoSpanRunes d (dagText cfg a) (dagText cfg b))
    (hn' : NoSpanKept d (dagText cfg a) (dagText cfg b)) (fa : EndFree d (dagText cfg a)) (fb : StartFree d (dagText cfg b))
    (sa : FinScores d (dagText cfg a)) (sb : FinScores d (dagText cfg b)) :
    ∃ x y, cutDAGHmm cfg d c em a [] = some x ∧ cutDAGHmm cfg d c em b [] = some y ∧ cutDAGHmm cfg d c em (a ++ b) [] = some (x ++ y) := by
  obtain ⟨p, q, h1, h2, h3, h4, h5⟩ := seam_routes_hmm hr hg c em hb hn
  obtain ⟨ps, k1, k2⟩ := cut_route_hmm hr hg c em a
  have hp := best_route_prefix sa sb hn h2 h3.route h1
  have e := best_route_unique _ p ps hp k1
  subst e
  obtain ⟨_, _, _, _, ht, _, _⟩ := trail_suffix h2
  obtain ⟨_, _, _, _, hq, _, _⟩ := lead_prefix h3.route
  obtain ⟨z, z1, _, z3⟩ := flush_seam (idxOK_of_run hr) c em hk (dagText_valid cfg a) (dagText_valid cfg b) hn' ht hq (lead_free h3 fb)
  obtain ⟨w, _⟩ := hmmLoop_seam _ q p [] (some z) z1
  have w := w (z3 (trail_free hp fa))
  obtain ⟨x, x1, _⟩ := hmmLoop_some hr c em a
  obtain ⟨y, y1, _⟩ := hmmLoop_some hr c em b
  refine ⟨x, y, x1, y1, ?_⟩
  rw [h4, w, ← k2, ← h5, x1, y1]
  rfl

/-- C88: the exception is real. A stored word that the best route leaves as single characters is returned as single characters when it
stands alone; behind a separator of another kind it is given to the HMM. -/
theorem C88_context [UnicodeOK] [F64Laws F] (cfg : SplitCfg) (ops : List (DictOp F)) (d : Dictionary F D)
    (hr : runOps cfg ops Dictionary.new = some d) (hg : GoodScores d) (c : HmmConst F) (em : EmitModel F) (a b : Bytes) (hb : BeginsChar b)
    (hk : KindSeamRunes (dagText cfg a) (dagText cfg b)) (s : Rune) (hs : (dagText cfg a).getLast? = some s)
    (hsep : ∀ u tok, storedTok d (encode u) = some tok → 2 ≤ u.length → s ∉ u)
    (hroute : ∃ q, IsBestRoute d (dagText cfg b) q ∧ ∀ t ∈ q, t.length = 1) (h2 : 2 ≤ (dagText cfg b).length) (hkept : Kept d (dagText cfg b)) :
    cutDAGHmm cfg d c em b [] = some ((dagText cfg b).map encodeRune) ∧
    ∃ x w, hmmCut c em (encode (dagText cfg b)) [] = some w ∧ cutDAGHmm cfg d c em (a ++ b) [] = some (x ++ w) ∧ x.flatten = encode (dagText cfg a) := by
  obtain ⟨hn, hn'⟩ := C88_separator d (dagText cfg a) (dagText cfg b) s (.inl hs) hsep
  obtain ⟨p, q, h1, hp, h3, h4, h5⟩ := seam_routes_hmm hr hg c em hb hn
  obtain ⟨q', q1, q2⟩ := hroute
  have e := best_route_unique _ q q' h3 q1
  subst e
  have hlead : ∀ y : List (List Rune), (∀ t ∈ y, t.length = 1) → lead y = y.flatten := by
    intro y
    induction y with
    | nil => intro _; rfl
    | cons f y ih =>
      intro h
      rw [lead, if_pos (h f (by simp)), ih fun t ht => h t (by simp [ht])]
      rfl
  have fl := isRoute_flatten h3.route
  have eq := hlead q q2
  rw [fl] at eq
  have all : ∀ (y : List (List Rune)) (buf : List Rune), (∀ t ∈ y, t.length = 1) →
      hmmLoop d (fun t => hmmCut c em t []) y buf = flushBuf d (fun t => hmmCut c em t []) (buf ++ y.flatten) := by
    intro y
    induction y with
    | nil => intro buf _; simp [hmmLoop]
    | cons f y ih =>
      intro buf h
      rw [hmmLoop, if_pos (h f (by simp)), ih _ fun t ht => h t (by simp [ht])]
      simp
  obtain ⟨u, g, e1, e2, ht, e4, e5⟩ := trail_suffix hp
  -- the separator is a piece of its own
  have hne : trail [] p ≠ [] := by
    intro e
    rw [e2] at e
    have hg0 : g = [] := by
      cases g with
      | nil => rfl
      | cons f g =>
        have h1 := e4 f (by simp)
        have h2 : f = [] := by simp at e; exact e.1
        rw [h2] at h1; cases h1
    subst hg0
    rw [List.append_nil] at e1
    subst e1
    have hl := isRoute_flatten hp
    cases hu : p.getLast? with
    | none =>
      rw [List.getLast?_eq_none_iff] at hu
      rw [hu] at hl
      rw [← hl] at hs; cases hs
    | some f =>
      obtain ⟨p', rfl⟩ : ∃ p', p = p' ++ [f] := ⟨_, (List.dropLast_append_getLast? _ hu).symm⟩
      have h1 := e5 f hu
      obtain ⟨f0, fw⟩ := isRoute_pieces hp f (by simp)
      have hmem : s ∈ f := by
        rw [← hl] at hs
        simp only [List.flatten_append, List.flatten_cons, List.flatten_nil, List.append_nil] at hs
        rw [List.getLast?_append, List.getLast?_eq_some_getLast f0] at hs
        simp at hs; subst hs
        exact List.getLast_mem f0
      rcases fw with fw | fw
      · unfold posWord at fw
        obtain ⟨tok, ht, _⟩ := (Option.any_eq_true _ _).1 fw
        have := List.length_pos_iff.2 f0
        exact hsep f tok ht (by omega) hmem
      · exact h1 fw
  have b0 : dagText cfg b ≠ [] := by intro e; rw [e] at h2; simp at h2
  obtain ⟨x, y, x1, y1, xy⟩ := C88_hmm c em (encode (trail [] p)) (encode (dagText cfg b))
    (kindSeam_encode hk (dagText_valid cfg a) (dagText_valid cfg b) ht (List.prefix_refl _))
  refine ⟨?_, ?_⟩
  · rw [h5, all q [] q2, List.nil_append, fl, flushBuf_kept _ h2 hkept]
  · have hfl : flushBuf d (fun t => hmmCut c em t []) (trail [] p ++ dagText cfg b) = some (x ++ y) := by
      rw [flushBuf_free (idxOK_of_run hr) c em (by
        intro r hr'; rcases List.mem_append.1 hr' with h | h
        · exact dagText_valid cfg a r (ht.subset h)
        · exact dagText_valid cfg b r h) (by simp [hne]) (fun _ => hn' _ _ hne b0 ht (List.prefix_refl _)), encode_append, xy]
    have loop : ∀ (p : List (List Rune)) (buf : List Rune), flushBuf d (fun t => hmmCut c em t []) (trail buf p ++ dagText cfg b) = some (x ++ y) →
        ∃ z, hmmLoop d (fun t => hmmCut c em t []) (p ++ q) buf = catO z (some (x ++ y)) := by
      intro p
      induction p with
      | nil =>
        intro buf h
        exact ⟨some [], by rw [List.nil_append, all q buf q2, fl, catO_nil]; exact h⟩
      | cons f p ih =>
        intro buf h
        by_cases hf : f.length = 1
        · simp only [trail, if_pos hf] at h
          obtain ⟨z, hz⟩ := ih _ h
          exact ⟨z, by rw [List.cons_append, hmmLoop, if_pos hf, hz]⟩
        · simp only [trail, if_neg hf] at h
          obtain ⟨z, hz⟩ := ih _ h
          refine ⟨catO (flushBuf d (fun t => hmmCut c em t []) buf) (catO (some [encode f]) z), ?_⟩
          rw [List.cons_append, hmmLoop_cons _ f _ buf hf, hz, ← catO_assoc, ← catO_assoc, ← catO_assoc]
    obtain ⟨z, hz⟩ := loop p [] hfl
    obtain ⟨o, o1, o2⟩ := hmmLoop_some hr c em (a ++ b)
    obtain ⟨out, w1, w2⟩ := hmmCut_some c em (encode (dagText cfg b))
    rw [y1] at w1
    cases w1
    rw [← h4, o1] at hz
    cases z with
    | none => simp [catO] at hz
    | some z =>
      simp [catO] at hz
      subst hz
      refine ⟨z ++ x, y, y1, by rw [o1]; simp, ?_⟩
      rw [← List.append_assoc, List.flatten_append, w2, dagText_seam cfg a b hb, encode_append] at o2
      exact List.append_cancel_right o2

end

section ieee
variable {M : MathFns} [Unicode]

/-- C88: the same with IEEE arithmetic. -/
theorem C88_cut_ieee [UnicodeOK] (hlog : LogLike M.log) (cfg : SplitCfg) (ops : List (DictOp (Binary64 M))) (d : Dictionary (Binary64 M) Binary32)
    (hr : runOps cfg ops Dictionary.new = some d) (hf : FreqsNonNeg ops) (hfin : d.totalFreq.datum.IsFin)
    (h1 : F64.lt d.totalFreq (F64.ofNat 1) = false) (c : HmmConst (Binary64 M)) (em : EmitModel (Binary64 M)) (a b : Bytes) (hb : BeginsChar b)
    (hk : KindSeamRunes (dagText cfg a) (dagText cfg b)) (hn : NoSpanRunes d (dagText cfg a) (dagText cfg b))
    (hn' : NoSpanKept d (dagText cfg a) (dagText cfg b)) (fb : StartFree d (dagText cfg b)) :
    ∃ x y, cutDAGHmm cfg d c em b [] = some y ∧ cutDAGHmm cfg d c em (a ++ b) [] = some (x ++ y) ∧ x.flatten = encode (dagText cfg a) :=
  C88_cut cfg ops d hr (goodScores_ieee hlog cfg ops d hr hf hfin h1) c em a b hb hk hn hn' fb

end ieee

/-! ### Examples -/

section examples
attribute [local instance] sampleUnicode sampleUnicodeOK sampleF64 sampleF32 sampleNarrow sampleLaws sampleLaws64 sampleShift64

/-- 中 and 国 common, 中国 rare, 国人 known. -/
def seamOps : List (DictOp Int) :=
  [.add (encode [0x4E2D]) 2000 [], .add (encode [0x56FD]) 2000 [], .add (encode [0x4E2D, 0x56FD]) 2 [], .add (encode [0x56FD, 0x4EBA]) 900 []]

theorem startFree_of {d : Dictionary Int Int} {text : List Rune} (h : ∀ u ∈ text.inits, 2 ≤ u.length → (storedTok d (encode u)).isNone = true) :
    StartFree d text := by
  rintro g y hb _ h1 h2 ⟨tok, ht, _⟩
  have := h g.flatten ((List.mem_inits _ _).2 ⟨y.flatten, by rw [← List.flatten_append, isRoute_flatten hb.route]⟩) (by rw [(flatten_singles g h1).1]; exact h2)
  rw [ht] at this
  cases this

theorem endFree_of {d : Dictionary Int Int} {text : List Rune} (h : ∀ u ∈ text.tails, 2 ≤ u.length → (storedTok d (encode u)).isNone = true) :
    EndFree d text := by
  rintro x g hb _ h1 h2 ⟨tok, ht, _⟩
  have := h g.flatten ((List.mem_tails _ _).2 ⟨x.flatten, by rw [← List.flatten_append, isRoute_flatten hb.route]⟩) (by rw [(flatten_singles g h1).1]; exact h2)
  rw [ht] at this
  cases this

theorem sep_of_tokens {ops : List (DictOp Int)} {d : Dictionary Int Int} (hr : runOps {} ops Dictionary.new = some d) (s : Rune) (c : UInt8)
    (hc : encodeRune s = [c]) (hall : (d.tokens.all fun t => !t.text.flatten.contains c) = true) :
    ∀ u tok, storedTok d (encode u) = some tok → 2 ≤ u.length → s ∉ u := by
  intro u tok ht _ hm
  obtain ⟨x, y, rfl⟩ := List.append_of_mem hm
  have hw : tok.text.flatten = encode (x ++ s :: y) := by
    obtain ⟨v, h1, h2⟩ := Option.bind_eq_some_iff.1 ht
    obtain ⟨t', e1, e2⟩ := (Reachable.wf ⟨ops, hr⟩).entry _ _ h1
    rw [h2] at e1; cases e1; exact e2
  obtain ⟨v, _, hv⟩ := Option.bind_eq_some_iff.1 ht
  have := List.all_eq_true.1 hall tok (List.mem_of_getElem? hv)
  rw [hw, encode_append, encode_cons, hc] at this
  simp at this

/-- If the cut without the HMM has as many pieces as the text has characters, the best route takes every character by itself. -/
theorem singles_of_cut {ops : List (DictOp Int)} {d : Dictionary Int Int} (hr : runOps {} ops Dictionary.new = some d) {s : Bytes} {out : List Bytes}
    (h : cutDAGNoHMM {} d s = some out) (hl : (dagText {} s).length ≤ out.length) : ∃ q, IsBestRoute d (dagText {} s) q ∧ ∀ t ∈ q, t.length = 1 := by
  obtain ⟨ps, gs, h1, h2, h3⟩ := C27_best {} ops d hr (fun _ _ _ => trivial) s
  rw [h] at h3
  cases h3
  refine ⟨ps, h1, ?_⟩
  have hlen : ∀ (l : List (List Rune)), (∀ t ∈ l, t ≠ []) → l.length ≤ l.flatten.length ∧ (l.flatten.length ≤ l.length → ∀ t ∈ l, t.length = 1) := by
    intro l
    induction l with
    | nil => intro _; simp
    | cons t l ih =>
      intro h
      have := List.length_pos_iff.2 (h t (by simp))
      obtain ⟨i1, i2⟩ := ih fun x hx => h x (by simp [hx])
      refine ⟨by rw [List.flatten_cons, List.length_append, List.length_cons]; omega, fun hle => ?_⟩
      rw [List.flatten_cons, List.length_append, List.length_cons] at hle
      intro x hx
      rcases List.mem_cons.1 hx with rfl | hx
      · omega
      · exact i2 (by omega) x hx
  have hgs : ∀ (l : List (List (List Rune))), (∀ g ∈ l, g ≠ []) → l.length ≤ l.flatten.length := by
    intro l
    induction l with
    | nil => intro _; simp
    | cons t l ih =>
      intro h
      have := List.length_pos_iff.2 (h t (by simp))
      have := ih fun x hx => h x (by simp [hx])
      rw [List.flatten_cons, List.length_append, List.length_cons]; omega
  have k := hgs gs fun g hg e => by
    subst e
    rcases h2.kind _ hg with ⟨x, hx, _⟩ | ⟨hx, _⟩
    · cases hx
    · exact hx rfl
  rw [h2.flat] at k
  refine (hlen ps fun t ht => (isRoute_pieces h1.route t ht).1).2 ?_
  rw [isRoute_flatten h1.route]
  simp at hl
  omega

/-- The seam of C88 before a Latin number and after it, and none inside the number. -/
example : KindSeam (encode [0x4E2D]) (str "3.5") := by
  refine ⟨?_, ?_, ?_⟩
  · intro c hc
    have : c = 51 := by simpa [str] using hc.symm
    subst this; decide
  · intro u v hu hv
    have e1 : (runes (encode [0x4E2D])).getLast? = some 0x4E2D := by decide +kernel
    have e2 : (runes (str "3.5")).head? = some 51 := by decide +kernel
    rw [e1] at hu; rw [e2] at hv; cases hu; cases hv
    decide +kernel
  · intro x y hx hy
    refine ⟨?_, ?_⟩
    · rintro ⟨_, ⟨z, hz⟩⟩
      simp [str] at hz
    · rintro ⟨⟨z, hz⟩, _⟩
      have e : encode [0x4E2D] = [0xE4, 0xB8, 0xAD] := by decide +kernel
      rw [e] at hz
      have := congrArg List.getLast? hz
      simp at this
example : hmmCut hmmConst hmmEmit (encode [0x4E2D] ++ str "3.5") [] = some [encode [0x4E2D], str "3.5"] ∧
    hmmCut hmmConst hmmEmit (str "3") [] = some [str "3"] ∧ hmmCut hmmConst hmmEmit (str ".5") [] = some [str ".", str "5"] := by
  refine ⟨?_, ?_, ?_⟩ <;> decide +kernel

/-- 中国人中国 and a space, 人中国 after it: all conditions of the seam theorems for `Cut(str, true)`. -/
theorem seam_case : ∃ d : Dictionary Int Int, runOps {} seamOps Dictionary.new = some d ∧ GoodScores d ∧
    BeginsChar (encode [0x4EBA, 0x4E2D, 0x56FD]) ∧
    KindSeamRunes (dagText {} (encode [0x4E2D, 0x56FD, 0x4EBA, 0x4E2D, 0x56FD, 32])) (dagText {} (encode [0x4EBA, 0x4E2D, 0x56FD])) ∧
    NoSpanRunes d (dagText {} (encode [0x4E2D, 0x56FD, 0x4EBA, 0x4E2D, 0x56FD, 32])) (dagText {} (encode [0x4EBA, 0x4E2D, 0x56FD])) ∧
    NoSpanKept d (dagText {} (encode [0x4E2D, 0x56FD, 0x4EBA, 0x4E2D, 0x56FD, 32])) (dagText {} (encode [0x4EBA, 0x4E2D, 0x56FD])) ∧
    EndFree d (dagText {} (encode [0x4E2D, 0x56FD, 0x4EBA, 0x4E2D, 0x56FD, 32])) ∧ StartFree d (dagText {} (encode [0x4EBA, 0x4E2D, 0x56FD])) ∧
    cutDAGHmm {} d hmmConst hmmEmit (encode [0x4E2D, 0x56FD, 0x4EBA, 0x4E2D, 0x56FD, 32] ++ encode [0x4EBA, 0x4E2D, 0x56FD]) [] =
      some [encode [0x4E2D], encode [0x56FD, 0x4EBA], encode [0x4E2D, 0x56FD], encode [32], encode [0x4EBA], encode [0x4E2D, 0x56FD]] := by
  have hrun : (runOps (D := Int) {} seamOps Dictionary.new).isSome = true := by decide +kernel
  obtain ⟨d, hd⟩ := Option.isSome_iff_exists.1 hrun
  have ea : dagText {} (encode [0x4E2D, 0x56FD, 0x4EBA, 0x4E2D, 0x56FD, 32]) = [0x4E2D, 0x56FD, 0x4EBA, 0x4E2D, 0x56FD, 32] := by decide +kernel
  have eb : dagText {} (encode [0x4EBA, 0x4E2D, 0x56FD]) = [0x4EBA, 0x4E2D, 0x56FD] := by decide +kernel
  have hsep := sep_of_tokens hd 32 32 (by decide) (by
    have hall : ((runOps (D := Int) {} seamOps Dictionary.new).map fun d => d.tokens.all fun t => !t.text.flatten.contains 32) = some true := by decide +kernel
    rw [hd] at hall
    exact Option.some.inj hall)
  have hns := C88_separator d (dagText {} (encode [0x4E2D, 0x56FD, 0x4EBA, 0x4E2D, 0x56FD, 32])) (dagText {} (encode [0x4EBA, 0x4E2D, 0x56FD])) 32
    (.inl (by decide +kernel)) hsep
  refine ⟨d, hd, fun _ _ _ => trivial, encode_begins _, ⟨?_, ?_⟩, hns.1, hns.2, ?_, ?_, ?_⟩
  · intro u v hu hv
    rw [ea] at hu; rw [eb] at hv; cases hu; cases hv
    decide +kernel
  · intro x y hx hy
    rw [ea, eb]
    refine ⟨?_, ?_⟩
    · rintro ⟨_, ⟨z, hz⟩⟩; simp at hz
    · rintro ⟨_, ⟨z, hz⟩⟩; simp at hz; omega
  · refine endFree_of ?_
    have : ((runOps (D := Int) {} seamOps Dictionary.new).map fun d => (dagText {} (encode [0x4E2D, 0x56FD, 0x4EBA, 0x4E2D, 0x56FD, 32])).tails.all fun u =>
        decide (u.length < 2) || (storedTok d (encode u)).isNone) = some true := by decide +kernel
    rw [hd] at this
    intro u hu hl
    have := List.all_eq_true.1 (Option.some.inj this) u hu
    simp at this ⊢
    exact this.resolve_left (by omega)
  · refine startFree_of ?_
    have : ((runOps (D := Int) {} seamOps Dictionary.new).map fun d => (dagText {} (encode [0x4EBA, 0x4E2D, 0x56FD])).inits.all fun u =>
        decide (u.length < 2) || (storedTok d (encode u)).isNone) = some true := by decide +kernel
    rw [hd] at this
    intro u hu hl
    have := List.all_eq_true.1 (Option.some.inj this) u hu
    simp at this ⊢
    exact this.resolve_left (by omega)
  · have : ((runOps (D := Int) {} seamOps Dictionary.new).bind fun d =>
        cutDAGHmm {} d hmmConst hmmEmit (encode [0x4E2D, 0x56FD, 0x4EBA, 0x4E2D, 0x56FD, 32] ++ encode [0x4EBA, 0x4E2D, 0x56FD]) []) =
      some [encode [0x4E2D], encode [0x56FD, 0x4EBA], encode [0x4E2D, 0x56FD], encode [32], encode [0x4EBA], encode [0x4E2D, 0x56FD]] := by decide +kernel
    rw [hd] at this
    exact this

/-- 中国 alone and behind a letter: the conditions of `C88_context`, and the two cuts. -/
example : ∃ d : Dictionary Int Int, runOps {} seamOps Dictionary.new = some d ∧ GoodScores d ∧
    KindSeamRunes (dagText {} (str "a")) (dagText {} (encode [0x4E2D, 0x56FD])) ∧ (dagText {} (str "a")).getLast? = some 97 ∧
    (∀ u tok, storedTok d (encode u) = some tok → 2 ≤ u.length → 97 ∉ u) ∧ 2 ≤ (dagText {} (encode [0x4E2D, 0x56FD])).length ∧
    (∃ q, IsBestRoute d (dagText {} (encode [0x4E2D, 0x56FD])) q ∧ ∀ t ∈ q, t.length = 1) ∧ Kept d (dagText {} (encode [0x4E2D, 0x56FD])) ∧
    cutDAGHmm {} d hmmConst hmmEmit (encode [0x4E2D, 0x56FD]) [] = some [encode [0x4E2D], encode [0x56FD]] ∧
    cutDAGHmm {} d hmmConst hmmEmit (str "a" ++ encode [0x4E2D, 0x56FD]) [] = some [str "a", encode [0x4E2D, 0x56FD]] := by
  have hrun : (runOps (D := Int) {} seamOps Dictionary.new).isSome = true := by decide +kernel
  obtain ⟨d, hd⟩ := Option.isSome_iff_exists.1 hrun
  have ea : dagText {} (str "a") = [97] := by decide +kernel
  have eb : dagText {} (encode [0x4E2D, 0x56FD]) = [0x4E2D, 0x56FD] := by decide +kernel
  have key : ((runOps (D := Int) {} seamOps Dictionary.new).map fun d =>
      (cutDAGHmm {} d hmmConst hmmEmit (encode [0x4E2D, 0x56FD]) [], cutDAGHmm {} d hmmConst hmmEmit (str "a" ++ encode [0x4E2D, 0x56FD]) [],
        cutDAGNoHMM {} d (encode [0x4E2D, 0x56FD]))) =
      some (some [encode [0x4E2D], encode [0x56FD]], some [str "a", encode [0x4E2D, 0x56FD]], some [encode [0x4E2D], encode [0x56FD]]) := by
    decide +kernel
  rw [hd] at key
  simp only [Option.map_some, Option.some.injEq, Prod.mk.injEq] at key
  obtain ⟨k1, k2, k3⟩ := key
  have k4 : ((runOps (D := Int) {} seamOps Dictionary.new).bind fun d => (storedTok d (encode [0x4E2D, 0x56FD])).map fun t => t.freq) = some 2 := by
    decide +kernel
  rw [hd] at k4
  refine ⟨d, hd, fun _ _ _ => trivial, ⟨?_, ?_⟩, by rw [ea]; rfl, sep_of_tokens hd 97 97 (by decide) (by
    have hall : ((runOps (D := Int) {} seamOps Dictionary.new).map fun d => d.tokens.all fun t => !t.text.flatten.contains 97) = some true := by decide +kernel
    rw [hd] at hall
    exact Option.some.inj hall), by rw [eb]; decide, singles_of_cut hd k3 (by rw [eb]; decide), ?_, k1, k2⟩
  · intro u v hu hv
    rw [ea] at hu; rw [eb] at hv; cases hu; cases hv
    decide +kernel
  · intro x y hx hy
    rw [ea, eb]
    refine ⟨?_, ?_⟩
    · rintro ⟨_, ⟨z, hz⟩⟩; simp at hz
    · rintro ⟨_, ⟨z, hz⟩⟩; simp at hz; omega
  · rw [eb]
    obtain ⟨tok, t1, t2⟩ := Option.map_eq_some_iff.1 k4
    exact ⟨tok, t1, by rw [t2]; decide⟩

end examples

end Gse
