import Verif.Proofs.PosDict
import Verif.Proofs.PosDetail
import Verif.Props.Dag
import Verif.Props.Idf
import Verif.Props.Trim

/-! # C50, C52, C65–C67: part-of-speech cutting -/

namespace Gse
open Spec

set_option linter.unusedSectionVars false
set_option linter.unusedSimpArgs false

section
variable {F D : Type} [F64 F] [F32 D] [Narrow F D] [U : Unicode]

/-! ### Runs of dictionary characters -/

theorem chars_of_infix {s : Bytes} {vs : List Bytes} (h : vs <:+: chars s) : chars vs.flatten = vs := by
  obtain ⟨a, b, e⟩ := h
  exact chars_infix e.symm

theorem posCutNoHMM_route {d : Dictionary F D} (hi : IdxOK d) (s : Bytes) :
    ∃ ps gs out, IsRoute d (runes s) ps ∧ IsRuns EngPiece ps gs ∧ List.Forall₂ (PosNoHmm d) gs out ∧
      posCutNoHMM d s = some out := by
  obtain ⟨R, h1, h2⟩ := posRoutes_eq hi (runes s)
  obtain ⟨ps, e1, e2, _⟩ := walk_eq h2 (runes s).length 0 (by omega) (by omega)
  obtain ⟨gs, out, g1, g2, g3⟩ := posNoHmmLoop_runs hi ps [] (by simp)
  refine ⟨ps, gs, out, by simpa using e2, by simpa using g1, g2, ?_⟩
  unfold posCutNoHMM
  simp only [h1, e1, Option.bind_some]
  exact g3

theorem posCutDAG_route {d : Dictionary F D} (hi : IdxOK d) (detail : Bytes → Option (List SegPos)) (s : Bytes)
    (hd : ∀ t : List Rune, 2 ≤ t.length → t <:+: runes s → ∃ o, detail (encode t) = some o) :
    ∃ ps gs outs, IsRoute d (runes s) ps ∧ IsRuns (fun t : List Rune => t.length = 1) ps gs ∧
      List.Forall₂ (PosRun d detail) gs outs ∧ posCutDAG d detail s = some outs.flatten := by
  obtain ⟨R, h1, h2⟩ := posRoutes_eq hi (runes s)
  obtain ⟨ps, e1, e2, _⟩ := walk_eq h2 (runes s).length 0 (by omega) (by omega)
  have e2 : IsRoute d (runes s) ps := by simpa using e2
  obtain ⟨gs, outs, g1, g2, g3⟩ := posHmmLoop_runs hi detail ps [] (by simp) (fun t ht => (isRoute_pieces e2 t ht).1)
    (fun g h1 h2 h3 => hd _ (by rw [(flatten_singles g h3).1]; exact h1) (by
      rw [← isRoute_flatten e2]
      obtain ⟨a, b, e⟩ := h2
      refine ⟨a.flatten, b.flatten, ?_⟩
      rw [List.nil_append] at e
      rw [← e]; simp))
  refine ⟨ps, gs, outs, e2, by simpa using g1, g2, ?_⟩
  unfold posCutDAG
  simp only [h1, e1, Option.bind_some]
  exact g3

theorem detail_total [UnicodeOK] {T : PosTables F} {bound : Nat} {size : Nat → F → Prop} (ch : Choice) (hT : PosTablesOK T)
    (hf : PosFinite T bound size) (s : Bytes) (hs : ∀ u ∈ chars s, posChar u = true) (hb : 2 * (runes s).length ≤ bound) :
    ∃ o, cutDetail ch T s = some o ∧ DetailOut (cutDetailInternal ch T) (chars s) o ∧ (o.map SegPos.text).flatten = encode (runes s) := by
  have hlen : ∀ v, chars v <:+: chars s → (runes v).length ≤ (runes s).length := by
    intro v hv
    rw [runes_eq_chars, runes_eq_chars, List.length_map, List.length_map]
    exact hv.length_le
  obtain ⟨o, h1, h2⟩ := cutDetail_out (T := T) ch s hs (fun v hv hi => by
    obtain ⟨_, ws, _, _, _, h⟩ := cutDetailInternal_words ch hT hf v hv (Nat.le_trans (by have := hlen v hi; omega) hb)
    exact ⟨ws, h⟩)
  refine ⟨o, h1, h2, ?_⟩
  rw [runes_eq_chars]
  refine detailOut_join h2 (fun u hu => ⟨chars_isChar hu, hs u hu⟩) ?_
  intro vs o' hv ho'
  have hcv : chars vs.flatten = vs := chars_of_infix hv
  by_cases hne : vs.flatten = []
  · have : vs = [] := by rw [← hcv, hne]; rfl
    subst this
    simp [cutDetailInternal, posViterbi, runes_nil] at ho'
  · obtain ⟨_, ws, _, _, h3, h4⟩ := cutDetailInternal_words ch hT hf vs.flatten hne
      (Nat.le_trans (by have := hlen vs.flatten (by rw [hcv]; exact hv); omega) hb)
    rw [h4] at ho'
    simp only [Option.some.injEq] at ho'
    subst ho'
    rw [stateWords_join h3, runes_eq_chars, hcv]

theorem detail_piece [UnicodeOK] {T : PosTables F} {bound : Nat} {size : Nat → F → Prop} (ch : Choice) (hT : PosTablesOK T)
    (hf : PosFinite T bound size) (s : Bytes) (hs : ∀ u ∈ chars s, posChar u = true) (hb : 2 * (runes s).length ≤ bound)
    (t : List Rune) (ht : t <:+: runes s) :
    ∃ o, cutDetail ch T (encode t) = some o ∧ DetailOut (cutDetailInternal ch T) (chars (encode t)) o ∧
      (o.map SegPos.text).flatten = encode t := by
  have hr : runes (encode t) = t := runes_encode _ fun r hr => runes_valid s r (ht.subset hr)
  have := detail_total (T := T) ch hT hf (encode t) (by
    intro u hu
    have h1 : charRune u ∈ runes (encode t) := by rw [runes_eq_chars]; exact List.mem_map_of_mem hu
    rw [hr] at h1
    have h2 := ht.subset h1
    rw [runes_eq_chars] at h2
    obtain ⟨v, hv, e⟩ := List.mem_map.1 h2
    have h3 := hs v hv
    unfold posChar at h3 ⊢
    rw [← e]; exact h3) (by rw [hr]; have := ht.length_le; omega)
  rwa [hr] at this

/-! ### C50 -/

theorem posCut_false_of [UnicodeOK] {d : Dictionary F D} (hi : IdxOK d) (ch : Choice) (T : PosTables F) (s : Bytes) :
    ∃ out, posCut ch T d s false = some out ∧ (out.map SegPos.text).flatten = encode (runes s) ∧
      (ValidText s → (out.map SegPos.text).flatten = s) ∧ PosOut (posCutNoHMM d) (chars s) out := by
  obtain ⟨out, h1, h2⟩ := posCutWith_out (cut := posCutNoHMM d) s (fun v _ _ _ => by
    obtain ⟨_, _, o, _, _, _, h⟩ := posCutNoHMM_route hi v
    exact ⟨o, h⟩)
  have hj : (out.map SegPos.text).flatten = encode (runes s) := by
    rw [runes_eq_chars]
    refine posOut_join h2 (fun u hu => chars_isChar hu) ?_
    intro vs o hv ho
    obtain ⟨ps, gs, o', e1, e2, e3, h⟩ := posCutNoHMM_route hi vs.flatten
    rw [h] at ho
    simp only [Option.some.injEq] at ho
    subst ho
    rw [posNoHmm_join e3, e2.flat, isRoute_flatten e1, runes_eq_chars, chars_of_infix hv]
  exact ⟨out, h1, hj, fun hv => by rw [hj]; exact hv, h2⟩

/-- C50: `Cut(text, false)` returns for every text and every reachable dictionary. The items join to the text (malformed
bytes as U+FFFD); the maximal runs of dictionary characters are cut along a route through the dictionary, a line break of
two characters is one item, and every other character is one item tagged "x". -/
theorem C50_no_hmm [UnicodeOK] (cfg : SplitCfg) (ops : List (DictOp F)) (d : Dictionary F D)
    (hr : runOps cfg ops Dictionary.new = some d) (ch : Choice) (T : PosTables F) (s : Bytes) :
    ∃ out, posCut ch T d s false = some out ∧ (out.map SegPos.text).flatten = encode (runes s) ∧
      (ValidText s → (out.map SegPos.text).flatten = s) ∧ PosOut (posCutNoHMM d) (chars s) out :=
  posCut_false_of (idxOK_of_run hr) ch T s

theorem posCut_true_of [UnicodeOK] {d : Dictionary F D} (hi : IdxOK d) (ch : Choice) (T : PosTables F) (hT : PosTablesOK T) (bound : Nat)
    (size : Nat → F → Prop) (hf : PosFinite T bound size) (s : Bytes) (hb : 2 * (runes s).length ≤ bound) :
    ∃ out, posCut ch T d s true = some out ∧ (out.map SegPos.text).flatten = encode (runes s) ∧
      (ValidText s → (out.map SegPos.text).flatten = s) ∧ PosOut (posCutDAG d (cutDetail ch T)) (chars s) out := by
  have hlen : ∀ v, chars v <:+: chars s → 2 * (runes v).length ≤ bound := by
    intro v hv
    rw [runes_eq_chars, List.length_map]
    rw [runes_eq_chars, List.length_map] at hb
    have := hv.length_le
    omega
  obtain ⟨out, h1, h2⟩ := posCutWith_out (cut := posCutDAG d (cutDetail ch T)) s (fun v _ hv hp => by
    obtain ⟨_, _, o, _, _, _, h⟩ := posCutDAG_route hi (cutDetail ch T) v (fun t _ ht => by
      obtain ⟨o, ho, _⟩ := detail_piece (T := T) ch hT hf v hp (hlen v hv) t ht
      exact ⟨o, ho⟩)
    exact ⟨_, h⟩)
  have key : ∀ us out, PosOut (posCutDAG d (cutDetail ch T)) us out → us <:+: chars s →
      (out.map SegPos.text).flatten = encode (us.map charRune) := by
    intro us out h
    induction h with
    | nil => intro _; rfl
    | @run vs rest o l g1 g2 g3 g4 g5 ih =>
      intro hinf
      have hv : vs <:+: chars s := (List.prefix_append vs rest).isInfix.trans hinf
      rw [List.map_append, List.flatten_append, List.map_append, encode_append,
        ih ((List.suffix_append _ _).isInfix.trans hinf)]
      congr 1
      have hcv : chars vs.flatten = vs := chars_of_infix hv
      have hp : ∀ u ∈ chars vs.flatten, posChar u = true := by rw [hcv]; exact g2
      have hbv := hlen vs.flatten (by rw [hcv]; exact hv)
      have hdet := fun t ht => detail_piece (T := T) ch hT hf vs.flatten hp hbv t ht
      obtain ⟨ps, gs, outs, e1, e2, e3, e4⟩ := posCutDAG_route hi (cutDetail ch T) vs.flatten (fun t _ ht => by
        obtain ⟨o, ho, _⟩ := hdet t ht
        exact ⟨o, ho⟩)
      rw [e4] at g4
      simp only [Option.some.injEq] at g4
      subst g4
      rw [posRun_join e3, e2.flat, isRoute_flatten e1, runes_eq_chars, hcv]
      intro g hg o ho
      obtain ⟨o', ho', _, hj⟩ := hdet g.flatten (by
        rw [← isRoute_flatten e1, ← e2.flat]
        obtain ⟨a, b, rfl⟩ := List.append_of_mem hg
        exact ⟨a.flatten.flatten, b.flatten.flatten, by simp⟩)
      rw [ho'] at ho
      simp only [Option.some.injEq] at ho
      subst ho
      exact hj
    | @«break» rest l g5 ih =>
      intro hinf
      rw [List.map_cons, List.flatten_cons, ih ((List.suffix_append [str "\r", str "\n"] rest).isInfix.trans hinf)]
      simp only [List.map_cons, encode_cons]
      have e1 : encodeRune (charRune (str "\r")) = str "\r" := by decide
      have e2 : encodeRune (charRune (str "\n")) = str "\n" := by decide
      rw [e1, e2, show str "\r\n" = str "\r" ++ str "\n" by decide, List.append_assoc]
    | @char u rest l g1 g2 g5 ih =>
      intro hinf
      rw [List.map_cons, List.flatten_cons, ih ((List.suffix_cons u rest).isInfix.trans hinf)]
      simp only [List.map_cons, encode_cons]
  have hj : (out.map SegPos.text).flatten = encode (runes s) := by
    rw [runes_eq_chars]; exact key _ _ h2 (List.infix_refl _)
  exact ⟨out, h1, hj, fun hv => by rw [hj]; exact hv, h2⟩

/-- C50: `Cut(text, true)` returns for every text within the bound of the arithmetic, and its items join to the text
(malformed bytes as U+FFFD). -/
theorem C50_hmm [UnicodeOK] (cfg : SplitCfg) (ops : List (DictOp F)) (d : Dictionary F D)
    (hr : runOps cfg ops Dictionary.new = some d) (ch : Choice) (T : PosTables F) (hT : PosTablesOK T) (bound : Nat)
    (size : Nat → F → Prop) (hf : PosFinite T bound size) (s : Bytes) (hb : 2 * (runes s).length ≤ bound) :
    ∃ out, posCut ch T d s true = some out ∧ (out.map SegPos.text).flatten = encode (runes s) ∧
      (ValidText s → (out.map SegPos.text).flatten = s) ∧ PosOut (posCutDAG d (cutDetail ch T)) (chars s) out :=
  posCut_true_of (idxOK_of_run hr) ch T hT bound size hf s hb

/-! No item is empty. -/

theorem stateWords_ne {poss : List Bytes} {rs : List Rune} {ts : List Nat} {ws : List SegPos} (h : StateWords poss rs ts ws) :
    ∀ p ∈ ws, p.text ≠ [] := by
  induction h with
  | nil => simp
  | @word w rest inner ts last p ws h1 _ _ _ _ ih =>
    intro q hq
    rcases List.mem_cons.1 hq with rfl | hq
    · exact encode_ne_nil (by rintro rfl; simp at h1)
    · exact ih q hq
  | @rest w t ts p h1 _ _ =>
    intro q hq
    rw [List.mem_singleton] at hq
    subst hq
    exact encode_ne_nil (by rintro rfl; simp at h1)

theorem flatten_ne {us : List Bytes} (h0 : us ≠ []) (h : ∀ u ∈ us, u ≠ []) : us.flatten ≠ [] := by
  cases us with
  | nil => exact absurd rfl h0
  | cons u us => rw [List.flatten_cons]; intro e; exact h u (by simp) (List.append_eq_nil_iff.1 e).1

theorem detailOut_ne {cut : Bytes → Option (List SegPos)} {us : List Bytes} {out : List SegPos} (h : DetailOut cut us out)
    (hs : ∀ u ∈ us, u ≠ []) (hcut : ∀ vs o, vs ≠ [] → vs <:+: us → cut vs.flatten = some o → ∀ p ∈ o, p.text ≠ []) :
    ∀ p ∈ out, p.text ≠ [] := by
  induction h with
  | nil => simp
  | @han vs rest o l h1 h2 h3 h4 h5 ih =>
    intro p hp
    rcases List.mem_append.1 hp with hp | hp
    · exact hcut vs o h1 (List.prefix_append _ _).isInfix h4 p hp
    · exact ih (fun u hu => hs u (by simp [hu])) (fun ws o' h0 hw => hcut ws o' h0 (hw.trans (List.suffix_append _ _).isInfix)) p hp
  | @num vs rest l h1 h2 h3 h4 ih =>
    intro p hp
    rcases List.mem_cons.1 hp with rfl | hp
    · exact flatten_ne h1 fun u hu => hs u (by simp [hu])
    · exact ih (fun u hu => hs u (by simp [hu])) (fun ws o' h0 hw => hcut ws o' h0 (hw.trans (List.suffix_append _ _).isInfix)) p hp
  | @other vs rest l h1 h2 h3 h4 ih =>
    intro p hp
    rcases List.mem_cons.1 hp with rfl | hp
    · exact flatten_ne h1 fun u hu => hs u (by simp [hu])
    · exact ih (fun u hu => hs u (by simp [hu])) (fun ws o' h0 hw => hcut ws o' h0 (hw.trans (List.suffix_append _ _).isInfix)) p hp

theorem posOut_ne {cut : Bytes → Option (List SegPos)} {us : List Bytes} {out : List SegPos} (h : PosOut cut us out)
    (hcut : ∀ vs o, vs <:+: us → (∀ u ∈ vs, posChar u = true) → cut vs.flatten = some o → ∀ p ∈ o, p.text ≠ []) :
    ∀ p ∈ out, p.text ≠ [] := by
  induction h with
  | nil => simp
  | @run vs rest o l h1 h2 h3 h4 h5 ih =>
    intro p hp
    rcases List.mem_append.1 hp with hp | hp
    · exact hcut vs o (List.prefix_append _ _).isInfix h2 h4 p hp
    · exact ih (fun ws o' hw => hcut ws o' (hw.trans (List.suffix_append _ _).isInfix)) p hp
  | @«break» rest l h5 ih =>
    intro p hp
    rcases List.mem_cons.1 hp with rfl | hp
    · simp [str]
    · exact ih (fun ws o' hw => hcut ws o' (hw.trans (List.suffix_append [str "\r", str "\n"] rest).isInfix)) p hp
  | @char u rest l h1 h2 h5 ih =>
    intro p hp
    rcases List.mem_cons.1 hp with rfl | hp
    · exact encodeRune_ne_nil _
    · exact ih (fun ws o' hw => hcut ws o' (hw.trans (List.suffix_cons u rest).isInfix)) p hp

theorem posNoHmm_ne {d : Dictionary F D} {gs : List (List (List Rune))} {out : List SegPos} (h : List.Forall₂ (PosNoHmm d) gs out)
    (hg : ∀ g ∈ gs, g ≠ [] ∧ ∀ t ∈ g, t ≠ []) : ∀ p ∈ out, p.text ≠ [] := by
  induction h with
  | nil => simp
  | @cons g o gs outs h1 _ ih =>
    intro p hp
    rcases List.mem_cons.1 hp with rfl | hp
    · obtain ⟨g1, g2⟩ := hg g (by simp)
      cases h1 with
      | eng _ =>
        apply encode_ne_nil
        cases g with
        | nil => exact absurd rfl g1
        | cons t g => rw [List.flatten_cons]; intro e; exact g2 t (by simp) (List.append_eq_nil_iff.1 e).1
      | word _ => exact encode_ne_nil (g2 _ (by simp))
    · exact ih (fun g' hg' => hg g' (by simp [hg'])) p hp

theorem posRun_ne {d : Dictionary F D} {detail : Bytes → Option (List SegPos)} {gs : List (List (List Rune))} {outs : List (List SegPos)}
    (h : List.Forall₂ (PosRun d detail) gs outs) (hg : ∀ g ∈ gs, ∀ t ∈ g, t ≠ [])
    (hd : ∀ g ∈ gs, ∀ o, detail (encode g.flatten) = some o → ∀ p ∈ o, p.text ≠ []) : ∀ p ∈ outs.flatten, p.text ≠ [] := by
  induction h with
  | nil => simp
  | @cons g o gs outs h1 _ ih =>
    intro p hp
    rw [List.flatten_cons, List.mem_append] at hp
    rcases hp with hp | hp
    · have g2 := hg g (by simp)
      cases h1 with
      | word _ =>
        rw [List.mem_singleton] at hp
        subst hp
        exact encode_ne_nil (g2 _ (by simp))
      | one _ =>
        rw [List.mem_singleton] at hp
        subst hp
        exact encode_ne_nil (g2 _ (by simp))
      | known _ _ _ _ =>
        obtain ⟨t, ht, rfl⟩ := List.mem_map.1 hp
        exact encode_ne_nil (g2 t ht)
      | hmm _ _ _ h => exact hd g (by simp) o h p hp
    · exact ih (fun g' hg' => hg g' (by simp [hg'])) (fun g' hg' => hd g' (by simp [hg'])) p hp

theorem posCut_false_ne [UnicodeOK] {d : Dictionary F D} (hi : IdxOK d) (ch : Choice) (T : PosTables F) (s : Bytes) (out : List SegPos)
    (ho : posCut ch T d s false = some out) : ∀ p ∈ out, p.text ≠ [] := by
  obtain ⟨out', h1, _, _, h2⟩ := posCut_false_of hi ch T s
  rw [ho] at h1
  obtain rfl := Option.some.inj h1
  refine posOut_ne h2 ?_
  intro vs o hv _ ho
  obtain ⟨ps, gs, o', e1, e2, e3, h⟩ := posCutNoHMM_route hi vs.flatten
  rw [h] at ho
  obtain rfl := Option.some.inj ho
  refine posNoHmm_ne e3 fun g hg => ⟨(e2.kind g hg).elim (fun ⟨x, e, _⟩ => by rw [e]; simp) (·.1), fun t ht => ?_⟩
  exact (isRoute_pieces e1 t (by rw [← e2.flat]; exact List.mem_flatten.2 ⟨g, hg, ht⟩)).1

/-- C50: no item of `Cut(text, false)` is empty. -/
theorem C50_no_hmm_nonempty [UnicodeOK] (cfg : SplitCfg) (ops : List (DictOp F)) (d : Dictionary F D)
    (hr : runOps cfg ops Dictionary.new = some d) (ch : Choice) (T : PosTables F) (s : Bytes) (out : List SegPos)
    (ho : posCut ch T d s false = some out) : ∀ p ∈ out, p.text ≠ [] :=
  posCut_false_ne (idxOK_of_run hr) ch T s out ho

theorem posCut_true_ne [UnicodeOK] {d : Dictionary F D} (hi : IdxOK d) (ch : Choice) (T : PosTables F) (hT : PosTablesOK T) (bound : Nat)
    (size : Nat → F → Prop) (hf : PosFinite T bound size) (s : Bytes) (hb : 2 * (runes s).length ≤ bound) (out : List SegPos)
    (ho : posCut ch T d s true = some out) : ∀ p ∈ out, p.text ≠ [] := by
  obtain ⟨out', h1, _, _, h2⟩ := posCut_true_of hi ch T hT bound size hf s hb
  rw [ho] at h1
  obtain rfl := Option.some.inj h1
  have hlen : ∀ v, chars v <:+: chars s → 2 * (runes v).length ≤ bound := by
    intro v hv
    rw [runes_eq_chars, List.length_map]
    rw [runes_eq_chars, List.length_map] at hb
    have := hv.length_le
    omega
  refine posOut_ne h2 ?_
  intro vs o hv hpc ho
  have hcv : chars vs.flatten = vs := chars_of_infix hv
  have hp : ∀ u ∈ chars vs.flatten, posChar u = true := by rw [hcv]; exact hpc
  have hbv := hlen vs.flatten (by rw [hcv]; exact hv)
  have hdet := fun t ht => detail_piece (T := T) ch hT hf vs.flatten hp hbv t ht
  obtain ⟨ps, gs, outs, e1, e2, e3, e4⟩ := posCutDAG_route hi (cutDetail ch T) vs.flatten (fun t _ ht => by
    obtain ⟨o, ho, _⟩ := hdet t ht
    exact ⟨o, ho⟩)
  rw [e4] at ho
  obtain rfl := Option.some.inj ho
  refine posRun_ne e3 (fun g hg t ht => (isRoute_pieces e1 t (by rw [← e2.flat]; exact List.mem_flatten.2 ⟨g, hg, ht⟩)).1) ?_
  intro g hg o ho
  have hinf : g.flatten <:+: runes vs.flatten := by
    rw [← isRoute_flatten e1, ← e2.flat]
    obtain ⟨a, b, rfl⟩ := List.append_of_mem hg
    exact ⟨a.flatten.flatten, b.flatten.flatten, by simp⟩
  obtain ⟨o', ho', hD, _⟩ := hdet g.flatten hinf
  rw [ho'] at ho
  obtain rfl := Option.some.inj ho
  refine detailOut_ne hD (fun u hu => chars_ne_nil hu) ?_
  intro ws o2 hw0 hw ho2
  have hcw : chars ws.flatten = ws := chars_of_infix hw
  have hgl : (runes (encode g.flatten)).length ≤ (runes vs.flatten).length := by
    rw [runes_encode _ fun r hr => runes_valid vs.flatten r (hinf.subset hr)]; exact hinf.length_le
  obtain ⟨_, ws', _, _, h5, h6⟩ := cutDetailInternal_words ch hT hf ws.flatten (flatten_ne hw0 fun u hu => chars_ne_nil (hw.subset hu)) (by
    have : (runes ws.flatten).length ≤ (runes (encode g.flatten)).length := by
      rw [runes_eq_chars, runes_eq_chars, List.length_map, List.length_map, hcw]; exact hw.length_le
    omega)
  rw [h6] at ho2
  obtain rfl := Option.some.inj ho2
  exact stateWords_ne h5

/-- C50: no item of `Cut(text, true)` is empty. -/
theorem C50_hmm_nonempty [UnicodeOK] (cfg : SplitCfg) (ops : List (DictOp F)) (d : Dictionary F D)
    (hr : runOps cfg ops Dictionary.new = some d) (ch : Choice) (T : PosTables F) (hT : PosTablesOK T) (bound : Nat)
    (size : Nat → F → Prop) (hf : PosFinite T bound size) (s : Bytes) (hb : 2 * (runes s).length ≤ bound) (out : List SegPos)
    (ho : posCut ch T d s true = some out) : ∀ p ∈ out, p.text ≠ [] :=
  posCut_true_ne (idxOK_of_run hr) ch T hT bound size hf s hb out ho

/-! ### C52 -/

/-- C52: `Dict.Pos` gives the tag last stored for a word, but reports as missing the first word ever added, as long as this
word has not been removed. -/
theorem C52_pos (cfg : SplitCfg) (ops : List (DictOp F)) (hl : ops.length ≤ Trie.valueLimit) (d : Dictionary F D)
    (hr : runOps cfg ops Dictionary.new = some d) (w : Bytes) :
    (FirstKept cfg ops w → posOf d w = some none) ∧
    (¬ FirstKept cfg ops w → posOf d w = some (((absRun cfg ops).content w).map (·.2))) := by
  have hi := idxOK_of_run hr
  have hw : (Dictionary.new : Dictionary F D).WF cfg := Reachable.wf ⟨[], rfl⟩
  have hf := run_first (D := D) ops hw hr w
  have hv0 : (Dictionary.new : Dictionary F D).trie.value w ≠ some 0 := by simp [Dictionary.new, Trie.value]
  have h0 : d.trie.value w = some 0 ↔ FirstKept cfg ops w := by
    rw [hf]
    constructor
    · rintro (⟨_, h⟩ | ⟨h, _⟩)
      · exact h
      · exact absurd h hv0
    · intro h; exact .inl ⟨rfl, h⟩
  rw [posOf_eq hi]
  constructor
  · intro h
    rw [if_pos (h0.2 h)]
  · intro h
    rw [if_neg (fun e => h (h0.1 e))]
    congr 1
    obtain ⟨h1, h2⟩ := C04_find_history cfg ops hl d hr w
    have hrep : Rep cfg d (absRun cfg ops) := rep_run ops (rep_new cfg) (by simpa [Dictionary.numTokens, Dictionary.new] using hl) hr
    cases hc : (absRun cfg ops).content w with
    | none =>
      have := (storedTok_none hi).2 ((hrep.value_none_iff w).2 hc)
      simp [this]
    | some e =>
      have h3 := h1 e.1 e.2 hc
      cases hs : storedTok d w with
      | none =>
        have := (hrep.value_none_iff w).1 ((storedTok_none hi).1 hs)
        rw [hc] at this; simp at this
      | some tok =>
        rw [find_stored hs] at h3
        simp at h3
        simp [h3.2]

/-! ### C65 -/

/-- C65: the state model gives a run of Han characters the best sequence of states, and the words and tags that these
states say. -/
theorem C65_best [F64Laws F] (ch : Choice) (T : PosTables F) (hg : GoodPos T) (hT : PosTablesOK T) (bound : Nat)
    (size : Nat → F → Prop) (hf : PosFinite T bound size) (s : Bytes) (hs : s ≠ []) (hb : 2 * (runes s).length ≤ bound) :
    ∃ ts ws, IsBestPos T (runes s) ts ∧ StateWords T.poss (runes s) ts ws ∧ cutDetailInternal ch T s = some ws := by
  obtain ⟨ts, h1, h2⟩ := posViterbi_best ch hg hT hf (runes s) (by rwa [ne_eq, runes_eq_nil]) hb
  obtain ⟨ws, h3, h4⟩ := posAssemble_path hT h2.path
  exact ⟨ts, ws, h2, h3, by unfold cutDetailInternal; rw [h1]; exact h4⟩

/-- C65: there is only one best sequence of states, and only one sequence of words for it. -/
theorem C65_unique (T : PosTables F) (rs : List Rune) (ts ts' : List Nat) (ws ws' : List SegPos) (h : IsBestPos T rs ts)
    (h' : IsBestPos T rs ts') (hw : StateWords T.poss rs ts ws) (hw' : StateWords T.poss rs ts' ws') : ts = ts' ∧ ws = ws' := by
  have e := bestPos_unique h h'
  subst e
  exact ⟨rfl, stateWords_unique hw hw'⟩

theorem blocks_length {m : Matcher} (hm : MatchRange m) {s : Bytes} {l : List Bytes} (h : Blocks m s l) : ∀ b ∈ l, b.length ≤ s.length := by
  intro b hb
  rw [← blocks_flatten hm h]
  obtain ⟨x, y, rfl⟩ := List.append_of_mem hb
  rw [List.flatten_append, List.flatten_cons, List.length_append, List.length_append]
  omega

theorem mapOpt_ext {α β : Type} {f g : α → Option β} {l : List α} (h : ∀ x ∈ l, f x = g x) : mapOpt f l = mapOpt g l := by
  induction l with
  | nil => rfl
  | cons x l ih =>
    simp only [mapOpt]
    rw [h x (by simp), ih fun y hy => h y (by simp [hy])]

theorem posCutWith_congr {cut cut' : Bytes → Option (List SegPos)} (s : Bytes) (h : ∀ b, b.length ≤ s.length → cut b = cut' b) :
    posCutWith cut s = posCutWith cut' s := by
  obtain ⟨blks, h1, h2⟩ := splitBy_blocks (classRun_range (hanInternalClass (U := U))) s
  unfold posCutWith reHanInternal
  rw [h1]
  simp only [Option.bind_some]
  rw [mapOpt_ext fun b hb => ?_]
  unfold posBlock
  rw [h b (blocks_length (classRun_range _) h2 b hb)]

theorem cutDetail_congr {ch ch' : Choice} {T T' : PosTables F} (s : Bytes)
    (h : ∀ b, b.length ≤ s.length → (reHanDetail b).isSome = true → cutDetailInternal ch T b = cutDetailInternal ch' T' b) :
    cutDetail ch T s = cutDetail ch' T' s := by
  obtain ⟨blks, h1, h2⟩ := splitBy_blocks (classRun_range U.isHan) s
  unfold cutDetail reHanDetail
  rw [h1]
  simp only [Option.bind_some]
  rw [mapOpt_ext fun b hb => ?_]
  unfold cutDetailBlock
  by_cases hc : (reHanDetail b).isSome = true
  · rw [if_pos hc, if_pos hc]
    exact h b (blocks_length (classRun_range _) h2 b hb) hc
  · rw [if_neg hc, if_neg hc]

theorem posFlush_congr (d : Dictionary F D) {detail detail' : Bytes → Option (List SegPos)} (buf : List Rune)
    (h : detail (encode buf) = detail' (encode buf)) : posFlush d detail buf = posFlush d detail' buf := by
  unfold posFlush
  rw [h]

theorem posHmmLoop_congr (d : Dictionary F D) {detail detail' : Bytes → Option (List SegPos)} (n : Nat)
    (h : ∀ buf : List Rune, buf.length ≤ n → detail (encode buf) = detail' (encode buf)) (frags : List (List Rune)) (buf : List Rune)
    (hn : buf.length + frags.flatten.length ≤ n) : posHmmLoop d detail frags buf = posHmmLoop d detail' frags buf := by
  induction frags generalizing buf with
  | nil =>
    unfold posHmmLoop
    exact posFlush_congr d buf (h buf (by omega))
  | cons f rest ih =>
    rw [List.flatten_cons, List.length_append] at hn
    unfold posHmmLoop
    rw [ih (buf ++ f) (by rw [List.length_append]; omega), ih [] (by simp only [List.length_nil]; omega), posFlush_congr d buf (h buf (by omega))]

/-- Tables that differ only in the order of the list of all states. -/
structure SameTables (T T' : PosTables F) : Prop where
  keys : T'.keys.Perm T.keys
  trans : T'.trans = T.trans
  start : T'.start = T.start
  emit : T'.emit = T.emit
  minFloat : T'.minFloat = T.minFloat
  inf : T'.inf = T.inf
  tab : T'.tab = T.tab
  poss : T'.poss = T.poss

theorem SameTables.transAt {T T' : PosTables F} (h : SameTables T T') : T'.transAt = T.transAt := by
  funext x y; unfold PosTables.transAt; rw [h.trans, h.inf]

theorem SameTables.emitAt {T T' : PosTables F} (h : SameTables T T') : T'.emitAt = T.emitAt := by
  funext x y; unfold PosTables.emitAt; rw [h.emit, h.minFloat]

theorem SameTables.startAt {T T' : PosTables F} (h : SameTables T T') : T'.startAt = T.startAt := by
  funext x; unfold PosTables.startAt; rw [h.start]

theorem SameTables.posTrans {T T' : PosTables F} (h : SameTables T T') : PosTrans T' = PosTrans T := by
  funext x y; unfold PosTrans; rw [h.trans]

theorem SameTables.states {T T' : PosTables F} (h : SameTables T T') (r : Rune) (y : Nat) : y ∈ T'.states r ↔ y ∈ T.states r := by
  unfold PosTables.states
  rw [h.tab]
  cases T.tab r with
  | none => simpa using h.keys.mem_iff
  | some l => simp

theorem SameTables.posNext {T T' : PosTables F} (h : SameTables T T') : posNext T' = posNext T := by
  funext S r y
  unfold Spec.posNext posSucc
  simp only [h.states, h.posTrans]

theorem SameTables.posSet {T T' : PosTables F} (h : SameTables T T') (rs : List Rune) : posSet T' rs = posSet T rs := by
  cases rs with
  | nil => rfl
  | cons r rs =>
    unfold Spec.posSet
    have h0 : (fun y => y ∈ T'.states r) = fun y => y ∈ T.states r := by funext y; exact propext (h.states r y)
    simp only
    rw [h0, h.posNext]

theorem SameTables.path {T T' : PosTables F} (h : SameTables T T') (rs : List Rune) (ts : List Nat) :
    IsPosPath T' rs ts ↔ IsPosPath T rs ts := by
  constructor
  · intro hp
    exact ⟨hp.length, by rw [← h.posTrans]; exact hp.chain, fun p y q e => by rw [← h.posSet]; exact hp.allowed p y q e⟩
  · intro hp
    exact ⟨hp.length, by rw [h.posTrans]; exact hp.chain, fun p y q e => by rw [h.posSet]; exact hp.allowed p y q e⟩

theorem SameTables.posScore {T T' : PosTables F} (h : SameTables T T') : posScore T' = posScore T := by
  have h1 : ∀ (ps : List (Rune × Nat)) v y, posScoreFrom T' v y ps = posScoreFrom T v y ps := by
    intro ps
    induction ps with
    | nil => intro v y; rfl
    | cons p ps ih => intro v y; simp only [posScoreFrom]; rw [ih, h.transAt, h.emitAt]
  funext rs ts
  unfold Spec.posScore
  cases rs.zip ts with
  | nil => rfl
  | cons p ps => simp only [posPairScore]; rw [h1, h.emitAt, h.startAt]

theorem SameTables.best {T T' : PosTables F} (h : SameTables T T') {rs : List Rune} {ts : List Nat} (hb : IsBestPos T' rs ts) :
    IsBestPos T rs ts := by
  refine ⟨(h.path _ _).1 hb.path, ?_, ?_, ?_, ?_⟩
  · rw [← h.posScore]; exact fun ts' h' => hb.highest ts' ((h.path _ _).2 h')
  · rw [← h.posScore]; exact fun ts' h' => hb.tie ts' ((h.path _ _).2 h')
  · rw [← h.posScore]; exact fun p y q e p' h' => hb.highest' p y q e p' ((h.path _ _).2 h')
  · rw [← h.posScore]; exact fun p y q e p' h' => hb.tie' p y q e p' ((h.path _ _).2 h')

theorem SameTables.ok {T T' : PosTables F} (h : SameTables T T') (hT : PosTablesOK T) : PosTablesOK T' := by
  refine ⟨?_, ?_, fun r => ?_, fun y hy => ?_⟩
  · rw [h.posTrans]; exact hT.legal
  · rw [h.posTrans]; exact hT.live
  · rw [h.posTrans]
    obtain ⟨y, h1, z, hz⟩ := hT.start r
    exact ⟨y, (h.states r y).2 h1, z, hz⟩
  · rw [h.posTrans] at hy
    simp only [h.states] at hy
    rw [h.poss]
    exact hT.tag y hy

theorem SameTables.finite {T T' : PosTables F} {bound : Nat} {size : Nat → F → Prop} (h : SameTables T T') (hf : PosFinite T bound size) :
    PosFinite T' bound size := by
  constructor
  · exact hf.add
  · rw [h.minFloat]; exact hf.minFloat
  · rw [h.startAt]; exact hf.start
  · rw [h.emit]; exact hf.emit
  · rw [h.trans]; exact hf.trans
  · rw [h.inf]; exact hf.add_inf
  · rw [h.inf]; exact hf.inf_add
  · rw [h.inf]; exact hf.inf_lt
  · rw [h.inf]; exact hf.not_lt_inf
  · rw [h.inf]; exact hf.inf_ne

theorem SameTables.good [F64Laws F] {T T' : PosTables F} (h : SameTables T T') (hg : GoodPos T) : GoodPos T' := by
  constructor
  · rw [h.minFloat]; exact hg.minFloat
  · rw [h.inf]; exact hg.inf
  · rw [h.startAt]; exact hg.start
  · rw [h.emit]; exact hg.emit
  · rw [h.trans]; exact hg.trans

theorem SameTables.detail [F64Laws F] {T T' : PosTables F} (h : SameTables T T') (ch ch' : Choice) (hg : GoodPos T) (hT : PosTablesOK T)
    {bound : Nat} {size : Nat → F → Prop} (hf : PosFinite T bound size) (b : Bytes) (hne : b ≠ []) (hb : 2 * b.length ≤ bound) :
    cutDetailInternal ch T b = cutDetailInternal ch' T' b := by
  have hl : 2 * (runes b).length ≤ bound := by
    have := runes_length_le b
    omega
  obtain ⟨ts, ws, b1, b2, b3⟩ := C65_best ch T hg hT bound size hf b hne hl
  obtain ⟨ts', ws', c1, c2, c3⟩ := C65_best ch' T' (h.good hg) (h.ok hT) bound size (h.finite hf) b hne hl
  rw [h.poss] at c2
  obtain ⟨_, e⟩ := C65_unique T (runes b) ts ts' ws ws' b1 (h.best c1) b2 c2
  rw [b3, c3, e]

/-- C65: the result of `Cut(text, true)` depends neither on the order of any map iteration nor on the sorting algorithm, nor on
the order in which the list of all states was filled from a map. -/
theorem C65_deterministic [UnicodeOK] [F64Laws F] (cfg : SplitCfg) (ops : List (DictOp F)) (d : Dictionary F D)
    (hr : runOps cfg ops Dictionary.new = some d) (ch ch' : Choice) (T : PosTables F) (keys : List Nat) (hk : keys.Perm T.keys)
    (hg : GoodPos T) (hT : PosTablesOK T) (bound : Nat)
    (size : Nat → F → Prop) (hf : PosFinite T bound size) (s : Bytes) (hb : 8 * s.length ≤ bound) (hmm : Bool) :
    posCut ch T d s hmm = posCut ch' { T with keys := keys } d s hmm := by
  cases hmm with
  | false => unfold posCut; rw [if_neg (by decide), if_neg (by decide)]
  | true =>
  have hsame : SameTables T ({ T with keys := keys } : PosTables F) := ⟨hk, rfl, rfl, rfl, rfl, rfl, rfl, rfl⟩
  generalize ({ T with keys := keys } : PosTables F) = T' at hsame
  have hi := idxOK_of_run hr
  unfold posCut
  simp only [if_true]
  refine posCutWith_congr s fun b hbs => ?_
  unfold posCutDAG
  obtain ⟨R, h1, h2⟩ := posRoutes_eq hi (runes b)
  obtain ⟨ps, e1, e2, _⟩ := walk_eq h2 (runes b).length 0 (by omega) (by omega)
  have e2 : IsRoute d (runes b) ps := by simpa using e2
  simp only [h1, e1, Option.bind_some]
  refine posHmmLoop_congr d (runes b).length (fun buf hbuf => ?_) ps [] (by rw [isRoute_flatten e2]; simp)
  refine cutDetail_congr _ fun v hv hh => hsame.detail ch ch' hg hT hf v ?_ ?_
  · rintro rfl
    simp [reHanDetail, classRun, findClass] at hh
  · have h3 := encode_length_le buf
    have h4 := runes_length_le b
    omega

/-! ### C66 -/

theorem posCutNoHMM_best {good : F → Prop} {cfg : SplitCfg} {ops : List (DictOp F)} {d : Dictionary F D}
    (hr : runOps cfg ops Dictionary.new = some d) (s : Bytes) (S : ScoreLaws (F64.ofNat 0) d (runes s) good) :
    ∃ ps gs out, IsBestRouteBy (F64.ofNat 0) d (runes s) ps ∧ IsRuns EngPiece ps gs ∧ List.Forall₂ (PosNoHmm d) gs out ∧
      posCutNoHMM d s = some out := by
  have hi := idxOK_of_run hr
  obtain ⟨R, h1, h2⟩ := posRoutes_eq hi (runes s)
  obtain ⟨ps, e1, e2⟩ := walk_best S h2 (runes s).length 0 (by omega) (by omega)
  obtain ⟨gs, out, g1, g2, g3⟩ := posNoHmmLoop_runs hi ps [] (by simp)
  refine ⟨ps, gs, out, by simpa using e2, by simpa using g1, g2, ?_⟩
  unfold posCutNoHMM
  simp only [h1, e1, Option.bind_some]
  exact g3

/-- C66: on a run of dictionary characters `Cut(text, false)` follows the route with the largest sum of log-frequencies, that
is the largest product of frequencies, not of probabilities; the items are tagged by the dictionary. -/
theorem C66_no_hmm [F64Laws F] (cfg : SplitCfg) (ops : List (DictOp F)) (d : Dictionary F D)
    (hr : runOps cfg ops Dictionary.new = some d) (hg : GoodScoresBy (F64.ofNat 0) d) (s : Bytes) :
    ∃ ps gs out, IsBestRouteBy (F64.ofNat 0) d (runes s) ps ∧ IsRuns EngPiece ps gs ∧ List.Forall₂ (PosNoHmm d) gs out ∧
      posCutNoHMM d s = some out :=
  posCutNoHMM_best hr s (scoreLaws_of_good hg _)

theorem posCutDAG_best [UnicodeOK] {good : F → Prop} {cfg : SplitCfg} {ops : List (DictOp F)} {d : Dictionary F D}
    (hr : runOps cfg ops Dictionary.new = some d) (ch : Choice) (T : PosTables F)
    (hT : PosTablesOK T) (bound : Nat) (size : Nat → F → Prop) (hf : PosFinite T bound size) (s : Bytes)
    (hs : ∀ u ∈ chars s, posChar u = true) (hb : 2 * (runes s).length ≤ bound)
    (S : ScoreLaws (F64.ofNat 0) d (runes s) good) :
    ∃ ps gs outs, IsBestRouteBy (F64.ofNat 0) d (runes s) ps ∧ IsRuns (fun t : List Rune => t.length = 1) ps gs ∧
      List.Forall₂ (PosRun d (cutDetail ch T)) gs outs ∧ posCutDAG d (cutDetail ch T) s = some outs.flatten ∧
      ∀ t, t <:+: runes s → ∃ o, cutDetail ch T (encode t) = some o ∧ DetailOut (cutDetailInternal ch T) (chars (encode t)) o := by
  have hi := idxOK_of_run hr
  obtain ⟨R, h1, h2⟩ := posRoutes_eq hi (runes s)
  obtain ⟨ps, e1, e2⟩ := walk_best S h2 (runes s).length 0 (by omega) (by omega)
  have e2 : IsBestRouteBy (F64.ofNat 0) d (runes s) ps := by simpa using e2
  obtain ⟨gs, outs, g1, g2, g3⟩ := posHmmLoop_runs hi (cutDetail ch T) ps [] (by simp) (fun t ht => (isRoute_pieces e2.route t ht).1)
    (fun g h1 h2 h3 => by
      obtain ⟨o, ho, _⟩ := detail_piece (T := T) ch hT hf s hs hb g.flatten (by
        rw [← isRoute_flatten e2.route]
        obtain ⟨a, b, e⟩ := h2
        refine ⟨a.flatten, b.flatten, ?_⟩
        rw [List.nil_append] at e
        rw [← e]; simp)
      exact ⟨o, ho⟩)
  refine ⟨ps, gs, outs, e2, by simpa using g1, g2, ?_, fun t ht => ?_⟩
  · unfold posCutDAG
    simp only [h1, e1, Option.bind_some]
    exact g3
  · obtain ⟨o, ho, h3, _⟩ := detail_piece (T := T) ch hT hf s hs hb t ht
    exact ⟨o, ho, h3⟩

/-- C66: `Cut(text, true)` follows the same route. Pieces of several characters are tagged by the dictionary; so is a single
character on its own, and each character of a run that is a stored word of non-zero frequency; other runs are tagged by the
state model. -/
theorem C66_hmm [UnicodeOK] [F64Laws F] (cfg : SplitCfg) (ops : List (DictOp F)) (d : Dictionary F D)
    (hr : runOps cfg ops Dictionary.new = some d) (hg : GoodScoresBy (F64.ofNat 0) d) (ch : Choice) (T : PosTables F)
    (hT : PosTablesOK T) (bound : Nat) (size : Nat → F → Prop) (hf : PosFinite T bound size) (s : Bytes)
    (hs : ∀ u ∈ chars s, posChar u = true) (hb : 2 * (runes s).length ≤ bound) :
    ∃ ps gs outs, IsBestRouteBy (F64.ofNat 0) d (runes s) ps ∧ IsRuns (fun t : List Rune => t.length = 1) ps gs ∧
      List.Forall₂ (PosRun d (cutDetail ch T)) gs outs ∧ posCutDAG d (cutDetail ch T) s = some outs.flatten ∧
      ∀ t, t <:+: runes s → ∃ o, cutDetail ch T (encode t) = some o ∧ DetailOut (cutDetailInternal ch T) (chars (encode t)) o :=
  posCutDAG_best hr ch T hT bound size hf s hs hb (scoreLaws_of_good hg _)

/-! ### C67 -/

/-- C67: `TrimPunct` of package pos keeps exactly the items whose first character is neither space nor punctuation. -/
theorem C67_trimPunct (l : List SegPos) : posTrimPunct l = l.filter fun p => ((runes p.text).head?.map wordRune).getD false := by
  induction l with
  | nil => rfl
  | cons p l ih =>
    unfold posTrimPunct
    cases h : runes p.text with
    | nil =>
      rw [List.filter_cons_of_neg (by simp [h])]
      exact ih
    | cons r rs =>
      simp only
      by_cases hc : (!U.isSpace r && !U.isPunct r) = true
      · rw [if_pos hc, ih, List.filter_cons_of_pos (by simpa [h, wordRune] using hc)]
      · rw [if_neg hc, ih, List.filter_cons_of_neg (by simpa [h, wordRune] using hc)]

/-- C67: `Trim` of package pos keeps, unchanged, exactly the items that have a character that is neither symbol, space nor
punctuation and whose such characters do not spell a stop word (unless `NotStop`). -/
theorem C67_trim (notStop : Bool) (m : StopMap) (l : List SegPos) :
    posTrimAll notStop m l = l.filter fun p => decide (encode ((runes p.text).filter plainRune) ≠ []) &&
      (notStop || !m.isStop (encode ((runes p.text).filter plainRune))) := by
  induction l with
  | nil => rfl
  | cons p l ih =>
    unfold posTrimAll
    simp only
    rw [filterSymbol_eq]
    generalize hw : encode ((runes p.text).filter plainRune) = w
    cases hn : notStop <;> cases hm : m.isStop w <;> by_cases h0 : w = [] <;> simp [List.filter_cons, hw, hn, hm, h0, ih] <;> simp_all

/-- C67: `TrimWithPos` of package pos keeps exactly the items whose tag is not listed, and nothing when no tag is given. -/
theorem C67_trimWithPos (l : List SegPos) (tags : List Bytes) :
    (tags ≠ [] → posTrimWithPos l tags = l.filter fun p => p.pos ∉ tags) ∧ posTrimWithPos l [] = [] :=
  ⟨fun h => C37_trimWithPos l tags h, rfl⟩

end

section examples

/-- Integers with `-Inf`. -/
@[instance_reducible] def infF64 : F64 (Option Int) where
  ofNat n := some n
  add a b := a.bind fun x => b.map fun y => x + y
  sub a b := a.bind fun x => b.map fun y => x - y
  mul a b := a.bind fun x => b.map fun y => x * y
  div a b := a.bind fun x => b.map fun y => x / y
  lt a b := (b.map fun y => (a.map fun x => decide (x < y)).getD true).getD false
  eq a b := decide (a = b)
  log x := x.bind fun x => if x ≤ 0 then none else some (Nat.log2 x.toNat)
  log2 x := x.bind fun x => if x ≤ 0 then none else some (Nat.log2 x.toNat)
  exp x := some ((x.map fun x => 2 ^ x.toNat).getD 0)
  parse _ := (some 0, true)
  trunc := id
  zero_eq_zero := rfl
  zero_lt_zero := rfl

@[instance_reducible] def infNarrow : Narrow (Option Int) Int := ⟨fun x => x.getD 0⟩

attribute [local instance] sampleUnicode sampleUnicodeOK sampleF32 infF64 infNarrow

@[instance_reducible] def infLaws : F64Laws (Option Int) where
  good _ := True
  good_zero := trivial
  good_add _ _ := trivial
  lt_asymm := by intro a b _ _; cases a <;> cases b <;> simp [F64.lt]; omega
  lt_cotrans := by intro a b c _ _ _; cases a <;> cases b <;> cases c <;> simp [F64.lt]; omega
  add_mono := by intro a b c _ _ _; cases a <;> cases b <;> cases c <;> simp [F64.lt, F64.add]
  add_comm := by intro a b _ _; cases a <;> cases b <;> simp [F64.add]; omega
  eq_iff := by intro a b _ _; cases a <;> cases b <;> simp [F64.lt, F64.eq]; omega

attribute [local instance] infLaws

/-- Transitions between the states of nouns and verbs. -/
def posLinks : List (Nat × Nat × Int) :=
  [(100, 200, -1), (100, 300, -2), (300, 200, -1), (300, 300, -3), (200, 100, -1), (200, 401, -1), (401, 100, -1), (401, 401, -2),
   (101, 201, -2), (201, 401, -1)]

/-- Small tables: the character U+4E01 is of a state without transitions, U+4E02 begins nouns, all others have all states. -/
def posTables : PosTables (Option Int) where
  keys := [100, 200, 300, 401, 101, 201]
  trans x := (posLinks.filter fun p => p.1 == x).map fun p => (p.2.1, some p.2.2)
  start y := if y = 100 then some (some (-1)) else if y = 401 then some (some (-2)) else none
  emit y r := if y = 401 ∧ r = 0x4E03 then some (some (-1)) else if y = 200 then some (some (-4)) else none
  minFloat := some (-9)
  inf := none
  tab r := if r = 0x4E01 then some [401, 101] else if r = 0x4E02 then some [100] else none
  poss := [str "n", str "v"]

theorem posTables_trans {x y : Nat} (h : PosTrans posTables x y) : ∃ v, (x, y, v) ∈ posLinks := by
  obtain ⟨v, h⟩ := h
  have : (y, v) ∈ posTables.trans x := by
    have h' : (posTables.trans x).lookup y = some v := h
    obtain ⟨l1, l2, e, _⟩ := List.lookup_eq_some_iff.1 h'
    rw [e]; simp
  simp only [posTables, List.mem_map, List.mem_filter] at this
  obtain ⟨⟨a, b, c⟩, ⟨h1, h2⟩, h3⟩ := this
  simp at h2 h3
  exact ⟨c, by rw [← h2, ← h3.1]; exact h1⟩

theorem posTables_states (r : Rune) : (posTables.states r = [401, 101] ∨ posTables.states r = [100]) ∨ posTables.states r = posTables.keys := by
  unfold PosTables.states posTables
  simp only
  split
  · exact .inl (.inl rfl)
  · split
    · exact .inl (.inr rfl)
    · exact .inr rfl

theorem posTables_ok : PosTablesOK posTables := by
  refine ⟨?_, ?_, ?_, ?_⟩
  · intro x y h
    obtain ⟨v, h⟩ := posTables_trans h
    simp only [posLinks, List.mem_cons, Prod.mk.injEq, List.not_mem_nil, or_false] at h
    rcases h with ⟨rfl, rfl, _⟩ | ⟨rfl, rfl, _⟩ | ⟨rfl, rfl, _⟩ | ⟨rfl, rfl, _⟩ | ⟨rfl, rfl, _⟩ | ⟨rfl, rfl, _⟩ | ⟨rfl, rfl, _⟩ |
      ⟨rfl, rfl, _⟩ | ⟨rfl, rfl, _⟩ | ⟨rfl, rfl, _⟩
    · exact ⟨.B, .E, rfl, rfl, by constructor⟩
    · exact ⟨.B, .M, rfl, rfl, by constructor⟩
    · exact ⟨.M, .E, rfl, rfl, by constructor⟩
    · exact ⟨.M, .M, rfl, rfl, by constructor⟩
    · exact ⟨.E, .B, rfl, rfl, by constructor⟩
    · exact ⟨.E, .S, rfl, rfl, by constructor⟩
    · exact ⟨.S, .B, rfl, rfl, by constructor⟩
    · exact ⟨.S, .S, rfl, rfl, by constructor⟩
    · exact ⟨.B, .E, rfl, rfl, by constructor⟩
    · exact ⟨.E, .S, rfl, rfl, by constructor⟩
  · intro x y h
    obtain ⟨v, h⟩ := posTables_trans h
    have key : ∀ p ∈ posLinks, ∃ q ∈ posLinks, q.1 = p.2.1 ∧ ((posTables.trans q.1).get q.2.1).isSome = true := by decide +kernel
    obtain ⟨q, _, h1, h2⟩ := key _ h
    obtain ⟨w, hw⟩ := Option.isSome_iff_exists.1 h2
    exact ⟨q.2.1, w, by have h1 : q.1 = y := h1; rw [← h1]; exact hw⟩
  · intro r
    rcases posTables_states r with (h | h) | h <;> rw [h]
    · exact ⟨401, by simp, 100, some (-1), by decide +kernel⟩
    · exact ⟨100, by simp, 200, some (-1), by decide +kernel⟩
    · exact ⟨100, by simp [posTables], 200, some (-1), by decide +kernel⟩
  · have key : ∀ y ∈ posTables.keys, (∃ a, StateTag y a) ∧ y % 100 < posTables.poss.length := by
      intro y hy
      simp only [posTables, List.mem_cons, List.not_mem_nil, or_false] at hy
      rcases hy with rfl | rfl | rfl | rfl | rfl | rfl
      · exact ⟨⟨.B, rfl⟩, by decide⟩
      · exact ⟨⟨.E, rfl⟩, by decide⟩
      · exact ⟨⟨.M, rfl⟩, by decide⟩
      · exact ⟨⟨.S, rfl⟩, by decide⟩
      · exact ⟨⟨.B, rfl⟩, by decide⟩
      · exact ⟨⟨.E, rfl⟩, by decide⟩
    intro y hy
    refine key y ?_
    rcases hy with ⟨r, hr⟩ | ⟨x, hx⟩
    · rcases posTables_states r with (h | h) | h <;> rw [h] at hr
      · revert hr; have : ∀ z ∈ [401, 101], z ∈ posTables.keys := by decide
        exact this y
      · revert hr; have : ∀ z ∈ [100], z ∈ posTables.keys := by decide
        exact this y
      · exact hr
    · obtain ⟨v, h⟩ := posTables_trans hx
      have : ∀ p ∈ posLinks, p.2.1 ∈ posTables.keys := by decide +kernel
      exact this _ h

/-- Every number is finite, `none` is `-Inf`. -/
theorem posTables_finite (bound : Nat) : PosFinite posTables bound fun _ a => a.isSome = true := by
  constructor
  · intro j k a b ha hb _; cases a <;> cases b <;> simp_all [F64.add]
  · rfl
  · intro y; simp only [PosTables.startAt, posTables]; split <;> [rfl; (split <;> rfl)]
  · intro y r v h; simp only [posTables] at h; split at h <;> [skip; split at h] <;> simp at h <;> rw [← h] <;> rfl
  · intro x y v h
    have h' : (posTables.trans x).lookup y = some v := h
    obtain ⟨l1, l2, e, _⟩ := List.lookup_eq_some_iff.1 h'
    have : (y, v) ∈ posTables.trans x := by rw [e]; simp
    simp only [posTables, List.mem_map] at this
    obtain ⟨p, _, e⟩ := this
    simp at e
    rw [← e.2]; rfl
  · intro k a ha; cases a <;> simp_all [F64.add, posTables]
  · intro k a ha; simp [F64.add, posTables]
  · intro k a ha; cases a <;> simp_all [F64.lt, posTables]
  · intro k a ha; cases a <;> simp_all [F64.lt, posTables]
  · intro k a ha; cases a <;> simp_all [F64.eq, posTables]

theorem posTables_good : GoodPos posTables := ⟨trivial, trivial, fun _ => trivial, fun _ _ _ _ => trivial, fun _ _ _ _ => trivial⟩

/-- The first word is U+4E20; words of two Han characters and of their parts. -/
def posOps : List (DictOp (Option Int)) :=
  [.add (encode [0x4E20]) (some 4) (str "w"), .add (encode [0x4E10, 0x4E11]) (some 64) (str "k"), .add (encode [0x4E10]) (some 4) (str "j"),
   .add (encode [0x4E30, 0x4E31]) (some 16) (str "n"), .add (encode [0x4E30]) (some 8) [], .add (encode [0x4E31]) (some 8) (str "u")]
def posDict : Dictionary (Option Int) Int := (runOps {} posOps Dictionary.new).getD Dictionary.new
theorem posDict_run : runOps {} posOps (Dictionary.new : Dictionary (Option Int) Int) = some posDict := by
  have : (runOps {} posOps (Dictionary.new : Dictionary (Option Int) Int)).isSome = true := by decide +kernel
  obtain ⟨d, hd⟩ := Option.isSome_iff_exists.1 this
  rw [posDict, hd]; rfl

/-- A text with Han characters, letters, digits, a line break and punctuation. -/
def posText : Bytes := encode [0x4E10, 0x4E11, 0x4E02, 0x4E05, 0x4E03] ++ str "xy1.5" ++ encode [0x3002] ++ str "\r\n" ++ encode [0x4E03, 0x4E03]

example : posOps.length ≤ Trie.valueLimit ∧ GoodScoresBy (F64.ofNat 0) posDict ∧ 2 * (runes posText).length ≤ 100 ∧ 8 * posText.length ≤ 1000 := by
  refine ⟨?_, fun _ _ _ => trivial, ?_, ?_⟩ <;> decide +kernel
example : posCut choiceA posTables posDict posText true =
    some [⟨encode [0x4E10, 0x4E11], str "k"⟩, ⟨encode [0x4E02, 0x4E05], str "n"⟩, ⟨encode [0x4E03], str "v"⟩, ⟨str "xy", str "eng"⟩,
      ⟨str "1.5", str "m"⟩, ⟨encode [0x3002], str "x"⟩, ⟨str "\r\n", str "x"⟩, ⟨encode [0x4E03], str "v"⟩, ⟨encode [0x4E03], str "v"⟩] := by
  decide +kernel
example : posCut choiceB { posTables with keys := posTables.keys.reverse } posDict posText true = posCut choiceA posTables posDict posText true := by
  decide +kernel
example : posCut choiceA posTables posDict (encode [0x4E20] ++ posText) false =
    some [⟨encode [0x4E20], str "x"⟩, ⟨encode [0x4E10, 0x4E11], str "k"⟩, ⟨encode [0x4E02], str "x"⟩, ⟨encode [0x4E05], str "x"⟩, ⟨encode [0x4E03], str "x"⟩,
      ⟨str "xy1", str "eng"⟩, ⟨str ".", str "x"⟩, ⟨str "5", str "eng"⟩, ⟨encode [0x3002], str "x"⟩, ⟨str "\r\n", str "x"⟩, ⟨encode [0x4E03], str "x"⟩,
      ⟨encode [0x4E03], str "x"⟩] := by decide +kernel
/-- Frequencies are multiplied without the total: a word is cut apart although it is likelier, as `Cut` of package gse shows. -/
example : posCut choiceA posTables posDict (encode [0x4E30, 0x4E31]) false = some [⟨encode [0x4E30], []⟩, ⟨encode [0x4E31], str "u"⟩] ∧
    cutDAGNoHMM {} posDict (encode [0x4E30, 0x4E31]) = some [encode [0x4E30, 0x4E31]] := by refine ⟨?_, ?_⟩ <;> decide +kernel
example : posOf posDict (encode [0x4E20]) = some none ∧ posOf posDict (encode [0x4E30, 0x4E31]) = some (some (str "n")) ∧
    FirstKept {} posOps (encode [0x4E20]) := by
  refine ⟨by decide +kernel, by decide +kernel, [], _, _, rfl, by simp, show normText _ _ = _ by decide +kernel, ?_⟩
  intro o ho
  simp only [List.mem_cons, List.not_mem_nil, or_false] at ho
  rcases ho with rfl | rfl | rfl | rfl | rfl <;> simp [Removes]
example : posTrimPunct [⟨str "-", str "x"⟩, ⟨[], str "x"⟩, ⟨str "a-", str "n"⟩] = [⟨str "a-", str "n"⟩] ∧
    posTrimAll false [str "the"] [⟨str "-", str "x"⟩, ⟨str "the-", str "x"⟩, ⟨str "a-", str "n"⟩] = [⟨str "a-", str "n"⟩] ∧
    posTrimWithPos [⟨str "a", str "n"⟩, ⟨str "b", str "v"⟩] [str "x", str "v"] = [⟨str "a", str "n"⟩] := by
  refine ⟨?_, ?_, ?_⟩ <;> decide +kernel

end examples

end Gse
