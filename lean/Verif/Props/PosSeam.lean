import Verif.Spec.PosSeam
import Verif.Proofs.TrimCut
import Verif.Props.PosShipped
import Verif.Props.Seam
import Verif.Props.PosExact
import Verif.Props.IeeePos

/-! # C102: a text may be cut in two at symbols before it is tagged -/

namespace Gse
open Spec

set_option linter.unusedSectionVars false

section out
variable [Unicode] [UnicodeOK] {cut : Bytes → Option (List SegPos)}

theorem posChar_cr : posChar (str "\r") = false := by
  unfold posChar
  rw [show charRune (str "\r") = 13 by decide, UnicodeOK.han_ascii 13 (by omega)]
  decide

theorem posChar_lf : posChar (str "\n") = false := by
  unfold posChar
  rw [show charRune (str "\n") = 10 by decide, UnicodeOK.han_ascii 10 (by omega)]
  decide

theorem run_unique {us vs r r' : List Bytes} (h : us ++ r = vs ++ r') (hu : ∀ u ∈ us, posChar u = true) (hv : ∀ u ∈ vs, posChar u = true)
    (hr : ¬ StartsPos r) (hr' : ¬ StartsPos r') : us = vs ∧ r = r' := by
  induction us generalizing vs with
  | nil =>
    cases vs with
    | nil => exact ⟨rfl, h⟩
    | cons v vs => exact absurd ⟨v, vs ++ r', h, hv v (by simp)⟩ hr
  | cons u us ih =>
    cases vs with
    | nil => exact absurd ⟨u, us ++ r, h.symm, hu u (by simp)⟩ hr'
    | cons v vs =>
      simp only [List.cons_append, List.cons.injEq] at h
      obtain ⟨rfl, h⟩ := h
      obtain ⟨rfl, rfl⟩ := ih h (fun x hx => hu x (by simp [hx])) (fun x hx => hv x (by simp [hx]))
      exact ⟨rfl, rfl⟩

/-- The items are determined by the characters. -/
theorem posOut_unique {us : List Bytes} {o : List SegPos} (h : PosOut cut us o) : ∀ {vs o'}, PosOut cut vs o' → us = vs → o = o' := by
  induction h with
  | nil =>
    intro vs o' h' e
    cases h' with
    | nil => rfl
    | run h1 => simp at e; exact absurd e.1 h1
    | «break» => cases e
    | char => cases e
  | @run us rest o l h1 h2 h3 h4 h5 ih =>
    intro vs o' h' e
    obtain ⟨u, us, rfl⟩ := List.exists_cons_of_ne_nil h1
    have hu := h2 u (by simp)
    cases h' with
    | nil => simp at e
    | @run vs rest' _ _ g1 g2 g3 g4 g5 =>
      obtain ⟨rfl, rfl⟩ := run_unique e h2 g2 h3 g3
      rw [h4] at g4; cases g4
      rw [ih g5 rfl]
    | «break» => simp at e; rw [e.1, posChar_cr] at hu; cases hu
    | char g1 => simp at e; rw [e.1, g1] at hu; cases hu
  | @«break» rest l h ih =>
    intro vs o' h' e
    cases h' with
    | nil => cases e
    | @run vs rest' _ _ g1 g2 g3 g4 g5 =>
      obtain ⟨v, vs, rfl⟩ := List.exists_cons_of_ne_nil g1
      have hv := g2 v (by simp)
      simp at e
      rw [← e.1, posChar_cr] at hv; cases hv
    | «break» g => simp at e; rw [ih g e]
    | char g1 g2 => simp at e; exact absurd (by rw [← e.2]; rfl) (g2 e.1.symm)
  | @char u rest l h1 h2 h3 ih =>
    intro vs o' h' e
    cases h' with
    | nil => cases e
    | @run vs rest' _ _ g1 g2 g3 g4 g5 =>
      obtain ⟨v, vs, rfl⟩ := List.exists_cons_of_ne_nil g1
      have hv := g2 v (by simp)
      simp at e
      rw [← e.1, h1] at hv; cases hv
    | «break» g => simp at e; exact absurd (by rw [e.2]; rfl) (h2 e.1)
    | char g1 g2 g3 => simp at e; obtain ⟨rfl, e⟩ := e; rw [ih g3 e]

theorem getLast_rest {us rest : List Bytes} {u : Bytes} (h : rest.getLast? = some u) : (us ++ rest).getLast? = some u := by
  rw [List.getLast?_append, h]; rfl

/-- Items of two parts with a symbol between them. -/
theorem posOut_append {us vs : List Bytes} {o o' : List SegPos} (h : PosOut cut us o) (h' : PosOut cut vs o') :
    SymbolSeam us vs → NoBreakSeam us vs → PosOut cut (us ++ vs) (o ++ o') := by
  induction h with
  | nil => intro _ _; exact h'
  | @run us rest o l h1 h2 h3 h4 h5 ih =>
    intro hs hb
    rw [List.append_assoc, List.append_assoc]
    refine .run h1 h2 ?_ h4 (ih (fun u v hu => hs u v (getLast_rest hu)) fun ⟨hu, hv⟩ => hb ⟨getLast_rest hu, hv⟩)
    rintro ⟨v, r, e, hv⟩
    cases rest with
    | nil =>
      obtain ⟨x, u, rfl⟩ : ∃ x u, us = x ++ [u] := ⟨_, _, (List.dropLast_append_getLast h1).symm⟩
      exact hs u v (by simp) (by simp at e; rw [e]; rfl) ⟨h2 u (by simp), hv⟩
    | cons w rest => simp at e; exact h3 ⟨w, rest, rfl, by rw [e.1]; exact hv⟩
  | @«break» rest l h ih =>
    intro hs hb
    refine .break (ih (fun u v hu => hs u v ?_) fun ⟨hu, hv⟩ => hb ⟨?_, hv⟩)
    · exact getLast_rest (us := [str "\r", str "\n"]) hu
    · exact getLast_rest (us := [str "\r", str "\n"]) hu
  | @char u rest l h1 h2 h3 ih =>
    intro hs hb
    refine .char h1 (fun e => ?_) (ih (fun u' v hu => hs u' v ?_) fun ⟨hu, hv⟩ => hb ⟨?_, hv⟩)
    · cases rest with
      | nil => exact fun hv => hb ⟨by rw [e]; rfl, hv⟩
      | cons w rest => exact h2 e
    · exact getLast_rest (us := [u]) hu
    · exact getLast_rest (us := [u]) hu

/-- The last run of characters that are looked up. -/
theorem posOut_trail {us : List Bytes} {o : List SegPos} (h : PosOut cut us o) : ∀ {u}, us.getLast? = some u → posChar u = true →
    ∃ us' v o' ov, us = us' ++ v ∧ v ≠ [] ∧ (∀ u ∈ v, posChar u = true) ∧ (∀ u, us'.getLast? = some u → posChar u = false) ∧ PosOut cut us' o' ∧
      cut v.flatten = some ov ∧ o = o' ++ ov := by
  induction h with
  | nil => intro u hu; cases hu
  | @run us rest o l h1 h2 h3 h4 h5 ih =>
    intro u hu hp
    cases rest with
    | nil =>
      have : [] = l := posOut_unique .nil h5 rfl
      subst this
      exact ⟨[], us, [], o, by simp, h1, h2, by simp, .nil, h4, by simp⟩
    | cons w rest =>
      have hw : (w :: rest).getLast? = some u := by
        rw [List.getLast?_append] at hu
        cases hg : (w :: rest).getLast? with
        | none => simp at hg
        | some z => rw [hg] at hu; exact hu
      obtain ⟨us', v, o', ov, e1, e2, e3, e4, e5, e6, rfl⟩ := ih hw hp
      cases us' with
      | nil =>
        obtain ⟨z, v, rfl⟩ := List.exists_cons_of_ne_nil e2
        simp at e1
        exact absurd ⟨w, rest, rfl, by rw [e1.1]; exact e3 z (by simp)⟩ h3
      | cons z us' =>
        simp at e1
        obtain ⟨rfl, rfl⟩ := e1
        refine ⟨us ++ w :: us', v, o ++ o', ov, by simp, e2, e3, fun u hu => e4 u ?_, .run h1 h2 ?_ h4 e5, e6, by simp⟩
        · rw [List.getLast?_append] at hu
          cases hg : (w :: us').getLast? with
          | none => simp at hg
          | some z => rw [hg] at hu; exact hu
        · rintro ⟨x, r, e, hx⟩
          simp at e
          exact h3 ⟨w, _, rfl, by rw [e.1]; exact hx⟩
  | @«break» rest l h ih =>
    intro u hu hp
    cases rest with
    | nil => simp at hu; rw [← hu, posChar_lf] at hp; cases hp
    | cons w rest =>
      obtain ⟨us', v, o', ov, e1, e2, e3, e4, e5, e6, rfl⟩ := ih (by simpa using hu) hp
      refine ⟨str "\r" :: str "\n" :: us', v, _, ov, by simp [e1], e2, e3, fun u hu => ?_, .break e5, e6, rfl⟩
      cases us' with
      | nil => simp at hu; rw [← hu]; exact posChar_lf
      | cons z us' => exact e4 u (by simpa using hu)
  | @char u0 rest l h1 h2 h3 ih =>
    intro u hu hp
    cases rest with
    | nil => simp at hu; rw [← hu, h1] at hp; cases hp
    | cons w rest =>
      obtain ⟨us', v, o', ov, e1, e2, e3, e4, e5, e6, rfl⟩ := ih (by simpa using hu) hp
      refine ⟨u0 :: us', v, _, ov, by simp [e1], e2, e3, fun u hu => ?_, .char h1 (fun e hn => h2 e ?_) e5, e6, rfl⟩
      · cases us' with
        | nil => simp at hu; rw [← hu]; exact h1
        | cons z us' => exact e4 u (by simpa using hu)
      · rw [e1]
        cases us' with
        | nil => cases hn
        | cons z us' => exact hn

/-- Items of two parts with a seam inside a run of characters that are looked up, when the run may be cut there. -/
theorem posOut_inside {us vs : List Bytes} {oa ob : List SegPos} (h : PosOut cut us oa) (h' : PosOut cut vs ob) (hb : NoBreakSeam us vs) {E : Prop}
    (hc : ∀ v w, v <:+ us → w <+: vs → v ≠ [] → w ≠ [] → ∃ x y, cut (v ++ w).flatten = some (x ++ y) ∧ cut w.flatten = some y ∧ (E → cut v.flatten = some x)) :
    ∃ x, PosOut cut (us ++ vs) (x ++ ob) ∧ (E → x = oa) := by
  by_cases hs : SymbolSeam us vs
  · exact ⟨oa, posOut_append h h' hs hb, fun _ => rfl⟩
  · unfold SymbolSeam at hs
    simp only [not_forall, not_not] at hs
    obtain ⟨u, v, hu, hv, hpu, hpv⟩ := hs
    obtain ⟨us', w, o', ov, rfl, e2, e3, e4, e5, e6, rfl⟩ := posOut_trail h hu hpu
    cases h' with
    | nil => cases hv
    | «break» => simp at hv; rw [← hv, posChar_cr] at hpv; cases hpv
    | char g1 => simp at hv; rw [← hv, g1] at hpv; cases hpv
    | @run ws rest o l g1 g2 g3 g4 g5 =>
      obtain ⟨x, y, k1, k2, k3⟩ := hc w ws (List.suffix_append _ _) (List.prefix_append _ _) e2 g1
      rw [g4] at k2; cases k2
      have hrun : PosOut cut ((w ++ ws) ++ rest) ((x ++ o) ++ l) := .run (by simp [e2]) (by
        intro z hz
        rcases List.mem_append.mp hz with hz | hz
        · exact e3 z hz
        · exact g2 z hz) g3 k1 g5
      refine ⟨o' ++ x, ?_, fun hE => ?_⟩
      · have := posOut_append e5 hrun (fun a b ha _ => by rw [e4 a ha]; simp) (by
          rintro ⟨_, hn⟩
          obtain ⟨z, w, rfl⟩ := List.exists_cons_of_ne_nil e2
          simp at hn
          have := e3 z (by simp)
          rw [hn, posChar_lf] at this; cases this)
        simpa using this
      · have := k3 hE
        rw [e6] at this; cases this; rfl

end out

section
variable {F D : Type} [F64 F] [F32 D] [Narrow F D] [Unicode] [UnicodeOK]

/-- C102: at a seam beside a character that the tagger does not look up, and not inside a line break, `Cut(a + b, false)` is `Cut(a, false)` followed by `Cut(b, false)`, in any
arithmetic. -/
theorem C102_symbol (cfg : SplitCfg) (ops : List (DictOp F)) (d : Dictionary F D) (hr : runOps cfg ops Dictionary.new = some d) (ch : Choice) (T : PosTables F)
    (a b : Bytes) (hb : BeginsChar b) (hs : SymbolSeam (chars a) (chars b)) (hn : NoBreakSeam (chars a) (chars b)) :
    ∃ x y, posCut ch T d a false = some x ∧ posCut ch T d b false = some y ∧ posCut ch T d (a ++ b) false = some (x ++ y) := by
  obtain ⟨x, x1, _, _, x2⟩ := C50_no_hmm cfg ops d hr ch T a
  obtain ⟨y, y1, _, _, y2⟩ := C50_no_hmm cfg ops d hr ch T b
  obtain ⟨z, z1, _, _, z2⟩ := C50_no_hmm cfg ops d hr ch T (a ++ b)
  rw [chars_append_start a b (beginsChar_cont hb)] at z2
  exact ⟨x, y, x1, y1, by rw [z1, posOut_unique z2 (posOut_append x2 y2 hs hn) rfl]⟩

/-- C102: the same for `Cut(text, true)`, for every state model that does not overflow on the whole text. -/
theorem C102_symbol_hmm (cfg : SplitCfg) (ops : List (DictOp F)) (d : Dictionary F D) (hr : runOps cfg ops Dictionary.new = some d) (ch : Choice) (T : PosTables F)
    (hT : PosTablesOK T) (bound : Nat) (size : Nat → F → Prop) (hf : PosFinite T bound size)
    (a b : Bytes) (hlen : 2 * (runes (a ++ b)).length ≤ bound) (hb : BeginsChar b) (hs : SymbolSeam (chars a) (chars b)) (hn : NoBreakSeam (chars a) (chars b)) :
    ∃ x y, posCut ch T d a true = some x ∧ posCut ch T d b true = some y ∧ posCut ch T d (a ++ b) true = some (x ++ y) := by
  have hl := hlen
  rw [runes_append_start a b (beginsChar_cont hb), List.length_append] at hl
  obtain ⟨x, x1, _, _, x2⟩ := C50_hmm cfg ops d hr ch T hT bound size hf a (by omega)
  obtain ⟨y, y1, _, _, y2⟩ := C50_hmm cfg ops d hr ch T hT bound size hf b (by omega)
  obtain ⟨z, z1, _, _, z2⟩ := C50_hmm cfg ops d hr ch T hT bound size hf (a ++ b) hlen
  rw [chars_append_start a b (beginsChar_cont hb)] at z2
  exact ⟨x, y, x1, y1, by rw [z1, posOut_unique z2 (posOut_append x2 y2 hs hn) rfl]⟩

theorem line_seam {a b : Bytes} (hb : BeginsChar b) : chars (a ++ str "\n" ++ b) = chars a ++ [str "\n"] ++ chars b := by
  rw [chars_append_start _ _ (beginsChar_cont hb), chars_append_start a (str "\n") (by intro c hc; cases hc; decide)]
  rfl

theorem line_out {cut : Bytes → Option (List SegPos)} {us vs : List Bytes} {x y : List SegPos} (hx : PosOut cut us x) (hy : PosOut cut vs y)
    (hr : us.getLast? ≠ some (str "\r")) : PosOut cut (us ++ [str "\n"] ++ vs) (x ++ [⟨str "\n", str "x"⟩] ++ y) := by
  have hn : PosOut cut [str "\n"] [⟨str "\n", str "x"⟩] := .char posChar_lf (fun e => absurd e (by decide)) .nil
  refine posOut_append (posOut_append hx hn ?_ ?_) hy ?_ ?_
  · intro u v _ hv; cases hv; rw [posChar_lf]; simp
  · exact fun ⟨h, _⟩ => hr h
  · intro u v hu; simp at hu; rw [← hu, posChar_lf]; simp
  · rintro ⟨h, _⟩; simp at h; exact absurd h (by decide)

/-- C102: a text may be tagged line by line: the items of two lines with a line feed between them are the items of the first line, the line feed, and the items of the second line. -/
theorem C102_lines (cfg : SplitCfg) (ops : List (DictOp F)) (d : Dictionary F D) (hr : runOps cfg ops Dictionary.new = some d) (ch : Choice) (T : PosTables F)
    (a b : Bytes) (hb : BeginsChar b) (ha : (chars a).getLast? ≠ some (str "\r")) :
    ∃ x y, posCut ch T d a false = some x ∧ posCut ch T d b false = some y ∧
      posCut ch T d (a ++ str "\n" ++ b) false = some (x ++ [⟨str "\n", str "x"⟩] ++ y) := by
  obtain ⟨x, x1, _, _, x2⟩ := C50_no_hmm cfg ops d hr ch T a
  obtain ⟨y, y1, _, _, y2⟩ := C50_no_hmm cfg ops d hr ch T b
  obtain ⟨z, z1, _, _, z2⟩ := C50_no_hmm cfg ops d hr ch T (a ++ str "\n" ++ b)
  rw [line_seam hb] at z2
  exact ⟨x, y, x1, y1, by rw [z1, posOut_unique z2 (line_out x2 y2 ha) rfl]⟩

/-- C102: the same for `Cut(text, true)`. -/
theorem C102_lines_hmm (cfg : SplitCfg) (ops : List (DictOp F)) (d : Dictionary F D) (hr : runOps cfg ops Dictionary.new = some d) (ch : Choice) (T : PosTables F)
    (hT : PosTablesOK T) (bound : Nat) (size : Nat → F → Prop) (hf : PosFinite T bound size)
    (a b : Bytes) (hlen : 2 * ((runes a).length + 1 + (runes b).length) ≤ bound) (hb : BeginsChar b) (ha : (chars a).getLast? ≠ some (str "\r")) :
    ∃ x y, posCut ch T d a true = some x ∧ posCut ch T d b true = some y ∧
      posCut ch T d (a ++ str "\n" ++ b) true = some (x ++ [⟨str "\n", str "x"⟩] ++ y) := by
  obtain ⟨x, x1, _, _, x2⟩ := C50_hmm cfg ops d hr ch T hT bound size hf a (by omega)
  obtain ⟨y, y1, _, _, y2⟩ := C50_hmm cfg ops d hr ch T hT bound size hf b (by omega)
  obtain ⟨z, z1, _, _, z2⟩ := C50_hmm cfg ops d hr ch T hT bound size hf (a ++ str "\n" ++ b) (by
    rw [runes_eq_chars, line_seam hb]
    rw [runes_eq_chars, runes_eq_chars] at hlen
    simp at hlen ⊢; omega)
  rw [line_seam hb] at z2
  exact ⟨x, y, x1, y1, by rw [z1, posOut_unique z2 (line_out x2 y2 ha) rfl]⟩

/-! ## Inside a run of characters that are looked up -/

theorem posNoHmmLoop_seam {d : Dictionary F D} (hi : IdxOK d) (y : List (List Rune)) : ∀ (x : List (List Rune)) (buf : List Rune),
    (∀ f, y.head? = some f → engFrag f = true → (x = [] → buf = []) ∧ ∀ g, x.getLast? = some g → engFrag g = false) →
    posNoHmmLoop d (x ++ y) buf = (posNoHmmLoop d x buf).bind fun p => (posNoHmmLoop d y []).map (p ++ ·)
  | [], buf, h => by
    cases y with
    | nil => simp [posNoHmmLoop, engItem]
    | cons f y =>
      by_cases hf : engFrag f = true
      · obtain rfl := (h f rfl hf).1 rfl
        simp [posNoHmmLoop, engItem]
      · simp only [List.nil_append, posNoHmmLoop, hf, if_neg, Bool.false_eq_true, not_false_eq_true, Option.bind_some]
        cases posItem d (encode f) with
        | none => rfl
        | some p => cases posNoHmmLoop d y [] <;> simp [engItem]
  | f :: x, buf, h => by
    have h' : ∀ buf' : List Rune, (x = [] → engFrag f = false → buf' = []) → ∀ g, y.head? = some g → engFrag g = true → (x = [] → buf' = []) ∧ ∀ k, x.getLast? = some k → engFrag k = false := by
      intro buf' hb g hg hge
      have := (h g hg hge).2
      refine ⟨fun hx => hb hx (by subst hx; exact this f rfl), fun k hk => this k ?_⟩
      rw [List.getLast?_cons, hk]; rfl
    rw [List.cons_append]
    by_cases hf : engFrag f = true
    · rw [posNoHmmLoop, if_pos hf, posNoHmmLoop, if_pos hf]
      exact posNoHmmLoop_seam hi y x _ (h' _ fun _ h0 => by rw [hf] at h0; cases h0)
    · rw [posNoHmmLoop, if_neg hf, posNoHmmLoop, if_neg hf, posNoHmmLoop_seam hi y x [] (h' _ fun _ _ => rfl)]
      cases posItem d (encode f) with
      | none => rfl
      | some p => cases posNoHmmLoop d x [] <;> cases posNoHmmLoop d y [] <;> simp

theorem pos_route {good : F → Prop} {d : Dictionary F D} (hi : IdxOK d) (s : Bytes) (S : ScoreLaws (F64.ofNat 0) d (runes s) good) :
    ∃ ps out, IsBestRouteBy (F64.ofNat 0) d (runes s) ps ∧ posCutNoHMM d s = posNoHmmLoop d ps [] ∧ posNoHmmLoop d ps [] = some out := by
  obtain ⟨R, h1, h2⟩ := posRoutes_eq hi (runes s)
  obtain ⟨ps, e1, e2⟩ := walk_best S h2 (runes s).length 0 (by omega) (by omega)
  obtain ⟨gs, out, _, _, g3⟩ := posNoHmmLoop_runs hi ps [] (by simp)
  refine ⟨ps, out, by simpa using e2, ?_, g3⟩
  unfold posCutNoHMM
  simp only [h1, e1, Option.bind_some]

theorem posCutNoHMM_seam {good : F → Prop} {d : Dictionary F D} (hi : IdxOK d) {v w : Bytes} (hvw : runes (v ++ w) = runes v ++ runes w)
    (S1 : ScoreLaws (F64.ofNat 0) d (runes (v ++ w)) good) (S2 : ScoreLaws (F64.ofNat 0) d (runes w) good) (S3 : ScoreLaws (F64.ofNat 0) d (runes v) good)
    (hn : NoSpanRunes d (runes v) (runes w)) (he : NoEngSeam (runes v) (runes w)) {E : Prop}
    (hE : E → ∀ p q, IsRoute d (runes v) p → IsBestRouteBy (F64.ofNat 0) d (runes w) q → IsBestRouteBy (F64.ofNat 0) d (runes v ++ runes w) (p ++ q) →
      IsBestRouteBy (F64.ofNat 0) d (runes v) p) :
    ∃ x y, posCutNoHMM d (v ++ w) = some (x ++ y) ∧ posCutNoHMM d w = some y ∧ (E → posCutNoHMM d v = some x) := by
  obtain ⟨ps, o1, h1, h2, h3⟩ := pos_route hi (v ++ w) S1
  obtain ⟨qs, o2, k1, k2, k3⟩ := pos_route hi w S2
  obtain ⟨rs, o3, l1, l2, l3⟩ := pos_route hi v S3
  rw [hvw] at h1
  obtain ⟨p, q, rfl, g1, g2⟩ := route_seam ps _ h1.route hn
  have f2 := isRoute_flatten g2
  have hq := best_route_suffix h1 (by rw [f2]; exact g2)
  rw [f2] at hq
  have e := best_route_unique _ q qs hq k1
  subst e
  have key := posNoHmmLoop_seam (d := d) hi q p [] (by
    intro f hf hef
    refine ⟨fun _ => rfl, fun g hgl => ?_⟩
    cases hge : engFrag g with
    | false => rfl
    | true =>
      obtain ⟨x, rfl, hx⟩ := (engFrag_iff g).1 hge
      obtain ⟨y, rfl, hy⟩ := (engFrag_iff f).1 hef
      refine absurd ⟨hx, hy⟩ (he x y ?_ ?_)
      · rw [← isRoute_flatten g1]
        obtain ⟨p', rfl⟩ : ∃ p', p = p' ++ [[x]] := ⟨_, (List.dropLast_append_getLast? _ hgl).symm⟩
        simp
      · rw [← f2]
        cases q with
        | nil => simp at hf
        | cons z q => simp at hf; subst hf; simp)
  obtain ⟨gs, xp, _, _, hxp⟩ := posNoHmmLoop_runs hi p [] (by simp)
  have hxp : posNoHmmLoop d p [] = some xp := hxp
  rw [hxp, k3] at key
  refine ⟨xp, o2, by rw [h2, key]; rfl, by rw [k2, k3], fun h => ?_⟩
  have := best_route_unique _ p rs (hE h p q g1 hq h1) l1
  rw [l2, ← this, hxp]

/-- A text with a seam where no stored word lies across, for any scores that satisfy the laws on its parts. -/
theorem posCut_seam {good : F → Prop} {cfg : SplitCfg} {ops : List (DictOp F)} {d : Dictionary F D} (hr : runOps cfg ops Dictionary.new = some d) (ch : Choice) (T : PosTables F)
    (a b : Bytes) (S : ∀ s, (runes s).length ≤ (runes (a ++ b)).length → ScoreLaws (F64.ofNat 0) d (runes s) good) (hb : BeginsChar b) (hnb : NoBreakSeam (chars a) (chars b))
    (hn : NoSpanRunes d (runes a) (runes b)) (he : NoEngSeam (runes a) (runes b)) {E : Prop}
    (hE : E → ∀ v w, v <:+: runes a → w <:+: runes b → NoSpanRunes d v w → ∀ p q, IsRoute d v p → IsBestRouteBy (F64.ofNat 0) d w q →
      IsBestRouteBy (F64.ofNat 0) d (v ++ w) (p ++ q) → IsBestRouteBy (F64.ofNat 0) d v p) :
    ∃ x y, posCut ch T d b false = some y ∧ posCut ch T d (a ++ b) false = some (x ++ y) ∧ (x.map SegPos.text).flatten = encode (runes a) ∧
      (E → posCut ch T d a false = some x) := by
  obtain ⟨oa, x1, _, _, x2⟩ := C50_no_hmm cfg ops d hr ch T a
  obtain ⟨ob, y1, hjb, _, y2⟩ := C50_no_hmm cfg ops d hr ch T b
  obtain ⟨z, z1, hjz, _, z2⟩ := C50_no_hmm cfg ops d hr ch T (a ++ b)
  have hc := chars_append_start a b (beginsChar_cont hb)
  have hrr := runes_append_start a b (beginsChar_cont hb)
  rw [hc] at z2
  obtain ⟨x, k1, k2⟩ := posOut_inside (E := E) x2 y2 hnb (by
    intro v w hv hw hv0 hw0
    have cv : chars v.flatten = v := chars_of_infix (s := a) hv.isInfix
    have cw : chars w.flatten = w := chars_of_infix (s := b) hw.isInfix
    have cvw : chars (v ++ w).flatten = v ++ w := by
      refine chars_of_infix (s := a ++ b) ?_
      rw [hc]
      obtain ⟨v', hv⟩ := hv
      obtain ⟨w', hw⟩ := hw
      exact ⟨v', w', by rw [← hv, ← hw]; simp⟩
    rw [List.flatten_append] at cvw ⊢
    have rvw : runes (v.flatten ++ w.flatten) = runes v.flatten ++ runes w.flatten := by
      rw [runes_eq_chars, runes_eq_chars, runes_eq_chars, cvw, cv, cw, List.map_append]
    have sv : runes v.flatten <:+ runes a := by
      rw [runes_eq_chars, cv, runes_eq_chars]; exact hv.map _
    have sw : runes w.flatten <+: runes b := by
      rw [runes_eq_chars, cw, runes_eq_chars]; exact hw.map _
    have lv := sv.length_le
    have lw := sw.length_le
    have ne : ∀ {u : List Bytes}, chars u.flatten = u → u ≠ [] → runes u.flatten ≠ [] := by
      intro u hu h0
      rw [runes_eq_chars, hu]; simpa using h0
    have hn' : NoSpanRunes d (runes v.flatten) (runes w.flatten) := fun x y hx hy h1 h2 => hn x y hx hy (h1.trans sv) (h2.trans sw)
    refine posCutNoHMM_seam (idxOK_of_run hr) rvw (S _ (by rw [rvw, hrr]; simp; omega)) (S _ (by rw [hrr]; simp; omega)) (S _ (by rw [hrr]; simp; omega))
      hn' ?_ fun h => hE h _ _ sv.isInfix sw.isInfix hn'
    intro x y hx hy
    refine he x y ?_ ?_
    · obtain ⟨t, ht⟩ := sv
      rw [← ht, List.getLast?_append, hx]; rfl
    · obtain ⟨t, ht⟩ := sw
      rw [← ht, List.head?_append, hy]; rfl)
  have hz := posOut_unique z2 k1 rfl
  subst hz
  refine ⟨x, ob, y1, z1, ?_, fun h => by rw [x1, k2 h]⟩
  rw [List.map_append, List.flatten_append, hjb, hrr, encode_append] at hjz
  exact List.append_cancel_right hjz

/-- C102: what comes before a seam where no stored word lies across has no influence on what `Cut(text, false)` makes of the text after it, also where both characters at the seam are
looked up, in any arithmetic that satisfies the laws. -/
theorem C102_inside [F64Laws F] (cfg : SplitCfg) (ops : List (DictOp F)) (d : Dictionary F D) (hr : runOps cfg ops Dictionary.new = some d)
    (hg : GoodScoresBy (F64.ofNat 0) d) (ch : Choice) (T : PosTables F) (a b : Bytes) (hb : BeginsChar b) (hnb : NoBreakSeam (chars a) (chars b))
    (hn : NoSpanRunes d (runes a) (runes b)) (he : NoEngSeam (runes a) (runes b)) :
    ∃ x y, posCut ch T d b false = some y ∧ posCut ch T d (a ++ b) false = some (x ++ y) ∧ (x.map SegPos.text).flatten = encode (runes a) := by
  obtain ⟨x, y, h1, h2, h3, _⟩ := posCut_seam hr ch T a b (fun s _ => scoreLaws_of_good hg (runes s)) hb hnb hn he (E := False) (fun h => h.elim)
  exact ⟨x, y, h1, h2, h3⟩

theorem finScores_of_pieces [F64Shift F] {d : Dictionary F D} {text t : List Rune} (h : FinPieces d text) (ht : t <:+: text) : FinScoresBy (F64.ofNat 0) d t := by
  intro ps hps x hx
  have hinf : x <:+: t := by
    rw [← isRoute_flatten hps]
    obtain ⟨a, b, rfl⟩ := List.append_of_mem hx
    exact ⟨a.flatten, b.flatten, by simp⟩
  exact h x (hinf.trans ht) (isRoute_pieces hps x hx).2

/-- C102: without rounding, and when every stored word and character of the text has a finite log-frequency, `Cut(a + b, false)` is `Cut(a, false)` followed by `Cut(b, false)`. -/
theorem C102_inside_exact [F64Laws F] [F64Shift F] (cfg : SplitCfg) (ops : List (DictOp F)) (d : Dictionary F D) (hr : runOps cfg ops Dictionary.new = some d)
    (hg : GoodScoresBy (F64.ofNat 0) d) (ch : Choice) (T : PosTables F) (a b : Bytes) (hb : BeginsChar b) (hnb : NoBreakSeam (chars a) (chars b))
    (hn : NoSpanRunes d (runes a) (runes b)) (he : NoEngSeam (runes a) (runes b)) (fa : FinPieces d (runes a)) (fb : FinPieces d (runes b)) :
    ∃ x y, posCut ch T d a false = some x ∧ posCut ch T d b false = some y ∧ posCut ch T d (a ++ b) false = some (x ++ y) := by
  obtain ⟨x, y, h1, h2, h3, h4⟩ := posCut_seam hr ch T a b (fun s _ => scoreLaws_of_good hg (runes s)) hb hnb hn he (E := True)
    (fun _ v w hv hw hvw p q hp hq hpq => best_route_prefix (finScores_of_pieces fa hv) (finScores_of_pieces fb hw) hvw hp hq.route hpq)
  exact ⟨x, y, h4 trivial, h1, h2⟩

end

/-- C102: in exact arithmetic, for a dictionary of any number of words: every character of the text that only begins stored words is excluded by `FinPieces`. -/
theorem C102_inside_real {D : Type} [ParseFn] [F32 D] [Narrow EReal D] [Unicode] [UnicodeOK] (cfg : SplitCfg) (ops : List (DictOp EReal)) (d : Dictionary EReal D)
    (hr : runOps cfg ops Dictionary.new = some d) (ch : Choice) (T : PosTables EReal) (a b : Bytes) (hb : BeginsChar b) (hnb : NoBreakSeam (chars a) (chars b))
    (hn : NoSpanRunes d (runes a) (runes b)) (he : NoEngSeam (runes a) (runes b)) (fa : FinPieces d (runes a)) (fb : FinPieces d (runes b)) :
    ∃ x y, posCut ch T d a false = some x ∧ posCut ch T d b false = some y ∧ posCut ch T d (a ++ b) false = some (x ++ y) := by
  obtain ⟨x, y, h1, h2, h3, h4⟩ := posCut_seam hr ch T a b (fun s _ => scoreLaws_freq (runes s)) hb hnb hn he (E := True)
    (fun _ v w hv hw hvw p q hp hq hpq => best_route_prefix (finScores_of_pieces fa hv) (finScores_of_pieces fb hw) hvw hp hq.route hpq)
  exact ⟨x, y, h4 trivial, h1, h2⟩

section ieee
variable {M : MathFns} [Unicode] [UnicodeOK]

/-- C102: with IEEE arithmetic what comes before a seam has no influence on what `Cut(text, false)` makes of the text after it. -/
theorem C102_inside_ieee (hlog : LogLike M.log) (cfg : SplitCfg) (ops : List (DictOp (Binary64 M))) (d : Dictionary (Binary64 M) Binary32)
    (hr : runOps cfg ops Dictionary.new = some d) (hf : FreqsNonNeg ops) (hfin : d.totalFreq.datum.IsFin) (ch : Choice) (T : PosTables (Binary64 M))
    (a b : Bytes) (hl : (runes (a ++ b)).length ≤ 2 ^ 53) (hb : BeginsChar b) (hnb : NoBreakSeam (chars a) (chars b))
    (hn : NoSpanRunes d (runes a) (runes b)) (he : NoEngSeam (runes a) (runes b)) :
    ∃ x y, posCut ch T d b false = some y ∧ posCut ch T d (a ++ b) false = some (x ++ y) ∧ (x.map SegPos.text).flatten = encode (runes a) := by
  obtain ⟨x, y, h1, h2, h3, _⟩ := posCut_seam hr ch T a b (fun s hs => scoreLaws_ieee hlog hr hf hfin (runes s) (by omega)) hb hnb hn he (E := False) (fun h => h.elim)
  exact ⟨x, y, h1, h2, h3⟩

/-- C102: with the tables of the code and IEEE arithmetic a text of up to 2^52 characters may be tagged line by line. -/
theorem C102_shipped (em : Nat → Rune → Option (Binary64 M)) (hem : ∀ y r v, em y r = some v → SizeAt 334 1 v ∧ v.datum.NonPos)
    (cfg : SplitCfg) (ops : List (DictOp (Binary64 M))) (d : Dictionary (Binary64 M) Binary32) (hr : runOps cfg ops Dictionary.new = some d) (ch : Choice)
    (a b : Bytes) (hlen : 2 * ((runes a).length + 1 + (runes b).length) ≤ 2 ^ 53) (hb : BeginsChar b) (ha : (chars a).getLast? ≠ some (str "\r")) :
    ∃ x y, posCut ch (shippedPos em) d a true = some x ∧ posCut ch (shippedPos em) d b true = some y ∧
      posCut ch (shippedPos em) d (a ++ str "\n" ++ b) true = some (x ++ [⟨str "\n", str "x"⟩] ++ y) :=
  C102_lines_hmm cfg ops d hr ch _ shippedPos_ok _ _ (shippedPos_values hem).finite a b hlen hb ha

end ieee

section examples
attribute [local instance] sampleUnicode sampleUnicodeOK sampleF32 infF64 infNarrow infLaws

/-- Integers with `-Inf`: no rounding. -/
@[instance_reducible] def infShift : F64Shift (Option Int) where
  fin x := x.isSome = true
  fin_zero := rfl
  fin_add := by intro a b ha hb; cases a <;> cases b <;> simp_all [F64.add]
  add_zero := by intro a ha; cases a <;> simp_all [F64.add, F64.ofNat]
  zero_add := by intro a ha; cases a <;> simp_all [F64.add, F64.ofNat]
  add_assoc := by intro a b c ha hb hc; cases a <;> cases b <;> cases c <;> simp_all [F64.add]; omega
  lt_add := by intro a b c ha hb hc; cases a <;> cases b <;> cases c <;> simp_all [F64.lt, F64.add]

attribute [local instance] infShift

/-- A text of two parts: the seam is between U+4E11 and U+4E03, which are both looked up. -/
def posLeft : Bytes := encode [0x3002, 0x4E20, 0x4E10, 0x4E11]
def posRight : Bytes := encode [0x4E30, 0x4E31] ++ str "a."

theorem posLeft_begins : BeginsChar posRight := by
  intro c hc
  have : posRight.head? = some 0xE4 := by decide +kernel
  rw [this] at hc; cases hc; decide

/-- No stored word contains the character after the seam anywhere but at its beginning. -/
theorem posLeft_span : NoSpanRunes posDict (runes posLeft) (runes posRight) := by
  have key : ∀ x ∈ (runes posLeft).tails, ∀ y ∈ (runes posRight).inits, x ≠ [] → y ≠ [] → posWord posDict (x ++ y) = false := by decide +kernel
  intro x y hx hy h1 h2
  exact key x ((List.mem_tails ..).2 h1) y ((List.mem_inits ..).2 h2) hx hy

example : NoEngSeam (runes posLeft) (runes posRight) ∧ NoBreakSeam (chars posLeft) (chars posRight) ∧ ¬ SymbolSeam (chars posLeft) (chars posRight) := by
  refine ⟨?_, by unfold NoBreakSeam; decide +kernel, ?_⟩
  · intro x y hx hy
    have h1 : (runes posLeft).getLast? = some 0x4E11 := by decide +kernel
    rw [h1] at hx; cases hx
    rintro ⟨h, _⟩
    revert h; decide +kernel
  · intro h
    exact h (encode [0x4E11]) (encode [0x4E30]) (by decide +kernel) (by decide +kernel) (by decide +kernel)

example : posCut choiceA posTables posDict (posLeft ++ posRight) false =
      some [⟨encode [0x3002], str "x"⟩, ⟨encode [0x4E20], str "x"⟩, ⟨encode [0x4E10, 0x4E11], str "k"⟩, ⟨encode [0x4E30], []⟩, ⟨encode [0x4E31], str "u"⟩,
        ⟨str "a", str "eng"⟩, ⟨str ".", str "x"⟩] ∧
    posCut choiceA posTables posDict posLeft false = some [⟨encode [0x3002], str "x"⟩, ⟨encode [0x4E20], str "x"⟩, ⟨encode [0x4E10, 0x4E11], str "k"⟩] ∧
    posCut choiceA posTables posDict posRight false = some [⟨encode [0x4E30], []⟩, ⟨encode [0x4E31], str "u"⟩, ⟨str "a", str "eng"⟩, ⟨str ".", str "x"⟩] := by
  refine ⟨?_, ?_, ?_⟩ <;> decide +kernel

/-- Every stored word has a positive frequency, and no character of the text only begins stored words. -/
theorem posDict_fin (s : Bytes) (h : ((runes s).all fun c => !posDict.trie.isNode (encode [c]) || (storedTok posDict (encode [c])).isSome) = true) : FinPieces posDict (runes s) := by
  have hpos : ∀ tok ∈ posDict.tokens, (F64.log tok.freq).isSome = true := by decide +kernel
  intro t ht hw
  show (pieceScoreBy (F64.ofNat 0) posDict t).isSome = true
  have hsub : ∀ x : Option Int, x.isSome = true → (F64.sub x (F64.ofNat 0)).isSome = true := by
    intro x hx; cases x <;> simp_all [F64.sub, F64.ofNat]
  unfold pieceScoreBy
  refine hsub _ ?_
  unfold pieceFreq
  split
  · next tok htok =>
    unfold storedTok at htok
    obtain ⟨v, _, hv⟩ := Option.bind_eq_some_iff.1 htok
    exact hpos tok (List.mem_of_getElem? hv)
  · next hnone =>
    have hl : t.length = 1 := by
      rcases hw with hw | hw
      · unfold posWord at hw; rw [hnone] at hw; cases hw
      · exact hw
    obtain ⟨c, rfl⟩ := List.length_eq_one_iff.1 hl
    have := List.all_eq_true.1 h c (ht.subset (by simp))
    rw [hnone] at this
    have hn : ¬ StartsStored posDict (encode [c]) := by
      rw [startsStored_iff (idxOK_of_run posDict_run) (by simpa [encode] using encodeRune_ne_nil c)]
      simpa using this
    rw [if_neg hn]
    decide +kernel
example : FinPieces posDict (runes posLeft) ∧ FinPieces posDict (runes posRight) :=
  ⟨posDict_fin _ (by decide +kernel), posDict_fin _ (by decide +kernel)⟩

/-- Two lines, with the state model. -/
example : (chars posText).getLast? ≠ some (str "\r") ∧ 2 * ((runes posText).length + 1 + (runes posText).length) ≤ 100 ∧
    posCut choiceA posTables posDict (posText ++ str "\n" ++ posText) true =
      (posCut choiceA posTables posDict posText true).map fun x => x ++ [⟨str "\n", str "x"⟩] ++ x := by
  refine ⟨?_, ?_, ?_⟩ <;> decide +kernel

/-- A seam inside a line break is another matter, as is one inside a word. -/
example : posCut choiceA posTables posDict (str "\r") true = some [⟨str "\r", str "x"⟩] ∧ posCut choiceA posTables posDict (str "\n") true = some [⟨str "\n", str "x"⟩] ∧
    posCut choiceA posTables posDict (str "\r\n") true = some [⟨str "\r\n", str "x"⟩] := by
  refine ⟨?_, ?_, ?_⟩ <;> decide +kernel
example : posCut choiceA posTables posDict (encode [0x4E10, 0x4E11]) false = some [⟨encode [0x4E10, 0x4E11], str "k"⟩] ∧
    posCut choiceA posTables posDict (encode [0x4E10]) false = some [⟨encode [0x4E10], str "j"⟩] := by
  refine ⟨?_, ?_⟩ <;> decide +kernel

end examples

end Gse
