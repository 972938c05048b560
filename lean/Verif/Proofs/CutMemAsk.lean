import Verif.Proofs.CutMem
import Verif.Proofs.HmmRuns

/-!
# When `Cut` with the hidden Markov model reads the model
-/

namespace Gse
open Prog Spec

set_option linter.unusedSectionVars false

variable {F D α β : Type}

theorem asks_bind' {m : Mem F D} {l : Loc} {f : α → Prog F D β} (hf : ∀ a, Reads (f a)) : ∀ (p : Prog F D α), Asks m l p → Asks m l (p.bind f)
  | .read l' k, h => by
    rcases h with ⟨hl, h⟩ | ⟨hl, c, hc, h⟩
    · exact .inl ⟨hl, fun c o => quiet_bind (k c) o (h c o) fun a o' _ => (hf a).quiet _ o'⟩
    · exact .inr ⟨hl, c, hc, asks_bind' hf (k c) h⟩
  | .ret _, h => h.elim
  | .panic, h => h.elim
  | .write .., h => h.elim
  | .alloc .., h => h.elim

theorem asks_left {m : Mem F D} {l : Loc} {f : α → Prog F D β} {p : Prog F D α} (h : Asks m l p) (hf : ∀ a, Reads (f a)) : Asks m l (p >>= f) :=
  asks_bind' hf p h

theorem asks_right' {m : Mem F D} {l : Loc} {f : α → Prog F D β} {a : α} : ∀ (p : Prog F D α), Yields m p a → Reads p → (∀ a, Reads (f a)) →
    Asks m l (f a) → Asks m l (p.bind f)
  | .ret _, h, _, _, hf => by cases h; exact hf
  | .read l' k, ⟨c, hc, h⟩, hr, hR, hf => by
    by_cases hl : l' = l
    · exact .inl ⟨hl, fun c o => (Reads.bind' (k c) (hr c) hR).quiet _ o⟩
    · exact .inr ⟨hl, c, hc, asks_right' (k c) h (hr c) hR hf⟩
  | .panic, h, _, _, _ => h.elim
  | .write .., h, _, _, _ => h.elim
  | .alloc .., h, _, _, _ => h.elim

theorem asks_right {m : Mem F D} {l : Loc} {f : α → Prog F D β} {a : α} {p : Prog F D α} (h : Yields m p a) (hr : Reads p) (hR : ∀ a, Reads (f a))
    (hf : Asks m l (f a)) : Asks m l (p >>= f) := asks_right' p h hr hR hf

/-! ## These programs only read -/

theorem reads_ret (a : α) : Reads (.ret a : Prog F D α) := trivial

variable [F64 F] [F32 D] [Narrow F D]

theorem reads_bool (l : Loc) : Reads (rdBool l : Prog F D Bool) := fun c => by cases c <;> trivial
theorem reads_nat (l : Loc) : Reads (rdNat l : Prog F D Nat) := fun c => by cases c <;> trivial
theorem reads_trie : Reads (rdTrie : Prog F D Trie) := fun c => by cases c <;> trivial
theorem reads_tok (i : Nat) : Reads (rdTok i : Prog F D (MTok F)) := fun c => by cases c <;> trivial
theorem reads_flags : Reads (rdFlags : Prog F D SplitCfg) := fun c => by cases c <;> trivial
theorem reads_freq (l : Loc) : Reads (rdFreq l : Prog F D F) := fun c => by cases c <;> trivial
theorem reads_emit : Reads (rdEmit : Prog F D (EmitModel F)) := fun c => by cases c <;> trivial

theorem reads_lift (x : Option α) : Reads (liftP x : Prog F D α) := by cases x <;> trivial

theorem reads_map {f : α → Prog F D β} (hf : ∀ a, Reads (f a)) : ∀ l, Reads (mapP f l)
  | [] => trivial
  | a :: l => (hf a).bind fun _ => (reads_map hf l).bind fun _ => reads_ret _

theorem reads_find (w : Bytes) : Reads (findP w : Prog F D (F × Bytes × Bool)) := by
  refine (reads_bool _).bind fun b => ?_
  split
  · trivial
  · refine reads_trie.bind fun t => ?_
    split
    · trivial
    · refine reads_trie.bind fun t => ?_
      split
      · split <;> trivial
      · refine (reads_nat _).bind fun n => ?_
        split
        · refine (reads_tok _).bind fun x => (reads_nat _).bind fun n => ?_
          split
          · exact (reads_tok _).bind fun _ => reads_ret _
          · trivial
        · trivial

theorem reads_dagEnds (rs : List Rune) (k : Nat) : ∀ n i, Reads (dagEndsP rs k n i : Prog F D (List Nat))
  | 0, _ => trivial
  | n + 1, i => by
    refine (reads_find _).bind fun x => ?_
    split
    · trivial
    · split
      · trivial
      · exact (reads_dagEnds rs k n (i + 1)).bind fun _ => reads_ret _

theorem reads_getDag (rs : List Rune) : Reads (getDagP rs : Prog F D (List (List Nat))) :=
  reads_map (fun k => (reads_dagEnds rs k _ _).bind fun _ => reads_ret _) _

theorem reads_routeAt (rs : List Rune) (logT : F) (idx : Nat) (routes : List (Nat × Route F)) : ∀ is v,
    Reads (routeAtP rs logT idx routes is v : Prog F D (Option (Route F)))
  | [], _ => trivial
  | _ :: is, _ => ((reads_find _).bind fun _ => reads_ret _).bind fun _ => reads_routeAt rs logT idx routes is _

theorem reads_calcLoop (rs : List Rune) (logT : F) (dag : List (List Nat)) : ∀ k routes,
    Reads (calcLoopP rs logT dag k routes : Prog F D (List (Nat × Route F)))
  | 0, _ => trivial
  | k + 1, routes => (reads_routeAt rs logT k routes _ _).bind fun r => by
    cases r with
    | none => exact reads_calcLoop rs logT dag k _
    | some r => exact reads_calcLoop rs logT dag k _

theorem reads_calcRoutes (rs : List Rune) : Reads (calcRoutesP rs : Prog F D (List (Nat × Route F))) := by
  refine (reads_getDag rs).bind fun dag => (reads_bool _).bind fun b => ?_
  split
  · trivial
  · exact (reads_freq _).bind fun _ => reads_calcLoop ..

theorem reads_cutDAGNoHMM [Unicode] (s : Bytes) : Reads (cutDAGNoHMMP s : Prog F D (List Bytes)) :=
  reads_flags.bind fun _ => (reads_calcRoutes _).bind fun _ => (reads_lift _).bind fun _ => reads_ret _

theorem reads_cutAll [Unicode] (s : Bytes) : Reads (cutAllP s : Prog F D (List Bytes)) :=
  reads_flags.bind fun _ => (reads_getDag _).bind fun _ => reads_ret _

theorem reads_vtbStart (c : HmmConst F) (r : Rune) (y : Tag) : Reads (vtbStartP c r y : Prog F D _) := reads_emit.bind fun _ => reads_ret _

theorem reads_vtbNext (c : HmmConst F) (col : Column F) (r : Rune) (y : Tag) : Reads (vtbNextP c col r y : Prog F D _) :=
  reads_emit.bind fun _ => reads_ret _

theorem reads_vtbLoop (c : HmmConst F) : ∀ (rs : List Rune) (col : Column F), Reads (vtbLoopP c rs col : Prog F D _)
  | [], _ => trivial
  | r :: rs, col =>
    ((reads_vtbNext c col r _).bind fun _ => (reads_vtbNext c col r _).bind fun _ => (reads_vtbNext c col r _).bind fun _ =>
      (reads_vtbNext c col r _).bind fun _ => reads_ret _).bind fun _ => reads_vtbLoop c rs _

theorem reads_viterbi (c : HmmConst F) (rs : List Rune) : Reads (viterbiP c rs : Prog F D _) := by
  cases rs with
  | nil => trivial
  | cons r rs =>
    exact ((reads_vtbStart c r _).bind fun _ => (reads_vtbStart c r _).bind fun _ => (reads_vtbStart c r _).bind fun _ =>
      (reads_vtbStart c r _).bind fun _ => reads_ret _).bind fun _ => (reads_vtbLoop c rs _).bind fun _ => reads_ret _

theorem reads_internalCut (c : HmmConst F) (t : Bytes) : Reads (internalCutP c t : Prog F D _) :=
  (reads_viterbi c _).bind fun _ => reads_lift _

theorem reads_hmmCutLoop (c : HmmConst F) (word skip : Matcher) : ∀ n text acc, Reads (hmmCutLoopP c word skip n text acc : Prog F D _)
  | 0, _, _ => trivial
  | n + 1, text, acc => by
    simp only [hmmCutLoopP]
    repeat' split
    all_goals first
      | trivial
      | exact reads_hmmCutLoop c word skip n _ _
      | exact (reads_internalCut c _).bind fun _ => reads_hmmCutLoop c word skip n _ _

theorem reads_hmmCut [Unicode] (c : HmmConst F) (t : Bytes) (reg : List Matcher) : Reads (hmmCutP c t reg : Prog F D _) := reads_hmmCutLoop ..

theorem reads_flushBuf [Unicode] (c : HmmConst F) (reg : List Matcher) (buf : List Rune) : Reads (flushBufP c reg buf : Prog F D _) := by
  unfold flushBufP
  split
  · trivial
  · split
    · trivial
    · refine (reads_find _).bind fun x => ?_
      split
      · exact reads_hmmCut ..
      · trivial

theorem reads_hmmLoop [Unicode] (c : HmmConst F) (reg : List Matcher) : ∀ frags buf, Reads (hmmLoopP c reg frags buf : Prog F D _)
  | [], _ => reads_flushBuf ..
  | frag :: rest, buf => by
    simp only [hmmLoopP]
    split
    · exact reads_hmmLoop c reg rest _
    · exact (reads_flushBuf ..).bind fun _ => (reads_hmmLoop c reg rest _).bind fun _ => reads_ret _

theorem reads_cutDAG [Unicode] (c : HmmConst F) (s : Bytes) (reg : List Matcher) : Reads (cutDAGP c s reg : Prog F D _) :=
  reads_flags.bind fun _ => (reads_calcRoutes _).bind fun _ => (reads_lift _).bind fun _ => reads_hmmLoop ..

theorem reads_gramsFrom (rs : List Rune) (incr : Nat) : ∀ is, Reads (gramsFromP rs incr is : Prog F D _)
  | [] => trivial
  | _ :: is => (reads_find _).bind fun _ => (reads_gramsFrom rs incr is).bind fun _ => reads_ret _

theorem reads_grams (rs : List Rune) (incr : Nat) : Reads (gramsP rs incr : Prog F D _) := by
  unfold gramsP
  split
  · trivial
  · exact reads_gramsFrom ..

theorem reads_cut [Unicode] (c : HmmConst F) (s : Bytes) (hmm : Bool) : Reads (cutP c s hmm : Prog F D _) := by
  cases hmm with
  | false => exact reads_cutDAGNoHMM s
  | true => exact reads_cutDAG c s []

theorem reads_cutSearch [Unicode] (c : HmmConst F) (s : Bytes) (hmm : Bool) : Reads (cutSearchP c s hmm : Prog F D _) :=
  (reads_cut c s hmm).bind fun _ => (reads_map (fun _ => (reads_grams _ 2).bind fun _ => (reads_grams _ 3).bind fun _ => reads_ret _) _).bind
    fun _ => reads_ret _

/-! ## Reading the model -/

section
variable {m : Mem F D} {cfg : SplitCfg} {d : Dictionary F D} (c : HmmConst F)

theorem asks_internalCut (t : Bytes) (h : runes t ≠ []) : Asks m .emit (internalCutP c t : Prog F D _) := by
  refine asks_left ?_ fun _ => reads_lift _
  cases hr : runes t with
  | nil => exact absurd hr h
  | cons r rs =>
    refine asks_left ?_ fun _ => (reads_vtbLoop c rs _).bind fun _ => reads_ret _
    exact .inl ⟨rfl, fun x o => by
      refine Reads.quiet _ o ?_
      cases x <;> first
        | trivial
        | exact (reads_vtbStart c r _).bind fun _ => (reads_vtbStart c r _).bind fun _ => (reads_vtbStart c r _).bind fun _ => reads_ret _⟩

/-- A Han character begins at some byte. -/
def HanAt [U : Unicode] (t : Bytes) : Prop := ∃ i, i < t.length ∧ U.isHan (decodeRune (t.drop i)).1 = true

theorem skip_ascii (s : Bytes) : ∀ b ∈ s.take (skipLen s), b.toNat < 128 := by
  have ha : ∀ b : UInt8, alnumByte b = true → b.toNat < 128 := by
    intro b hb
    simp only [alnumByte, digitByte, Bool.or_eq_true, Bool.and_eq_true, decide_eq_true_eq] at hb
    omega
  have hd : ∀ b : UInt8, digitByte b = true → b.toNat < 128 := fun b hb => ha b (by simp [alnumByte, hb])
  intro b hb
  unfold skipLen at hb
  simp only at hb
  split at hb
  · next hc =>
    rw [List.take_add, List.take_add, take_takeWhile, List.mem_append, List.mem_append] at hb
    rcases hb with (hb | hb) | hb
    · exact hd b (mem_takeWhile hb)
    · have h2 := hc.2.1
      cases hs : s.drop (s.takeWhile digitByte).length with
      | nil => rw [hs] at hb; simp at hb
      | cons x y =>
        rw [hs] at hb h2
        simp only [List.head?_cons, Option.some.injEq] at h2
        simp only [List.take_succ_cons, List.take_zero, List.mem_singleton] at hb
        rw [hb, h2]; decide
    · rw [take_takeWhile] at hb
      exact hd b (mem_takeWhile hb)
  · rw [take_takeWhile] at hb
    exact ha b (mem_takeWhile hb)

theorem asks_hmmCutLoop [U : Unicode] [OK : UnicodeOK] : ∀ (n : Nat) (t : Bytes) (acc : List Bytes), t.length < n → HanAt t →
    Asks m .emit (hmmCutLoopP c regHan regSkip n t acc : Prog F D _)
  | 0, _, _, h, _ => by omega
  | n + 1, t, acc, hn, ⟨i, hi, hh⟩ => by
    have hne : t ≠ [] := by rintro rfl; simp at hi
    simp only [hmmCutLoopP]
    rw [if_neg (fun h => hne h.2)]
    rcases findHan_spec t.length t 0 le_rfl with ⟨_, h2⟩ | ⟨a, h1, h2, h3⟩
    · rw [h2 i hi] at hh; cases hh
    · have hw : regHan t = some (a, a + hanLen (t.drop a).length (t.drop a)) := by simpa [regHan] using h1
      have hlt : a < t.length := by
        by_contra hc
        rw [List.drop_eq_nil_of_le (by omega)] at h3
        exact h3.1 rfl
      have hrange := regHan_range t _ _ hw
      rw [hw]
      by_cases ha : a = 0
      · rw [if_pos (by simp [ha])]
        refine asks_left (asks_internalCut c _ ?_) fun _ => reads_hmmCutLoop ..
        simp only [Option.map_some, Option.getD_some]
        intro hnil
        have := runes_eq_nil.mp hnil
        rw [List.take_eq_nil_iff] at this
        rcases this with h | h
        · omega
        · exact hne h
      · rw [if_neg (by simpa using ha), if_neg (fun h => hne h.2)]
        have next : ∀ k acc, 0 < k → k ≤ a → Asks m .emit (hmmCutLoopP c regHan regSkip n (t.drop k) acc : Prog F D _) := by
          intro k acc h0 hk
          refine asks_hmmCutLoop n _ acc (by rw [List.length_drop]; omega) ⟨a - k, by rw [List.length_drop]; omega, ?_⟩
          rw [List.drop_drop, show k + (a - k) = a by omega]
          exact h3.2
        rcases findSkip_spec t 0 with ⟨s1, s2⟩ | ⟨b, _, s1, s2, s3⟩
        · have hs : regSkip t = none := s1
          rw [hs]
          simp only [Option.map_none, reduceCtorEq, if_false, locJudge]
          exact next a _ (by omega) le_rfl
        · have hs : regSkip t = some (b, b + skipLen (t.drop b)) := by simpa [regSkip] using s1
          rw [hs]
          have hrun := skip_run s3
          by_cases hb : b = 0
          · subst hb
            rw [List.drop_zero] at hrun
            simp only [List.drop_zero, Nat.zero_add]
            have hle : skipLen t ≤ a := by
              by_contra hc
              have hd := List.drop_eq_getElem_cons hlt
              have hmem : t[a] ∈ t.take (skipLen t) := by
                rw [List.mem_take_iff_getElem]
                exact ⟨a, by omega, rfl⟩
              have := skip_ascii t _ hmem
              have h4 := h3.2
              rw [hd, show decodeRune (t[a] :: t.drop (a + 1)) = (t[a].toNat, 1) by simp [decodeRune, this], OK.han_ascii _ this] at h4
              cases h4
            rw [if_pos (by simp), if_pos (by
              simp only [Option.map_some, Option.getD_some]
              rw [ne_eq, List.take_eq_nil_iff]
              rintro (h | h)
              · omega
              · exact hne h)]
            exact next _ _ hrun.1 hle
          · rw [if_neg (by simpa using hb)]
            by_cases hab : a < b
            · simp only [locJudge, if_pos hab]
              exact next a _ (by omega) le_rfl
            · simp only [locJudge, if_neg hab]
              exact next b _ (by omega) (by omega)

theorem asks_hmmCut [U : Unicode] [UnicodeOK] (t : Bytes) (h : (runes t).any U.isHan = true) : Asks m .emit (hmmCutP c t [] : Prog F D _) := by
  obtain ⟨r, hr, hh⟩ := List.any_eq_true.mp h
  obtain ⟨i, hi, e⟩ := runes_mem_drop hr
  exact asks_hmmCutLoop c _ t [] (by omega) ⟨i, hi, by rw [← e]; exact hh⟩

variable {em : EmitModel F}

theorem asks_flushBuf [U : Unicode] [UnicodeOK] (h : HoldsDict m cfg d) (buf : List Rune) (hb : flushBuf d refuseHan buf = none)
    (hr : flushBuf d (fun t => hmmCut c em t []) buf ≠ none) : Asks m .emit (flushBufP c [] buf : Prog F D _) := by
  unfold flushBuf at hb hr
  unfold flushBufP
  split at hb
  · cases hb
  · next h1 =>
    rw [if_neg h1] at hr ⊢
    split at hb
    · cases hb
    · next h2 =>
      rw [if_neg h2] at hr ⊢
      simp only [hmmBuf, findRunes] at hb hr
      split at hb
      · next hf => rw [hf] at hr; exact absurd rfl hr
      · next v pos ok hf =>
        refine asks_right (yields_find h hf) (reads_find _) (fun x => by split; exacts [reads_hmmCut .., trivial]) ?_
        simp only
        split at hb
        · next h3 =>
          rw [if_pos h3]
          refine asks_hmmCut c _ ?_
          unfold refuseHan at hb
          split at hb
          · next h4 => exact h4
          · cases hb
        · cases hb

theorem asks_hmmLoop [U : Unicode] [UnicodeOK] (h : HoldsDict m cfg d) (he : m .emit = some (.emit em)) : ∀ (frags : List (List Rune)) (buf : List Rune),
    hmmLoop d refuseHan frags buf = none → hmmLoop d (fun t => hmmCut c em t []) frags buf ≠ none → Asks m .emit (hmmLoopP c [] frags buf : Prog F D _)
  | [], buf, hb, hr => asks_flushBuf c h buf hb hr
  | frag :: rest, buf, hb, hr => by
    simp only [hmmLoop] at hb hr
    simp only [hmmLoopP]
    split at hb
    · next h1 =>
      rw [if_pos h1] at hr ⊢
      exact asks_hmmLoop h he rest _ hb hr
    · next h1 =>
      rw [if_neg h1] at hr ⊢
      split at hr
      · exact absurd rfl hr
      · next o ho =>
        have hR : ∀ a, Reads (do let r ← hmmLoopP c [] rest []; .ret (a ++ encode frag :: r) : Prog F D (List Bytes)) :=
          fun a => (reads_hmmLoop ..).bind fun _ => reads_ret _
        split at hb
        · next hf => exact asks_left (asks_flushBuf c h buf hf (by rw [ho]; simp)) hR
        · next o' hf =>
          refine asks_right (yields_flushBuf c h he [] buf o ho) (reads_flushBuf ..) hR (asks_left (asks_hmmLoop h he rest [] ?_ ?_) fun _ => reads_ret _)
          · simpa using hb
          · intro e; rw [e] at hr; exact hr rfl

/-- `Cut` reads the model when it hands over a text with a Han character. -/
theorem asks_cutDAG [U : Unicode] [UnicodeOK] (h : HoldsDict m cfg d) (he : m .emit = some (.emit em)) (s : Bytes)
    (hb : cutDAG cfg d refuseHan s = none) (hr : cutDAGHmm cfg d c em s [] ≠ none) : Asks m .emit (cutDAGP c s [] : Prog F D _) := by
  simp only [cutDAGHmm, cutDAG] at hb hr
  split at hr
  · exact absurd rfl hr
  · next routes hc =>
    rw [hc] at hb
    simp only at hb
    cases hw : walk (dagRunes cfg s) routes (dagRunes cfg s).length 0 with
    | none => rw [hw] at hr; exact absurd rfl hr
    | some frags =>
      rw [hw] at hb hr
      have hR : ∀ cfg : SplitCfg, ∀ routes : List (Nat × Route F), Reads (do
          let frags ← liftP (walk (dagRunes cfg s) routes (dagRunes cfg s).length 0); hmmLoopP c [] frags [] : Prog F D (List Bytes)) :=
        fun _ _ => (reads_lift _).bind fun _ => reads_hmmLoop ..
      refine asks_right (yields_flags h.segmenter.flags) reads_flags (fun _ => (reads_calcRoutes _).bind fun _ => hR _ _) ?_
      refine asks_right (yields_calcRoutes h _ routes hc) (reads_calcRoutes _) (fun _ => hR _ _) ?_
      exact asks_right (yields_lift hw) (reads_lift _) (fun _ => reads_hmmLoop ..) (asks_hmmLoop c h he frags [] hb hr)

end

end Gse
