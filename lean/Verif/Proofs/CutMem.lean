import Verif.Model.CutMem
import Verif.Proofs.Race

/-!
# The programs of Model/CutMem.lean compute what the functions of Model/Dag.lean and Model/Hmm.lean compute
-/

namespace Gse
open Prog

set_option linter.unusedSectionVars false

variable {F D α β : Type}

/-- The program only reads, only from `m`, does not panic, and ends with `v`. -/
def Yields (m : Mem F D) : Prog F D α → α → Prop
  | .ret a, v => a = v
  | .read l k, v => ∃ c, m l = some c ∧ Yields m (k c) v
  | _, _ => False

theorem yields_bind' {m : Mem F D} {f : α → Prog F D β} {a : α} {b : β} : ∀ (p : Prog F D α), Yields m p a → Yields m (f a) b →
    Yields m (p.bind f) b
  | .ret _, h, hf => by cases h; exact hf
  | .read _ k, ⟨c, hc, h⟩, hf => ⟨c, hc, yields_bind' (k c) h hf⟩
  | .panic, h, _ => h.elim
  | .write .., h, _ => h.elim
  | .alloc .., h, _ => h.elim

theorem yields_bind {m : Mem F D} {f : α → Prog F D β} {a : α} {b : β} {p : Prog F D α} (h : Yields m p a) (hf : Yields m (f a) b) :
    Yields m (p >>= f) b := yields_bind' p h hf

theorem yields_wp {sh o : Mem F D} (ha : Apart sh o) {v : α} : ∀ (p : Prog F D α), Yields sh p v → wp sh p o (fun r o' => r = v ∧ o' = o)
  | .ret _, h => ⟨h, rfl⟩
  | .read _ k, ⟨c, hc, h⟩ => ⟨c, view_shared ha hc, yields_wp ha (k c) h⟩
  | .panic, h => h.elim
  | .write .., h => h.elim
  | .alloc .., h => h.elim

/-- The program reads `l` at some time, all it reads before coming from `m`, and writes nothing afterwards whatever it reads. -/
def Asks (m : Mem F D) (l : Loc) : Prog F D α → Prop
  | .read l' k => (l' = l ∧ ∀ c o, Quiet (k c) o) ∨ (l' ≠ l ∧ ∃ c, m l' = some c ∧ Asks m l (k c))
  | _ => False

/-- The program only reads. -/
def Reads : Prog F D α → Prop
  | .ret _ => True
  | .panic => True
  | .read _ k => ∀ c, Reads (k c)
  | _ => False

theorem Reads.quiet : ∀ (p : Prog F D α) (o : Mem F D), Reads p → Quiet p o
  | .ret _, _, _ => trivial
  | .panic, _, _ => trivial
  | .read _ k, o, h => fun c => Reads.quiet (k c) o (h c)
  | .write .., _, h => h.elim
  | .alloc .., _, h => h.elim

theorem Reads.bind' {f : α → Prog F D β} : ∀ (p : Prog F D α), Reads p → (∀ a, Reads (f a)) → Reads (p.bind f)
  | .ret a, _, hf => hf a
  | .panic, _, _ => trivial
  | .read _ k, h, hf => fun c => Reads.bind' (k c) (h c) hf
  | .write .., h, _ => h.elim
  | .alloc .., h, _ => h.elim

theorem Reads.bind {f : α → Prog F D β} {p : Prog F D α} (h : Reads p) (hf : ∀ a, Reads (f a)) : Reads (p >>= f) := Reads.bind' p h hf

/-- A program that ends differently when a location holds something else reads that location. -/
theorem asks_of_differ {m m1 m2 : Mem F D} {l : Loc} {v1 v2 : α} (h1 : ∀ l', l' ≠ l → m1 l' = m l') (h2 : ∀ l', l' ≠ l → m2 l' = m l')
    (hv : v1 ≠ v2) : ∀ (p : Prog F D α), Reads p → Yields m1 p v1 → Yields m2 p v2 → Asks m l p
  | .ret _, _, e1, e2 => absurd (e1.symm.trans e2) hv
  | .read l' k, hr, ⟨c1, hc1, e1⟩, ⟨c2, hc2, e2⟩ => by
    by_cases hl : l' = l
    · exact .inl ⟨hl, fun c o => (hr c).quiet _ o⟩
    · rw [h1 l' hl] at hc1
      rw [h2 l' hl, hc1] at hc2
      cases hc2
      exact .inr ⟨hl, c1, hc1, asks_of_differ h1 h2 hv (k c1) (hr c1) e1 e2⟩
  | .panic, _, h, _ => h.elim
  | .write .., h, _, _ => h.elim
  | .alloc .., h, _, _ => h.elim

/-- Where the rest stays as it is, a program that asks for `l` reads it, whatever happens to `l` meanwhile. -/
theorem asks_obeys {m : Mem F D} {R : Rely F D} {l : Loc} (hR : ∀ l' c, l' ≠ l → m l' = some c → R.loc l' ∧ ∀ y, R.val l' y → y = c) :
    ∀ (p : Prog F D α) (done : Bool), Asks m l p → Obeys R (.rd l) done p (fun _ => none)
  | .read l' k, done, h => by
    rcases h with ⟨hl, h⟩ | ⟨hl, c, hc, h⟩
    · exact .inl ⟨.inr (by rw [hl]), (fun l' h => by simp at h), fun c => h c _⟩
    · refine .inr (.inr ⟨rfl, (hR l' c hl hc).1, fun y hy => ?_⟩)
      rw [(hR l' c hl hc).2 y hy]
      exact asks_obeys hR (k c) _ h
  | .ret _, _, h => h.elim
  | .panic, _, h => h.elim
  | .write .., _, h => h.elim
  | .alloc .., _, h => h.elim

/-! ## Single accesses -/

section
variable {m : Mem F D}

theorem yields_bool {l : Loc} {b : Bool} (h : m l = some (.bool b)) : Yields m (rdBool l) b := ⟨_, h, rfl⟩

theorem yields_nat {l : Loc} {n : Nat} (h : m l = some (.nat n)) : Yields m (rdNat l) n := ⟨_, h, rfl⟩

theorem yields_trie {t : Trie} (h : m .trie = some (.trie t)) : Yields m rdTrie t := ⟨_, h, rfl⟩

theorem yields_tok {i : Nat} {t : MTok F} (h : m (.tok i) = some (.token t)) : Yields m (rdTok i) t := ⟨_, h, rfl⟩

theorem yields_flags {c : SplitCfg} (h : m .flags = some (.flags c)) : Yields m rdFlags c := ⟨_, h, rfl⟩

theorem yields_freq {l : Loc} {x : F} (h : m l = some (.freq x)) : Yields m (rdFreq l) x := ⟨_, h, rfl⟩

theorem yields_emit {em : EmitModel F} (h : m .emit = some (.emit em)) : Yields m rdEmit em := ⟨_, h, rfl⟩

theorem yields_lift {a : α} {x : Option α} (h : x = some a) : Yields m (liftP x) a := by subst h; rfl

theorem yields_map {f : α → Prog F D β} {g : α → Option β} (hf : ∀ a b, g a = some b → Yields m (f a) b) : ∀ (l : List α) (bs : List β),
    mapOpt g l = some bs → Yields m (mapP f l) bs
  | [], bs, h => by simpa [mapOpt, mapP, Yields] using h
  | a :: l, bs, h => by
    simp only [mapOpt, Option.bind_eq_bind, Option.bind_eq_some_iff, Option.some.injEq] at h
    obtain ⟨b, hb, bs', hbs, rfl⟩ := h
    exact yields_bind (hf a b hb) (yields_bind (yields_map hf l bs' hbs) rfl)

end

variable [F64 F] [F32 D] [Narrow F D]

section
variable {m : Mem F D} {cfg : SplitCfg} {d : Dictionary F D}

theorem yields_find (h : HoldsDict m cfg d) {w : Bytes} {x : F × Bytes × Bool} (hx : d.find w = some x) : Yields m (findP w) x := by
  have hS := h.segmenter
  unfold Dictionary.find at hx
  refine yields_bind (yields_bool hS.segDict) ?_
  refine yields_bind (yields_trie (hS.trie d rfl)) ?_
  split at hx
  · next hj => rw [hj]; simpa [Yields] using hx
  · next id hj =>
    rw [hj]
    refine yields_bind (yields_trie (hS.trie d rfl)) ?_
    split at hx
    · next hv =>
      rw [hv]
      simp only
      split at hx <;> simp_all [Yields]
    · next v hv =>
      rw [hv]
      simp only
      split at hx
      · cases hx
      · next t ht =>
        have hlt := (List.getElem?_eq_some_iff.mp ht).1
        refine yields_bind (yields_nat (hS.tokHdr d rfl)) ?_
        rw [if_pos hlt]
        refine yields_bind (yields_tok (hS.tok d rfl v t ht)) ?_
        refine yields_bind (yields_nat (hS.tokHdr d rfl)) ?_
        rw [if_pos hlt]
        refine yields_bind (yields_tok (hS.tok d rfl v t ht)) ?_
        simpa [Yields] using hx

theorem yields_dagEnds (h : HoldsDict m cfg d) (rs : List Rune) (k : Nat) : ∀ (n i : Nat) (l : List Nat), dagEnds d rs k n i = some l →
    Yields m (dagEndsP (F := F) (D := D) rs k n i) l
  | 0, _, _, hl => by cases hl
  | n + 1, i, l, hl => by
    simp only [dagEnds, findRunes] at hl
    split at hl
    · cases hl
    · next freq pos ok hf =>
      refine yields_bind (yields_find h hf) ?_
      simp only
      split at hl
      · next ho => rw [if_pos ho]; simpa [Yields] using hl
      · next ho =>
        rw [if_neg ho]
        split at hl
        · next hi => rw [if_pos hi]; simpa [Yields] using hl
        · next hi =>
          rw [if_neg hi]
          obtain ⟨r, hr, rfl⟩ := Option.map_eq_some_iff.mp hl
          exact yields_bind (yields_dagEnds h rs k n (i + 1) r hr) rfl

theorem yields_dagAt (h : HoldsDict m cfg d) (rs : List Rune) (k : Nat) (l : List Nat) (hl : dagAt d rs k = some l) :
    Yields m (dagAtP (F := F) (D := D) rs k) l := by
  obtain ⟨r, hr, rfl⟩ := Option.map_eq_some_iff.mp hl
  exact yields_bind (yields_dagEnds h rs k _ _ r hr) rfl

theorem yields_getDag (h : HoldsDict m cfg d) (rs : List Rune) (l : List (List Nat)) (hl : getDag d rs = some l) :
    Yields m (getDagP (F := F) (D := D) rs) l := yields_map (yields_dagAt h rs) _ _ hl

theorem yields_routeCand (h : HoldsDict m cfg d) (rs : List Rune) (logT : F) (idx i : Nat) (rest : F) (r : Route F)
    (hr : routeCand d rs logT idx i rest = some r) : Yields m (routeCandP (F := F) (D := D) rs logT idx i rest) r := by
  simp only [routeCand, findRunes] at hr
  split at hr
  · cases hr
  · next freq pos ok hf =>
    refine yields_bind (yields_find h hf) ?_
    simpa [Yields] using hr

theorem yields_routeAt (h : HoldsDict m cfg d) (rs : List Rune) (logT : F) (idx : Nat) (routes : List (Nat × Route F)) :
    ∀ (is : List Nat) (v r : Option (Route F)), routeAt d rs logT idx routes is v = some r →
      Yields m (routeAtP (F := F) (D := D) rs logT idx routes is v) r
  | [], v, r, hr => by simpa [routeAt, routeAtP, Yields] using hr
  | i :: is, v, r, hr => by
    simp only [routeAt] at hr
    split at hr
    · cases hr
    · next c hc => exact yields_bind (yields_routeCand h rs logT idx i _ c hc) (yields_routeAt h rs logT idx routes is _ r hr)

theorem yields_calcLoop (h : HoldsDict m cfg d) (rs : List Rune) (logT : F) (dag : List (List Nat)) :
    ∀ (k : Nat) (routes r : List (Nat × Route F)), calcLoop d rs logT dag k routes = some r →
      Yields m (calcLoopP (F := F) (D := D) rs logT dag k routes) r
  | 0, routes, r, hr => by simpa [calcLoop, calcLoopP, Yields] using hr
  | k + 1, routes, r, hr => by
    simp only [calcLoop] at hr
    split at hr
    · cases hr
    · next hc => exact yields_bind (yields_routeAt h rs logT k routes _ _ _ hc) (yields_calcLoop h rs logT dag k _ r hr)
    · next hc => exact yields_bind (yields_routeAt h rs logT k routes _ _ _ hc) (yields_calcLoop h rs logT dag k _ r hr)

theorem yields_calcRoutes (h : HoldsDict m cfg d) (rs : List Rune) (r : List (Nat × Route F)) (hr : calcRoutes d rs = some r) :
    Yields m (calcRoutesP (F := F) (D := D) rs) r := by
  simp only [calcRoutes] at hr
  split at hr
  · cases hr
  · next dag hd =>
    refine yields_bind (yields_getDag h rs dag hd) ?_
    refine yields_bind (yields_bool h.segmenter.segDict) ?_
    exact yields_bind (yields_freq h.totalFreq) (yields_calcLoop h rs _ dag _ _ r hr)

theorem yields_cutDAGNoHMM [Unicode] (h : HoldsDict m cfg d) (s : Bytes) (r : List Bytes) (hr : cutDAGNoHMM cfg d s = some r) :
    Yields m (cutDAGNoHMMP (F := F) (D := D) s) r := by
  simp only [cutDAGNoHMM] at hr
  split at hr
  · cases hr
  · next routes hc =>
    obtain ⟨frags, hf, rfl⟩ := Option.map_eq_some_iff.mp hr
    refine yields_bind (yields_flags h.segmenter.flags) ?_
    refine yields_bind (yields_calcRoutes h _ routes hc) ?_
    exact yields_bind (yields_lift hf) rfl

theorem yields_cutAll [Unicode] (h : HoldsDict m cfg d) (s : Bytes) (r : List Bytes) (hr : cutAll cfg d s = some r) :
    Yields m (cutAllP (F := F) (D := D) s) r := by
  obtain ⟨dag, hd, rfl⟩ := Option.map_eq_some_iff.mp hr
  refine yields_bind (yields_flags h.segmenter.flags) ?_
  exact yields_bind (yields_getDag h _ dag hd) rfl

/-! ## The hidden Markov model -/

variable {em : EmitModel F} (c : HmmConst F)

theorem yields_vtbFirst (he : m .emit = some (.emit em)) (r : Rune) : Yields m (vtbFirstP (F := F) (D := D) c r) (vtbFirst c em r) := by
  have h : ∀ y, Yields m (vtbStartP (F := F) (D := D) c r y) (vtbStart c em r y) := fun y => yields_bind (yields_emit he) rfl
  exact yields_bind (h _) (yields_bind (h _) (yields_bind (h _) (yields_bind (h _) rfl)))

theorem yields_vtbStep (he : m .emit = some (.emit em)) (col : Column F) (r : Rune) :
    Yields m (vtbStepP (F := F) (D := D) c col r) (vtbStep c em col r) := by
  have h : ∀ y, Yields m (vtbNextP (F := F) (D := D) c col r y) (vtbNext c em col r y) := fun y => yields_bind (yields_emit he) rfl
  exact yields_bind (h _) (yields_bind (h _) (yields_bind (h _) (yields_bind (h _) rfl)))

theorem yields_vtbLoop (he : m .emit = some (.emit em)) : ∀ (rs : List Rune) (col : Column F),
    Yields m (vtbLoopP (F := F) (D := D) c rs col) (rs.foldl (vtbStep c em) col)
  | [], _ => rfl
  | r :: rs, col => yields_bind (yields_vtbStep c he col r) (yields_vtbLoop he rs _)

theorem yields_viterbi (he : m .emit = some (.emit em)) (rs : List Rune) (p : F × List Tag) (hp : viterbi c em rs = some p) :
    Yields m (viterbiP (F := F) (D := D) c rs) p := by
  cases rs with
  | nil => cases hp
  | cons r rs =>
    refine yields_bind (yields_vtbFirst c he r) (yields_bind (yields_vtbLoop c he rs _) ?_)
    simpa [viterbi, Yields] using hp

theorem yields_internalCut (he : m .emit = some (.emit em)) (text : Bytes) (ws : List Bytes) (hw : internalCut c em text = some ws) :
    Yields m (internalCutP (F := F) (D := D) c text) ws := by
  obtain ⟨p, hp, ha⟩ := Option.bind_eq_some_iff.mp hw
  exact yields_bind (yields_viterbi c he _ p hp) (yields_lift ha)

theorem yields_hmmCutLoop (he : m .emit = some (.emit em)) (word skip : Matcher) : ∀ (n : Nat) (text : Bytes) (acc r : List Bytes),
    hmmCutLoop (internalCut c em) word skip n text acc = some (some r) → Yields m (hmmCutLoopP (F := F) (D := D) c word skip n text acc) r
  | 0, _, _, _, h => by cases h
  | n + 1, text, acc, r, h => by
    simp only [hmmCutLoop] at h
    simp only [hmmCutLoopP]
    split at h
    · next h1 => rw [if_pos h1]; simpa [Yields] using h
    · next h1 =>
      rw [if_neg h1]
      split at h
      · next h2 =>
        rw [if_pos h2]
        split at h
        · cases h
        · next ws hw => exact yields_bind (yields_internalCut c he _ ws hw) (yields_hmmCutLoop he word skip n _ _ r h)
      · next h2 =>
        rw [if_neg h2]
        split at h
        · next h3 => rw [if_pos h3]; simpa [Yields] using h
        · next h3 =>
          rw [if_neg h3]
          split at h
          · next h4 =>
            rw [if_pos h4]
            split at h
            · next h5 => rw [if_pos h5]; exact yields_hmmCutLoop he word skip n _ _ r h
            · next h5 =>
              rw [if_neg h5]
              unfold cutJudge at h
              split at h
              · next hj => rw [hj]; simpa [Yields] using h
              · next l hj => rw [hj]; exact yields_hmmCutLoop he word skip n _ _ r h
          · next h4 =>
            rw [if_neg h4]
            unfold cutJudge at h
            split at h
            · next hj => rw [hj]; simpa [Yields] using h
            · next l hj => rw [hj]; exact yields_hmmCutLoop he word skip n _ _ r h

theorem yields_hmmCut [Unicode] (he : m .emit = some (.emit em)) (text : Bytes) (reg : List Matcher) (r : List Bytes)
    (hr : hmmCut c em text reg = some r) : Yields m (hmmCutP (F := F) (D := D) c text reg) r := by
  refine yields_hmmCutLoop c he _ _ _ _ _ r ?_
  simpa [hmmCut, hmmCutWith, Option.join_eq_some_iff] using hr

theorem yields_flushBuf [Unicode] (h : HoldsDict m cfg d) (he : m .emit = some (.emit em)) (reg : List Matcher) (buf : List Rune) (r : List Bytes)
    (hr : flushBuf d (fun t => hmmCut c em t reg) buf = some r) : Yields m (flushBufP (F := F) (D := D) c reg buf) r := by
  unfold flushBuf at hr
  unfold flushBufP
  split at hr
  · next h1 => rw [if_pos h1]; simpa [Yields] using hr
  · next h1 =>
    rw [if_neg h1]
    split at hr
    · next h2 => rw [if_pos h2]; simpa [Yields] using hr
    · next h2 =>
      rw [if_neg h2]
      simp only [hmmBuf, findRunes] at hr
      split at hr
      · cases hr
      · next v pos ok hf =>
        refine yields_bind (yields_find h hf) ?_
        simp only
        split at hr
        · next h3 => rw [if_pos h3]; exact yields_hmmCut c he _ reg r hr
        · next h3 => rw [if_neg h3]; simpa [Yields] using hr

theorem yields_hmmLoop [Unicode] (h : HoldsDict m cfg d) (he : m .emit = some (.emit em)) (reg : List Matcher) : ∀ (frags : List (List Rune))
    (buf : List Rune) (r : List Bytes), hmmLoop d (fun t => hmmCut c em t reg) frags buf = some r → Yields m (hmmLoopP (F := F) (D := D) c reg frags buf) r
  | [], buf, r, hr => yields_flushBuf c h he reg buf r hr
  | frag :: rest, buf, r, hr => by
    simp only [hmmLoop] at hr
    simp only [hmmLoopP]
    split at hr
    · next h1 => rw [if_pos h1]; exact yields_hmmLoop h he reg rest _ r hr
    · next h1 =>
      rw [if_neg h1]
      split at hr
      · cases hr
      · next o ho =>
        obtain ⟨r', hr', rfl⟩ := Option.map_eq_some_iff.mp hr
        exact yields_bind (yields_flushBuf c h he reg buf o ho) (yields_bind (yields_hmmLoop h he reg rest [] r' hr') rfl)

theorem yields_cutDAG [Unicode] (h : HoldsDict m cfg d) (he : m .emit = some (.emit em)) (s : Bytes) (reg : List Matcher) (r : List Bytes)
    (hr : cutDAGHmm cfg d c em s reg = some r) : Yields m (cutDAGP (F := F) (D := D) c s reg) r := by
  simp only [cutDAGHmm, cutDAG] at hr
  split at hr
  · cases hr
  · next routes hc =>
    obtain ⟨frags, hf, hl⟩ := Option.bind_eq_some_iff.mp hr
    refine yields_bind (yields_flags h.segmenter.flags) ?_
    refine yields_bind (yields_calcRoutes h _ routes hc) ?_
    exact yields_bind (yields_lift hf) (yields_hmmLoop c h he reg frags [] r hl)

theorem yields_cut [Unicode] (h : HoldsDict m cfg d) (he : m .emit = some (.emit em)) (fuel : Nat) (s : Bytes) (hmm : Bool) (r : List Bytes)
    (hr : cut cfg d fuel (fun t => hmmCut c em t []) s (some hmm) = some r) : Yields m (cutP (F := F) (D := D) c s hmm) r := by
  cases hmm with
  | false => exact yields_cutDAGNoHMM h s r hr
  | true => exact yields_cutDAG c h he s [] r hr

theorem yields_gramsFrom (h : HoldsDict m cfg d) (rs : List Rune) (incr : Nat) : ∀ (is : List Nat) (r : List Bytes),
    gramsFrom d rs incr is = some r → Yields m (gramsFromP (F := F) (D := D) rs incr is) r
  | [], r, hr => by simpa [gramsFrom, gramsFromP, Yields] using hr
  | i :: is, r, hr => by
    simp only [gramsFrom, findRunes] at hr
    split at hr
    · cases hr
    · next v pos ok hf =>
      obtain ⟨r', hr', rfl⟩ := Option.map_eq_some_iff.mp hr
      exact yields_bind (yields_find h hf) (yields_bind (yields_gramsFrom h rs incr is r' hr') rfl)

theorem yields_grams (h : HoldsDict m cfg d) (rs : List Rune) (incr : Nat) (r : List Bytes) (hr : grams d rs incr = some r) :
    Yields m (gramsP (F := F) (D := D) rs incr) r := by
  unfold grams at hr
  unfold gramsP
  split at hr
  · next h1 => rw [if_pos h1]; simpa [Yields] using hr
  · next h1 => rw [if_neg h1]; exact yields_gramsFrom h rs incr _ r hr

theorem yields_searchWord (h : HoldsDict m cfg d) (w : Bytes) (r : List Bytes) (hr : searchWord d w = some r) :
    Yields m (searchWordP (F := F) (D := D) w) r := by
  unfold searchWord at hr
  split at hr
  · next a b ha hb =>
    cases hr
    exact yields_bind (yields_grams h _ 2 a ha) (yields_bind (yields_grams h _ 3 b hb) rfl)
  · cases hr

theorem yields_cutSearch [Unicode] (h : HoldsDict m cfg d) (he : m .emit = some (.emit em)) (fuel : Nat) (s : Bytes) (hmm : Bool) (r : List Bytes)
    (hr : cutSearch cfg d fuel (fun t => hmmCut c em t []) s (some hmm) = some r) : Yields m (cutSearchP (F := F) (D := D) c s hmm) r := by
  simp only [cutSearch, cutForSearch] at hr
  obtain ⟨ws, hw, h2⟩ := Option.bind_eq_some_iff.mp hr
  obtain ⟨l, hl, rfl⟩ := Option.map_eq_some_iff.mp h2
  exact yields_bind (yields_cut c h he fuel s hmm ws hw) (yields_bind (yields_map (yields_searchWord h) ws l hl) rfl)

end

end Gse
