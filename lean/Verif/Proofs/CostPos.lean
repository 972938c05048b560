import Verif.Proofs.CostCut
import Verif.Proofs.CostCalc
import Verif.Proofs.PosMem

/-!
# How much work `Cut` of a tagger and `TextRank` do
-/

namespace Gse
open Prog Spec

set_option linter.unusedSectionVars false

variable {F D α β : Type} [F64 F] [F32 D] [Narrow F D]

theorem cap_value (w : Bytes) : Cap (valueP w : Prog F D (Nat × Bool)) 3 (fun _ => True) := by
  refine cap_bind 1 2 (by omega) (cap_rdBool _) fun nil _ => cap_ite trivial ?_
  refine cap_bind 1 1 (by omega) cap_rdTrie fun t _ => ?_
  split
  · trivial
  · refine cap_bind 1 0 (by omega) cap_rdTrie fun t _ => ?_
    split <;> trivial

theorem cap_posOf (w : Bytes) : Cap (posOfP w : Prog F D (Option Bytes)) 6 (fun _ => True) := by
  refine cap_bind 3 3 (by omega) (cap_value w) fun x _ => cap_ite trivial ?_
  refine cap_bind 1 2 (by omega) (cap_rdBool _) fun nil _ => cap_ite trivial ?_
  refine cap_bind 1 1 (by omega) (cap_rdNat _) fun n _ => cap_ite ?_ trivial
  exact cap_bind 1 0 (by omega) (cap_rdTok _) fun _ _ => trivial

theorem cap_posItem (w : Bytes) : Cap (posItemP w : Prog F D SegPos) 6 (fun _ => True) :=
  cap_bind 6 0 (by omega) (cap_posOf w) fun _ _ => trivial

theorem cap_mapP {f : α → Prog F D β} {n : Nat} (hf : ∀ a, Cap (f a) n (fun _ => True)) : ∀ (l : List α), Cap (mapP f l) (n * l.length) (fun _ => True)
  | [] => trivial
  | a :: l => by
    refine cap_bind n (n * l.length) (by simp only [List.length_cons, Nat.mul_succ]; omega) (hf a) fun _ _ => ?_
    exact cap_bind _ 0 (by omega) (cap_mapP hf l) fun _ _ => trivial

theorem cap_posFlush (detail : Bytes → Option (List SegPos)) (buf : List Rune) : Cap (posFlushP (F := F) (D := D) detail buf) (10 * buf.length) (fun _ => True) := by
  unfold posFlushP
  split
  · trivial
  · split
    · exact cap_bind 6 0 (by omega) (cap_posItem _) fun _ _ => trivial
    · refine cap_bind 7 (6 * buf.length) (by omega) (cap_find _) fun x _ => cap_ite (cap_mono (fun _ h => h) _ (by omega) (cap_lift _)) ?_
      simpa using cap_mapP (F := F) (D := D) (f := posItemP) cap_posItem (buf.map encodeRune)

theorem cap_posHmmLoop (detail : Bytes → Option (List SegPos)) : ∀ (frags : List (List Rune)) (buf : List Rune),
    Cap (posHmmLoopP (F := F) (D := D) detail frags buf) (10 * (buf ++ frags.flatten).length + 6 * frags.length) (fun _ => True)
  | [], buf => by simpa [posHmmLoopP] using cap_posFlush detail buf
  | frag :: rest, buf => by
    unfold posHmmLoopP
    split
    · refine cap_mono (fun _ h => h) _ ?_ (cap_posHmmLoop detail rest (buf ++ frag))
      simp only [List.flatten_cons, List.length_append, List.length_cons]; omega
    · refine cap_bind (10 * buf.length) (6 + (10 * rest.flatten.length + 6 * rest.length)) ?_ (cap_posFlush detail buf) fun o _ => ?_
      · simp only [List.flatten_cons, List.length_append, List.length_cons]; omega
      · refine cap_bind 6 (10 * rest.flatten.length + 6 * rest.length) (by omega) (cap_posItem _) fun p _ => ?_
        exact cap_bind (10 * rest.flatten.length + 6 * rest.length) 0 (by omega) (by simpa using cap_posHmmLoop detail rest []) fun _ _ => trivial

theorem cap_posNoHmmLoop : ∀ (frags : List (List Rune)) (buf : List Rune),
    Cap (posNoHmmLoopP (F := F) (D := D) frags buf) (6 * frags.length) (fun _ => True)
  | [], _ => trivial
  | frag :: rest, buf => by
    unfold posNoHmmLoopP
    split
    · refine cap_mono (fun _ h => h) _ ?_ (cap_posNoHmmLoop rest (buf ++ frag))
      simp only [List.length_cons]; omega
    · refine cap_bind 6 (6 * rest.length) (by simp only [List.length_cons]; omega) (cap_posItem _) fun p _ => ?_
      exact cap_bind _ 0 (by omega) (cap_posNoHmmLoop rest []) fun _ _ => trivial

theorem walk_length (rs : List Rune) (routes : List (Nat × Route F)) : ∀ (n x : Nat) (frags : List (List Rune)), walk rs routes n x = some frags → frags.length ≤ n
  | 0, x, frags, h => by
    unfold walk at h
    split at h
    · cases h
    · simp only [Option.some.injEq] at h; subst h; simp
  | n + 1, x, frags, h => by
    unfold walk at h
    split at h
    · dsimp only at h
      split at h
      · obtain ⟨r, hr, rfl⟩ := Option.map_eq_some_iff.mp h
        have := walk_length rs routes n _ r hr
        simp only [List.length_cons]; omega
      · cases h
    · simp only [Option.some.injEq] at h; subst h; simp

section
variable {m : Mem F D} {cfg : SplitCfg} {d : Dictionary F D} {M : Nat}

theorem takes_posRoutes (h : HoldsDict m cfg d) (hM : KnownUpTo d M) (rs : List Rune) (r : List (Nat × Route F)) (hr : posRoutes d rs = some r) :
    takes m (posRoutesP (F := F) (D := D) rs) (14 * rs.length * (M + 1)) := by
  unfold posRoutes at hr
  split at hr
  · cases hr
  · next dag hd =>
    obtain ⟨g1, g2⟩ := takes_getDag h hM rs dag hd
    exact takes_bind _ (rs.length * (7 * (M + 1))) (by apply le_of_eq; ring) g1 (yields_getDag h rs dag hd) (cap_calcLoop rs _ dag g2 _ _).within

variable [Unicode]

/-- What one block costs: the routes, and sixteen for each character. -/
theorem takes_posFun (h : HoldsDict m cfg d) (hM : KnownUpTo d M) (detail : Bytes → Option (List SegPos)) (text : Bytes) (hmm : Bool) (o : List SegPos)
    (ho : (if hmm then posCutDAG d detail else posCutNoHMM d) text = some o) :
    takes m ((if hmm then posCutDAGP (F := F) (D := D) detail else posCutNoHMMP) text) (14 * (runes text).length * (M + 1) + 16 * (runes text).length) := by
  cases hmm with
  | true =>
    simp only [if_true] at ho ⊢
    unfold posCutDAG at ho
    split at ho
    · cases ho
    · next routes hc =>
      obtain ⟨frags, hf, hl⟩ := Option.bind_eq_some_iff.mp ho
      have h1 := walk_flatten _ _ _ _ _ hf
      have h2 := walk_length _ _ _ _ _ hf
      refine takes_bind _ (16 * (runes text).length) (by omega) (takes_posRoutes h hM _ routes hc) (yields_posRoutes h _ routes hc) ?_
      refine takes_bind 0 (16 * (runes text).length) (by omega) (cap_lift _).within (yields_lift hf) ?_
      refine (cap_mono (fun _ h => h) _ ?_ (cap_posHmmLoop detail frags [])).within
      rw [List.nil_append, h1, List.drop_zero]; omega
  | false =>
    simp only [Bool.false_eq_true, if_false] at ho ⊢
    unfold posCutNoHMM at ho
    split at ho
    · cases ho
    · next routes hc =>
      obtain ⟨frags, hf, hl⟩ := Option.bind_eq_some_iff.mp ho
      have h2 := walk_length _ _ _ _ _ hf
      refine takes_bind _ (16 * (runes text).length) (by omega) (takes_posRoutes h hM _ routes hc) (yields_posRoutes h _ routes hc) ?_
      refine takes_bind 0 (16 * (runes text).length) (by omega) (cap_lift _).within (yields_lift hf) ?_
      exact (cap_mono (fun _ h => h) _ (by omega) (cap_posNoHmmLoop frags [])).within

/-- The characters of a block that are looked up. -/
def blockAsks (blk : Bytes) : Nat := if (reHanInternal blk).isSome then (runes blk).length else 0

/-- The blocks of a text have the characters of the text that are looked up. -/
theorem blocks_asks {s : Bytes} {l : List Bytes} (h : Blocks reHanInternal s l) :
    (l.map blockAsks).sum = (chars s).countP fun u => hanInternalClass (charRune u) := by
  induction h with
  | @last s hn =>
    rcases classRun_spec hanInternalClass s with ⟨_, e⟩ | ⟨a, b, us, e, _⟩
    · simp only [List.map_cons, List.map_nil, List.sum_cons, List.sum_nil, blockAsks, hn, Option.isSome_none, Bool.false_eq_true, if_false]
      symm
      rw [Nat.add_zero, List.countP_eq_zero]
      intro u hu; rw [e u hu]; simp
    · rw [show classRun hanInternalClass s = none from hn] at e; cases e
  | @next s a b l hm _ ih =>
    rcases classRun_spec hanInternalClass s with ⟨e, _⟩ | ⟨a', b', us, e, _, _, hc, hus, hpre, hne, hall, _⟩
    · rw [show classRun hanInternalClass s = some (a, b) from hm] at e; cases e
    · rw [show classRun hanInternalClass s = some (a, b) from hm] at e; cases e
      have h1 : blockAsks (s.take a) = 0 := by
        have : (reHanInternal (s.take a)).isSome = false := by
          show (classRun hanInternalClass (s.take a)).isSome = false
          rw [classRun_isSome, List.any_eq_false]
          intro u hu; rw [hpre u hu]; simp
        simp [blockAsks, this]
      have h2 : blockAsks (slice s a b) = us.length := by
        have : (reHanInternal (slice s a b)).isSome = true := by
          show (classRun hanInternalClass (slice s a b)).isSome = true
          rw [classRun_isSome, ← hus]
          obtain ⟨u, us', rfl⟩ := List.exists_cons_of_ne_nil hne
          rw [List.any_eq_true]
          exact ⟨u, by simp, hall u (by simp)⟩
        simp only [blockAsks, this, if_true]
        rw [runes_eq_chars, ← hus, List.length_map]
      have h3 : (chars (s.take a)).countP (fun u => hanInternalClass (charRune u)) = 0 := by
        rw [List.countP_eq_zero]; intro u hu; rw [hpre u hu]; simp
      have h4 : us.countP (fun u => hanInternalClass (charRune u)) = us.length := List.countP_eq_length.mpr hall
      rw [List.map_cons, List.map_cons, List.sum_cons, List.sum_cons, h1, h2, ih, hc, List.countP_append, List.countP_append, h3, h4]
      omega

theorem takes_posBlock (h : HoldsDict m cfg d) (hM : KnownUpTo d M) (detail : Bytes → Option (List SegPos)) (blk : Bytes) (hmm : Bool) (o : List SegPos)
    (ho : posBlock (if hmm then posCutDAG d detail else posCutNoHMM d) blk = some o) :
    takes m (posBlockP (F := F) (D := D) (if hmm then posCutDAGP detail else posCutNoHMMP) blk) ((14 * (M + 1) + 16) * blockAsks blk) := by
  unfold posBlock at ho
  unfold posBlockP blockAsks
  split at ho
  · next h1 =>
    rw [if_pos h1, if_pos h1]
    exact within_mono _ _ (le_of_eq (by ring)) (takes_posFun h hM detail blk hmm o ho)
  · next h1 =>
    rw [if_neg h1]
    obtain ⟨xs, hx, rfl⟩ := Option.map_eq_some_iff.mp ho
    exact takes_bind 0 0 (by omega) (cap_lift _).within (yields_lift hx) trivial

theorem takes_mapSum {f : Bytes → Prog F D β} {g : Bytes → Option β} {n : Nat} {k : Bytes → Nat} (hf : ∀ a b, g a = some b → takes m (f a) (n * k a))
    (hy : ∀ a b, g a = some b → Yields m (f a) b) : ∀ (l : List Bytes) (bs : List β), mapOpt g l = some bs → takes m (mapP f l) (n * (l.map k).sum)
  | [], _, _ => trivial
  | a :: l, bs, h => by
    simp only [mapOpt, Option.bind_eq_bind, Option.bind_eq_some_iff, Option.some.injEq] at h
    obtain ⟨b, hb, bs', hbs, rfl⟩ := h
    refine takes_bind (n * k a) (n * (l.map k).sum) (by rw [List.map_cons, List.sum_cons, Nat.mul_add]) (hf a b hb) (hy a b hb) ?_
    exact takes_bind _ 0 (by omega) (takes_mapSum hf hy l bs' hbs) (yields_map hy l bs' hbs) trivial

theorem yields_posBlock (h : HoldsDict m cfg d) (detail : Bytes → Option (List SegPos)) (blk : Bytes) (hmm : Bool) (r : List SegPos)
    (hr : posBlock (if hmm then posCutDAG d detail else posCutNoHMM d) blk = some r) :
    Yields m (posBlockP (F := F) (D := D) (if hmm then posCutDAGP detail else posCutNoHMMP) blk) r := by
  unfold posBlock at hr
  unfold posBlockP
  split at hr
  · next h1 =>
    rw [if_pos h1]
    cases hmm with
    | true => exact yields_posCutDAG h _ blk r hr
    | false => exact yields_posCutNoHMM h blk r hr
  · next h1 =>
    rw [if_neg h1]
    obtain ⟨xs, hx, rfl⟩ := Option.map_eq_some_iff.mp hr
    exact yields_bind (yields_lift hx) rfl

/-- The characters of a text that are looked up. -/
def textAsks (s : Bytes) : Nat := (chars s).countP fun u => hanInternalClass (charRune u)

theorem takes_posCut (h : HoldsDict m cfg d) (hM : KnownUpTo d M) (ch : Choice) (T : PosTables F) (text : Bytes) (hmm : Bool) (o : List SegPos)
    (ho : posCut ch T d text hmm = some o) : takes m (posCutP (F := F) (D := D) ch T text hmm) ((14 * (M + 1) + 16) * textAsks text) := by
  obtain ⟨blks, hb, ho'⟩ := Option.bind_eq_some_iff.mp ho
  obtain ⟨os, ho2, rfl⟩ := Option.map_eq_some_iff.mp ho'
  obtain ⟨blks', hb', hB⟩ := splitBy_blocks (m := reHanInternal) (classRun_range hanInternalClass) text
  rw [hb] at hb'; cases hb'
  have hfl := blocks_asks hB
  refine takes_bind 0 ((14 * (M + 1) + 16) * textAsks text) (by omega) (cap_lift _).within (yields_lift hb) ?_
  rw [textAsks, ← hfl]
  exact takes_bind _ 0 (by omega) (takes_mapSum (fun blk r hr => takes_posBlock h hM _ blk hmm r hr) (fun blk r hr => yields_posBlock h _ blk hmm r hr) blks os ho2)
    (yields_map (fun blk r hr => yields_posBlock h _ blk hmm r hr) blks os ho2) trivial

theorem takes_textRank (h : HoldsDict m cfg d) (hM : KnownUpTo d M) (ch' ch : Choice) (K : RankConst F) (T : PosTables F) (text : Bytes) (topK : Int) (allow : List Bytes)
    (o : List (WordWeight F)) (ho : textRankWithPOS ch' ch K T d text topK allow = some o) :
    takes m (textRankP (F := F) (D := D) ch' ch K T text topK allow) ((14 * (M + 1) + 16) * textAsks text) := by
  obtain ⟨pairs, hp, rfl⟩ := Option.map_eq_some_iff.mp ho
  exact takes_bind _ 0 (by omega) (takes_posCut h hM ch' T text true pairs hp) (yields_posCut h ch' T text true pairs hp) trivial

end

/-! ## From below -/

theorem least_rd {f : Cell F D → Prog F D α} (l : Loc) (n : Nat) (h : ∀ c, Least (f c) n) : Least (.read l f) (n + 1) := fun c => by simpa using h c

theorem least_rdBool (l : Loc) : Least (rdBool l : Prog F D Bool) 1 := fun c => by cases c <;> trivial
theorem least_rdTrie : Least (rdTrie : Prog F D Trie) 1 := fun c => by cases c <;> trivial

theorem least_find (w : Bytes) : Least (findP w : Prog F D (F × Bytes × Bool)) 2 := by
  refine least_bind 1 1 (by omega) (least_rdBool _) fun nil => ?_
  split
  · trivial
  · exact least_bind 1 0 (by omega) least_rdTrie fun _ => least_zero _

theorem least_dagAt (rs : List Rune) (k : Nat) : Least (dagAtP (F := F) (D := D) rs k) 2 := by
  refine least_bind 2 0 (by omega) ?_ fun _ => least_zero _
  unfold dagEndsP
  split
  · trivial
  · exact least_bind 2 0 (by omega) (least_find _) fun _ => least_zero _

theorem least_map {f : α → Prog F D β} {k : α → Nat} (hf : ∀ a, Least (f a) (k a)) : ∀ (l : List α), Least (mapP f l) (l.map k).sum
  | [] => rfl
  | a :: l => least_bind (k a) (l.map k).sum (by simp) (hf a) fun _ => least_bind _ 0 (by omega) (least_map hf l) fun _ => least_zero _

theorem least_getDag (rs : List Rune) : Least (getDagP (F := F) (D := D) rs) (2 * rs.length) := by
  have := least_map (f := dagAtP (F := F) (D := D) rs) (fun k => least_dagAt rs k) (List.range rs.length)
  rw [List.map_const', List.sum_replicate, List.length_range, smul_eq_mul, Nat.mul_comm] at this
  exact this

theorem least_posRoutes (rs : List Rune) : Least (posRoutesP (F := F) (D := D) rs) (2 * rs.length) := least_bind _ 0 (by omega) (least_getDag rs) fun _ => least_zero _

theorem least_posBlock [Unicode] (detail : Bytes → Option (List SegPos)) (blk : Bytes) (hmm : Bool) :
    Least (posBlockP (F := F) (D := D) (if hmm then posCutDAGP detail else posCutNoHMMP) blk) (2 * blockAsks blk) := by
  unfold posBlockP blockAsks
  split
  · cases hmm <;> exact least_bind _ 0 (by omega) (least_posRoutes _) fun _ => least_zero _
  · exact least_zero _

theorem least_posCut [Unicode] (ch : Choice) (T : PosTables F) (text : Bytes) (hmm : Bool) : Least (posCutP (F := F) (D := D) ch T text hmm) (2 * textAsks text) := by
  obtain ⟨blks, hb, hB⟩ := splitBy_blocks (m := reHanInternal) (classRun_range hanInternalClass) text
  have hfl := blocks_asks hB
  have key : ∀ l : List Bytes, (l.map fun b => 2 * blockAsks b).sum = 2 * (l.map blockAsks).sum := by
    intro l
    induction l with
    | nil => rfl
    | cons a l ih => simp only [List.map_cons, List.sum_cons, ih]; omega
  unfold posCutP
  rw [hb, textAsks, ← hfl, ← key]
  show Least (mapP (posBlockP (if hmm then posCutDAGP (cutDetail ch T) else posCutNoHMMP)) blks >>= fun os => .ret os.flatten) _
  exact least_bind _ 0 (by omega) (least_map (fun b => least_posBlock _ b hmm) blks) fun _ => least_zero _

section
variable [Unicode] (c : HmmConst F)

theorem least_calcRoutes (rs : List Rune) : Least (calcRoutesP (F := F) (D := D) rs) (2 * rs.length) := least_bind _ 0 (by omega) (least_getDag rs) fun _ => least_zero _

theorem exceeds_flags {m : Mem F D} {cfg : SplitCfg} {f : SplitCfg → Prog F D β} {n : Nat} {d : Option (Dictionary F D)} (h : HoldsTable m cfg d) (hf : Least (f cfg) n) :
    exceeds m (rdFlags >>= f) (fun _ => none) n := by
  refine exceeds_bind 0 n (by omega) (Least.exceeds _ _ (least_zero _)) (wp_mono ?_ _ _ (yields_wp (fun _ _ _ => rfl) _ (yields_flags h.flags)))
  rintro _ _ ⟨rfl, rfl⟩
  exact Least.exceeds _ _ hf

variable {m : Mem F D} {cfg : SplitCfg} {d : Dictionary F D}

theorem exceeds_cutDAGNoHMM (h : HoldsDict m cfg d) (s : Bytes) : exceeds m (cutDAGNoHMMP (F := F) (D := D) s) (fun _ => none) (2 * (dagRunes cfg s).length) :=
  exceeds_flags h.segmenter (least_bind _ 0 (by omega) (least_calcRoutes _) fun _ => least_zero _)

theorem exceeds_cutDAG (h : HoldsDict m cfg d) (s : Bytes) (reg : List Matcher) : exceeds m (cutDAGP (F := F) (D := D) c s reg) (fun _ => none) (2 * (dagRunes cfg s).length) :=
  exceeds_flags h.segmenter (least_bind _ 0 (by omega) (least_calcRoutes _) fun _ => least_zero _)

theorem exceeds_cut (h : HoldsDict m cfg d) (s : Bytes) (hmm : Bool) : exceeds m (cutP (F := F) (D := D) c s hmm) (fun _ => none) (2 * (dagRunes cfg s).length) := by
  cases hmm with
  | false => exact exceeds_cutDAGNoHMM h s
  | true => exact exceeds_cutDAG c h s []

theorem exceeds_cutAll (h : HoldsDict m cfg d) (s : Bytes) : exceeds m (cutAllP (F := F) (D := D) s) (fun _ => none) (2 * (dagRunes cfg s).length) :=
  exceeds_flags h.segmenter (least_bind _ 0 (by omega) (least_getDag _) fun _ => least_zero _)

end
end Gse
