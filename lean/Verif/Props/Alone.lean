import Verif.Spec.Alone
import Verif.Proofs.Alone
import Verif.Props.CostCalc

/-! # C114: what an execution without a data race is, and which calls cannot have one -/

namespace Gse
open Spec Trie Prog

set_option linter.unusedSectionVars false

section
variable {F D α : Type}

/-- **C114.** In an execution without a data race every goroutine made the accesses it makes alone, found what it finds alone, and none panicked;
and what is in memory at the end is what one of them would have left there alone, or what was there. -/
theorem C114_alone (c c' : Config F D α) (tr : List (Nat × Access)) (hx : Exec c tr c') (hrf : RaceFree tr) (hsafe : ∀ p ∈ c.threads, SafeAlone c.mem p)
    (i : Nat) (p : Prog F D α) (hp : c.threads[i]? = some p) :
    ∃ q a, c'.threads[i]? = some q ∧ q ≠ .panic ∧ Exec ⟨c.mem, [p]⟩ (ownAccesses i tr) ⟨a, [q]⟩ ∧
      (∀ l x, a l = some x → (∀ j, j ≠ i → (j, .wr l) ∉ tr) → c'.mem l = some x) := by
  obtain ⟨⟨a, ts⟩, run, ⟨q, hq, ha⟩, hin, hag⟩ := alone_exec hx hrf hsafe i p hp
  simp only at ha hin hag
  subst ha
  refine ⟨q, a, hq, ?_, run, fun l x hl hw => ?_⟩
  · rintro rfl
    exact hsafe p (List.mem_of_getElem? hp) _ _ run rfl
  · rw [← hag l (by rw [hl]; rfl) hw]; exact hl

theorem step_writes {c c' : Config F D α} {i : Nat} {e : Access} (h : Step c i e c') : ∀ l x, c.mem l = some x → e ≠ .wr l → c'.mem l = some x :=
  fun l x hl hne => by rw [step_keeps h l (by rw [hl]; rfl) hne]; exact hl

/-- **C114.** What was in memory and no goroutine wrote is there at the end. -/
theorem C114_unwritten (c c' : Config F D α) (tr : List (Nat × Access)) (hx : Exec c tr c') (l : Loc) (x : Cell F D) (hl : c.mem l = some x)
    (hw : ∀ j, (j, .wr l) ∉ tr) : c'.mem l = some x := by
  induction hx with
  | refl => exact hl
  | @step tr c1 j e c2 _ hst ih =>
    exact step_writes hst l x (ih fun j hj => hw j (List.mem_append_left _ hj)) (by rintro rfl; exact hw j (by simp))

theorem own_mem {i : Nat} {e : Access} {tr : List (Nat × Access)} (h : (0, e) ∈ ownAccesses i tr) : (i, e) ∈ tr := by
  simp only [ownAccesses, List.mem_map, List.mem_filter, beq_iff_eq] at h
  obtain ⟨⟨j, f⟩, ⟨h1, h2⟩, h3⟩ := h
  simp only at h2
  cases h3; subst h2; exact h1

/-- Two goroutines that alone make conflicting accesses race. -/
theorem makes_race {c c' : Config F D α} {tr : List (Nat × Access)} (hx : Exec c tr c') (hsafe : ∀ p ∈ c.threads, SafeAlone c.mem p)
    {i j : Nat} (hij : i ≠ j) {p q : Prog F D α} (hp : c.threads[i]? = some p) (hq : c.threads[j]? = some q) {e f : Access}
    (hme : Makes e false p c.mem) (hmf : Makes f false q c.mem) (hcf : Conflict e f) {x y : α} (hi : c'.threads[i]? = some (.ret x)) (hj : c'.threads[j]? = some (.ret y)) :
    ¬ RaceFree tr := by
  intro hrf
  have get : ∀ {i : Nat} {p : Prog F D α} {e : Access} {x : α}, c.threads[i]? = some p → Makes e false p c.mem → c'.threads[i]? = some (.ret x) → (i, e) ∈ tr := by
    intro i p e x hp hm hi
    obtain ⟨q, a, h1, _, h3, _⟩ := C114_alone c c' tr hx hrf hsafe i p hp
    rw [hi] at h1; cases h1
    obtain ⟨q, done, g1, g2, g3⟩ := alone_makes hm h3 fun c tr h => hsafe p (List.mem_of_getElem? hp) tr c h
    simp only [List.cons.injEq, and_true] at g1
    subst g1
    exact own_mem (g3 g2)
  exact hrf i e j f (get hp hme hi) (get hq hmf hj) hij hcf

end

section
variable {F D : Type} [F64 F] [F32 D] [Narrow F D] [Unicode]

theorem makes_here {α β : Type} (l : Loc) (done : Bool) (k : Cell F D → Prog F D α) (f : α → Prog F D β) (o : Mem F D) : Makes (.rd l) done (Prog.bind (.read l k) f) o := by
  intro c _
  rw [decide_eq_true rfl, Bool.or_true]
  exact makes_true _ _ _

theorem makes_put {β : Type} (l : Loc) (done : Bool) (x : Cell F D) (f : Unit → Prog F D β) (o : Mem F D) : Makes (.wr l) done (put l x >>= f) o := by
  show Makes (.wr l) (done || _) _ _
  rw [decide_eq_true rfl, Bool.or_true]
  exact makes_true _ _ _

theorem makes_dictAdd_rd (token : Token F D) (done : Bool) (o : Mem F D) : Makes (.rd .trie) done (dictAddP token) o := makes_here _ _ _ _ _

theorem makes_dictRemove_rd (token : Token F D) (done : Bool) (o : Mem F D) : Makes (.rd .trie) done (dictRemoveP token) o := makes_here _ _ _ _ _

theorem wp_rd {α : Type} {o : Mem F D} {l : Loc} {x : Cell F D} {k : Cell F D → Prog F D α} {Q : α → Mem F D → Prop} (h : o l = some x) (hk : wp noMem (k x) o Q) : wp noMem (.read l k) o Q :=
  ⟨x, by rw [view_noMem]; exact h, hk⟩

theorem makes_dictAdd_wr {o : Mem F D} {cfg : SplitCfg} {d : Dictionary F D} (hT : HoldsSegmenter o cfg (some d)) (hroom : HasRoom o d.tokens.length) (token : Token F D)
    (hnew : (d.addToken token).1.numTokens ≠ d.numTokens) {e : Access} (he : e = .wr .trie ∨ e = .wr .tokHdr) : Makes e false (dictAddP token) o := by
  have hg : d.trie.get (textSliceToBytes token.text) = none := by
    cases h : d.trie.get (textSliceToBytes token.text) with
    | none => rfl
    | some v => exact absurd (by simp [Dictionary.addToken, h]) hnew
  obtain ⟨t', ht'⟩ : ∃ t', d.trie.insert (textSliceToBytes token.text) d.tokens.length = some t' := by
    cases h : d.trie.insert (textSliceToBytes token.text) d.tokens.length with
    | none => exact absurd (by simp [Dictionary.addToken, hg, Dictionary.numTokens, h]) hnew
    | some v => exact ⟨v, rfl⟩
  refine makes_bind (wp_rd (hT.trie d rfl) (wp_ret ?_))
  rw [hg]
  refine makes_bind (wp_rd (hT.tokHdr d rfl) (wp_ret ?_))
  refine makes_bind (wp_rd (hT.trie d rfl) (wp_ret ?_))
  rw [ht']
  rcases he with rfl | rfl
  · exact makes_put _ _ _ _ _
  · refine makes_bind ⟨by rw [hT.trie d rfl]; rfl, wp_ret ?_⟩
    refine makes_bind (wp_rd (x := .nat d.tokens.length) (by rw [put_other _ _ (by simp)]; exact hT.tokHdr d rfl) (wp_ret ?_))
    refine makes_bind ⟨by rw [put_other _ _ (by simp)]; exact hroom.tok, wp_ret ?_⟩
    refine makes_bind ⟨by rw [put_other _ _ (by simp), put_other _ _ (by simp)]; exact hroom.dist, wp_ret ?_⟩
    refine makes_bind ⟨by rw [put_other _ _ (by simp), put_other _ _ (by simp), put_other _ _ (by simp)]; exact hroom.subs, wp_ret ?_⟩
    exact makes_put _ _ _ _ _

theorem makes_dictRemove_wr {o : Mem F D} {cfg : SplitCfg} {d d' : Dictionary F D} (hT : HoldsSegmenter o cfg (some d)) (token : Token F D)
    (h : d.removeToken token = some (d', false)) : Makes (.wr .trie) false (dictRemoveP token) o := by
  refine makes_bind (wp_rd (hT.trie d rfl) (wp_ret ?_))
  unfold Dictionary.removeToken at h
  split at h
  · cases h
  · next t' ht' => rw [ht']; exact makes_put _ _ _ _ _
  · cases h

/-- After the words of the text, the dictionary is there. -/
theorem makes_text {β : Type} {o : Mem F D} {cfg : SplitCfg} {d : Dictionary F D} (hS : HoldsSegmenter o cfg (some d)) {r : Slice} {s : Bytes} (ht : HoldsBytes o r s) (f : F) (p : Bytes)
    {e : Access} {k : Token F D → Prog F D β}
    (hk : ∀ o', HoldsSegmenter o' cfg (some d) → (∀ n, HasRoom o n → HasRoom o' n) → Makes e false (k (toToken cfg s f p)) o') :
    Makes e false (toTokenP r f p >>= fun token => rdBool .segDict >>= fun nil => if nil then .panic else k token) o := by
  refine makes_fresh (wp_toToken hS.flags ht (o := noMem) (fun _ _ _ => rfl)) ?_
  rintro _ x ⟨_, rfl⟩ ha
  have hg : ∀ l y, o l = some y → view o x l = some y := fun l y hl => by rw [view, ha l y hl]; exact hl
  refine makes_bind (wp_rd (hg _ _ hS.segDict) (wp_ret ?_))
  simp only [Option.isNone_some, Bool.false_eq_true, if_false]
  exact hk _ (hS.grow hg) fun n h => h.grow hg

theorem makes_calc_hdr {o : Mem F D} {cfg : SplitCfg} {d : Dictionary F D} (hS : HoldsSegmenter o cfg (some d)) (hf : o .totalFreq = some (.freq d.totalFreq)) :
    Makes (.rd .tokHdr) false (calcTokenP : Prog F D Unit) o := by
  refine makes_left ?_
  refine makes_bind (wp_rd hS.segDict (wp_ret ?_))
  simp only [Option.isNone_some, Bool.false_eq_true, if_false]
  refine makes_bind (wp_rd hf (wp_ret ?_))
  exact makes_here _ _ _ _ _

theorem makes_calc_dist {o : Mem F D} {cfg : SplitCfg} {d : Dictionary F D} (hS : HoldsSegmenter o cfg (some d)) (hf : o .totalFreq = some (.freq d.totalFreq))
    (hn : 0 < d.tokens.length) : Makes (.wr (.dist 0)) false (calcTokenP : Prog F D Unit) o := by
  refine makes_left ?_
  refine makes_bind (wp_rd hS.segDict (wp_ret ?_))
  simp only [Option.isNone_some, Bool.false_eq_true, if_false]
  refine makes_bind (wp_rd hf (wp_ret ?_))
  refine makes_bind (wp_rd (hS.tokHdr d rfl) (wp_ret ?_))
  obtain ⟨n, hn'⟩ : ∃ n, d.tokens.length = n + 1 := ⟨d.tokens.length - 1, by omega⟩
  rw [hn']
  refine makes_bind (wp_rd (hS.tokHdr d rfl) (wp_ret ?_))
  rw [if_pos hn]
  refine makes_bind (wp_rd (hS.tok d rfl 0 _ (List.getElem?_eq_getElem hn)) (wp_ret ?_))
  exact makes_put _ _ _ _ _

/-! ## The calls -/

theorem makes_op_trie {o : Mem F D} {cfg : SplitCfg} {d : Dictionary F D} {x : Slice × DictOp F} (h : HistoryOK o cfg d [x]) (hne : x.2 ≠ .recalc) :
    Makes (.rd .trie) false (x.2.prog x.1) o := by
  have ht := h.texts x (by simp) hne
  obtain ⟨r, op⟩ := x
  cases op with
  | add s f p => exact makes_text h.segmenter ht f p fun o' _ _ => makes_dictAdd_rd _ _ _
  | addForce s f p => exact makes_left (makes_text h.segmenter ht f p fun o' _ _ => makes_dictAdd_rd _ _ _)
  | remove s => exact makes_text h.segmenter ht _ _ fun o' _ _ => makes_dictRemove_rd _ _ _
  | reAdd s f p => exact makes_text h.segmenter ht f p fun o' _ _ => makes_left (makes_dictRemove_rd _ _ _)
  | recalc => exact absurd rfl hne

theorem makes_op_stores {o : Mem F D} {cfg : SplitCfg} {d : Dictionary F D} {x : Slice × DictOp F} (h : HistoryOK o cfg d [x]) (hs : StoresNew cfg d x.2) {e : Access}
    (he : e = .wr .trie ∨ e = .wr .tokHdr) : Makes e false (x.2.prog x.1) o := by
  have ht := h.texts x (by simp)
  obtain ⟨r, op⟩ := x
  obtain ⟨⟨s, f, p, ho⟩, d', b, hr, hn⟩ := hs
  simp only at ho hr ht
  have hroom : HasRoom o d.tokens.length := h.room 0 (by simp)
  rcases ho with rfl | rfl | rfl
  · have e1 := congrArg Prod.fst (Option.some.inj hr)
    simp only at e1
    rw [← e1] at hn
    exact makes_text h.segmenter (ht (by simp)) f p fun o' h1 h2 => makes_dictAdd_wr h1 (h2 _ hroom) _ hn he
  · simp only [DictOp.result, segAddTokenForce, Option.map_eq_some_iff] at hr
    obtain ⟨d1, h1, h2⟩ := hr
    cases h2
    have hn' : (d.addToken (toToken cfg s f p)).1.numTokens ≠ d.numTokens := fun e => hn (by
      have hl := congrArg List.length (calcToken_same h1).tokens
      simp only [List.length_map] at hl
      unfold Dictionary.numTokens at e ⊢
      exact hl.trans e)
    exact makes_left (makes_text h.segmenter (ht (by simp)) f p fun o' h1 h2 => makes_dictAdd_wr h1 (h2 _ hroom) _ hn' he)
  · simp only [DictOp.result, segReAddToken] at hr
    split at hr
    · cases hr
    · next h1 =>
      cases hr
      have hl := (grows_table_removed h1).length
      unfold Dictionary.numTokens at hn
      omega
    · next d1 h1 =>
      have e1 := congrArg Prod.fst (Option.some.inj hr)
      simp only at e1
      rw [← e1] at hn
      have hl := (grows_table_removed h1).length
      have hl' : d1.tokens.length = d.tokens.length := by omega
      refine makes_text h.segmenter (ht (by simp)) f p fun o' g1 g2 => makes_bind (wp_mono ?_ _ _ (wp_dictRemove g1 _ h1))
      rintro _ o2 ⟨rfl, k1, k2⟩
      simp only [Bool.false_eq_true, if_false]
      refine makes_bind (wp_rd k1.segDict (wp_ret ?_))
      simp only [Option.isNone_some, Bool.false_eq_true, if_false]
      have hr' := g2 _ hroom
      refine makes_dictAdd_wr k1 ?_ _ (by unfold Dictionary.numTokens at hn ⊢; rw [hl']; exact hn) he
      rw [hl']
      exact ⟨by rw [k2 _ (by simp)]; exact hr'.tok, by rw [k2 _ (by simp)]; exact hr'.dist, by rw [k2 _ (by simp)]; exact hr'.subs⟩

theorem removeToken_text {d : Dictionary F D} {t t' : Token F D} (h : t.text = t'.text) : d.removeToken t = d.removeToken t' := by
  simp only [Dictionary.removeToken, h]

theorem makes_op_takes {o : Mem F D} {cfg : SplitCfg} {d : Dictionary F D} {x : Slice × DictOp F} (h : HistoryOK o cfg d [x]) (hs : TakesOut cfg d x.2) :
    Makes (.wr .trie) false (x.2.prog x.1) o := by
  have ht := h.texts x (by simp)
  obtain ⟨r, op⟩ := x
  obtain ⟨⟨s, f, p, ho⟩, d', hr⟩ := hs
  simp only at ho hr ht
  rcases ho with rfl | rfl
  · exact makes_text h.segmenter (ht (by simp)) _ _ fun o' h1 _ => makes_dictRemove_wr h1 _ hr
  · refine makes_text h.segmenter (ht (by simp)) f p fun o' h2 _ => makes_left (makes_dictRemove_wr (d' := d') h2 _ ?_)
    rw [← hr]
    exact removeToken_text rfl

/-! `CalcToken` looks words up as soon as a token has more than one word -/

theorem makes_lookup {o : Mem F D} {a b cap k i : Nat} {id : Bytes} {num : Nat} {w : Slice} {bs : Bytes} (hw : o (.cell a i) = some (.word w)) (hb : HoldsBytes o w bs) :
    Makes (.rd .trie) false (lookupP a b cap (k + 1) i id num : Prog F D Nat) o := by
  refine makes_bind (wp_rd hw (wp_ret ?_))
  refine makes_bind ?_
  rw [← hb.1]
  refine wp_rdBytes _ bs _ (fun k b hk => by rw [view_noMem]; exact hb.2 k b hk) ?_
  exact makes_here _ _ _ _ _

theorem makes_segmentWords {o : Mem F D} {cfg : SplitCfg} {d : Dictionary F D} (hS : HoldsSegmenter o cfg (some d)) (hm : 0 < d.maxTokenLen) {r : Slice} {ws : List Bytes}
    (hl : r.len = ws.length) (hw : WordsAt o r.arr ws) (h2 : 1 < ws.length) : Makes (.rd .trie) false (segmentWordsP r true : Prog F D Slice) o := by
  unfold segmentWordsP
  rw [if_neg (by simp; omega)]
  refine makes_bind (wp_make fun j hj _ => ?_)
  have g1 : Grows o (o.extend j (List.replicate r.len (.jumper ⟨F32.zero, none⟩))) := fun l x hx => by rw [extend_unused _ hj hx]
  refine makes_bind (wp_rd (g1 _ _ hS.segDict) (wp_ret ?_))
  simp only [Option.isNone_some, Bool.false_eq_true, if_false]
  refine makes_bind (wp_rd (g1 _ _ (hS.maxLen d rfl)) (wp_ret ?_))
  refine makes_bind (wp_make fun b hb _ => ?_)
  have g2 : Grows o ((o.extend j (List.replicate r.len (Cell.jumper ⟨F32.zero, none⟩))).extend b (List.replicate d.maxTokenLen (.ref none))) :=
    fun l x hx => by rw [extend_unused _ hb (g1 l x hx)]
  generalize (o.extend j (List.replicate r.len (Cell.jumper ⟨F32.zero, none⟩))).extend b (List.replicate d.maxTokenLen (.ref none)) = o2 at g2 ⊢
  refine makes_left ?_
  obtain ⟨n, hn⟩ : ∃ n, r.len = n + 1 := ⟨r.len - 1, by omega⟩
  rw [hn]
  refine makes_left ?_
  unfold segStepP baseP
  rw [if_pos rfl]
  refine makes_bind (wp_ret ?_)
  refine makes_bind (wp_rd (g2 _ _ (hS.maxLen d rfl)) (wp_ret ?_))
  refine makes_left ?_
  obtain ⟨k, hk⟩ : ∃ k, min (0 + d.maxTokenLen) (n + 1) - 0 = k + 1 := ⟨min (0 + d.maxTokenLen) (n + 1) - 1, by omega⟩
  rw [hk]
  obtain ⟨s, e1, e2⟩ := hw 0 _ (List.getElem?_eq_getElem (by omega))
  exact makes_lookup (g2 _ _ e1) ⟨e2.1, fun k b hb => g2 _ _ (e2.2 k b hb)⟩

theorem makes_subsStep {o : Mem F D} {cfg : SplitCfg} {d : Dictionary F D} (hS : HoldsSegmenter o cfg (some d)) (hm : 0 < d.maxTokenLen) {i : Nat} {t : Token F D} (ht : d.tokens[i]? = some t)
    (h2 : 1 < t.text.length) : Makes (.rd .trie) false (subsStepP i : Prog F D Unit) o := by
  unfold subsStepP
  refine makes_bind (wp_rd (hS.tokHdr d rfl) (wp_ret ?_))
  rw [if_pos (List.getElem?_eq_some_iff.mp ht).1]
  refine makes_bind (wp_rd (hS.tok d rfl i t ht) (wp_ret ?_))
  refine makes_fresh (wp_text t.text fun _ _ _ => rfl) ?_
  rintro r x ⟨_, hlen, hw⟩ ha
  refine makes_left (makes_segmentWords (hS.grow fun l y hl => ?_) hm hlen hw h2)
  rw [view, ha l y hl]; exact hl

theorem makes_subsLoop {cfg : SplitCfg} {d : Dictionary F D} (hm : 0 < d.maxTokenLen) : ∀ (k i : Nat) (o : Mem F D), i + k = d.tokens.length → HoldsSegmenter o cfg (some d) →
    (∀ j, j < d.tokens.length → (o (.subs j)).isSome) → (∀ t ∈ d.tokens, subsOf d t ≠ none) → (∃ (j : Nat) (t : Token F D), i ≤ j ∧ d.tokens[j]? = some t ∧ 1 < t.text.length) →
    Makes (.rd .trie) false (subsLoopP k i : Prog F D Unit) o := by
  intro k
  induction k with
  | zero =>
    rintro i o hi _ _ _ ⟨j, t, h1, h2, _⟩
    have := (List.getElem?_eq_some_iff.mp h2).1
    omega
  | succ k ih =>
    rintro i o hi hS hown hall ⟨j, t, h1, h2, h3⟩
    have hlt : i < d.tokens.length := by omega
    by_cases e : i = j
    · subst e
      exact makes_left (makes_subsStep hS hm h2 h3)
    have ht := List.getElem?_eq_getElem hlt
    obtain ⟨kept, hk⟩ := Option.ne_none_iff_exists'.mp (hall _ (List.getElem_mem hlt))
    obtain ⟨segs, e1, e2⟩ := Option.bind_eq_some_iff.mp hk
    refine makes_bind (wp_mono ?_ _ _ (wp_owned _ _ (wp_subsStep (by rw [view_noMem]; exact hS) ht (hown i hlt) e1 e2)))
    rintro _ o1 ⟨⟨g1, _⟩, g4⟩
    rw [view_noMem, view_noMem] at g1
    exact ih (i + 1) o1 (by omega) (hS.keptBut g1) (fun j hj => g4 _ (hown j hj)) hall ⟨j, t, by omega, h2, h3⟩

theorem makes_calc_trie {o : Mem F D} {cfg : SplitCfg} {d d' : Dictionary F D} (hS : HoldsSegmenter o cfg (some d)) (hf : o .totalFreq = some (.freq d.totalFreq))
    (hsubs : ∀ i, i < d.tokens.length → (o (.subs i)).isSome) (h : calcToken d = some d') (hwf : d.WF cfg) (hmulti : ∃ t ∈ d.tokens, 1 < t.text.length) :
    Makes (.rd .trie) false (calcTokenP : Prog F D Unit) o := by
  obtain ⟨t, ht, h2⟩ := hmulti
  have hm : 0 < d.maxTokenLen := by have := hwf.maxLen t ht; omega
  obtain ⟨hall, _⟩ := calcToken_subs h
  have hwl : (withDistances d).tokens.length = d.tokens.length := by simp [withDistances]
  refine makes_bind (wp_mono ?_ _ _ (wp_owned _ _ (wp_distances (by rw [view_noMem]; exact hS.toHoldsTable) (by rw [view_noMem]; exact hf)
    fun j hj => by rw [hS.dist d rfl j _ (List.getElem?_eq_getElem hj)]; rfl)))
  rintro _ o1 ⟨⟨g1, g2, g3⟩, g4⟩
  rw [view_noMem] at g3
  refine makes_bind (wp_rd (g3.tokHdr _ rfl) (wp_ret ?_))
  obtain ⟨j, hj⟩ := List.mem_iff_getElem?.mp ht
  obtain ⟨t', ht', he⟩ : ∃ t', (withDistances d).tokens[j]? = some t' ∧ t'.text = t.text := by
    simp only [withDistances, List.getElem?_map, hj, Option.map_some]
    exact ⟨_, rfl, rfl⟩
  exact makes_subsLoop (d := withDistances d) hm _ 0 o1 (by omega) g3 (fun j hj => g4 _ (hsubs j (by omega))) hall ⟨j, t', by omega, ht', by rw [he]; exact h2⟩

theorem makes_op_dist {o : Mem F D} {cfg : SplitCfg} {d : Dictionary F D} {x : Slice × DictOp F} (h : HistoryOK o cfg d [x]) (hre : x.2.recalculates = true)
    (hn : 0 < d.numTokens) : Makes (.wr (.dist 0)) false (x.2.prog x.1) o := by
  have ht := h.texts x (by simp)
  have hroom : HasRoom o d.tokens.length := h.room 0 (by simp)
  obtain ⟨r, op⟩ := x
  simp only at ht
  cases op with
  | add s f p => cases hre
  | remove s => cases hre
  | reAdd s f p => cases hre
  | recalc => exact makes_left (makes_calc_dist h.segmenter h.totalFreq hn)
  | addForce s f p =>
    have hS := h.segmenter; have hf := h.totalFreq; have ht := ht (by simp)
    rw [← view_noMem o] at hS hf hroom ht
    refine makes_bind (wp_mono ?_ _ _ (wp_addToken_own noDict hS hf hroom ht f p))
    rintro err o' ⟨_, h2, h3, _⟩
    rw [view_noMem] at h2 h3
    have hl := (grows_table_add cfg d s f p).length.1
    unfold Dictionary.numTokens at hn
    exact makes_left (makes_calc_dist h2 h3 (by simp only [DictOp.text]; omega))

theorem makes_op_hdr {o : Mem F D} {cfg : SplitCfg} {d : Dictionary F D} {r : Slice} (h : HistoryOK o cfg d [(r, DictOp.recalc)]) :
    Makes (.rd .tokHdr) false ((DictOp.recalc : DictOp F).prog r) o := makes_left (makes_calc_hdr h.segmenter h.totalFreq)

theorem safe_each {m : Mem F D} {cfg : SplitCfg} {d : Dictionary F D} {xs : List (Slice × DictOp F)} (h : ∀ x ∈ xs, HistoryOK m cfg d [x]) (hr : ∀ x ∈ xs, (x.2.result cfg d).isSome) :
    ∀ p ∈ (startEach m xs).threads, SafeAlone m p := by
  intro p hp
  simp only [startEach, List.mem_map] at hp
  obtain ⟨x, hx, rfl⟩ := hp
  obtain ⟨⟨d', e⟩, he⟩ := Option.isSome_iff_exists.mp (hr x hx)
  exact safe_wp (wp_op (h x hx) he)

/-- **C114.** Goroutines that call `AddToken`, `AddTokenForce`, `RemoveToken`, `ReAddToken` and `CalcToken` on one dictionary, in an execution without a data race:
none panics, and a call that returned has returned the error it returns when it is alone. -/
theorem C114_calls (m : Mem F D) (cfg : SplitCfg) (d : Dictionary F D) (xs : List (Slice × DictOp F)) (h : ∀ x ∈ xs, HistoryOK m cfg d [x]) (hr : ∀ x ∈ xs, (x.2.result cfg d).isSome)
    (tr : List (Nat × Access)) (c' : Config F D Bool) (hx : Exec (startEach m xs) tr c') (hrf : RaceFree tr) :
    (∀ i : Nat, c'.threads[i]? ≠ some .panic) ∧
    ∀ (i : Nat) x e, xs[i]? = some x → c'.threads[i]? = some (.ret e) → ∃ d', x.2.result cfg d = some (d', e) := by
  have hsafe := safe_each h hr
  have hlen := exec_threads hx
  refine ⟨fun i hp => ?_, fun i x e hi he => ?_⟩
  · have hlt := (List.getElem?_eq_some_iff.mp hp).1
    rw [hlen] at hlt
    obtain ⟨q, a, h1, h2, _⟩ := C114_alone _ _ tr hx hrf hsafe i _ (List.getElem?_eq_getElem hlt)
    rw [hp] at h1; cases h1
    exact h2 rfl
  · obtain ⟨⟨d', e'⟩, hd⟩ := Option.isSome_iff_exists.mp (hr x (List.mem_of_getElem? hi))
    obtain ⟨q, a, h1, h2, h3, _⟩ := C114_alone _ _ tr hx hrf hsafe i (x.2.prog x.1) (by simp [startEach, hi])
    rw [he] at h1; cases h1
    obtain ⟨q, g1, g2⟩ := alone_wp (wp_op (h x (List.mem_of_getElem? hi)) hd) h3
    simp only [List.cons.injEq, and_true] at g1
    subst g1
    rw [g2.1]
    exact ⟨d', hd⟩

/-- **C114.** Two calls that collide: in every execution in which both have returned there is a data race. -/
theorem C114_collide (m : Mem F D) (cfg : SplitCfg) (d : Dictionary F D) (xs : List (Slice × DictOp F)) (h : ∀ x ∈ xs, HistoryOK m cfg d [x]) (hr : ∀ x ∈ xs, (x.2.result cfg d).isSome)
    (hd : Reachable cfg d) (i j : Nat) (hij : i ≠ j) (x y : Slice × DictOp F) (hi : xs[i]? = some x) (hj : xs[j]? = some y) (hc : Collide cfg d x.2 y.2)
    (tr : List (Nat × Access)) (c' : Config F D Bool) (hx : Exec (startEach m xs) tr c') (e f : Bool) (hei : c'.threads[i]? = some (.ret e)) (hej : c'.threads[j]? = some (.ret f)) :
    ¬ RaceFree tr := by
  have hsafe := safe_each h hr
  have hX := h x (List.mem_of_getElem? hi)
  have hY := h y (List.mem_of_getElem? hj)
  have ti : (startEach m xs).threads[i]? = some (x.2.prog x.1) := by simp [startEach, hi]
  have tj : (startEach m xs).threads[j]? = some (y.2.prog y.1) := by simp [startEach, hj]
  rcases hc with ⟨h1, h2, h3⟩ | h1 | ⟨h1, h2⟩
  · exact makes_race hx hsafe hij ti tj (makes_op_dist hX h1 h3) (makes_op_dist hY h2 h3) rfl hei hej
  · by_cases hy : y.2 = .recalc
    · obtain ⟨r, op⟩ := y
      simp only at hy
      subst hy
      exact makes_race hx hsafe hij ti tj (makes_op_stores hX h1 (.inr rfl)) (makes_op_hdr hY) rfl hei hej
    · exact makes_race hx hsafe hij ti tj (makes_op_stores hX h1 (.inl rfl)) (makes_op_trie hY hy) rfl hei hej
  · by_cases hy : y.2 = .recalc
    · have hmulti := h2.resolve_left fun h => h hy
      have hry := hr y (List.mem_of_getElem? hj)
      obtain ⟨r, op⟩ := y
      simp only at hy hry
      subst hy
      simp only [DictOp.result, Option.isSome_map] at hry
      obtain ⟨d', hd'⟩ := Option.isSome_iff_exists.mp hry
      exact makes_race hx hsafe hij ti tj (makes_op_takes hX h1) (makes_left (makes_calc_trie hY.segmenter hY.totalFreq hY.subs hd' hd.wf hmulti)) rfl hei hej
    · exact makes_race hx hsafe hij ti tj (makes_op_takes hX h1) (makes_op_trie hY hy) rfl hei hej

/-! ## Calls that do not collide -/

theorem wp_quiet {sh o : Mem F D} {cfg : SplitCfg} {d d' : Dictionary F D} {e : Bool} {r : Slice} {op : DictOp F} (hT : HoldsTable (view sh o) cfg (some d))
    (hf : view sh o .totalFreq = some (.freq d.totalFreq)) (ht : op ≠ .recalc → HoldsBytes (view sh o) r op.text)
    (hown : op.recalculates = true → ∀ j, j < d.tokens.length → (o (.dist j)).isSome ∧ (o (.subs j)).isSome)
    (hns : ¬ StoresNew cfg d op) (hnt : ¬ TakesOut cfg d op) (hr : op.result cfg d = some (d', e)) : wp sh (op.prog r) o (fun e' _ => e' = e) := by
  have hdel : ∀ s f p, (op = .remove s ∨ op = .reAdd s f p) → d.trie.delete (textSliceToBytes (splitTextToWords cfg s)) = .noPath := by
    intro s f p ho
    have hn : ∀ d', segRemoveToken cfg d s ≠ some (d', false) := fun d' he => hnt ⟨⟨s, f, p, ho⟩, d', by rcases ho with rfl | rfl <;> exact he⟩
    have hrm : segRemoveToken cfg d s ≠ none := by
      rcases ho with rfl | rfl
      · intro h; rw [DictOp.result, h] at hr; cases hr
      · intro h
        have h' : d.removeToken (toToken cfg s f p) = none := (removeToken_text rfl).trans h
        simp only [DictOp.result, segReAddToken, h'] at hr
        cases hr
    unfold segRemoveToken Dictionary.removeToken at hn hrm
    cases hd : d.trie.delete (textSliceToBytes (splitTextToWords cfg s)) with
    | noPath => rfl
    | ok t => exact absurd (by show (match d.trie.delete (textSliceToBytes (splitTextToWords cfg s)) with | .noPath => _ | .ok t => _ | .unspecified => _) = _; rw [hd]) (hn { d with trie := t })
    | unspecified => exact absurd (by show (match d.trie.delete (textSliceToBytes (splitTextToWords cfg s)) with | .noPath => _ | .ok t => _ | .unspecified => _) = _; rw [hd]) hrm
  have hknown : ∀ s f p, op = .add s f p ∨ op = .addForce s f p → (segAddToken cfg d s f p).1.numTokens = d.numTokens := by
    intro s f p ho
    by_contra hne
    refine hns ⟨⟨s, f, p, by tauto⟩, d', e, hr, ?_⟩
    rcases ho with rfl | rfl
    · have e1 := congrArg Prod.fst (Option.some.inj hr)
      simp only at e1
      rw [← e1]; exact hne
    · simp only [DictOp.result, segAddTokenForce, Option.map_eq_some_iff] at hr
      obtain ⟨d1, h1, h2⟩ := hr
      cases h2
      have hl := congrArg List.length (calcToken_same h1).tokens
      simp only [List.length_map] at hl
      unfold Dictionary.numTokens at hne ⊢
      rw [hl]; exact hne
  cases op with
  | add s f p =>
    refine wp_mono ?_ _ _ (wp_addToken_known hT (ht (by simp)) f p (hknown s f p (.inl rfl)))
    rintro _ o' ⟨rfl, _⟩
    exact congrArg Prod.snd (Option.some.inj hr)
  | addForce s f p =>
    have hk := hknown s f p (.inr rfl)
    simp only [DictOp.result, segAddTokenForce, Option.map_eq_some_iff] at hr
    obtain ⟨d1, h1, h2⟩ := hr
    rw [segAddToken_known hk] at h1
    cases h2
    refine wp_bind (wp_mono ?_ _ _ (wp_addToken_known hT (ht (by simp)) f p hk))
    rintro _ o' ⟨rfl, g1, g2⟩
    have up : ∀ l, (o l).isSome → (o' l).isSome := fun l hl => by
      obtain ⟨y, hy⟩ := Option.isSome_iff_exists.mp hl
      rw [g1 _ _ hy]; rfl
    refine wp_bind (wp_mono ?_ _ _ (wp_calcToken (hT.grow g2) (g2 _ _ hf) (fun j hj => ⟨up _ (hown rfl j hj).1, up _ (hown rfl j hj).2⟩) h1))
    intro _ _ _
    exact rfl
  | remove s =>
    have hd := hdel s (F64.ofNat 0) [] (.inl rfl)
    refine wp_mono ?_ _ _ (wp_removeToken_none hT (ht (by simp)) hd)
    rintro _ o' ⟨rfl, _⟩
    have : segRemoveToken cfg d s = some (d, true) := by
      show (match d.trie.delete (textSliceToBytes (splitTextToWords cfg s)) with | .noPath => _ | .ok t => _ | .unspecified => _) = _
      rw [hd]
    rw [DictOp.result, this] at hr
    exact congrArg Prod.snd (Option.some.inj hr)
  | reAdd s f p =>
    have hd := hdel s f p (.inr rfl)
    refine wp_mono ?_ _ _ (wp_reAddToken_none hT (ht (by simp)) f p hd)
    rintro _ o' ⟨rfl, _⟩
    have : d.removeToken (toToken cfg s f p) = some (d, true) := by
      show (match d.trie.delete (textSliceToBytes (splitTextToWords cfg s)) with | .noPath => _ | .ok t => _ | .unspecified => _) = _
      rw [hd]
    simp only [DictOp.result, segReAddToken, this] at hr
    exact congrArg Prod.snd (Option.some.inj hr)
  | recalc =>
    simp only [DictOp.result, Option.map_eq_some_iff] at hr
    obtain ⟨d1, h1, h2⟩ := hr
    cases h2
    refine wp_bind (wp_mono ?_ _ _ (wp_calcToken hT hf (hown rfl) h1))
    intro _ _ _
    exact rfl

/-! ### A removal beside `CalcToken` of single words -/

/-- The program never touches `l`, whatever it reads, and ends with `Q`. -/
def Never {α : Type} (l : Loc) : Prog F D α → (α → Prop) → Prop
  | .ret a, Q => Q a
  | .panic, _ => True
  | .read l' k, Q => l' ≠ l ∧ ∀ c, Never l (k c) Q
  | .write l' _ k, Q => l' ≠ l ∧ Never l k Q
  | .alloc _ k, Q => ∀ a, Never l (k a) Q

theorem never_bind' {α β : Type} {l : Loc} {f : α → Prog F D β} {Q : β → Prop} : ∀ (p : Prog F D α), Never l p (fun a => Never l (f a) Q) → Never l (p.bind f) Q
  | .ret _, h => h
  | .panic, _ => trivial
  | .read _ k, h => ⟨h.1, fun c => never_bind' (k c) (h.2 c)⟩
  | .write _ _ k, h => ⟨h.1, never_bind' k h.2⟩
  | .alloc _ k, h => fun a => never_bind' (k a) (h a)

theorem never_bind {α β : Type} {l : Loc} {f : α → Prog F D β} {Q : β → Prop} {p : Prog F D α} (h : Never l p (fun a => Never l (f a) Q)) : Never l (p >>= f) Q := never_bind' p h

/-- Alone, the program never touches `l`. -/
def Shuns {α : Type} (l : Loc) : Prog F D α → Mem F D → Prop
  | .ret _, _ => True
  | .panic, _ => True
  | .read l' k, o => l' ≠ l ∧ ∀ c, o l' = some c → Shuns l (k c) o
  | .write l' c k, o => l' ≠ l ∧ Shuns l k (o.put l' c)
  | .alloc cs k, o => ∀ a, o.Unused a → Shuns l (k a) (o.extend a cs)

theorem never_shuns {α : Type} {l : Loc} {Q : α → Prop} : ∀ (p : Prog F D α) (o : Mem F D), Never l p Q → Shuns l p o
  | .ret _, _, _ => trivial
  | .panic, _, _ => trivial
  | .read _ k, o, h => ⟨h.1, fun c _ => never_shuns (k c) o (h.2 c)⟩
  | .write _ _ k, _, h => ⟨h.1, never_shuns k _ h.2⟩
  | .alloc _ k, _, h => fun a _ => never_shuns (k a) _ (h a)

theorem shuns_bind' {α β : Type} {l : Loc} {f : α → Prog F D β} : ∀ (p : Prog F D α) (o : Mem F D), Shuns l p o → wp noMem p o (fun x o' => Shuns l (f x) o') → Shuns l (p.bind f) o
  | .ret _, _, _, h => h
  | .panic, _, _, _ => trivial
  | .read _ k, o, h, ⟨c0, hc0, hw⟩ => ⟨h.1, fun c hc => by
      rw [view_noMem, hc] at hc0; cases hc0
      exact shuns_bind' (k c0) o (h.2 c0 hc) hw⟩
  | .write _ _ k, _, h, ⟨_, hw⟩ => ⟨h.1, shuns_bind' k _ h.2 hw⟩
  | .alloc _ k, _, h, hw => fun a h1 => shuns_bind' (k a) _ (h a h1) (hw a h1 fun _ => rfl)

theorem shuns_bind {α β : Type} {l : Loc} {f : α → Prog F D β} {p : Prog F D α} {o : Mem F D} (h : Shuns l p o) (hw : wp noMem p o (fun x o' => Shuns l (f x) o')) :
    Shuns l (p >>= f) o := shuns_bind' p o h hw

theorem shuns_rd {α β : Type} {l l' : Loc} {o : Mem F D} {x : Cell F D} {k : Cell F D → Prog F D α} {f : α → Prog F D β} (h : o l' = some x) (hne : l' ≠ l)
    (hk : Shuns l ((k x).bind f) o) : Shuns l (Prog.bind (.read l' k) f) o :=
  ⟨hne, fun c hc => by rw [h] at hc; cases hc; exact hk⟩

/-- Without the place that is not touched. -/
theorem wp_shuns {α : Type} {l : Loc} (hl : ∀ a i, l ≠ .cell a i) {sh : Mem F D} {Q : α → Mem F D → Prop} : ∀ (p : Prog F D α) (o : Mem F D), o l = none → wp sh p o Q → Shuns l p (view sh o) →
    wp (fun l' => if l' = l then none else sh l') p o Q
  | .ret _, _, _, h, _ => h
  | .panic, _, _, h, _ => h
  | .read l' k, o, ho, ⟨c, hc, hw⟩, hs => by
      refine ⟨c, ?_, wp_shuns hl (k c) o ho hw (hs.2 c hc)⟩
      rw [← hc]; simp [view, hs.1]
  | .write l' c k, o, ho, ⟨h1, hw⟩, hs => by
      refine ⟨h1, wp_shuns hl k _ (by rw [put_other _ _ (Ne.symm hs.1)]; exact ho) hw ?_⟩
      rw [view_put]; exact hs.2
  | .alloc cs k, o, ho, hw, hs => by
      intro a h1 h2
      have h2' : sh.Unused a := fun j => by
        have := h2 j
        simpa [Ne.symm (hl a j)] using this
      refine wp_shuns hl (k a) _ (by rw [extend_other _ _ (hl a)]; exact ho) (hw a h1 h2') ?_
      rw [view_extend _ _ h2']
      refine hs a fun j => ?_
      rw [view, h1 j, Option.none_or]; exact h2' j

theorem never_ite {α : Type} {l : Loc} {c : Prop} [Decidable c] {p q : Prog F D α} {Q : α → Prop} (h1 : Never l p Q) (h2 : Never l q Q) : Never l (if c then p else q) Q := by
  split
  · exact h1
  · exact h2

theorem never_distLoop (x : D) : ∀ (k i : Nat), Never .trie (distLoopP x k i : Prog F D Unit) (fun _ => True)
  | 0, _ => trivial
  | k + 1, i => by
    refine never_bind ⟨by simp, fun c => ?_⟩
    cases c <;> first | trivial | skip
    refine never_ite ?_ ?_
    · refine never_bind ⟨by simp, fun c => ?_⟩
      cases c <;> first | trivial | skip
      exact never_bind ⟨by simp, never_distLoop x k (i + 1)⟩
    · trivial

theorem never_distances : Never .trie (distancesP : Prog F D Unit) (fun _ => True) := by
  refine never_bind ⟨by simp, fun c => ?_⟩
  cases c <;> first | trivial | skip
  refine never_ite ?_ ?_
  · trivial
  · refine never_bind ⟨by simp, fun c => ?_⟩
    cases c <;> first | trivial | skip
    refine never_bind ⟨by simp, fun c => ?_⟩
    cases c <;> first | trivial | skip
    exact never_distLoop _ _ _

theorem never_words : ∀ ws : List Bytes, Never .trie (wordsP ws : Prog F D (List Slice)) (fun ss => ss.length = ws.length)
  | [] => rfl
  | w :: ws => by
    refine never_bind fun a => never_bind (never_mono (never_words ws) fun ss h => ?_)
    show (_ :: ss).length = _
    simp [h]
where
  never_mono {α : Type} {l : Loc} {Q R : α → Prop} : ∀ {p : Prog F D α}, Never l p Q → (∀ a, Q a → R a) → Never l p R
  | .ret _, h, hq => hq _ h
  | .panic, _, _ => trivial
  | .read _ _, h, hq => ⟨h.1, fun c => never_mono (h.2 c) hq⟩
  | .write _ _ _, h, hq => ⟨h.1, never_mono h.2 hq⟩
  | .alloc _ _, h, hq => fun a => never_mono (h a) hq

theorem never_mono {α : Type} {l : Loc} {Q R : α → Prop} {p : Prog F D α} (h : Never l p Q) (hq : ∀ a, Q a → R a) : Never l p R := never_words.never_mono h hq

theorem never_text (ws : List Bytes) : Never .trie (textP ws : Prog F D Slice) (fun r => r.len = ws.length) :=
  never_bind (never_mono (never_words ws) fun _ hss => never_bind fun _ => hss)

theorem never_segmentWords {r : Slice} (h : r.len ≤ 1) : Never .trie (segmentWordsP r true : Prog F D Slice) (fun s => s.len = 0) := by
  unfold segmentWordsP
  split
  · rfl
  · next hne =>
    have h0 : r.len = 0 := by simp at hne; omega
    rw [h0]
    refine never_bind fun j => never_bind ⟨by simp, fun c => ?_⟩
    cases c <;> first | trivial | skip
    refine never_ite ?_ ?_
    · rfl
    · refine never_bind ⟨by simp, fun c => ?_⟩
      cases c <;> first | trivial | skip
      refine never_bind fun b => ?_
      show Never _ (segLoopP _ _ _ _ _ _ 0 0 >>= _) _
      refine never_bind (show Never _ (.ret ()) _ from ?_)
      refine never_bind (show Never _ (countP _ _ 0 _) _ from ?_)
      unfold countP
      refine never_bind fun o => ?_
      refine never_bind (show Never _ (fillP _ _ _ _ 0 _) _ from ?_)
      unfold fillP
      exact never_bind (show Never _ (.ret ()) _ from rfl)

theorem shuns_subsStep {o : Mem F D} {cfg : SplitCfg} {d : Dictionary F D} (hS : HoldsSegmenter o cfg (some d)) {i : Nat} {t : Token F D} (ht : d.tokens[i]? = some t)
    (h1 : t.text.length ≤ 1) : Shuns .trie (subsStepP i : Prog F D Unit) o := by
  unfold subsStepP
  refine shuns_rd (hS.tokHdr d rfl) (by simp) ?_
  show Shuns _ (if i < d.tokens.length then _ else _) _
  rw [if_pos (List.getElem?_eq_some_iff.mp ht).1]
  refine shuns_rd (hS.tok d rfl i t ht) (by simp) ?_
  show Shuns _ (textP t.text >>= _) _
  refine never_shuns (Q := fun _ => True) _ _ (never_bind (never_mono (never_text _) fun r hr => ?_))
  refine never_bind (never_mono (never_segmentWords (by omega)) fun s hs => ?_)
  rw [hs]
  refine never_bind (show Never _ (.ret 0) _ from ?_)
  refine never_bind fun a => never_bind ⟨by simp, ?_⟩
  unfold fillSubsP
  trivial

theorem shuns_subsLoop {cfg : SplitCfg} {d : Dictionary F D} (h1 : ∀ t ∈ d.tokens, t.text.length ≤ 1) : ∀ (k i : Nat) (o : Mem F D), i + k = d.tokens.length → HoldsSegmenter o cfg (some d) →
    (∀ j, j < d.tokens.length → (o (.subs j)).isSome) → (∀ t ∈ d.tokens, subsOf d t ≠ none) → Shuns .trie (subsLoopP k i : Prog F D Unit) o := by
  intro k
  induction k with
  | zero => intros; trivial
  | succ k ih =>
    intro i o hi hS hown hall
    have hlt : i < d.tokens.length := by omega
    have ht := List.getElem?_eq_getElem hlt
    obtain ⟨kept, hk⟩ := Option.ne_none_iff_exists'.mp (hall _ (List.getElem_mem hlt))
    obtain ⟨segs, e1, e2⟩ := Option.bind_eq_some_iff.mp hk
    refine shuns_bind (shuns_subsStep hS ht (h1 _ (List.getElem_mem hlt))) (wp_mono ?_ _ _ (wp_owned _ _ (wp_subsStep (by rw [view_noMem]; exact hS) ht (hown i hlt) e1 e2)))
    rintro _ o1 ⟨⟨g1, _⟩, g4⟩
    rw [view_noMem, view_noMem] at g1
    exact ih (i + 1) o1 (by omega) (hS.keptBut g1) (fun j hj => g4 _ (hown j hj)) hall

theorem shuns_calc {o : Mem F D} {cfg : SplitCfg} {d d' : Dictionary F D} (hS : HoldsSegmenter o cfg (some d)) (hf : o .totalFreq = some (.freq d.totalFreq))
    (hsubs : ∀ i, i < d.tokens.length → (o (.subs i)).isSome) (h : calcToken d = some d') (h1 : ∀ t ∈ d.tokens, t.text.length ≤ 1) :
    Shuns .trie (calcTokenP : Prog F D Unit) o := by
  obtain ⟨hall, _⟩ := calcToken_subs h
  have hwl : (withDistances d).tokens.length = d.tokens.length := by simp [withDistances]
  refine shuns_bind (never_shuns _ _ never_distances) (wp_mono ?_ _ _ (wp_owned _ _ (wp_distances (by rw [view_noMem]; exact hS.toHoldsTable) (by rw [view_noMem]; exact hf)
    fun j hj => by rw [hS.dist d rfl j _ (List.getElem?_eq_getElem hj)]; rfl)))
  rintro _ o1 ⟨⟨g1, g2, g3⟩, g4⟩
  rw [view_noMem] at g3
  refine shuns_rd (g3.tokHdr _ rfl) (by simp) ?_
  refine shuns_subsLoop (d := withDistances d) (fun t ht => ?_) _ 0 o1 (by omega) g3 (fun j hj => g4 _ (hsubs j (by omega))) hall
  simp only [withDistances, List.mem_map] at ht
  obtain ⟨t', ht', rfl⟩ := ht
  exact h1 t' ht'

/-- Taking a word out with the trie in own memory, when no token is appended. -/
theorem wp_takes {sh o : Mem F D} {cfg : SplitCfg} {d d' : Dictionary F D} {e : Bool} {r : Slice} {op : DictOp F} (hfl : view sh o .flags = some (.flags cfg))
    (hsd : view sh o .segDict = some (.bool false)) (hhd : view sh o .tokHdr = some (.nat d.tokens.length)) (htr : o .trie = some (.trie d.trie)) (ht : HoldsBytes (view sh o) r op.text)
    (hns : ¬ StoresNew cfg d op) (hto : TakesOut cfg d op) (hr : op.result cfg d = some (d', e)) : wp sh (op.prog r) o (fun _ _ => True) := by
  obtain ⟨⟨s, f, p, ho⟩, d1, h1⟩ := hto
  have hdel : op.text = s → ∃ t', d.trie.delete (textSliceToBytes (splitTextToWords cfg s)) = .ok t' := by
    rintro rfl
    unfold segRemoveToken Dictionary.removeToken at h1
    split at h1
    · cases h1
    · next t' h => exact ⟨t', h⟩
    · cases h1
  have hput : ∀ {x : Mem F D} {l : Loc} {y : Cell F D} (t' : Trie), l ≠ .trie → view sh (view o x) l = some y → view sh ((view o x).put .trie (.trie t')) l = some y :=
    fun t' hl hy => by rw [view_put_other _ hl]; exact hy
  rcases ho with rfl | rfl
  · obtain ⟨t', hd⟩ := hdel rfl
    change HoldsBytes (view sh o) r s at ht
    refine wp_fresh (wp_toToken hfl ht (o := noMem) (fun _ _ _ => rfl)) ?_
    rintro _ x ⟨_, rfl⟩ ha
    have hg := grows_fresh ha
    have hgo := grows_own ha
    refine wp_bind (wp_read (hg _ _ hsd) (wp_ret ?_))
    simp only [Bool.false_eq_true, if_false]
    refine wp_bind (wp_read (hg _ _ (view_own htr)) (wp_ret ?_))
    show wp sh (match d.trie.delete (textSliceToBytes (splitTextToWords cfg s)) with | .noPath => _ | .ok t' => _ | .unspecified => _) _ _
    rw [hd]
    exact ⟨by rw [hgo _ _ htr]; rfl, trivial⟩
  · obtain ⟨t', hd⟩ := hdel rfl
    have hrm : d.removeToken (toToken cfg s f p) = some ({ d with trie := t' }, false) := by
      show (match d.trie.delete (textSliceToBytes (splitTextToWords cfg s)) with | .noPath => _ | .ok t => _ | .unspecified => _) = _
      rw [hd]
    have hst : (Dictionary.addToken { d with trie := t' } (toToken cfg s f p)).1.numTokens = d.numTokens := by
      by_contra hne
      refine hns ⟨⟨s, f, p, .inr (.inr rfl)⟩, d', e, hr, ?_⟩
      simp only [DictOp.result, segReAddToken, hrm] at hr
      have e1 := congrArg Prod.fst (Option.some.inj hr)
      simp only at e1
      rw [← e1]; exact hne
    change HoldsBytes (view sh o) r s at ht
    refine wp_fresh (wp_toToken hfl ht (o := noMem) (fun _ _ _ => rfl)) ?_
    rintro _ x ⟨_, rfl⟩ ha
    have hg := grows_fresh ha
    have hgo := grows_own ha
    refine wp_bind (wp_read (hg _ _ hsd) (wp_ret ?_))
    simp only [Bool.false_eq_true, if_false]
    refine wp_bind (wp_bind (wp_read (hg _ _ (view_own htr)) (wp_ret ?_)))
    show wp sh (match d.trie.delete (textSliceToBytes (splitTextToWords cfg s)) with | .noPath => _ | .ok t' => _ | .unspecified => _) _ _
    rw [hd]
    refine ⟨by rw [hgo _ _ htr]; rfl, ?_⟩
    show wp sh (rdBool .segDict >>= _) _ _
    refine wp_bind (wp_read (hput t' (by simp) (hg _ _ hsd)) (wp_ret ?_))
    simp only [Bool.false_eq_true, if_false]
    refine wp_bind (wp_read (view_put_same _ _) (wp_ret ?_))
    rcases addToken_known hst with ⟨v, k1, k2⟩ | ⟨k1, k2, k3⟩
    · simp only at k1
      rw [k1]; trivial
    · simp only at k1 k2
      rw [k1]
      refine wp_bind (wp_read (hput t' (by simp) (hg _ _ hhd)) (wp_ret ?_))
      refine wp_bind (wp_read (view_put_same _ _) (wp_ret ?_))
      rw [k2]; trivial

theorem exec_index {α : Type} {c c' : Config F D α} {tr : List (Nat × Access)} (hx : Exec c tr c') : ∀ i e, (i, e) ∈ tr → i < c.threads.length := by
  induction hx with
  | refl => intro i e h; cases h
  | @step tr c1 j e c2 h1 hst ih =>
    intro i f hm
    rcases List.mem_append.mp hm with hm | hm
    · exact ih i f hm
    · simp only [List.mem_singleton, Prod.mk.injEq] at hm
      obtain ⟨rfl, rfl⟩ := hm
      rw [← exec_threads h1]
      cases hst <;> next h _ => exact (List.getElem?_eq_some_iff.mp h).1

/-- Only the trie for goroutine `it`, distances and sub-segments for goroutine `i0`. -/
def partOf (m : Mem F D) (it i0 : Nat) (i : Nat) : Mem F D := fun l => if (i = it ∧ l = .trie) ∨ (i = i0 ∧ i ≠ it ∧ l.calc = true) then m l else none

/-- **C114.** Calls of which no two collide never race. -/
theorem C114_free (m : Mem F D) (cfg : SplitCfg) (d : Dictionary F D) (xs : List (Slice × DictOp F)) (h : ∀ x ∈ xs, HistoryOK m cfg d [x]) (hr : ∀ x ∈ xs, (x.2.result cfg d).isSome)
    (hc : ∀ (i j : Nat) x y, i ≠ j → xs[i]? = some x → xs[j]? = some y → ¬ Collide cfg d x.2 y.2)
    (tr : List (Nat × Access)) (c' : Config F D Bool) (hx : Exec (startEach m xs) tr c') : RaceFree tr := by
  have hlen : (startEach m xs).threads.length = xs.length := by simp [startEach]
  rcases Nat.lt_or_ge 1 xs.length with h1 | h1
  swap
  · intro i e j f hi hj hij
    have := exec_index hx i e hi
    have := exec_index hx j f hj
    omega
  have other : ∀ i : Nat, ∃ j y, i ≠ j ∧ xs[j]? = some y := fun i => by
    by_cases e : i = 0
    · exact ⟨1, _, by omega, List.getElem?_eq_getElem h1⟩
    · exact ⟨0, _, e, List.getElem?_eq_getElem (by omega)⟩
  have hns : ∀ (i : Nat) x, xs[i]? = some x → ¬ StoresNew cfg d x.2 := fun i x hi hs => by
    obtain ⟨j, y, hij, hj⟩ := other i
    exact hc i j x y hij hi hj (.inr (.inl hs))
  obtain ⟨i0, hi0⟩ : ∃ i0 : Nat, ∀ (i : Nat) x, xs[i]? = some x → x.2.recalculates = true → 0 < d.numTokens → i = i0 := by
    by_cases hex : ∃ (i : Nat) (x : Slice × DictOp F), xs[i]? = some x ∧ x.2.recalculates = true
    · obtain ⟨i0, x0, e1, e2⟩ := hex
      refine ⟨i0, fun i x hi hre hn => ?_⟩
      by_contra hne
      exact hc i i0 x x0 hne hi e1 (.inl ⟨hre, e2, hn⟩)
    · exact ⟨0, fun i x hi hre _ => absurd ⟨i, x, hi, hre⟩ hex⟩
  by_cases hnt : ∀ (i : Nat) x, xs[i]? = some x → ¬ TakesOut cfg d x.2
  · let sh : Mem F D := fun l => if l.calc then none else m l
    let own : Nat → Mem F D := fun i l => if i = i0 ∧ l.calc = true then m l else none
    have hsh : ∀ l, l.calc = false → sh l = m l := fun l hl => by simp [sh, hl]
    have hI : Isolated sh (startEach m xs) own (fun _ _ _ => True) := by
      refine ⟨fun l x hl => ?_, fun i l x hl => ?_, fun i l x hl => ?_, fun i j l x hij hl => ?_, fun i p hp => ?_⟩
      · by_cases e : l.calc
        · simp [sh, e] at hl
        · have : m l = some x := by simpa [sh, e] using hl
          exact this
      · simp only [own] at hl
        split at hl
        · exact hl
        · cases hl
      · simp only [own] at hl
        split at hl
        · next e => simp [sh, e.2]
        · cases hl
      · simp only [own] at hl ⊢
        split at hl
        · next e => rw [if_neg]; rintro ⟨e', _⟩; exact hij (e.1.trans e'.symm)
        · cases hl
      · simp only [startEach, List.getElem?_map, Option.map_eq_some_iff] at hp
        obtain ⟨x, hi, rfl⟩ := hp
        have hmem := List.mem_of_getElem? hi
        have hH := h x hmem
        obtain ⟨⟨d', e⟩, hd'⟩ := Option.isSome_iff_exists.mp (hr x hmem)
        have hv : ∀ l y, l.calc = false → m l = some y → view sh (own i) l = some y := fun l y hl hy => by
          simp [view, own, hl, hsh l hl, hy]
        have hT : HoldsTable (view sh (own i)) cfg (some d) :=
          ⟨hv _ _ rfl hH.segmenter.flags, hv _ _ rfl hH.segmenter.segDict, fun d e => hv _ _ rfl (hH.segmenter.maxLen d e), fun d e => hv _ _ rfl (hH.segmenter.trie d e),
            fun d e => hv _ _ rfl (hH.segmenter.tokHdr d e), fun d e i t ht => hv _ _ rfl (hH.segmenter.tok d e i t ht)⟩
        refine wp_mono (fun _ _ _ => trivial) _ _ (wp_quiet hT (hv _ _ rfl hH.totalFreq) (fun hne => ?_) (fun hre j hj => ?_) (hns i x hi) (hnt i x hi) hd')
        · have := hH.texts x (by simp) hne
          exact ⟨this.1, fun k b hk => hv _ _ rfl (this.2 k b hk)⟩
        · have e := hi0 i x hi hre (by unfold Dictionary.numTokens; omega)
          have e1 : (own i (.dist j)) = m (.dist j) := by simp [own, e, Loc.calc]
          have e2 : (own i (.subs j)) = m (.subs j) := by simp [own, e, Loc.calc]
          rw [e1, e2]
          exact ⟨by rw [hH.segmenter.dist d rfl j _ (List.getElem?_eq_getElem hj)]; rfl, hH.subs j hj⟩
    exact isolated_raceFree hI hx
  · -- one call takes a word out, all others are `CalcToken`
    simp only [not_forall, not_not] at hnt
    obtain ⟨it, xt, hit, hto⟩ := hnt
    have hall : ∀ (j : Nat) y, it ≠ j → xs[j]? = some y → y.2 = .recalc ∧ ∀ t ∈ d.tokens, t.text.length ≤ 1 := fun j y hij hj => by
      have := hc it j xt y hij hit hj
      simp only [Collide, not_or, not_and] at this
      obtain ⟨k1, k2⟩ := this.2.2 hto
      exact ⟨not_not.mp k1, fun t ht => Nat.le_of_not_lt fun hlt => k2 ⟨t, ht, hlt⟩⟩
    let sh : Mem F D := fun l => if l = .trie ∨ l.calc = true then none else m l
    have hsh : ∀ l, l ≠ .trie → l.calc = false → sh l = m l := fun l hl hl' => by simp [sh, hl, hl']
    have hI : Isolated sh (startEach m xs) (partOf m it i0) (fun _ _ _ => True) := by
      refine ⟨fun l x hl => ?_, fun i l x hl => ?_, fun i l x hl => ?_, fun i j l x hij hl => ?_, fun i p hp => ?_⟩
      · simp only [sh] at hl
        split at hl
        · cases hl
        · exact hl
      · unfold partOf at hl
        split at hl
        · exact hl
        · cases hl
      · unfold partOf at hl
        split at hl
        · next e => rcases e with ⟨_, e⟩ | ⟨_, _, e⟩ <;> simp [sh, e]
        · cases hl
      · unfold partOf at hl ⊢
        split at hl
        · next e =>
          rw [if_neg]
          rintro (⟨e1, e2⟩ | ⟨e1, e2, e3⟩)
          · rcases e with ⟨e, _⟩ | ⟨_, _, e⟩
            · exact hij (e.trans e1.symm)
            · subst e2; cases e
          · rcases e with ⟨_, e⟩ | ⟨e, _, _⟩
            · subst e; cases e3
            · exact hij (e.trans e1.symm)
        · cases hl
      · simp only [startEach, List.getElem?_map, Option.map_eq_some_iff] at hp
        obtain ⟨x, hi, rfl⟩ := hp
        have hmem := List.mem_of_getElem? hi
        have hH := h x hmem
        obtain ⟨⟨d', e⟩, hd'⟩ := Option.isSome_iff_exists.mp (hr x hmem)
        have hv : ∀ l y, l ≠ .trie → l.calc = false → m l = some y → view sh (partOf m it i0 i) l = some y := fun l y hl hl' hy => by
          simp [view, partOf, hl, hl', hsh l hl hl', hy]
        by_cases hti : i = it
        · subst hti
          rw [hit] at hi; cases hi
          have hne : xt.2 ≠ .recalc := by
            obtain ⟨⟨s, f, p, ho⟩, _⟩ := hto
            rcases ho with ho | ho <;> rw [ho] <;> simp
          have htx := hH.texts xt (by simp) hne
          exact wp_takes (hv _ _ (by simp) rfl hH.segmenter.flags) (hv _ _ (by simp) rfl hH.segmenter.segDict) (hv _ _ (by simp) rfl (hH.segmenter.tokHdr d rfl))
            (by simp only [partOf, true_and, true_or, if_true]; exact hH.segmenter.trie d rfl) ⟨htx.1, fun k b hk => hv _ _ (by simp) rfl (htx.2 k b hk)⟩ (hns _ xt hit) hto hd'
        · obtain ⟨hrec, hone⟩ := hall i x (Ne.symm hti) hi
          obtain ⟨r, op⟩ := x
          simp only at hrec
          subst hrec
          simp only [DictOp.result, Option.map_eq_some_iff] at hd'
          obtain ⟨d1, hd1, _⟩ := hd'
          -- with the trie in view, and then without
          let sh' : Mem F D := fun l => if l.calc = true then none else m l
          have hsh' : sh = fun l => if l = .trie then none else sh' l := by
            funext l; by_cases e : l = .trie <;> simp [sh, sh', e]
          have hown : ∀ j, j < d.tokens.length → (partOf m it i0 i (.dist j)).isSome ∧ (partOf m it i0 i (.subs j)).isSome := fun j hj => by
            have e := hi0 i _ hi rfl (by unfold Dictionary.numTokens; omega)
            have e1 : partOf m it i0 i (.dist j) = m (.dist j) := by unfold partOf; rw [if_pos (.inr ⟨e, hti, rfl⟩)]
            have e2 : partOf m it i0 i (.subs j) = m (.subs j) := by unfold partOf; rw [if_pos (.inr ⟨e, hti, rfl⟩)]
            rw [e1, e2]
            exact ⟨by rw [hH.segmenter.dist d rfl j _ (List.getElem?_eq_getElem hj)]; rfl, hH.subs j hj⟩
          have hv' : ∀ l y, l.calc = false → m l = some y → view sh' (partOf m it i0 i) l = some y := fun l y hl hy => by
            simp [view, partOf, hti, hl, sh', hy]
          have hd'' : ∀ j, j < d.tokens.length → view sh' (partOf m it i0 i) (.dist j) = m (.dist j) := fun j hj => by
            have e := hi0 i _ hi rfl (by unfold Dictionary.numTokens; omega)
            have e1 : partOf m it i0 i (.dist j) = m (.dist j) := by unfold partOf; rw [if_pos (.inr ⟨e, hti, rfl⟩)]
            rw [view, e1, hH.segmenter.dist d rfl j _ (List.getElem?_eq_getElem hj)]; rfl
          have hS : HoldsSegmenter (view sh' (partOf m it i0 i)) cfg (some d) :=
            ⟨⟨hv' _ _ rfl hH.segmenter.flags, hv' _ _ rfl hH.segmenter.segDict, fun d e => hv' _ _ rfl (hH.segmenter.maxLen d e), fun d e => hv' _ _ rfl (hH.segmenter.trie d e),
              fun d e => hv' _ _ rfl (hH.segmenter.tokHdr d e), fun d e i t ht => hv' _ _ rfl (hH.segmenter.tok d e i t ht)⟩, fun d0 e0 j t ht => by
                cases e0
                rw [hd'' j (List.getElem?_eq_some_iff.mp ht).1]; exact hH.segmenter.dist d rfl j t ht⟩
          rw [hsh']
          refine wp_bind (wp_mono (fun _ _ _ => trivial) _ _ (wp_shuns (by simp) _ _ (by simp [partOf, hti, Loc.calc]) (wp_calcToken hS.toHoldsTable (hv' _ _ rfl hH.totalFreq) hown hd1) ?_))
          refine shuns_calc hS (hv' _ _ rfl hH.totalFreq) (fun j hj => ?_) hd1 hone
          obtain ⟨y, hy⟩ := Option.isSome_iff_exists.mp (hown j hj).2
          rw [view_own hy]; rfl
    exact isolated_raceFree hI hx

theorem exec_can_end {α : Type} (c c1 : Config F D α) (tr : List (Nat × Access)) (hx : Exec c tr c1) : ∃ tr' c', Exec c (tr ++ tr') c' ∧ ∀ i e c'', ¬ Step c' i e c'' := by
  induction c1 using (steps_wf (F := F) (D := D) (α := α)).induction generalizing tr with
  | _ c1 ih =>
    by_cases h : ∃ i e c3, Step c1 i e c3
    · obtain ⟨i, e, c3, hs⟩ := h
      obtain ⟨tr', c4, h1, h2⟩ := ih c3 ⟨i, e, hs⟩ _ (hx.step hs)
      exact ⟨(i, e) :: tr', c4, by simpa using h1, h2⟩
    · exact ⟨[], c1, by simpa using hx, fun i e c'' hs => h ⟨i, e, c'', hs⟩⟩

/-- **C114.** Calls made at the same time never race exactly when no two of them collide; and if two do, no complete execution is without a race. -/
theorem C114_exact (m : Mem F D) (hb : ∃ n, m.Below n) (cfg : SplitCfg) (d : Dictionary F D) (hd : Reachable cfg d) (xs : List (Slice × DictOp F)) (h : ∀ x ∈ xs, HistoryOK m cfg d [x])
    (hr : ∀ x ∈ xs, (x.2.result cfg d).isSome) :
    ((∀ tr c', Exec (startEach m xs) tr c' → RaceFree tr) ↔ ∀ (i j : Nat) x y, i ≠ j → xs[i]? = some x → xs[j]? = some y → ¬ Collide cfg d x.2 y.2) ∧
    ((∃ tr c', Exec (startEach m xs) tr c' ∧ (∀ i e c'', ¬ Step c' i e c'') ∧ RaceFree tr) →
      ∀ (i j : Nat) x y, i ≠ j → xs[i]? = some x → xs[j]? = some y → ¬ Collide cfg d x.2 y.2) := by
  have key : ∀ tr c', Exec (startEach m xs) tr c' → (∀ i e c'', ¬ Step c' i e c'') → RaceFree tr →
      ∀ (i j : Nat) x y, i ≠ j → xs[i]? = some x → xs[j]? = some y → ¬ Collide cfg d x.2 y.2 := by
    intro tr c' hx hend hrf i j x y hij hi hj hcol
    have hnp := (C114_calls m cfg d xs h hr tr c' hx hrf).1
    have ret : ∀ (i : Nat) x, xs[i]? = some x → ∃ e, c'.threads[i]? = some (.ret e) := fun i x hi => by
      obtain ⟨p, hp, he⟩ := exec_ended hx hb hend (i := i) (by simp [startEach]; exact (List.getElem?_eq_some_iff.mp hi).1)
      rcases he with ⟨a, rfl⟩ | rfl
      · exact ⟨a, hp⟩
      · exact absurd hp (hnp i)
    obtain ⟨e, he⟩ := ret i x hi
    obtain ⟨f, hf⟩ := ret j y hj
    exact C114_collide m cfg d xs h hr hd i j hij x y hi hj hcol tr c' hx e f he hf hrf
  refine ⟨⟨fun hall => ?_, fun hc tr c' hx => C114_free m cfg d xs h hr hc tr c' hx⟩, fun ⟨tr, c', h1, h2, h3⟩ => key tr c' h1 h2 h3⟩
  obtain ⟨tr, c', h1, h2⟩ := exec_can_end _ _ [] (Exec.refl (startEach m xs))
  exact key _ c' h1 h2 (hall _ c' h1)

end

section examples
attribute [local instance] sampleUnicode sampleUnicodeOK sampleF64 sampleF32 sampleNarrow

/-- A known word is added, an unknown one removed, and everything recomputed; a known word is added by force, twice; a stored word is removed beside `CalcToken`. -/
def quietCalls : List (Slice × DictOp Int) := [(⟨0, 0, 1⟩, .add (str "a") 5 []), (⟨1, 0, 1⟩, .remove (str "z")), (⟨0, 0, 0⟩, .recalc)]
def forceCalls : List (Slice × DictOp Int) := [(⟨0, 0, 1⟩, .addForce (str "a") 5 []), (⟨0, 0, 1⟩, .addForce (str "a") 5 [])]
def takeCalls : List (Slice × DictOp Int) := [(⟨0, 0, 1⟩, .remove (str "a")), (⟨0, 0, 0⟩, .recalc)]

/-- In a table with one single word the first and the third never race, and the first three calls answer as alone; the second always races. -/
example : ∃ d : Dictionary Int Int, runOps {} [.add (str "a") 9 []] Dictionary.new = some d ∧
    (∀ tr c', Exec (startEach (spacious (memOf {} (some d) [str "a", str "z"]) 0) quietCalls) tr c' → RaceFree tr ∧ ∀ e, c'.threads[1]? = some (.ret e) → e = true) ∧
    (∀ tr c', Exec (startEach (spacious (memOf {} (some d) [str "a", str "z"]) 0) takeCalls) tr c' → RaceFree tr) ∧
    (∀ tr c' e f, Exec (startEach (spacious (memOf {} (some d) [str "a", str "z"]) 0) forceCalls) tr c' → c'.threads = [.ret e, .ret f] → ¬ RaceFree tr) := by
  have h : (runOps (F := Int) (D := Int) {} [.add (str "a") 9 []] Dictionary.new).isSome := by decide +kernel
  obtain ⟨d, hd⟩ := Option.isSome_iff_exists.mp h
  have key : (runOps (F := Int) (D := Int) {} [.add (str "a") 9 []] Dictionary.new).map
      (fun d => (d.numTokens, (segAddToken {} d (str "a") 5 []).1.numTokens, (segRemoveToken {} d (str "z")).map (·.2), (calcToken d).isSome)) = some (1, 1, some true, true) := by decide +kernel
  have key' : (runOps (F := Int) (D := Int) {} [.add (str "a") 9 []] Dictionary.new).map
      (fun d => (d.tokens.map (·.text.length), (segRemoveToken {} d (str "a")).map (·.2), (segAddTokenForce {} d (str "a") 5 []).isSome)) = some ([1], some false, true) := by decide +kernel
  rw [hd] at key key'
  simp only [Option.map_some, Option.some.injEq, Prod.mk.injEq] at key key'
  obtain ⟨k1, k2, k3, k4⟩ := key
  obtain ⟨k5, k6, k7⟩ := key'
  have hone : ∀ t ∈ d.tokens, t.text.length ≤ 1 := fun t ht => by
    have := List.mem_map_of_mem (f := fun t : Token Int Int => t.text.length) ht
    rw [k5] at this
    simp at this; omega
  have ok : ∀ x ∈ quietCalls ++ forceCalls ++ takeCalls, HistoryOK (spacious (memOf {} (some d) [str "a", str "z"]) 0) {} d [x] := by
    intro x hx
    refine spacious_ok {} d 0 _ _ fun y hy hne => ?_
    simp only [List.mem_singleton] at hy
    subst hy
    simp only [quietCalls, forceCalls, takeCalls, List.cons_append, List.nil_append, List.mem_cons, List.not_mem_nil, or_false] at hx
    rcases hx with rfl | rfl | rfl | rfl | rfl | rfl | rfl
    · exact memOf_input _ _ _ 0 (str "a") rfl
    · exact memOf_input _ _ _ 1 (str "z") rfl
    · exact absurd rfl hne
    · exact memOf_input _ _ _ 0 (str "a") rfl
    · exact memOf_input _ _ _ 0 (str "a") rfl
    · exact memOf_input _ _ _ 0 (str "a") rfl
    · exact absurd rfl hne
  have res : ∀ x ∈ quietCalls ++ forceCalls ++ takeCalls, (x.2.result {} d).isSome := by
    intro x hx
    simp only [quietCalls, forceCalls, takeCalls, List.cons_append, List.nil_append, List.mem_cons, List.not_mem_nil, or_false] at hx
    have hrec : (DictOp.result {} d (.recalc : DictOp Int)).isSome := by simpa [DictOp.result] using k4
    rcases hx with rfl | rfl | rfl | rfl | rfl | rfl | rfl
    · rfl
    · show (segRemoveToken {} d (str "z")).isSome
      rw [← Option.isSome_map, k3]; rfl
    · exact hrec
    · exact k7
    · exact k7
    · show (segRemoveToken {} d (str "a")).isSome
      rw [← Option.isSome_map, k6]; rfl
    · exact hrec
  have sub1 : ∀ x ∈ quietCalls, x ∈ quietCalls ++ forceCalls ++ takeCalls := fun x hx => by simp [hx]
  have sub2 : ∀ x ∈ forceCalls, x ∈ quietCalls ++ forceCalls ++ takeCalls := fun x hx => by simp [hx]
  have sub3 : ∀ x ∈ takeCalls, x ∈ quietCalls ++ forceCalls ++ takeCalls := fun x hx => by simp [hx]
  have nsAdd : ¬ StoresNew {} d (.add (str "a") 5 [] : DictOp Int) := by
    rintro ⟨_, d', e, h1, h2⟩
    have e1 := congrArg Prod.fst (Option.some.inj h1)
    simp only at e1
    rw [← e1, k1] at h2
    exact h2 k2
  have nsOther : ∀ op : DictOp Int, op = .remove (str "z") ∨ op = .remove (str "a") ∨ op = .recalc → ¬ StoresNew {} d op := by
    rintro op ho ⟨⟨s, f, p, h1⟩, _⟩
    rcases ho with rfl | rfl | rfl <;> simp at h1
  have ntOther : ∀ op : DictOp Int, op = .add (str "a") 5 [] ∨ op = .remove (str "z") ∨ op = .recalc → ¬ TakesOut {} d op := by
    rintro op ho ⟨⟨s, f, p, h1⟩, d', h2⟩
    rcases ho with rfl | rfl | rfl
    · simp at h1
    · have : (segRemoveToken {} d (str "z")).map (·.2) = some false := by
        rw [show segRemoveToken {} d (str "z") = some (d', false) from h2]; rfl
      rw [k3] at this; cases this
    · simp at h1
  refine ⟨d, hd, fun tr c' hx => ?_, fun tr c' hx => ?_, fun tr c' e f hx he => ?_⟩
  · have hrf : RaceFree tr := by
      refine C114_free _ {} d quietCalls (fun x hx => ok x (sub1 x hx)) (fun x hx => res x (sub1 x hx)) (fun i j x y hij hi hj hc => ?_) tr c' hx
      have hrec : ∀ (i : Nat) x, quietCalls[i]? = some x → x.2.recalculates = true → i = 2 := by
        intro i x hi hr
        match i with
        | 0 => simp only [quietCalls, List.getElem?_cons_zero, Option.some.injEq] at hi; subst hi; cases hr
        | 1 => simp only [quietCalls, List.getElem?_cons_succ, List.getElem?_cons_zero, Option.some.injEq] at hi; subst hi; cases hr
        | 2 => rfl
        | i + 3 => simp [quietCalls] at hi
      have hm := List.mem_of_getElem? hi
      simp only [quietCalls, List.mem_cons, List.not_mem_nil, or_false] at hm
      rcases hc with ⟨c1, c2, _⟩ | c1 | ⟨c1, _⟩
      · exact hij ((hrec i x hi c1).trans (hrec j y hj c2).symm)
      · rcases hm with rfl | rfl | rfl
        · exact nsAdd c1
        · exact nsOther _ (.inl rfl) c1
        · exact nsOther _ (.inr (.inr rfl)) c1
      · exact ntOther _ (by rcases hm with rfl | rfl | rfl <;> simp) c1
    refine ⟨hrf, fun e he => ?_⟩
    obtain ⟨d', h1⟩ := (C114_calls _ {} d quietCalls (fun x hx => ok x (sub1 x hx)) (fun x hx => res x (sub1 x hx)) tr c' hx hrf).2 1 _ e rfl he
    have : (segRemoveToken {} d (str "z")).map (·.2) = some e := by
      rw [show segRemoveToken {} d (str "z") = some (d', e) from h1]; rfl
    rw [k3] at this; exact (Option.some.inj this).symm
  · refine C114_free _ {} d takeCalls (fun x hx => ok x (sub3 x hx)) (fun x hx => res x (sub3 x hx)) (fun i j x y hij hi hj hc => ?_) tr c' hx
    have hxy : (x.2 = .remove (str "a") ∧ y.2 = .recalc) ∨ (x.2 = .recalc ∧ y.2 = .remove (str "a")) := by
      match i, j with
      | 0, 0 => exact absurd rfl hij
      | 1, 1 => exact absurd rfl hij
      | 0, 1 =>
        simp only [takeCalls, List.getElem?_cons_succ, List.getElem?_cons_zero, Option.some.injEq] at hi hj
        subst hi; subst hj; exact .inl ⟨rfl, rfl⟩
      | 1, 0 =>
        simp only [takeCalls, List.getElem?_cons_succ, List.getElem?_cons_zero, Option.some.injEq] at hi hj
        subst hi; subst hj; exact .inr ⟨rfl, rfl⟩
      | i + 2, _ => simp [takeCalls] at hi
      | _, j + 2 => simp [takeCalls] at hj
    rcases hxy with ⟨e1, e2⟩ | ⟨e1, e2⟩ <;> rw [e1, e2] at hc <;> rcases hc with ⟨c1, c2, _⟩ | c1 | ⟨c1, c2⟩
    · cases c1
    · exact nsOther _ (.inr (.inl rfl)) c1
    · rcases c2 with c2 | ⟨t, ht, c2⟩
      · exact c2 rfl
      · have := hone t ht; omega
    · cases c2
    · exact nsOther _ (.inr (.inr rfl)) c1
    · exact ntOther _ (.inr (.inr rfl)) c1
  · exact C114_collide _ {} d forceCalls (fun x hx => ok x (sub2 x hx)) (fun x hx => res x (sub2 x hx)) ⟨_, hd⟩ 0 1 (by omega) _ _ rfl rfl
      (.inl ⟨rfl, rfl, by rw [k1]; omega⟩) tr c' hx e f (by rw [he]; rfl) (by rw [he]; rfl)

end examples
end Gse
