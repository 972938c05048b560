import Verif.Proofs.AliasPath
import Verif.Props.Conc
import Verif.Proofs.Output

/-! # C98: what results share with the caller's buffer -/

namespace Gse
open Spec Trie

set_option linter.unusedSectionVars false

section
variable {F D : Type} [F64 F] [F32 D] [Narrow F D] [Unicode]

theorem wordsOf_take_add (ts : List (Token F D)) (k : Nat) (t : Token F D) (h : ts[k]? = some t) :
    wordsOf (ts.take (k + 1)) = wordsOf (ts.take k) ++ t.text := by
  obtain ⟨hk, rfl⟩ := List.getElem?_eq_some_iff.mp h
  rw [List.take_add_one, List.getElem?_eq_getElem hk, wordsOf_append]
  simp [wordsOf]

theorem tiles_start {d : Dictionary F D} : ∀ {segs : List Seg} {ts : List (Token F D)},
    List.Forall₂ (fun (g : Seg) t => d.deref g.tok = some t ∧ g.stop = g.start + t.text.flatten.length) segs ts →
    ∀ {p q : Nat}, Tiles p q segs → ∀ (k : Nat) (g : Seg), segs[k]? = some g → g.start = p + (wordsOf (ts.take k)).flatten.length := by
  intro segs ts h
  induction h with
  | nil => intro p q _ k g hg; simp at hg
  | @cons s t segs ts h1 h2 ih =>
    intro p q ht k g hg
    cases ht with
    | cons e1 e2 e3 =>
      cases k with
      | zero => simp at hg; subst hg; simpa [wordsOf] using e1
      | succ k =>
        have := ih e3 k g (by simpa using hg)
        rw [this, h1.2, e1]
        simp [wordsOf, Nat.add_assoc]

/-- What the result shares with the input: a pointer to an unknown word points into the input at its own place, or to a copy. -/
def SharesAt (m mem : Mem F D) (cfg : SplitCfg) (c : SegCall) (r : Slice) (segs : List Seg) : Prop :=
  ∀ (k : Nat) (g : Seg), segs[k]? = some g → m.Unused r.arr ∧ ∃ p, mem (.cell r.arr (r.off + k)) = some (.seg ⟨g.start, g.stop, some p⟩) ∧
    ∀ y, p = .pseudo y → if Copied cfg c.text g.start then m.Unused y.arr else y = c.input.sub g.start g.stop

theorem wp_segment_lies [UnicodeOK] {cfg : SplitCfg} {ops : List (DictOp F)} {d : Dictionary F D} (hrun : runOps cfg ops Dictionary.new = some d)
    {sh o : Mem F D} (hS : HoldsSegmenter sh cfg (some d)) {c : SegCall} (hi : HoldsBytes sh c.input c.text) (ha : Apart sh o) {segs : List Seg}
    (h : internalSegment cfg (some d) c.text c.mode = some segs) :
    wp sh (segmentP c.input c.mode) o (fun x o' => HoldsSegs (view sh o') x segs ∧ SharesAt sh o' cfg c x segs) := by
  unfold segmentP
  rw [← hi.1]
  split
  · next h0 =>
    have : segs = [] := by
      unfold internalSegment at h
      rw [if_pos h0] at h; exact (Option.some.inj h).symm
    subst this
    exact ⟨holdsSegs_nil _, by intro k g hg; simp at hg⟩
  next h0 =>
  refine wp_bind (wp_mono ?_ _ _ (wp_split_lies hS.flags hi ha))
  rintro r o1 ⟨ha1, hlen, hoff, hru, hW⟩
  set ws := splitTextToWords cfg c.text with hws
  have hne : ws ≠ [] := fun e => h0 (by have := split_eq_nil (cfg := cfg) (s := c.text) e; rw [this]; rfl)
  have hpos : 0 < ws.length := List.length_pos_iff.mpr hne
  have hWA : WordsAt (view sh o1) r.arr ws := fun k w hk => by
    obtain ⟨x, h1, h2, _⟩ := hW k w hk
    exact ⟨x, view_own h1, h2⟩
  have hr0 : (view sh o1 (.cell r.arr 0)).isSome := by
    obtain ⟨x, h1, _⟩ := hWA 0 _ (List.getElem?_eq_getElem hpos)
    rw [h1]; rfl
  rw [internalSegment_eq] at h
  refine wp_mono ?_ _ _ (wp_and _ _ (wp_segmentWords hS ha1 hlen hWA h) (wlp_segmentWords hr0 (by omega)))
  rintro x o' ⟨hH, hP⟩
  refine ⟨hH, ?_⟩
  rcases hP with hx0 | ⟨hx0, hxu, hva, hvt, num, e, hnum, he0, heN, hF⟩
  · have : segs = [] := List.length_eq_zero_iff.mp (by rw [← hH.1]; exact hx0)
    subst this
    intro k g hg; simp at hg
  by_cases hsm : c.mode = true ∧ ws.length = 1
  · have : segs = [] := by
      unfold segmentWords at h
      rw [if_pos (by rw [← hws]; simp [hsm])] at h; exact (Option.some.inj h).symm
    subst this
    intro k g hg; simp at hg
  obtain ⟨segs', ts, h1, h2, h3, h4, _⟩ := segment_tokens hrun c.text c.mode hsm
  rw [internalSegment_eq, h] at h1
  cases h1
  have hcell : ∀ (k : Nat) (g : Seg), segs[k]? = some g → ∃ p, o' (.cell x.arr k) = some (.seg ⟨g.start, g.stop, some p⟩) ∧ RefIs (view sh o') p g.tok := by
    intro k g hg
    obtain ⟨p, p1, p2⟩ := hH.2 k g hg
    rw [hx0, Nat.zero_add, view_unused hxu] at p1
    exact ⟨p, p1, p2⟩
  have hnum0 : num = 0 := by
    by_contra hn
    have h5 : 0 < segs.length := by rw [← hH.1]; omega
    obtain ⟨p, p1, _⟩ := hcell 0 _ (List.getElem?_eq_getElem h5)
    have := hF.1 0 (by omega) _ p1
    cases this
  subst hnum0
  have htok : ∀ (k : Nat) (g : Seg), segs[k]? = some g → ∃ t, ts[k]? = some t ∧ d.deref g.tok = some t ∧ g.stop = g.start + t.text.flatten.length := by
    intro k g hg
    obtain ⟨hk, rfl⟩ := List.getElem?_eq_some_iff.mp hg
    have hk' : k < ts.length := h2.length_eq ▸ hk
    refine ⟨ts[k], List.getElem?_eq_getElem hk', ?_⟩
    exact List.forall₂_iff_get.mp h2 |>.2 k hk hk'
  have hlenk : ∀ (k : Nat) (t : Token F D), ts[k]? = some t → e k = e (k + 1) - t.text.length := by
    intro k t ht
    have hk : k < segs.length := by rw [h2.length_eq]; exact (List.getElem?_eq_some_iff.mp ht).1
    obtain ⟨y, l, y1, y2, y3, _⟩ := hF.2 k (by omega) (by rw [hH.1]; exact hk)
    obtain ⟨p, p1, p2⟩ := hcell k _ (List.getElem?_eq_getElem hk)
    rw [p1] at y1; cases y1
    obtain ⟨t', t1, t2, _⟩ := htok k _ (List.getElem?_eq_getElem hk)
    rw [ht] at t1; cases t1
    rw [y3]; congr 1
    generalize segs[k].tok = gt at p2 t2
    cases p2 with
    | idx i =>
      obtain ⟨mt, m1, m2⟩ := y2
      have : view sh o' (.tok i) = view sh o1 (.tok i) := by unfold view; rw [hvt]
      rw [this, view_shared ha1 (hS.tok d rfl i t t2)] at m1
      cases m1; exact m2
    | pseudo s w hw =>
      simp only [Dictionary.deref, Option.some.injEq] at t2
      subst t2; exact y2
  have hts : x.len = ts.length := by rw [hH.1, h2.length_eq]
  have he : ∀ n k, n + k = ts.length → e k = (wordsOf (ts.take k)).length := by
    intro n
    induction n with
    | zero =>
      intro k hk
      obtain rfl : k = ts.length := by omega
      rw [← hts, heN, hlen, hts, List.take_length, h3.1]
    | succ n ih =>
      intro k hk
      have hkt := List.getElem?_eq_getElem (l := ts) (i := k) (by omega)
      rw [hlenk k _ hkt, ih (k + 1) (by omega), wordsOf_take_add ts k _ hkt, List.length_append]
      omega
  intro k g hg
  obtain ⟨p, p1, p2⟩ := hcell k g hg
  refine ⟨hxu, p, by rw [hx0, Nat.zero_add]; exact p1, ?_⟩
  rintro y rfl
  have hk := (List.getElem?_eq_some_iff.mp hg).1
  obtain ⟨z, l, z1, z2, z3, z4⟩ := hF.2 k (by omega) (by rw [hH.1]; exact hk)
  rw [p1] at z1; cases z1
  have hword := z4 y rfl
  obtain ⟨t, t1, t2, t3⟩ := htok k g hg
  have hkt := (List.getElem?_eq_some_iff.mp t1).1
  generalize hgt : g.tok = gt at p2 t2
  cases p2 with
  | pseudo s w hw =>
    simp only [Dictionary.deref, Option.some.injEq] at t2
    subst t2
    have hek := he (ts.length - k) k (by omega)
    have hek1 := he (ts.length - (k + 1)) (k + 1) (by omega)
    have hadd := wordsOf_take_add ts k _ t1
    rw [hadd, List.length_append, ← hek] at hek1
    have hidx : e (k + 1) - 1 = e k := by rw [hek1]; simp
    rw [hidx, hva] at hword
    have hsplit : ws = wordsOf (ts.take k) ++ wordsOf (ts.drop k) := by
      have h5 := h3.1
      rw [← hws] at h5
      rw [← h5]
      rw [← wordsOf_append, List.take_append_drop]
    have htake : ws.take (e k) = wordsOf (ts.take k) := by rw [hsplit, hek, List.take_left]
    have hlt : e k < ws.length := by
      have : wordsOf (ts.take (k + 1)) ++ wordsOf (ts.drop (k + 1)) = ws := by
        have h5 := h3.1
        rw [← hws] at h5
        rw [← h5]
        rw [← wordsOf_append, List.take_append_drop]
      rw [← this, List.length_append, hadd, List.length_append, ← hek]; simp; omega
    obtain ⟨y', g1, g2, g3⟩ := hW (e k) _ (List.getElem?_eq_getElem hlt)
    rw [view_own g1] at hword
    cases hword
    have hstart := tiles_start h2 h4 k g hg
    rw [Nat.zero_add, ← htake] at hstart
    have hstop : g.stop = g.start + ws[e k].length := by
      rw [t3]; congr 1
      rw [g2.1, ← hw.1]; simp
    unfold LiesAt at g3
    rw [← hstart, ← hstop] at g3
    exact g3

/-- C98: under every interleaving of `Segment` calls, a returned segment that is an unknown word points into the caller's
buffer, at the bytes from its start to its end, unless the word was copied to lower its letters. -/
theorem C98_shares [UnicodeOK] (cfg : SplitCfg) (ops : List (DictOp F)) (d : Dictionary F D) (hrun : runOps cfg ops Dictionary.new = some d)
    (m : Mem F D) (hS : HoldsSegmenter m cfg (some d)) (calls : List SegCall) (hi : ∀ c ∈ calls, HoldsBytes m c.input c.text)
    (tr : List (Nat × Access)) (c' : Config F D Slice) (hx : Exec (startCalls m calls) tr c') (i : Nat) (r : Slice) (c : SegCall)
    (hr : c'.threads[i]? = some (.ret r)) (hc : calls[i]? = some c) :
    ∃ segs, internalSegment cfg (some d) c.text c.mode = some segs ∧ HoldsSegs c'.mem r segs ∧ SharesAt m c'.mem cfg c r segs := by
  have hst : Isolated m (startCalls m calls) (fun _ _ => none) (fun i r o => ∀ c, calls[i]? = some c →
      ∃ segs, internalSegment cfg (some d) c.text c.mode = some segs ∧ HoldsSegs (view m o) r segs ∧ SharesAt m o cfg c r segs) := by
    refine ⟨fun l x hx => hx, by simp, by simp, by simp, ?_⟩
    intro i p hp
    simp only [startCalls, List.getElem?_map, Option.map_eq_some_iff] at hp
    obtain ⟨c, hc, rfl⟩ := hp
    obtain ⟨segs, hs⟩ := C12_segment_total cfg ops d hrun c.text c.mode
    refine wp_mono ?_ _ _ (wp_segment_lies hrun hS (hi c (List.mem_of_getElem? hc)) (by intro l x _; rfl) hs)
    intro r o hr c' hc'
    rw [hc] at hc'; cases hc'
    exact ⟨segs, hs, hr⟩
  obtain ⟨own, hI, _, _⟩ := isolated_exec hst hx
  obtain ⟨segs, h1, h2, h3⟩ := hI.goes i _ hr c hc
  refine ⟨segs, h1, h2.grow (isolated_view hI i), fun k g hg => ?_⟩
  obtain ⟨hu, p, hp, hy⟩ := h3 k g hg
  exact ⟨hu, p, hI.mine i _ _ hp, hy⟩

/-- C98: when the caller then writes other bytes over its buffer, the result changes with it: the unknown words that were
not copied now read the new bytes, everything else is as it was. -/
theorem C98_reuse [UnicodeOK] (cfg : SplitCfg) (ops : List (DictOp F)) (d : Dictionary F D) (hrun : runOps cfg ops Dictionary.new = some d)
    (m : Mem F D) (hS : HoldsSegmenter m cfg (some d)) (calls : List SegCall) (hi : ∀ c ∈ calls, HoldsBytes m c.input c.text)
    (tr : List (Nat × Access)) (c' : Config F D Slice) (hx : Exec (startCalls m calls) tr c') (i : Nat) (r : Slice) (c : SegCall)
    (hr : c'.threads[i]? = some (.ret r)) (hc : calls[i]? = some c) (new : Bytes) (m' : Mem F D) (hnew : HoldsBytes m' c.input new)
    (hrest : ∀ l, (∀ k, l ≠ .cell c.input.arr k) → m' l = c'.mem l) :
    ∃ segs, internalSegment cfg (some d) c.text c.mode = some segs ∧ HoldsSegs c'.mem r segs ∧
      HoldsSegs m' r (segs.map (overwritten cfg c.text new)) := by
  obtain ⟨segs, h1, h2, h3⟩ := C98_shares cfg ops d hrun m hS calls hi tr c' hx i r c hr hc
  refine ⟨segs, h1, h2, by simpa using h2.1, fun k g' hg' => ?_⟩
  rw [List.getElem?_map, Option.map_eq_some_iff] at hg'
  obtain ⟨g, hg, rfl⟩ := hg'
  have hin := hi c (List.mem_of_getElem? hc)
  have hlen : new.length = c.text.length := by rw [hnew.1, hin.1]
  have hne : c.text ≠ [] := by
    intro h0
    rw [internalSegment_eq, h0, split_nil] at h1
    have : segs = [] := by
      unfold segmentWords at h1
      simpa [segLoop, countSegs, fillSegs, positions] using h1.symm
    subst this; simp at hg
  have hfresh : ∀ {a : Nat}, m.Unused a → ∀ k' k, Loc.cell a k ≠ .cell c.input.arr k' := by
    intro a hu k' k he
    obtain ⟨rfl, _⟩ := Loc.cell.inj he
    have hp := List.length_pos_iff.mpr hne
    have := hin.2 0 _ (List.getElem?_eq_getElem hp)
    rw [hu] at this; cases this
  obtain ⟨hu, p, hp, hy⟩ := h3 k g hg
  obtain ⟨p', hp', hp''⟩ := h2.2 k g hg
  rw [hp] at hp'; cases hp'
  have hp2 : m' (.cell r.arr (r.off + k)) = some (.seg ⟨g.start, g.stop, some p⟩) := by
    rw [hrest _ fun k' => hfresh hu k' _]; exact hp
  obtain ⟨gs, ge, gt⟩ := g
  simp only at hp'' hy hp2 ⊢
  cases hp'' with
  | idx i => exact ⟨.idx i, hp2, .idx i⟩
  | pseudo y w hw =>
    have hy' := hy y rfl
    simp only [overwritten]
    split
    · next hcp =>
      rw [if_pos hcp] at hy'
      exact ⟨.pseudo y, hp2, .pseudo y w ⟨hw.1, fun k' b hb => by rw [hrest _ fun k'' => hfresh hy' k'' _]; exact hw.2 k' b hb⟩⟩
    · next hcp =>
      rw [if_neg hcp] at hy'
      subst hy'
      refine ⟨_, hp2, .pseudo _ _ (hnew.sub ?_)⟩
      by_cases hsm : c.mode = true ∧ (splitTextToWords cfg c.text).length = 1
      · have : segs = [] := by
          rw [internalSegment_eq] at h1
          unfold segmentWords at h1
          rw [if_pos (by simp [hsm])] at h1; exact (Option.some.inj h1).symm
        subst this; simp at hg
      · obtain ⟨segs', ts, g1, _, _, g4, _⟩ := segment_tokens hrun c.text c.mode hsm
        rw [h1] at g1; cases g1
        rw [hlen]
        exact (tiles_mem g4 _ (List.mem_of_getElem? hg)).2.2

/-- The goroutines that call `SplitTextToWords` on these inputs. -/
def startSplits (m : Mem F D) (inputs : List (Slice × Bytes)) : Config F D Slice := ⟨m, inputs.map fun c => splitP c.1⟩

/-- C98: the words that `SplitTextToWords` returns are parts of the caller's buffer, one after the other, except those copied
to lower their letters. -/
theorem C98_split (cfg : SplitCfg) (m : Mem F D) (hf : m .flags = some (.flags cfg)) (inputs : List (Slice × Bytes))
    (hi : ∀ c ∈ inputs, HoldsBytes m c.1 c.2) (tr : List (Nat × Access)) (c' : Config F D Slice) (hx : Exec (startSplits m inputs) tr c')
    (i : Nat) (r : Slice) (input : Slice) (s : Bytes) (hr : c'.threads[i]? = some (.ret r)) (hc : inputs[i]? = some (input, s)) :
    r.len = (splitTextToWords cfg s).length ∧ ∀ (k : Nat) (w : Bytes), (splitTextToWords cfg s)[k]? = some w →
      ∃ x p, p = ((splitTextToWords cfg s).take k).flatten.length ∧ c'.mem (.cell r.arr (r.off + k)) = some (.word x) ∧ HoldsBytes c'.mem x w ∧
        if Copied cfg s p then m.Unused x.arr else x = input.sub p (p + w.length) := by
  have hst : Isolated m (startSplits m inputs) (fun _ _ => none) (fun i r o => ∀ c, inputs[i]? = some c →
      r.len = (splitTextToWords cfg c.2).length ∧ r.off = 0 ∧ WordsLie m o cfg c.1 c.2 r.arr (splitTextToWords cfg c.2)) := by
    refine ⟨fun l x hx => hx, by simp, by simp, by simp, ?_⟩
    intro i p hp
    simp only [startSplits, List.getElem?_map, Option.map_eq_some_iff] at hp
    obtain ⟨c, hc, rfl⟩ := hp
    refine wp_mono ?_ _ _ (wp_split_lies hf (hi c (List.mem_of_getElem? hc)) (by intro l x _; rfl))
    rintro r o ⟨_, h1, h2, _, h3⟩ c' hc'
    rw [hc] at hc'; cases hc'
    exact ⟨h1, h2, h3⟩
  obtain ⟨own, hI, _, _⟩ := isolated_exec hst hx
  obtain ⟨h1, h2, h3⟩ := hI.goes i _ hr _ hc
  refine ⟨h1, fun k w hw => ?_⟩
  obtain ⟨x, x1, x2, x3⟩ := h3 k w hw
  exact ⟨x, _, rfl, by rw [h2, Nat.zero_add]; exact hI.mine i _ _ x1, x2.keep (isolated_view hI i).bytes, x3⟩

end

section examples
attribute [local instance] sampleUnicode sampleUnicodeOK sampleF64 sampleF32 sampleNarrow

/-- The word of the dictionary keeps its text, the copied word too; the comma does not. -/
example : [(⟨0, 1, .idx 0⟩ : Seg), ⟨1, 2, .pseudo (str ",")⟩, ⟨2, 4, .pseudo (str "zz")⟩].map (overwritten {} (str "w,ZZ") (str "no!!")) =
    [⟨0, 1, .idx 0⟩, ⟨1, 2, .pseudo (str "o")⟩, ⟨2, 4, .pseudo (str "zz")⟩] := by decide +kernel

/-- With `ToLower` off nothing is copied. -/
example : [(⟨0, 1, .idx 0⟩ : Seg), ⟨1, 2, .pseudo (str ",")⟩, ⟨2, 4, .pseudo (str "ZZ")⟩].map (overwritten { toLower := false } (str "w,ZZ") (str "no!!")) =
    [⟨0, 1, .idx 0⟩, ⟨1, 2, .pseudo (str "o")⟩, ⟨2, 4, .pseudo (str "!!")⟩] := by decide +kernel

/-- A call on "w,ZZ" whose buffer is used again for "no!!": the result held `w`, `,` and `zz`, then it holds `w`, `o` and `zz`. -/
example : ∃ (d : Dictionary Int Int) (m m' : Mem Int Int) (tr : List (Nat × Access)) (c' : Config Int Int Slice) (r : Slice),
    runOps {} [.add (str "w") 9 [], .add (str "ab") 5 [], .recalc] Dictionary.new = some d ∧
    Exec (startCalls m [⟨⟨0, 0, 4⟩, str "w,ZZ", false⟩]) tr c' ∧ c'.threads[0]? = some (.ret r) ∧
    HoldsSegs c'.mem r [⟨0, 1, .idx 0⟩, ⟨1, 2, .pseudo (str ",")⟩, ⟨2, 4, .pseudo (str "zz")⟩] ∧ (∀ l, (∀ k, l ≠ .cell 0 k) → m' l = c'.mem l) ∧
    HoldsBytes m' ⟨0, 0, 4⟩ (str "no!!") ∧ HoldsSegs m' r [⟨0, 1, .idx 0⟩, ⟨1, 2, .pseudo (str "o")⟩, ⟨2, 4, .pseudo (str "zz")⟩] := by
  have h : (runOps (F := Int) (D := Int) {} [.add (str "w") 9 [], .add (str "ab") 5 [], .recalc] Dictionary.new).bind
      (fun d => internalSegment {} (some d) (str "w,ZZ") false) =
      some [⟨0, 1, .idx 0⟩, ⟨1, 2, .pseudo (str ",")⟩, ⟨2, 4, .pseudo (str "zz")⟩] := by decide +kernel
  obtain ⟨d, hd, hs⟩ := Option.bind_eq_some_iff.mp h
  let m : Mem Int Int := memOf {} (some d) [str "w,ZZ"]
  let calls : List SegCall := [⟨⟨0, 0, 4⟩, str "w,ZZ", false⟩]
  have hi : ∀ c ∈ calls, HoldsBytes m c.input c.text := by
    intro c hc
    simp only [calls, List.mem_cons, List.not_mem_nil, or_false] at hc
    subst hc
    exact memOf_input _ _ _ 0 (str "w,ZZ") rfl
  have hok : CallsOK m {} (some d) calls := C53_history {} _ d hd m calls (memOf_segmenter _ _ _) hi
  obtain ⟨tr, c', h1, h2⟩ := C53_can_complete m calls [] _ (.refl _)
  obtain ⟨r, segs, h3, h4, _⟩ := C53_complete m ⟨_, memOf_below _ _ _⟩ {} (some d) calls hok _ c' h1 h2 0 _ rfl
  let m' : Mem Int Int := fun l => match l with
    | .cell 0 k => ((str "no!!")[k]?).map .byte
    | l => c'.mem l
  have hrest : ∀ l, (∀ k, l ≠ .cell 0 k) → m' l = c'.mem l := by
    intro l hl
    cases l with
    | cell a k =>
      cases a with
      | zero => exact absurd rfl (hl k)
      | succ a => rfl
    | _ => rfl
  have hnew : HoldsBytes m' ⟨0, 0, 4⟩ (str "no!!") := ⟨rfl, fun k b hb => by simp [m', hb]⟩
  obtain ⟨segs', g1, g2, g3⟩ := C98_reuse {} _ d hd m (memOf_segmenter _ _ _) calls hi _ c' h1 0 r _ h3 rfl (str "no!!") m' hnew hrest
  rw [hs] at g1; cases g1
  refine ⟨d, m, m', _, c', r, hd, h1, h3, g2, hrest, hnew, ?_⟩
  have he : [(⟨0, 1, .idx 0⟩ : Seg), ⟨1, 2, .pseudo (str ",")⟩, ⟨2, 4, .pseudo (str "zz")⟩].map (overwritten {} (str "w,ZZ") (str "no!!")) =
    [⟨0, 1, .idx 0⟩, ⟨1, 2, .pseudo (str "o")⟩, ⟨2, 4, .pseudo (str "zz")⟩] := by decide +kernel
  rw [← he]; exact g3

end examples
end Gse
