import Verif.Proofs.Mem
import Verif.Spec.Conc
import Verif.Proofs.Utf8

/-!
# `segmentP` computes what `internalSegment` computes, in memory of its own
-/

namespace Gse

variable {F D α β : Type}

/-! ## Views -/

/-- Own memory is apart from the shared one. -/
def Apart (sh o : Mem F D) : Prop := ∀ l x, sh l = some x → o l = none

/-- Everything stays as it is. -/
def Grows (m m' : Mem F D) : Prop := ∀ l x, m l = some x → m' l = some x

/-- The bytes stay as they are. -/
def KeepsBytes (m m' : Mem F D) : Prop := ∀ l b, m l = some (.byte b) → m' l = some (.byte b)

theorem Grows.refl (m : Mem F D) : Grows m m := fun _ _ h => h

theorem Grows.trans {m m' m'' : Mem F D} (h : Grows m m') (h' : Grows m' m'') : Grows m m'' := fun l x hx => h' l x (h l x hx)

theorem Grows.bytes {m m' : Mem F D} (h : Grows m m') : KeepsBytes m m' := fun l _ hx => h l _ hx

theorem KeepsBytes.trans {m m' m'' : Mem F D} (h : KeepsBytes m m') (h' : KeepsBytes m' m'') : KeepsBytes m m'' :=
  fun l b hx => h' l b (h l b hx)

theorem HoldsBytes.keep {m m' : Mem F D} (h : KeepsBytes m m') {s : Slice} {w : Bytes} (hw : HoldsBytes m s w) : HoldsBytes m' s w :=
  ⟨hw.1, fun k b hb => h _ _ (hw.2 k b hb)⟩

theorem RefIs.keep {m m' : Mem F D} (h : KeepsBytes m m') {p : MRef} {r : TokRef} (hw : RefIs m p r) : RefIs m' p r := by
  cases hw with
  | idx i => exact .idx i
  | pseudo s w hw => exact .pseudo s w (hw.keep h)

theorem view_shared {sh o : Mem F D} (ha : Apart sh o) {l : Loc} {x : Cell F D} (h : sh l = some x) : view sh o l = some x := by
  simp [view, ha l x h, h]

theorem view_own {sh o : Mem F D} {l : Loc} {x : Cell F D} (h : o l = some x) : view sh o l = some x := by
  simp [view, h]

theorem view_grows {sh o o' : Mem F D} (ha : Apart sh o') (h : Grows o o') : Grows (view sh o) (view sh o') := by
  intro l x hx
  rcases view_some.mp hx with h1 | ⟨_, h1⟩
  · exact view_own (h l x h1)
  · exact view_shared ha h1

theorem Apart.put {sh o : Mem F D} (ha : Apart sh o) {l : Loc} (c : Cell F D) (hl : (o l).isSome) : Apart sh (o.put l c) := by
  intro l' x hx
  have : l' ≠ l := by rintro rfl; rw [ha l' x hx] at hl; cases hl
  rw [put_other _ _ this]; exact ha l' x hx

theorem Apart.extend {sh o : Mem F D} (ha : Apart sh o) {a : Nat} (cs : List (Cell F D)) (hs : sh.Unused a) : Apart sh (o.extend a cs) := by
  intro l x hx
  rw [extend_other _ _ (by rintro i rfl; rw [hs i] at hx; cases hx)]; exact ha l x hx

theorem grows_extend {o : Mem F D} {a : Nat} (cs : List (Cell F D)) (ho : o.Unused a) : Grows o (o.extend a cs) :=
  fun _ _ h => extend_unused cs ho h

theorem view_put_same {sh o : Mem F D} (l : Loc) (c : Cell F D) : view sh (o.put l c) l = some c := view_own (put_same _ _ _)

theorem view_put_other {sh o : Mem F D} {l l' : Loc} (c : Cell F D) (h : l' ≠ l) : view sh (o.put l c) l' = view sh o l' := by
  simp [view, put_other _ _ h]

/-- Overwriting a cell that is not a byte keeps the bytes. -/
theorem keeps_put {sh o : Mem F D} {l : Loc} {x : Cell F D} (c : Cell F D) (h : o l = some x) (hx : ∀ b, x ≠ .byte b) :
    KeepsBytes (view sh o) (view sh (o.put l c)) := by
  intro l' b hb
  have : l' ≠ l := by
    rintro rfl
    rw [view_own h] at hb; exact hx b (Option.some.inj hb)
  rw [view_put_other _ this]; exact hb

/-! ## Single accesses -/

section single
variable {sh o : Mem F D} 

theorem wp_read {l : Loc} {k : Cell F D → Prog F D α} {Q : α → Mem F D → Prop} {c : Cell F D} (h : view sh o l = some c) (hk : wp sh (k c) o Q) :
    wp sh (.read l k) o Q := ⟨c, h, hk⟩

theorem wp_rdByte {a i : Nat} {Q : UInt8 → Mem F D → Prop} {b : UInt8} (h : view sh o (.cell a i) = some (.byte b)) (hq : Q b o) :
    wp sh (Prog.rdByte a i) o Q := wp_read h hq

theorem wp_wr {a i : Nat} {c : Cell F D} {Q : Unit → Mem F D → Prop} (h : (o (.cell a i)).isSome) (hq : Q () (o.put (.cell a i) c)) :
    wp sh (Prog.wr a i c) o Q := ⟨h, hq⟩

theorem wp_make {cs : List (Cell F D)} {Q : Nat → Mem F D → Prop} (h : ∀ a, o.Unused a → sh.Unused a → Q a (o.extend a cs)) :
    wp sh (Prog.make cs) o Q := h

theorem wp_rdBytes {Q : Bytes → Mem F D → Prop} (a : Nat) : ∀ (bs : Bytes) (i : Nat),
    (∀ k b, bs[k]? = some b → view sh o (.cell a (i + k)) = some (.byte b)) → Q bs o →
      wp sh (Prog.rdBytes a i bs.length) o Q := by
  intro bs
  induction bs generalizing Q with
  | nil => intro i _ hq; exact hq
  | cons b bs ih =>
    intro i h hq
    refine wp_bind (wp_rdByte (h 0 b rfl) ?_)
    refine wp_bind (ih (i + 1) (fun k b' hb => ?_) hq)
    have := h (k + 1) b' hb
    rwa [show i + (k + 1) = i + 1 + k by omega] at this

theorem wp_rdSlice {Q : Bytes → Mem F D → Prop} {s : Slice} {w : Bytes} (h : HoldsBytes (view sh o) s w) (hq : Q w o) :
    wp sh (Prog.rdBytes s.arr s.off s.len) o Q := by
  have := wp_rdBytes (Q := Q) s.arr w s.off h.2 hq
  rwa [h.1] at this

end single

/-! ## Splitting -/

section split
variable {sh : Mem F D} {cfg : SplitCfg}

theorem wp_flags {o : Mem F D} (hf : sh .flags = some (.flags cfg)) (ha : Apart sh o) {Q : SplitCfg → Mem F D → Prop} (hq : Q cfg o) :
    wp sh Prog.rdFlags o Q := wp_read (view_shared ha hf) hq

theorem wp_lowLoop {s : Slice} {w : Bytes} {a : Nat} {o0 : Mem F D} (ho0 : o0.Unused a) :
    ∀ (n i : Nat) (o : Mem F D), i + n = w.length → HoldsBytes (view sh o0) s w → Apart sh o → Grows o0 o →
      (∀ k, k < w.length → (o (.cell a k)).isSome) →
      (∀ k b, k < i → w[k]? = some b → o (.cell a k) = some (.byte (lowByte b))) →
      wp sh (lowLoopP s a i n) o (fun _ o' => Apart sh o' ∧ Grows o0 o' ∧
        ∀ k b, w[k]? = some b → o' (.cell a k) = some (.byte (lowByte b))) := by
  intro n
  induction n with
  | zero =>
    intro i o hi hw ha hg _ hdone
    refine ⟨ha, hg, fun k b hk => hdone k b ?_ hk⟩
    have := (List.getElem?_eq_some_iff.mp hk).1
    omega
  | succ n ih =>
    intro i o hi hw ha hg hown hdone
    obtain ⟨b, hb⟩ : ∃ b, w[i]? = some b := ⟨w[i]'(by omega), List.getElem?_eq_getElem (by omega)⟩
    refine wp_bind (wp_rdByte (view_grows ha hg _ _ (hw.2 i b hb)) ?_)
    refine wp_bind (wp_wr (hown i (by omega)) ?_)
    refine ih (i + 1) _ (by omega) hw (ha.put _ (hown i (by omega))) ?_ ?_ ?_
    · intro l x hx
      rw [put_other _ _ (by rintro rfl; rw [ho0 i] at hx; cases hx)]; exact hg l x hx
    · intro k hk
      by_cases h : k = i
      · subst h; rw [put_same]; rfl
      · rw [put_other _ _ (by intro h'; cases h'; exact h rfl)]; exact hown k hk
    · intro k b' hk hb'
      by_cases h : k = i
      · subst h; rw [hb] at hb'; cases hb'; exact put_same _ _ _
      · rw [put_other _ _ (by intro h'; cases h'; exact h rfl)]; exact hdone k b' (by omega) hb'

theorem wp_toLow {o : Mem F D} (hf : sh .flags = some (.flags cfg)) (ha : Apart sh o) {s : Slice} {w : Bytes} (hw : HoldsBytes (view sh o) s w) :
    wp sh (toLowP s) o (fun s' o' => Apart sh o' ∧ Grows o o' ∧ HoldsBytes (view sh o') s' (toLow cfg w)) := by
  refine wp_bind (wp_flags hf ha ?_)
  unfold toLow
  split
  · refine wp_bind (wp_make fun a ho hsu => ?_)
    have hlen := hw.1
    refine wp_bind (wp_mono ?_ _ _ (wp_lowLoop (w := w) ho s.len 0 _ (by omega) hw (ha.extend _ hsu) (grows_extend _ ho) ?_ ?_))
    · rintro _ o' ⟨h1, h2, h3⟩
      refine ⟨h1, h2, by simpa [toLowerBytes] using hlen, fun k b hb => ?_⟩
      simp only [toLowerBytes, List.getElem?_map, Option.map_eq_some_iff] at hb
      obtain ⟨b0, hb0, rfl⟩ := hb
      simpa using view_own (h3 k b0 hb0)
    · intro k hk
      rw [extend_cell, List.getElem?_replicate]; simp; omega
    · intro k b hk; omega
  · exact ⟨ha, Grows.refl o, hw⟩

theorem HoldsBytes.sub {m : Mem F D} {s : Slice} {w : Bytes} (h : HoldsBytes m s w) {i j : Nat} (hj : j ≤ w.length) :
    HoldsBytes m (s.sub i j) (slice w i j) := by
  refine ⟨by simp [slice, Slice.sub]; omega, fun k b hb => ?_⟩
  simp only [slice, List.getElem?_take, List.getElem?_drop] at hb
  split at hb
  · have := h.2 _ _ hb
    simpa [Slice.sub, Nat.add_assoc] using this
  · cases hb

theorem decodeRune_take4 (p : Bytes) : decodeRune (p.take 4) = decodeRune p := by
  match p with
  | [] => rfl
  | [_] => rfl
  | [_, _] => rfl
  | [_, _, _] => rfl
  | _ :: _ :: _ :: _ :: _ => rfl

theorem forall2_snoc {γ δ : Type} {R : γ → δ → Prop} {l : List γ} {l' : List δ} (h : List.Forall₂ R l l') {a : γ} {b : δ} (hab : R a b) :
    List.Forall₂ R (l ++ [a]) (l' ++ [b]) := List.rel_append h (.cons hab .nil)

/-- What the loop of the splitter leaves behind. -/
def SplitPost (sh o : Mem F D) (ws : List Bytes) (out : List Slice) (o' : Mem F D) : Prop :=
  Apart sh o' ∧ Grows o o' ∧ List.Forall₂ (fun s w => HoldsBytes (view sh o') s w) out ws

theorem forall2_grow {o o' : Mem F D} (ha : Apart sh o') (hg : Grows o o') {out : List Slice} {ws : List Bytes}
    (h : List.Forall₂ (fun s w => HoldsBytes (view sh o) s w) out ws) :
    List.Forall₂ (fun s w => HoldsBytes (view sh o') s w) out ws :=
  h.imp fun _ _ hw => hw.keep (view_grows ha hg).bytes

theorem wp_splitLoop [Unicode] (hf : sh .flags = some (.flags cfg)) {text : Slice} {s : Bytes} (ht : HoldsBytes sh text s) :
    ∀ (fuel : Nat) (current start : Nat) (inAl : Bool) (out : List Slice) (ws : List Bytes) (o : Mem F D),
      current ≤ s.length → Apart sh o → List.Forall₂ (fun x w => HoldsBytes (view sh o) x w) out ws →
      wp sh (splitLoopP text fuel current start inAl out) o (SplitPost sh o (splitLoop cfg s fuel current start inAl ws)) := by
  intro fuel
  have htv : ∀ {o : Mem F D}, Apart sh o → HoldsBytes (view sh o) text s := fun ha => ht.keep fun _ _ h => view_shared ha h
  have base : ∀ (current start : Nat) (inAl : Bool) (out : List Slice) (ws : List Bytes) (o : Mem F D),
      current ≤ s.length → Apart sh o → List.Forall₂ (fun x w => HoldsBytes (view sh o) x w) out ws →
      wp sh (splitLoopP text 0 current start inAl out) o (SplitPost sh o (splitLoop cfg s 0 current start inAl ws)) := by
    intro current start inAl out ws o hc ha hout
    unfold splitLoopP splitLoop
    refine wp_bind (wp_flags hf ha ?_)
    split
    · split
      · refine wp_bind (wp_mono ?_ _ _ (wp_toLow hf ha ((htv ha).sub hc)))
        rintro w o' ⟨h1, h2, h3⟩
        exact ⟨h1, h2, forall2_snoc (forall2_grow h1 h2 hout) h3⟩
      · exact ⟨ha, Grows.refl o, hout⟩
    · exact ⟨ha, Grows.refl o, hout⟩
  induction fuel with
  | zero => exact base
  | succ fuel ih =>
    intro current start inAl out ws o hc ha hout
    unfold splitLoopP splitLoop
    rw [ht.1.symm]
    split
    · next hcur =>
      have hbytes : (s.drop current).take 4 = (s.drop current).take (min 4 (s.length - current)) := by
        rw [List.take_eq_take_iff]; simp
      have hlen : ((s.drop current).take 4).length = min 4 (s.length - current) := by simp
      rw [← hlen]
      refine wp_bind (wp_rdBytes _ _ _ ?_ ?_)
      · intro k b hb
        rw [List.getElem?_take] at hb
        split at hb
        · rw [List.getElem?_drop] at hb
          have := (htv ha).2 _ _ hb
          rwa [← Nat.add_assoc] at this
        · cases hb
      rw [decodeRune_take4]
      have hsz : current + (decodeRune (s.drop current)).2 ≤ s.length := by
        have := decodeRune_size_le (s.drop current)
        rw [List.length_drop] at this; omega
      refine wp_bind (wp_flags hf ha ?_)
      have step : ∀ (start' : Nat) (inAl' : Bool) (out' : List Slice) (ws' : List Bytes) (o' : Mem F D), Apart sh o' → Grows o o' →
          List.Forall₂ (fun x w => HoldsBytes (view sh o') x w) out' ws' →
          wp sh (splitLoopP text fuel (current + (decodeRune (s.drop current)).2) start' inAl' out') o'
            (SplitPost sh o (splitLoop cfg s fuel (current + (decodeRune (s.drop current)).2) start' inAl' ws')) := by
        intro start' inAl' out' ws' o' ha' hg' hout'
        refine wp_mono ?_ _ _ (ih _ _ _ _ _ _ hsz ha' hout')
        rintro r o'' ⟨h1, h2, h3⟩
        exact ⟨h1, hg'.trans h2, h3⟩
      simp only
      split
      · split
        · refine wp_bind (wp_mono ?_ _ _ (wp_toLow hf ha ((htv ha).sub hsz)))
          rintro w o' ⟨h1, h2, h3⟩
          exact step _ _ _ _ _ h1 h2 (forall2_snoc (forall2_grow h1 h2 hout) h3)
        · exact step _ _ _ _ _ ha (Grows.refl o) hout
      · cases hin : inAl with
        | false =>
          simp only [Bool.false_and, Bool.false_eq_true, if_false]
          exact step _ _ _ _ _ ha (Grows.refl o) (forall2_snoc hout ((htv ha).sub hsz))
        | true =>
          simp only [Bool.true_and, if_true]
          split
          · next hcond =>
            refine wp_bind (wp_mono ?_ _ _ (wp_toLow hf ha ((htv ha).sub hc)))
            rintro w o' ⟨h1, h2, h3⟩
            exact step _ _ _ _ _ h1 h2 (forall2_snoc (forall2_snoc (forall2_grow h1 h2 hout) h3) ((htv h1).sub hsz))
          · exact step _ _ _ _ _ ha (Grows.refl o) (forall2_snoc hout ((htv ha).sub hsz))
    · exact base _ _ _ _ _ _ hc ha hout

/-- The array `a` holds these words. -/
def WordsAt (m : Mem F D) (a : Nat) (ws : List Bytes) : Prop :=
  ∀ k w, ws[k]? = some w → ∃ s, m (.cell a k) = some (.word s) ∧ HoldsBytes m s w

theorem forall2_get {γ δ : Type} {R : γ → δ → Prop} : ∀ {l : List γ} {l' : List δ}, List.Forall₂ R l l' → ∀ (k : Nat) b, l'[k]? = some b →
    ∃ a, l[k]? = some a ∧ R a b
  | _, _, .nil, k, b, h => by simp at h
  | _, _, .cons (a := a) hab _, 0, b, h => ⟨a, rfl, by simp at h; exact h ▸ hab⟩
  | _, _, .cons _ hl, k + 1, b, h => by
    obtain ⟨a, h1, h2⟩ := forall2_get hl k b (by simpa using h)
    exact ⟨a, by simpa using h1, h2⟩

theorem wp_split [Unicode] (hf : sh .flags = some (.flags cfg)) {text : Slice} {s : Bytes} (ht : HoldsBytes sh text s) {o : Mem F D} (ha : Apart sh o) :
    wp sh (splitP text) o (fun r o' => Apart sh o' ∧ r.len = (splitTextToWords cfg s).length ∧
      WordsAt (view sh o') r.arr (splitTextToWords cfg s)) := by
  refine wp_bind ?_
  have := wp_splitLoop hf ht text.len 0 0 true [] [] o (by omega) ha .nil
  rw [← ht.1] at this ⊢
  refine wp_mono ?_ _ _ this
  rintro out o' ⟨h1, h2, h3⟩
  refine wp_bind (wp_make fun a ho hsu => ?_)
  have h1' := h1.extend (out.map Cell.word) hsu
  refine ⟨h1', h3.length_eq, fun k w hk => ?_⟩
  obtain ⟨x, hx, hw⟩ := forall2_get h3 k w hk
  refine ⟨x, view_own ?_, hw.keep (view_grows h1' (grows_extend _ ho)).bytes⟩
  rw [extend_cell]; simp [hx]

end split

end Gse
