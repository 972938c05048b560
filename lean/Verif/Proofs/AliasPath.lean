import Verif.Proofs.Alias

/-!
# Where the pointers of the result come from

`wlp`: what holds after a program if it does not panic. A pointer to an unknown word that the path search hands on comes
from the array of words.
-/

namespace Gse
open Prog

set_option linter.unusedSectionVars false

variable {F D α β : Type}

/-- If the program ends, then with `Q`. -/
def wlp (sh : Mem F D) : Prog F D α → Mem F D → (α → Mem F D → Prop) → Prop
  | .ret a, o, Q => Q a o
  | .panic, _, _ => True
  | .read l k, o, Q => ∀ c, view sh o l = some c → wlp sh (k c) o Q
  | .write l c k, o, Q => (o l).isSome → wlp sh k (o.put l c) Q
  | .alloc cs k, o, Q => ∀ a, o.Unused a → sh.Unused a → wlp sh (k a) (o.extend a cs) Q

theorem wlp_mono {sh : Mem F D} {Q R : α → Mem F D → Prop} (h : ∀ a o, Q a o → R a o) :
    ∀ (p : Prog F D α) (o : Mem F D), wlp sh p o Q → wlp sh p o R
  | .ret _, _, hp => h _ _ hp
  | .panic, _, _ => trivial
  | .read _ k, o, hp => fun c hc => wlp_mono h (k c) o (hp c hc)
  | .write _ _ k, _, hp => fun hl => wlp_mono h k _ (hp hl)
  | .alloc _ k, _, hp => fun a h1 h2 => wlp_mono h (k a) _ (hp a h1 h2)

theorem wlp_bind' {sh : Mem F D} {f : α → Prog F D β} {Q : β → Mem F D → Prop} :
    ∀ (p : Prog F D α) (o : Mem F D), wlp sh p o (fun a o' => wlp sh (f a) o' Q) → wlp sh (p.bind f) o Q
  | .ret _, _, hp => hp
  | .panic, _, _ => trivial
  | .read _ k, o, hp => fun c hc => wlp_bind' (k c) o (hp c hc)
  | .write _ _ k, _, hp => fun hl => wlp_bind' k _ (hp hl)
  | .alloc _ k, _, hp => fun a h1 h2 => wlp_bind' (k a) _ (hp a h1 h2)

theorem wlp_bind {sh : Mem F D} {f : α → Prog F D β} {Q : β → Mem F D → Prop} {p : Prog F D α} {o : Mem F D}
    (h : wlp sh p o (fun a o' => wlp sh (f a) o' Q)) : wlp sh (p >>= f) o Q := wlp_bind' p o h

theorem wlp_seq {sh : Mem F D} {f : α → Prog F D β} {Q : α → Mem F D → Prop} {R : β → Mem F D → Prop} {p : Prog F D α} {o : Mem F D}
    (h : wlp sh p o Q) (hf : ∀ a o', Q a o' → wlp sh (f a) o' R) : wlp sh (p >>= f) o R := wlp_bind (wlp_mono hf _ _ h)

/-- A program that does not panic keeps both promises. -/
theorem wp_and {sh : Mem F D} {Q R : α → Mem F D → Prop} :
    ∀ (p : Prog F D α) (o : Mem F D), wp sh p o Q → wlp sh p o R → wp sh p o (fun a o' => Q a o' ∧ R a o')
  | .ret _, _, h, h' => ⟨h, h'⟩
  | .panic, _, h, _ => h
  | .read _ k, o, ⟨c, hc, h⟩, h' => ⟨c, hc, wp_and (k c) o h (h' c hc)⟩
  | .write _ _ k, _, ⟨hl, h⟩, h' => ⟨hl, wp_and k _ h (h' hl)⟩
  | .alloc _ k, _, h, h' => fun a h1 h2 => wp_and (k a) _ (h a h1 h2) (h' a h1 h2)

section single
variable {sh o : Mem F D}

theorem wlp_rd {γ : Type} {l : Loc} {f : Cell F D → Prog F D γ} {Q : γ → Mem F D → Prop}
    (h : ∀ c, view sh o l = some c → wlp sh (f c) o Q) : wlp sh (.read l f) o Q := h

theorem wlp_rdFlags {Q : SplitCfg → Mem F D → Prop} (h : ∀ x, Q x o) : wlp sh (rdFlags : Prog F D SplitCfg) o Q := by
  intro c _; cases c <;> first | exact h _ | trivial

theorem wlp_rdBool {l : Loc} {Q : Bool → Mem F D → Prop} (h : ∀ x, Q x o) : wlp sh (rdBool l : Prog F D Bool) o Q := by
  intro c _; cases c <;> first | exact h _ | trivial

theorem wlp_rdNat {l : Loc} {Q : Nat → Mem F D → Prop} (h : ∀ x, Q x o) : wlp sh (rdNat l : Prog F D Nat) o Q := by
  intro c _; cases c <;> first | exact h _ | trivial

theorem wlp_rdTrie {Q : Trie → Mem F D → Prop} (h : ∀ x, Q x o) : wlp sh (rdTrie : Prog F D Trie) o Q := by
  intro c _; cases c <;> first | exact h _ | trivial

theorem wlp_rdDist {i : Nat} {Q : D → Mem F D → Prop} (h : ∀ x, Q x o) : wlp sh (rdDist i : Prog F D D) o Q := by
  intro c _; cases c <;> first | exact h _ | trivial

theorem wlp_rdTok {i : Nat} {Q : MTok F → Mem F D → Prop} (h : ∀ x, view sh o (.tok i) = some (.token x) → Q x o) :
    wlp sh (rdTok i : Prog F D (MTok F)) o Q := by
  intro c hc; cases c <;> first | exact h _ hc | trivial

theorem wlp_rdByte {a i : Nat} {Q : UInt8 → Mem F D → Prop} (h : ∀ x, Q x o) : wlp sh (rdByte a i : Prog F D UInt8) o Q := by
  intro c hc; cases c <;> first | exact h _ | trivial

theorem wlp_rdWord {a i : Nat} {Q : Slice → Mem F D → Prop} (h : ∀ x, view sh o (.cell a i) = some (.word x) → Q x o) :
    wlp sh (rdWord a i : Prog F D Slice) o Q := by
  intro c hc; cases c <;> first | exact h _ hc | trivial

theorem wlp_rdJumper {a i : Nat} {Q : MJumper D → Mem F D → Prop} (h : ∀ x, view sh o (.cell a i) = some (.jumper x) → Q x o) :
    wlp sh (rdJumper a i : Prog F D (MJumper D)) o Q := by
  intro c hc; cases c <;> first | exact h _ hc | trivial

theorem wlp_rdRef {a i : Nat} {Q : Option MRef → Mem F D → Prop} (h : ∀ x, view sh o (.cell a i) = some (.ref x) → Q x o) :
    wlp sh (rdRef a i : Prog F D (Option MRef)) o Q := by
  intro c hc; cases c <;> first | exact h _ hc | trivial

theorem wlp_rdSeg {a i : Nat} {Q : MSeg → Mem F D → Prop} (h : ∀ x, view sh o (.cell a i) = some (.seg x) → Q x o) :
    wlp sh (rdSeg a i : Prog F D MSeg) o Q := by
  intro c hc; cases c <;> first | exact h _ hc | trivial

theorem wlp_wr {a i : Nat} {c : Cell F D} {Q : Unit → Mem F D → Prop} (h : Q () (o.put (.cell a i) c)) :
    wlp sh (wr a i c) o Q := fun _ => h

theorem wlp_make {cs : List (Cell F D)} {Q : Nat → Mem F D → Prop} (h : ∀ a, o.Unused a → sh.Unused a → Q a (o.extend a cs)) :
    wlp sh (make cs) o Q := h

theorem wlp_rdBytes {a : Nat} {Q : Bytes → Mem F D → Prop} (h : ∀ x, Q x o) : ∀ (n i : Nat), wlp sh (rdBytes a i n : Prog F D Bytes) o Q
  | 0, _ => h []
  | n + 1, i => wlp_bind (wlp_rdByte fun _ => wlp_bind (wlp_rdBytes (fun _ => h _) n (i + 1)))

end single

theorem put_alive {o : Mem F D} {l l' : Loc} {c : Cell F D} (h : (o l).isSome) : (o.put l' c l).isSome := by
  unfold Mem.put; split
  · rfl
  · exact h

/-- How many words the token behind a pointer has. -/
def RefLen (m : Mem F D) : Option MRef → Nat → Prop
  | none, _ => False
  | some (.idx v), l => ∃ t, m (.tok v) = some (.token t) ∧ l = t.text.length
  | some (.pseudo _), l => l = 1

/-- Unknown words on the way: those in the jumpers are the words at their index, those in the buffer do not occur. -/
structure Prov (sh : Mem F D) (a b j : Nat) (o : Mem F D) : Prop where
  sj : sh.Unused j
  sb : sh.Unused b
  aj : a ≠ j
  ab : a ≠ b
  jb : j ≠ b
  j0 : (o (.cell j 0)).isSome
  jump : ∀ k x s, o (.cell j k) = some (.jumper x) → x.token = some (.pseudo s) → view sh o (.cell a k) = some (.word s)
  buf : ∀ k r, o (.cell b k) = some (.ref (some r)) → ∃ v, r = .idx v

/-- Everything but the arrays `b` and `j` is as before. -/
def SameBut (b j : Nat) (o o' : Mem F D) : Prop := ∀ l, (∀ k, l ≠ .cell b k) → (∀ k, l ≠ .cell j k) → o' l = o l

theorem SameBut.refl {b j : Nat} (o : Mem F D) : SameBut b j o o := fun _ _ _ => rfl

theorem SameBut.trans {b j : Nat} {o o' o'' : Mem F D} (h : SameBut b j o o') (h' : SameBut b j o' o'') : SameBut b j o o'' :=
  fun l h1 h2 => (h' l h1 h2).trans (h l h1 h2)

theorem view_unused {sh o : Mem F D} {a k : Nat} (h : sh.Unused a) : view sh o (.cell a k) = o (.cell a k) := by
  unfold view; rw [h k]; simp

section
variable {sh : Mem F D} {a b cap j n : Nat} {o : Mem F D} [F64 F] [F32 D]

theorem wlp_deref {p : Option MRef} {Q : Nat × Nat → Mem F D → Prop} (h : ∀ l m, RefLen (view sh o) p l → Q (l, m) o) : wlp sh (derefP p) o Q := by
  cases p with
  | none => trivial
  | some p =>
    cases p with
    | idx v => exact wlp_bind (wlp_rdTok fun t ht => h _ _ ⟨t, ht, rfl⟩)
    | pseudo s => exact h _ _ rfl

theorem wlp_distP {p : Option MRef} {Q : D → Mem F D → Prop} (h : ∀ x, Q x o) : wlp sh (distP p : Prog F D D) o Q := by
  cases p with
  | none => trivial
  | some p =>
    cases p with
    | idx v => exact wlp_rdDist h
    | pseudo s => exact h _

theorem Prov.putRef (h : Prov sh a b j o) (k v : Nat) : Prov sh a b j (o.put (.cell b k) (.ref (some (.idx v)))) := by
  refine ⟨h.sj, h.sb, h.aj, h.ab, h.jb, put_alive h.j0, ?_, ?_⟩
  · intro k' x s hx hs
    rw [put_other _ _ (by intro e; cases e; exact h.jb rfl)] at hx
    rw [view_put_other _ (by intro e; cases e; exact h.ab rfl)]
    exact h.jump k' x s hx hs
  · intro k' r hr
    by_cases he : k' = k
    · subst he
      rw [put_same] at hr
      cases hr; exact ⟨v, rfl⟩
    · rw [put_other _ _ (by intro e; cases e; exact he rfl)] at hr
      exact h.buf k' r hr

theorem Prov.putJumper (h : Prov sh a b j o) {k : Nat} {x : MJumper D} (hx : ∀ s, x.token = some (.pseudo s) → view sh o (.cell a k) = some (.word s)) :
    Prov sh a b j (o.put (.cell j k) (.jumper x)) := by
  refine ⟨h.sj, h.sb, h.aj, h.ab, h.jb, put_alive h.j0, ?_, ?_⟩
  · intro k' x' s hx' hs
    rw [view_put_other _ (by intro e; cases e; exact h.aj rfl)]
    by_cases he : k' = k
    · subst he
      rw [put_same] at hx'
      cases hx'; exact hx s hs
    · rw [put_other _ _ (by intro e; cases e; exact he rfl)] at hx'
      exact h.jump k' x' s hx' hs
  · intro k' r hr
    rw [put_other _ _ (by intro e; cases e; exact h.jb rfl)] at hr
    exact h.buf k' r hr

theorem sameBut_b (k : Nat) (c : Cell F D) : SameBut b j o (o.put (.cell b k) c) := fun _ h1 _ => put_other _ _ (h1 k)

theorem sameBut_j (k : Nat) (c : Cell F D) : SameBut b j o (o.put (.cell j k) c) := fun _ _ h2 => put_other _ _ (h2 k)

/-- What every part of the forward loop keeps. -/
def KeptProv (sh : Mem F D) (a b j : Nat) (o o' : Mem F D) : Prop := Prov sh a b j o' ∧ SameBut b j o o'

theorem KeptProv.trans {o o' o'' : Mem F D} (h : KeptProv sh a b j o o') (h' : KeptProv sh a b j o' o'') : KeptProv sh a b j o o'' :=
  ⟨h'.1, h.2.trans h'.2⟩

theorem wlp_lookup : ∀ (k i : Nat) (id : Bytes) (num : Nat) (o : Mem F D), Prov sh a b j o →
    wlp sh (lookupP a b cap k i id num) o (fun _ o' => KeptProv sh a b j o o') := by
  intro k
  induction k with
  | zero => intro i id num o h; exact ⟨h, .refl o⟩
  | succ k ih =>
    intro i id num o h
    unfold lookupP
    refine wlp_bind (wlp_rdWord fun w _ => wlp_bind (wlp_rdBytes (fun bs => wlp_bind (wlp_rdTrie fun t => ?_)) _ _))
    split
    · exact ⟨h, .refl o⟩
    · refine wlp_bind (wlp_rdTrie fun t => ?_)
      split
      · exact ih _ _ _ _ h
      · refine wlp_bind (wlp_rdNat fun n => ?_)
        split
        · refine wlp_bind (wlp_wr ?_)
          exact wlp_mono (fun _ o' h' => KeptProv.trans ⟨h.putRef _ _, sameBut_b _ _⟩ h') _ _ (ih _ _ _ _ (h.putRef _ _))
        · trivial

theorem wlp_updateJumper (h : Prov sh a b j o) {i : Nat} {base dist : D} {p : Option MRef}
    (hp : ∀ s, p = some (.pseudo s) → view sh o (.cell a i) = some (.word s)) :
    wlp sh (updateJumperP j i base p dist) o (fun _ o' => KeptProv sh a b j o o') := by
  unfold updateJumperP
  refine wlp_bind (wlp_rdJumper fun x _ => ?_)
  split
  · exact wlp_wr ⟨h.putJumper hp, sameBut_j _ _⟩
  · exact ⟨h, .refl o⟩

theorem wlp_updateAll {sm : Bool} {current : Nat} {base : D} : ∀ (k i : Nat) (o : Mem F D), Prov sh a b j o →
    wlp sh (updateAllP b j n sm current base k i) o (fun _ o' => KeptProv sh a b j o o') := by
  intro k
  induction k with
  | zero => intro i o h; exact ⟨h, .refl o⟩
  | succ k ih =>
    intro i o h
    unfold updateAllP
    refine wlp_bind (wlp_rdRef fun r hr => wlp_bind (wlp_deref fun l m hl => ?_))
    split
    · split
      · trivial
      · refine wlp_bind (wlp_distP fun y => ?_)
        refine wlp_seq (wlp_updateJumper h ?_) fun _ o' h' => wlp_mono (fun _ _ h'' => h'.trans h'') _ _ (ih _ _ h'.1)
        rintro s rfl
        rw [view_unused h.sb] at hr
        obtain ⟨v, hv⟩ := h.buf i _ hr
        cases hv
    · exact ih _ _ h

theorem wlp_segStep (h : Prov sh a b j o) {sm : Bool} {current : Nat} :
    wlp sh (segStepP a b cap j n sm current) o (fun _ o' => KeptProv sh a b j o o') := by
  unfold segStepP
  have hb : wlp sh (baseP j current : Prog F D D) o (fun _ o' => o' = o) := by
    unfold baseP
    split
    · rfl
    · exact wlp_bind (wlp_rdJumper fun _ _ => rfl)
  refine wlp_seq hb ?_
  rintro base _ rfl
  refine wlp_bind (wlp_rdNat fun len => wlp_seq (wlp_lookup _ _ _ _ _ h) fun num o1 h1 => ?_)
  refine wlp_seq (wlp_updateAll _ _ _ h1.1) fun _ o2 h2 => ?_
  have hn : wlp sh (needPseudoP b num : Prog F D Bool) o2 (fun _ o' => o' = o2) := by
    unfold needPseudoP
    split
    · rfl
    · exact wlp_bind (wlp_rdRef fun _ _ => wlp_bind (wlp_deref fun _ _ _ => rfl))
  refine wlp_seq hn ?_
  rintro need _ rfl
  split
  · refine wlp_bind (wlp_rdWord fun w hw => ?_)
    refine wlp_mono (fun _ o' h' => (h1.trans h2).trans h') _ _ (wlp_updateJumper h2.1 ?_)
    rintro s hs
    cases hs; exact hw
  · exact h1.trans h2

theorem wlp_segLoop {sm : Bool} : ∀ (k current : Nat) (o : Mem F D), Prov sh a b j o →
    wlp sh (segLoopP a b cap j n sm k current) o (fun _ o' => KeptProv sh a b j o o') := by
  intro k
  induction k with
  | zero => intro current o h; exact ⟨h, .refl o⟩
  | succ k ih =>
    intro current o h
    unfold segLoopP
    exact wlp_seq (wlp_segStep h) fun _ o' h' => wlp_mono (fun _ _ h'' => h'.trans h'') _ _ (ih _ _ h'.1)

theorem wlp_count : ∀ (fuel m num : Nat), wlp sh (countP j fuel m num : Prog F D Nat) o (fun _ o' => o' = o) := by
  intro fuel
  induction fuel with
  | zero => intro m num; cases m <;> first | rfl | trivial
  | succ fuel ih =>
    intro m num
    cases m with
    | zero => rfl
    | succ m =>
      unfold countP
      exact wlp_bind (wlp_rdJumper fun _ _ => wlp_bind (wlp_deref fun _ _ _ => ih _ _))

/-- The segments from `num` on, in the array `q` of `len`: `e k` is the number of words before segment `k`. -/
def FilledFrom (sh : Mem F D) (a q len num : Nat) (e : Nat → Nat) (o : Mem F D) : Prop :=
  (∀ k, k < num → ∀ x, o (.cell q k) = some (.seg x) → x.tok = none) ∧
  ∀ k, num ≤ k → k < len → ∃ x l, o (.cell q k) = some (.seg x) ∧ RefLen (view sh o) x.tok l ∧ e k = e (k + 1) - l ∧
    ∀ s, x.tok = some (.pseudo s) → view sh o (.cell a (e (k + 1) - 1)) = some (.word s)

theorem RefLen.same {m m' : Mem F D} (h : ∀ v, m' (.tok v) = m (.tok v)) {p : Option MRef} {l : Nat} (hl : RefLen m p l) : RefLen m' p l := by
  cases p with
  | none => exact hl
  | some p =>
    cases p with
    | idx v => obtain ⟨t, h1, h2⟩ := hl; exact ⟨t, by rw [h]; exact h1, h2⟩
    | pseudo s => exact hl

theorem wlp_fill {q len N : Nat} (hq : sh.Unused q) (hqj : q ≠ j) (haq : a ≠ q) : ∀ (fuel m num : Nat) (e : Nat → Nat) (o : Mem F D),
    num ≤ len → Prov sh a b j o → e num = m → e len = N → FilledFrom sh a q len num e o →
    wlp sh (fillP j q len fuel m num) o (fun _ o' => SameBut q q o o' ∧
      ∃ num e, num ≤ len ∧ e num = 0 ∧ e len = N ∧ FilledFrom sh a q len num e o') := by
  intro fuel
  induction fuel with
  | zero =>
    intro m num e o hn hP h1 h2 hF
    cases m with
    | zero => exact ⟨.refl o, num, e, hn, h1, h2, hF⟩
    | succ m => trivial
  | succ fuel ih =>
    intro m num e o hn hP h1 h2 hF
    cases m with
    | zero => exact ⟨.refl o, num, e, hn, h1, h2, hF⟩
    | succ m =>
      unfold fillP
      refine wlp_bind (wlp_rdJumper fun x hx => wlp_bind (wlp_deref fun l _ hl => ?_))
      simp only
      split
      · trivial
      · next hc =>
        have hpos : 0 < num := by omega
        refine wlp_bind (wlp_wr ?_)
        have hv : ∀ l, (∀ k, l ≠ .cell q k) → view sh (o.put (.cell q (num - 1)) (.seg ⟨0, 0, x.token⟩)) l = view sh o l :=
          fun l hl => view_put_other _ (hl _)
        have hva : ∀ k, view sh (o.put (.cell q (num - 1)) (.seg ⟨0, 0, x.token⟩)) (.cell a k) = view sh o (.cell a k) :=
          fun k => hv _ (by intro k' e; cases e; exact haq rfl)
        have hvt : ∀ v, view sh (o.put (.cell q (num - 1)) (.seg ⟨0, 0, x.token⟩)) (.tok v) = view sh o (.tok v) :=
          fun k => hv _ (by intro k' e; cases e)
        refine wlp_mono ?_ _ _ (ih (m + 1 - l) (num - 1) (Function.update e (num - 1) (m + 1 - l)) _ (by omega) ?_ (by simp) ?_ ⟨?_, ?_⟩)
        · rintro _ o' ⟨g1, g2⟩
          exact ⟨SameBut.trans (sameBut_b _ _) g1, g2⟩
        · refine ⟨hP.sj, hP.sb, hP.aj, hP.ab, hP.jb, put_alive hP.j0, ?_, ?_⟩
          · intro k y s hy hs
            rw [put_other _ _ (by intro e; cases e; exact hqj rfl)] at hy
            rw [hva]; exact hP.jump k y s hy hs
          · intro k r hr
            by_cases he : Loc.cell b k = Loc.cell q (num - 1)
            · rw [he, put_same] at hr; cases hr
            · rw [put_other _ _ he] at hr; exact hP.buf k r hr
        · rw [Function.update_of_ne (by omega)]; exact h2
        · intro k hk y hy
          rw [put_other _ _ (by intro e; cases e; omega)] at hy
          exact hF.1 k (by omega) y hy
        · intro k hk hk'
          have hk1 : Function.update e (num - 1) (m + 1 - l) (k + 1) = e (k + 1) := Function.update_of_ne (by omega) _ _
          by_cases he : k = num - 1
          · subst he
            have he1 : e (num - 1 + 1) = m + 1 := by rw [Nat.sub_add_cancel hpos]; exact h1
            refine ⟨⟨0, 0, x.token⟩, l, put_same _ _ _, hl.same hvt, ?_, ?_⟩
            · rw [hk1, he1]; simp
            · intro s hs
              rw [hk1, he1, hva, Nat.add_sub_cancel]
              rw [view_unused hP.sj] at hx
              exact hP.jump m x s hx hs
          · obtain ⟨y, l', y1, y2, y3, y4⟩ := hF.2 k (by omega) hk'
            refine ⟨y, l', by rw [put_other _ _ (by intro e; cases e; exact he rfl)]; exact y1, y2.same hvt, ?_, ?_⟩
            · rw [hk1, Function.update_of_ne he]; exact y3
            · intro s hs; rw [hk1, hva]; exact y4 s hs

/-- The positions are filled in, the pointers kept. -/
def SameToks (q : Nat) (o o' : Mem F D) : Prop :=
  (∀ k x, o (.cell q k) = some (.seg x) → ∃ y, o' (.cell q k) = some (.seg y) ∧ y.tok = x.tok) ∧
  ∀ k y, o' (.cell q k) = some (.seg y) → ∃ x, o (.cell q k) = some (.seg x) ∧ y.tok = x.tok

theorem wlp_positions {q : Nat} (hq : sh.Unused q) : ∀ (k i p : Nat) (o : Mem F D),
    wlp sh (positionsP q k i p) o (fun _ o' => SameBut q q o o' ∧ SameToks q o o') := by
  intro k
  induction k with
  | zero => intro i p o; exact ⟨.refl o, fun _ x h => ⟨x, h, rfl⟩, fun _ x h => ⟨x, h, rfl⟩⟩
  | succ k ih =>
    intro i p o
    unfold positionsP
    refine wlp_bind (wlp_rdSeg fun x hx => wlp_bind (wlp_deref fun l m _ => wlp_bind (wlp_wr ?_)))
    refine wlp_mono ?_ _ _ (ih _ _ _)
    rintro _ o' ⟨h1, h2⟩
    rw [view_unused hq] at hx
    refine ⟨SameBut.trans (sameBut_b _ _) h1, fun k' y hy => ?_, fun k' y hy => ?_⟩
    · by_cases he : k' = i
      · subst he
        rw [hx] at hy; cases hy
        exact h2.1 k' ⟨p, p + m, x.tok⟩ (put_same _ _ _)
      · exact h2.1 k' y (by rw [put_other _ _ (by intro e; cases e; exact he rfl)]; exact hy)
    · obtain ⟨z, hz, hz'⟩ := h2.2 k' y hy
      by_cases he : k' = i
      · subst he
        rw [put_same] at hz; cases hz
        exact ⟨x, hx, hz'⟩
      · rw [put_other _ _ (by intro e; cases e; exact he rfl)] at hz
        exact ⟨z, hz, hz'⟩

/-- The words array is as before, and every pointer of the result to an unknown word is that of the word at its place. -/
def PathProv (sh o : Mem F D) (r x : Slice) (o' : Mem F D) : Prop :=
  x.len = 0 ∨ (x.off = 0 ∧ sh.Unused x.arr ∧ (∀ k, view sh o' (.cell r.arr k) = view sh o (.cell r.arr k)) ∧
    (∀ v, o' (.tok v) = o (.tok v)) ∧
    ∃ num e, num ≤ x.len ∧ e num = 0 ∧ e x.len = r.len ∧ FilledFrom sh r.arr x.arr x.len num e o')

theorem FilledFrom.keep {q len num : Nat} {e : Nat → Nat} {o o' : Mem F D} (haq : a ≠ q) (h1 : SameBut q q o o') (h2 : SameToks q o o')
    (h : FilledFrom sh a q len num e o) : FilledFrom sh a q len num e o' := by
  have hv : ∀ l, (∀ k, l ≠ .cell q k) → view sh o' l = view sh o l := fun l hl => by unfold view; rw [h1 l hl hl]
  refine ⟨fun k hk x hx => ?_, fun k hk hk' => ?_⟩
  · obtain ⟨y, hy, hy'⟩ := h2.2 k x hx
    rw [hy']; exact h.1 k hk y hy
  · obtain ⟨x, l, x1, x2, x3, x4⟩ := h.2 k hk hk'
    obtain ⟨y, hy, hy'⟩ := h2.1 k x x1
    refine ⟨y, l, hy, ?_, x3, fun s hs' => ?_⟩
    · rw [hy']; exact x2.same fun v => hv _ (by intro k e; cases e)
    · rw [hy'] at hs'
      rw [hv _ (by intro k e; cases e; exact haq rfl)]
      exact x4 s hs'

theorem wlp_segmentWords {r : Slice} (hr : (view sh o (.cell r.arr 0)).isSome) (hpos : 0 < r.len) {sm : Bool} :
    wlp sh (segmentWordsP r sm) o (PathProv sh o r) := by
  have ne : ∀ {o : Mem F D} {x : Nat}, (view sh o (.cell r.arr 0)).isSome → o.Unused x → sh.Unused x → r.arr ≠ x := by
    rintro o x h h1 h2 rfl
    rw [view_unused h2, h1] at h; cases h
  unfold segmentWordsP
  split
  · exact .inl rfl
  refine wlp_bind (wlp_make fun j hoj hsj => wlp_bind (wlp_rdBool fun nil => ?_))
  have haj := ne hr hoj hsj
  split
  · exact .inl rfl
  refine wlp_bind (wlp_rdNat fun cap => wlp_bind (wlp_make fun b hob hsb => ?_))
  have hv1 : ∀ k, view sh (o.extend j (List.replicate r.len (.jumper ⟨F32.zero, none⟩))) (.cell r.arr k) = view sh o (.cell r.arr k) := by
    intro k; unfold view; rw [extend_other _ _ (by intro i e; cases e; exact haj rfl)]
  have hab := ne (by rw [hv1]; exact hr) hob hsb
  have hj0 : o.extend j (List.replicate r.len (.jumper ⟨F32.zero, none⟩)) (.cell j 0) = some (.jumper ⟨F32.zero, none⟩) := by
    rw [extend_cell, List.getElem?_replicate, if_pos hpos]
  have hjb : j ≠ b := by
    rintro rfl
    rw [hob 0] at hj0; cases hj0
  set o1 := o.extend j (List.replicate r.len (Cell.jumper (F := F) (D := D) ⟨F32.zero, none⟩)) with ho1
  have hP : Prov sh r.arr b j (o1.extend b (List.replicate cap (.ref none))) := by
    refine ⟨hsj, hsb, haj, hab, hjb, ?_, ?_, ?_⟩
    · rw [extend_other _ _ (by intro i e; cases e; exact hjb rfl), hj0]; rfl
    · intro k x s hx hs
      rw [extend_other _ _ (by intro i e; cases e; exact hjb rfl), ho1, extend_cell, List.getElem?_replicate] at hx
      split at hx
      · cases hx; cases hs
      · cases hx
    · intro k y hy
      rw [extend_cell, List.getElem?_replicate] at hy
      split at hy <;> cases hy
  refine wlp_seq (wlp_segLoop _ _ _ hP) fun _ o2 h3 => ?_
  refine wlp_seq (wlp_count _ _ _) ?_
  rintro num o3 rfl
  refine wlp_bind (wlp_make fun q hoq hsq => ?_)
  have hv3 : ∀ k, view sh o3 (.cell r.arr k) = view sh o (.cell r.arr k) := by
    intro k
    have h4 : o3 (.cell r.arr k) = o1 (.cell r.arr k) := by
      rw [h3.2 _ (by intro k' e; cases e; exact hab rfl) (by intro k' e; cases e; exact haj rfl),
        extend_other _ _ (by intro i e; cases e; exact hab rfl)]
    rw [← hv1 k]; unfold view; rw [h4]
  have haq := ne (by rw [hv3]; exact hr) hoq hsq
  have hqj : q ≠ j := by
    rintro rfl
    have := h3.1.j0
    rw [hoq 0] at this; cases this
  have hcell : ∀ k, k < num → o3.extend q (List.replicate num (.seg ⟨0, 0, none⟩)) (.cell q k) = some (.seg ⟨0, 0, none⟩) := by
    intro k hk; rw [extend_cell, List.getElem?_replicate, if_pos hk]
  have hv4 : ∀ k, view sh (o3.extend q (List.replicate num (.seg ⟨0, 0, none⟩))) (.cell r.arr k) = view sh o3 (.cell r.arr k) := by
    intro k; unfold view; rw [extend_other _ _ (by intro i e; cases e; exact haq rfl)]
  refine wlp_seq (wlp_fill (a := r.arr) (b := b) (N := r.len) hsq hqj haq _ _ num (fun _ => r.len) _ le_rfl ?_ rfl rfl ⟨?_, by intro k h1 h2; omega⟩) ?_
  · refine ⟨h3.1.sj, h3.1.sb, h3.1.aj, h3.1.ab, h3.1.jb, ?_, ?_, ?_⟩
    · rw [extend_other _ _ (by intro i e; cases e; exact hqj rfl)]; exact h3.1.j0
    · intro k x s hx hs
      rw [extend_other _ _ (by intro i e; cases e; exact hqj rfl)] at hx
      rw [hv4]; exact h3.1.jump k x s hx hs
    · intro k y hy
      by_cases hbq : b = q
      · subst hbq
        rw [extend_cell, List.getElem?_replicate] at hy
        split at hy <;> cases hy
      · rw [extend_other _ _ (by intro i e; cases e; exact hbq rfl)] at hy
        exact h3.1.buf k y hy
  · intro k hk x hx
    rw [hcell k hk] at hx; cases hx; rfl
  · rintro _ o5 ⟨g1, num', e, g2, g3, g4, g5⟩
    refine wlp_seq (wlp_positions hsq _ _ _ _) ?_
    rintro _ o6 ⟨k1, k2⟩
    refine .inr ⟨rfl, hsq, fun k => ?_, fun v => ?_, num', e, g2, g3, g4, g5.keep haq k1 k2⟩
    swap
    · rw [k1 _ (by intro i e; cases e) (by intro i e; cases e), g1 _ (by intro i e; cases e) (by intro i e; cases e),
        extend_other _ _ (by intro i e; cases e), h3.2 _ (by intro i e; cases e) (by intro i e; cases e),
        extend_other _ _ (by intro i e; cases e), ho1, extend_other _ _ (by intro i e; cases e)]
    rw [← hv3 k, ← hv4 k]
    have h6 := k1 (.cell r.arr k) (by intro i e; cases e; exact haq rfl) (by intro i e; cases e; exact haq rfl)
    have h5 := g1 (.cell r.arr k) (by intro i e; cases e; exact haq rfl) (by intro i e; cases e; exact haq rfl)
    unfold view; rw [h6, h5]

end

end Gse
