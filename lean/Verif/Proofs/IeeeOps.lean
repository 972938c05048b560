import Verif.Proofs.Ieee
import Verif.Spec.Round
import Verif.Spec.Dag
import Verif.Spec.Segment

/-!
# The laws assumed about floats hold of IEEE arithmetic
-/

namespace Gse

namespace Datum

variable (f : Format)

theorem make_ok (s : Bool) (q : ℚ) : (make f s q).Ok f := by
  unfold make
  split
  · simp [Ok, f.round_zero]
  · next h0 =>
    split
    · trivial
    · next h1 =>
      refine ⟨f.round_round q, not_le.mp h1, ?_, ?_⟩
      · intro h
        have : ¬ 0 ≤ q := fun h' => absurd (f.round_nonneg h') (not_le.mpr h)
        simpa using not_le.mp this
      · intro h
        have : ¬ q ≤ 0 := fun h' => by
          have := f.round_mono h'
          rw [f.round_zero] at this
          exact absurd this (not_le.mpr h)
        simpa using (not_le.mp this).le

variable {f}

theorem neg_ok {x : Datum} (h : x.Ok f) : x.neg.Ok f := by
  cases x with
  | nan => trivial
  | inf s => trivial
  | fin s q =>
    obtain ⟨h1, h2, h3, h4⟩ := h
    refine ⟨by rw [f.round_neg, h1], by rwa [abs_neg], ?_, ?_⟩
    · intro h; simp [h4 (by linarith)]
    · intro h; simp [h3 (by linarith)]

theorem add_ok (x y : Datum) : (add f x y).Ok f := by
  unfold add; split
  · exact make_ok f _ _
  · split <;> trivial
  all_goals trivial

theorem mul_ok (x y : Datum) : (mul f x y).Ok f := by
  unfold mul; split
  · exact make_ok f _ _
  · trivial
  · split <;> trivial
  · split <;> trivial
  · trivial

theorem zero_ok (s : Bool) : (fin s 0).Ok f := by simp [Ok, f.round_zero]

theorem div_ok (x y : Datum) : (div f x y).Ok f := by
  unfold div; split
  · split
    · split <;> trivial
    · exact make_ok f _ _
  · trivial
  · trivial
  · exact zero_ok _
  · trivial

theorem trunc_ok {x : Datum} (h : x.Ok f) : (trunc f x).Ok f := by
  unfold trunc; split
  · exact make_ok f _ _
  · exact h

theorem convert_ok (x : Datum) : (convert f x).Ok f := by
  unfold convert; split
  · exact make_ok f _ _
  · next h => cases x with
    | nan => trivial
    | inf s => trivial
    | fin s q => exact absurd rfl (h s q)

theorem ofNat_ok (n : Nat) : (ofNat f n).Ok f := make_ok f _ _

/-! ## Order -/

theorem lt_asymm {x y : Datum} (h : lt x y = true) : lt y x = false := by
  cases x <;> cases y <;> simp_all [lt]
  exact le_of_lt h

theorem lt_cotrans {x y z : Datum} (hy : y ≠ nan) (h : lt x z = true) : lt x y = true ∨ lt y z = true := by
  match x, y, z with
  | _, nan, _ => exact absurd rfl hy
  | nan, inf _, _ => simp [lt] at h
  | nan, fin _ _, _ => simp [lt] at h
  | inf _, inf _, nan => simp [lt] at h
  | inf _, fin _ _, nan => simp [lt] at h
  | fin _ _, inf _, nan => simp [lt] at h
  | fin _ _, fin _ _, nan => simp [lt] at h
  | inf s, inf t, inf u => revert h; cases s <;> cases t <;> cases u <;> simp [lt]
  | inf s, inf t, fin _ _ => revert h; cases s <;> cases t <;> simp [lt]
  | inf s, fin _ _, inf u => revert h; cases s <;> cases u <;> simp [lt]
  | inf s, fin _ _, fin _ _ => revert h; cases s <;> simp [lt]
  | fin _ _, inf t, inf u => revert h; cases t <;> cases u <;> simp [lt]
  | fin _ _, inf t, fin _ _ => cases t <;> simp [lt]
  | fin _ _, fin _ _, inf u => revert h; cases u <;> simp [lt]
  | fin _ q, fin _ r, fin _ t =>
    simp only [lt, decide_eq_true_eq] at h ⊢
    rcases lt_or_ge q r with h' | h'
    · exact Or.inl h'
    · exact Or.inr (lt_of_le_of_lt h' h)

theorem eq_iff {x y : Datum} (hx : x ≠ nan) (hy : y ≠ nan) : eq x y = true ↔ lt x y = false ∧ lt y x = false := by
  match x, y with
  | nan, _ => exact absurd rfl hx
  | inf _, nan => exact absurd rfl hy
  | fin _ _, nan => exact absurd rfl hy
  | inf s, inf t => cases s <;> cases t <;> simp [lt, eq]
  | inf s, fin _ _ => cases s <;> simp [lt, eq]
  | fin _ _, inf t => cases t <;> simp [lt, eq]
  | fin _ q, fin _ r =>
    simp only [lt, eq, decide_eq_true_eq, decide_eq_false_iff_not, not_lt]
    exact ⟨fun h => ⟨h.ge, h.le⟩, fun h => le_antisymm h.2 h.1⟩

theorem make_ne_nan (s : Bool) (q : ℚ) : make f s q ≠ nan := by
  unfold make; split
  · simp
  · split <;> simp

/-- Rounding keeps the order. -/
theorem make_mono {s t : Bool} {q r : ℚ} (h : q ≤ r) : lt (make f t r) (make f s q) = false := by
  have hm := f.round_mono h
  have hE : (0 : ℚ) < 2 ^ f.emax := by positivity
  unfold make
  split
  · next hr =>
    subst hr
    split
    · simp [lt]
    · next hq =>
      have : q < 0 := lt_of_le_of_ne h hq
      split
      · simp [lt, this]
      · rw [f.round_zero] at hm; simpa [lt] using hm
  · next hr =>
    split
    · next hR =>
      split
      · next hq =>
        subst hq
        simpa [lt] using h
      · next hq =>
        split
        · next hQ =>
          simp only [lt, Bool.and_eq_false_iff, decide_eq_false_iff_not, not_lt, Bool.not_eq_false', decide_eq_true_eq]
          by_contra hc
          push Not at hc
          linarith [hc.1, hc.2]
        · next hQ =>
          simp only [lt, decide_eq_false_iff_not, not_lt]
          by_contra hc
          push Not at hc
          have h0 := f.round_mono hc.le
          rw [f.round_zero] at h0
          rw [abs_of_nonpos h0] at hR
          rw [abs_of_nonpos (hm.trans h0)] at hQ
          linarith
    · next hR =>
      split
      · next hq =>
        subst hq
        rw [f.round_zero] at hm
        simpa [lt] using hm
      · next hq =>
        split
        · next hQ =>
          simp only [lt, Bool.not_eq_false', decide_eq_true_eq]
          by_contra hc
          push Not at hc
          have h0 := f.round_nonneg hc
          rw [abs_of_nonneg h0] at hQ
          rw [abs_of_nonneg (h0.trans hm)] at hR
          linarith
        · simpa [lt] using hm

theorem add_comm (x y : Datum) : add f x y = add f y x := by
  cases x <;> cases y <;> simp [add, _root_.add_comm, Bool.and_comm]
  rename_i s t; cases s <;> cases t <;> simp

theorem top_lt (x : Datum) : lt (inf false) x = false := by cases x <;> simp [lt]

theorem lt_bot (x : Datum) : lt x (inf true) = false := by cases x <;> simp [lt]

theorem lt_self (x : Datum) : lt x x = false := by cases x <;> simp [lt]

/-- Adding the same number keeps the order, when no infinities of opposite signs meet. -/
theorem add_mono {a b c : Datum} (ha : a ≠ nan) (hb : b ≠ nan) (hc : c ≠ nan) (h : lt a b = false)
    (hac : add f c a ≠ nan) (hbc : add f c b ≠ nan) : lt (add f c a) (add f c b) = false := by
  match c, a, b with
  | nan, _, _ => exact absurd rfl hc
  | inf _, nan, _ => exact absurd rfl ha
  | fin _ _, nan, _ => exact absurd rfl ha
  | inf _, inf _, nan => exact absurd rfl hb
  | inf _, fin _ _, nan => exact absurd rfl hb
  | fin _ _, inf _, nan => exact absurd rfl hb
  | fin _ _, fin _ _, nan => exact absurd rfl hb
  | inf s, inf t, inf u => revert hac hbc; cases s <;> cases t <;> cases u <;> simp [add, lt]
  | inf s, inf t, fin _ _ => revert hac; cases s <;> cases t <;> simp [add, lt]
  | inf s, fin _ _, inf u => revert hbc; cases s <;> cases u <;> simp [add, lt]
  | inf s, fin _ _, fin _ _ => exact lt_self _
  | fin _ _, inf t, inf u => exact h
  | fin _ _, inf t, fin _ _ =>
    cases t with
    | false => exact top_lt _
    | true => simp [lt] at h
  | fin _ _, fin _ _, inf u =>
    cases u with
    | true => exact lt_bot _
    | false => simp [lt] at h
  | fin _ z, fin _ q, fin _ r =>
    refine make_mono ?_
    simp only [lt, decide_eq_false_iff_not, not_lt] at h
    linarith

/-! ## Signs -/

/-- not NaN and not negative -/
def NonNeg : Datum → Prop
  | nan => False
  | inf s => s = false
  | fin _ q => 0 ≤ q

/-- not NaN and not positive -/
def NonPos : Datum → Prop
  | nan => False
  | inf s => s = true
  | fin _ q => q ≤ 0

theorem make_nonNeg {s : Bool} {q : ℚ} (h : 0 ≤ q) : (make f s q).NonNeg := by
  unfold make; split
  · exact le_refl _
  · split
    · simpa [NonNeg] using h
    · exact f.round_nonneg h

theorem make_nonPos {s : Bool} {q : ℚ} (h : q ≤ 0) : (make f s q).NonPos := by
  unfold make; split
  · exact le_refl _
  · next h0 =>
    split
    · simpa [NonPos] using lt_of_le_of_ne h h0
    · have := f.round_mono h
      rwa [f.round_zero] at this

theorem NonNeg.ne_nan {x : Datum} (h : x.NonNeg) : x ≠ nan := by rintro rfl; exact h
theorem NonPos.ne_nan {x : Datum} (h : x.NonPos) : x ≠ nan := by rintro rfl; exact h

theorem NonNeg.add {x y : Datum} (hx : x.NonNeg) (hy : y.NonNeg) : (add f x y).NonNeg := by
  cases x <;> cases y <;> simp_all [NonNeg, Datum.add]
  exact make_nonNeg (by linarith)

theorem NonPos.add {x y : Datum} (hx : x.NonPos) (hy : y.NonPos) : (Datum.add f x y).NonPos := by
  cases x <;> cases y <;> simp_all [NonPos, Datum.add]
  exact make_nonPos (by linarith)

theorem ofNat_ne_nan (n : Nat) : ofNat f n ≠ nan := make_ne_nan _ _

/-- A number of the format is kept. -/
theorem make_self {s t : Bool} {q : ℚ} (h : (fin s q).Ok f) (h0 : q ≠ 0) : make f t q = fin s q := by
  obtain ⟨h1, h2, h3, h4⟩ := h
  unfold make
  rw [if_neg h0, h1, if_neg (not_le.mpr h2)]
  congr 1
  rcases lt_or_gt_of_ne h0 with h | h
  · rw [h3 h]; simpa using h
  · rw [h4 h]; simpa using h.le

/-- Adding a number that is not negative does not make smaller. -/
theorem add_ge {x y : Datum} (hx : x.NonNeg) (hy : y.NonNeg) (ok : y.Ok f) : lt (Datum.add f x y) y = false := by
  match x, y with
  | nan, _ => cases hx
  | inf _, nan => cases hy
  | fin _ _, nan => cases hy
  | inf s, inf t => simp only [NonNeg] at hx hy; subst hx hy; simp [Datum.add, lt]
  | inf s, fin _ _ => simp only [NonNeg] at hx; subst hx; exact top_lt _
  | fin _ _, inf t => simp only [NonNeg] at hy; subst hy; exact top_lt _
  | fin s q, fin t r =>
    simp only [NonNeg] at hx hy
    rcases eq_or_ne r 0 with h0 | h0
    · have hn := make_nonNeg (f := f) (s := s && t) (q := q + r) (by linarith)
      show lt (make f (s && t) (q + r)) (fin t r) = false
      revert hn
      cases make f (s && t) (q + r) with
      | nan => intro h; cases h
      | inf u => intro h; simp only [NonNeg] at h; subst h; exact top_lt _
      | fin u z => intro h; simpa [lt, h0, NonNeg] using h
    · rw [← make_self (t := t) ok h0]
      have : Datum.add f (fin s q) (make f t r) = make f (s && t) (q + r) := by rw [make_self ok h0]; rfl
      rw [this]
      exact make_mono (by linarith)

theorem lt_zero_ofNat : lt (ofNat f 0) (ofNat f 0) = false := by simp [ofNat, make, lt]

theorem eq_zero_ofNat : eq (ofNat f 0) (ofNat f 0) = true := by simp [ofNat, make, eq]

/-- A small natural number is represented exactly. -/
theorem ofNat_exact {n : Nat} (h : n ≤ 2 ^ f.p) (h' : n < 2 ^ f.emax) : ofNat f n = fin false n := by
  have hr : f.round (n : ℚ) = n := by
    have := f.round_int (n := (n : ℤ)) (by simpa using (by exact_mod_cast h : (n : ℤ) ≤ 2 ^ f.p))
    simpa using this
  unfold ofNat make
  rw [hr]
  split
  · next h0 => rw [h0]
  · rw [if_neg (by simpa using (by exact_mod_cast h' : (n : ℚ) < 2 ^ f.emax))]
    simp

end Datum

/-- A datum of binary64. -/
def mk64 {M : MathFns} (x : Datum) (h : x.Ok f64) : Binary64 M := ⟨⟨x, h⟩⟩

instance (M : MathFns) : F64 (Binary64 M) where
  ofNat n := mk64 (Datum.ofNat f64 n) (Datum.ofNat_ok n)
  add x y := mk64 (Datum.add f64 x.datum y.datum) (Datum.add_ok _ _)
  sub x y := mk64 (Datum.add f64 x.datum y.datum.neg) (Datum.add_ok _ _)
  mul x y := mk64 (Datum.mul f64 x.datum y.datum) (Datum.mul_ok _ _)
  div x y := mk64 (Datum.div f64 x.datum y.datum) (Datum.div_ok _ _)
  lt x y := Datum.lt x.datum y.datum
  eq x y := Datum.eq x.datum y.datum
  log x := ⟨M.log x.num⟩
  log2 x := ⟨M.log2 x.num⟩
  exp x := ⟨M.exp x.num⟩
  trunc x := mk64 (Datum.trunc f64 x.datum) (Datum.trunc_ok x.num.ok)
  parse s := (⟨(M.parse s).1⟩, (M.parse s).2)
  zero_eq_zero := Datum.eq_zero_ofNat (f := f64)
  zero_lt_zero := Datum.lt_zero_ofNat (f := f64)

instance : F32 Binary32 where
  zero := ⟨Datum.ofNat f32 0, Datum.ofNat_ok 0⟩
  c32 := ⟨Datum.ofNat f32 32, Datum.ofNat_ok 32⟩
  add x y := ⟨Datum.add f32 x.datum y.datum, Datum.add_ok _ _⟩
  sub x y := ⟨Datum.add f32 x.datum y.datum.neg, Datum.add_ok _ _⟩
  isZero x := Datum.eq x.datum (Datum.ofNat f32 0)
  gt x y := Datum.lt y.datum x.datum
  isZero_zero := Datum.eq_zero_ofNat (f := f32)

instance (M : MathFns) : Narrow (Binary64 M) Binary32 where
  narrow x := ⟨Datum.convert f32 x.datum, Datum.convert_ok _⟩

open Datum in
instance : F32Laws Binary32 where
  good x := x.datum.NonNeg
  good_zero := make_nonNeg (f := f32) (s := false) (q := ((0 : Nat) : ℚ)) (by norm_num)
  good_c32 := make_nonNeg (f := f32) (s := false) (q := ((32 : Nat) : ℚ)) (by norm_num)
  pos_c32 := by
    show lt (ofNat f32 0) (ofNat f32 32) = true
    rw [ofNat_exact (by decide) (by decide), ofNat_exact (by decide) (by decide)]
    simp [lt]
  good_add := NonNeg.add (f := f32)
  gt_asymm _ _ h := Datum.lt_asymm h
  gt_cotrans _ hb _ h := (Datum.lt_cotrans hb.ne_nan h).symm
  add_mono {a b c} ha hb hc h := by
    show lt (Datum.add f32 b.datum c.datum) (Datum.add f32 a.datum c.datum) = false
    rw [Datum.add_comm b.datum, Datum.add_comm a.datum]
    exact Datum.add_mono hb.ne_nan ha.ne_nan hc.ne_nan h (NonNeg.add hc hb).ne_nan (NonNeg.add hc ha).ne_nan
  add_pos {a b} ha hb h := by
    have h' : lt (ofNat f32 0) b.datum = true := h
    show lt (ofNat f32 0) (Datum.add f32 a.datum b.datum) = true
    rcases Datum.lt_cotrans (y := Datum.add f32 a.datum b.datum) (NonNeg.add ha hb).ne_nan h' with h1 | h1
    · exact h1
    · rw [add_ge ha hb b.ok] at h1; cases h1
  isZero_pos {a} ha h := by
    have h' : lt (ofNat f32 0) a.datum = true := h
    show eq a.datum (ofNat f32 0) = false
    by_contra hc
    have := (Datum.eq_iff ha.ne_nan (ofNat_ne_nan (f := f32) 0)).1 (by simpa using hc)
    rw [this.2] at h'; cases h'

open Datum in
instance (M : MathFns) : F64Laws (Binary64 M) where
  good x := x.datum.NonPos
  good_zero := make_nonPos (f := f64) (s := false) (q := ((0 : Nat) : ℚ)) (by norm_num)
  good_add := NonPos.add (f := f64)
  lt_asymm _ _ h := Datum.lt_asymm h
  lt_cotrans _ hb _ h := Datum.lt_cotrans hb.ne_nan h
  add_mono ha hb hc h := Datum.add_mono ha.ne_nan hb.ne_nan hc.ne_nan h (NonPos.add hc ha).ne_nan (NonPos.add hc hb).ne_nan
  add_comm _ _ := Binary64.ext (Num64.ext (Datum.add_comm _ _))
  eq_iff ha hb := Datum.eq_iff ha.ne_nan hb.ne_nan

/-- The value of a finite number. -/
def Datum.val : Datum → ℚ
  | .fin _ q => q
  | _ => 0

/-- Neither NaN nor infinite. -/
def Datum.IsFin : Datum → Prop
  | .fin _ _ => True
  | _ => False

namespace Datum

theorem IsFin.eq {x : Datum} (h : x.IsFin) : ∃ s, x = .fin s x.val := by
  cases x with
  | nan => cases h
  | inf s => cases h
  | fin s q => exact ⟨s, rfl⟩

theorem make_val {f : Format} (s : Bool) {q : ℚ} (h : |f.round q| < 2 ^ f.emax) :
    (make f s q).IsFin ∧ (make f s q).val = f.round q := by
  unfold make
  split
  · next h0 => rw [h0, f.round_zero]; exact ⟨trivial, rfl⟩
  · rw [if_neg (not_le.mpr h)]; exact ⟨trivial, rfl⟩

theorem round_lt {q : ℚ} (h : |q| ≤ 2 ^ 200) : |f64.round q| < 2 ^ f64.emax := by
  have hb : f64.round ((2 : ℚ) ^ (200 : ℤ)) = 2 ^ (200 : ℤ) := f64.round_zpow (by decide)
  have h2 : (2 : ℚ) ^ (200 : ℤ) = 2 ^ 200 := by norm_cast
  rw [h2] at hb
  obtain ⟨h3, h4⟩ := abs_le.mp h
  have h5 := f64.round_mono h3
  have h6 := f64.round_mono h4
  rw [f64.round_neg, hb] at h5
  rw [hb] at h6
  refine lt_of_le_of_lt (abs_le.mpr ⟨h5, h6⟩) ?_
  exact pow_lt_pow_right₀ (by norm_num) (by decide)

end Datum

open Datum in
instance (M : MathFns) : F64Round (Binary64 M) where
  num x := x.datum ≠ .nan
  lt_asymm _ _ h := Datum.lt_asymm h
  lt_cotrans _ hb _ h := Datum.lt_cotrans hb h
  eq_iff ha hb := Datum.eq_iff ha hb
  ofNat_add a b h := by
    refine Binary64.ext (Num64.ext ?_)
    show Datum.add f64 (ofNat f64 a) (ofNat f64 b) = ofNat f64 (a + b)
    have hl : ∀ n ≤ 2 ^ 53, n < 2 ^ f64.emax := fun n hn => lt_of_le_of_lt hn (Nat.pow_lt_pow_right (by norm_num) (by decide))
    rw [ofNat_exact (f := f64) (n := a) (show a ≤ 2 ^ 53 by omega) (hl _ (by omega)),
      ofNat_exact (f := f64) (n := b) (show b ≤ 2 ^ 53 by omega) (hl _ (by omega))]
    show make f64 (false && false) _ = make f64 false _
    push_cast; rfl
  num_zero := ofNat_ne_nan (f := f64) 0
  num_ratio x a b hx ha hab hb := by
    show Datum.mul f64 x.datum (Datum.div f64 (ofNat f64 a) (ofNat f64 b)) ≠ .nan
    have hl : ∀ n ≤ 2 ^ 53, n < 2 ^ f64.emax := fun n hn => lt_of_le_of_lt hn (Nat.pow_lt_pow_right (by norm_num) (by decide))
    rw [ofNat_exact (f := f64) (n := a) (show a ≤ 2 ^ 53 by omega) (hl _ (by omega)),
      ofNat_exact (f := f64) (n := b) (show b ≤ 2 ^ 53 by omega) (hl _ (by omega))]
    have hb0 : (0 : ℚ) < b := by exact_mod_cast (show 0 < b by omega)
    have ha0 : (1 : ℚ) ≤ a := by exact_mod_cast ha
    have hba : (b : ℚ) ≤ 2 ^ 53 := by exact_mod_cast hb
    have hle : (1 : ℚ) / 2 ^ 53 ≤ (a : ℚ) / b := by
      rw [div_le_div_iff₀ (by positivity) hb0]; nlinarith
    have hr : (1 : ℚ) / 2 ^ 53 ≤ f64.round ((a : ℚ) / b) := by
      have h1 := f64.round_mono hle
      have h2 : f64.round ((2 : ℚ) ^ (-53 : ℤ)) = 2 ^ (-53 : ℤ) := f64.round_zpow (by decide)
      have h3 : (2 : ℚ) ^ (-53 : ℤ) = 1 / 2 ^ 53 := by norm_num
      rw [h3] at h2
      rw [h2] at h1; exact h1
    have hr0 : 0 < f64.round ((a : ℚ) / b) := lt_of_lt_of_le (by positivity) hr
    have h1 : (a : ℚ) / b ≤ 1 := by rw [div_le_one hb0]; exact_mod_cast hab
    obtain ⟨hf, hv⟩ := make_val (f := f64) (false ^^ false) (q := (a : ℚ) / b)
      (round_lt (by rw [abs_of_pos (lt_of_lt_of_le (by positivity) hle)]; exact h1.trans (one_le_pow₀ (by norm_num))))
    have hd : Datum.div f64 (.fin false (a : ℚ)) (.fin false (b : ℚ)) = make f64 (false ^^ false) ((a : ℚ) / b) := by
      show (if (b : ℚ) = 0 then _ else _) = _
      rw [if_neg hb0.ne']
    rw [hd]
    obtain ⟨t, ht⟩ := hf.eq
    rw [ht, hv]
    cases hx' : x.datum with
    | nan => exact absurd hx' hx
    | inf s =>
      show (if _ = (0 : ℚ) then _ else _) ≠ _
      rw [if_neg hr0.ne']; simp
    | fin s q => exact make_ne_nan _ _
  fin x := x.datum.IsFin
  val x := x.datum.val
  rnd := f64.round
  rnd_mono := f64.round_mono
  rnd_zero := f64.round_zero
  rnd_err q := by
    refine (f64.round_err_rel q).trans ?_
    show |q| / 2 ^ 53 + 2 ^ (-1074 - 1 : ℤ) ≤ |q| / 2 ^ 53 + 1 / 2 ^ 253
    have : (2 : ℚ) ^ (-1074 - 1 : ℤ) ≤ 2 ^ (-253 : ℤ) := zpow_le_zpow_right₀ (by norm_num) (by norm_num)
    have h3 : (2 : ℚ) ^ (-253 : ℤ) = 1 / 2 ^ 253 := by rw [zpow_neg, one_div]; norm_cast
    rw [h3] at this
    linarith
  fin_num {x} h := by
    obtain ⟨s, hs⟩ := h.eq; rw [hs]; simp
  lt_iff {x y} hx hy := by
    obtain ⟨s, hs⟩ := hx.eq
    obtain ⟨t, ht⟩ := hy.eq
    show Datum.lt x.datum y.datum = true ↔ _
    rw [hs, ht]; exact decide_eq_true_iff
  ofNat_val n h := by
    show (ofNat f64 n).IsFin ∧ (ofNat f64 n).val = n
    rw [ofNat_exact (f := f64) (show n ≤ 2 ^ 53 from h) (lt_of_le_of_lt h (Nat.pow_lt_pow_right (by norm_num) (by decide)))]
    exact ⟨trivial, rfl⟩
  add_val {x y} hx hy h := by
    show (Datum.add f64 x.datum y.datum).IsFin ∧ (Datum.add f64 x.datum y.datum).val = _
    obtain ⟨s, hs⟩ := hx.eq
    obtain ⟨t, ht⟩ := hy.eq
    rw [hs, ht]
    exact make_val _ (round_lt h)
  sub_val {x y} hx hy h := by
    show (Datum.add f64 x.datum y.datum.neg).IsFin ∧ (Datum.add f64 x.datum y.datum.neg).val = _
    obtain ⟨s, hs⟩ := hx.eq
    obtain ⟨t, ht⟩ := hy.eq
    rw [hs, ht, sub_eq_add_neg]
    rw [sub_eq_add_neg] at h
    exact make_val _ (round_lt h)
  mul_val {x y} hx hy h := by
    show (Datum.mul f64 x.datum y.datum).IsFin ∧ (Datum.mul f64 x.datum y.datum).val = _
    obtain ⟨s, hs⟩ := hx.eq
    obtain ⟨t, ht⟩ := hy.eq
    rw [hs, ht]
    exact make_val _ (round_lt h)
  div_val {x y} hx hy h0 h := by
    show (Datum.div f64 x.datum y.datum).IsFin ∧ (Datum.div f64 x.datum y.datum).val = _
    obtain ⟨s, hs⟩ := hx.eq
    obtain ⟨t, ht⟩ := hy.eq
    rw [hs, ht]
    have : Datum.div f64 (.fin s x.datum.val) (.fin t y.datum.val) = make f64 (s ^^ t) (x.datum.val / y.datum.val) := by
      show (if y.datum.val = 0 then _ else _) = _
      rw [if_neg h0]
    rw [this]
    exact make_val _ (round_lt h)

end Gse
