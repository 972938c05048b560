import Verif.Model.ParseFloat
import Verif.Spec.FloatText
import Verif.Proofs.Nearest

/-! # What `ParseFloat` reads -/

namespace Gse.ParseFloat
open Gse.Spec

/-- The value of a digit. -/
def dval (hex : Bool) (c : UInt8) : Option Nat :=
  if 48 ≤ c ∧ c ≤ 57 then some (c.toNat - 48)
  else if hex = true ∧ 97 ≤ lower c ∧ lower c ≤ 102 then some ((lower c).toNat - 97 + 10)
  else none

theorem forall_byte {P : UInt8 → Prop} (h : ∀ n : Fin 256, P (UInt8.ofNat n)) (c : UInt8) : P c := by
  have := h ⟨c.toNat, c.toNat_lt⟩
  simpa using this

abbrev baseOf (hex : Bool) : Nat := if hex then 16 else 10

theorem digitVal_iff (hex : Bool) (c : UInt8) (v : Nat) : DigitVal (baseOf hex) c v ↔ dval hex c = some v := by
  have key : ∀ hex : Bool, ∀ n : Fin 256, ∀ v : Fin 16, DigitVal (baseOf hex) (UInt8.ofNat n) v ↔ dval hex (UInt8.ofNat n) = some v.val := by
    unfold DigitVal dval lower baseOf
    decide +kernel
  have big : ∀ hex : Bool, ∀ n : Fin 256, ∀ v ∈ dval hex (UInt8.ofNat n), v < 16 := by
    unfold dval lower
    decide +kernel
  constructor
  · intro h
    have hv : v < 16 := by
      have := h.1
      unfold baseOf at this
      split at this <;> omega
    have := (key hex ⟨c.toNat, c.toNat_lt⟩ ⟨v, hv⟩).mp (by simpa using h)
    simpa using this
  · intro h
    have hv := big hex ⟨c.toNat, c.toNat_lt⟩ v (by simpa using h)
    have := (key hex ⟨c.toNat, c.toNat_lt⟩ ⟨v, hv⟩).mpr (by simpa using h)
    simpa using this

theorem dval_zero (hex : Bool) (c : UInt8) : dval hex c = some 0 ↔ c = 48 := by
  have key : ∀ hex : Bool, ∀ n : Fin 256, dval hex (UInt8.ofNat n) = some 0 ↔ UInt8.ofNat n = 48 := by
    unfold dval lower
    decide +kernel
  exact forall_byte (P := fun c => dval hex c = some 0 ↔ c = 48) (key hex) c

theorem dval_not (hex : Bool) : dval hex 95 = none ∧ dval hex 46 = none ∧ dval hex 43 = none ∧ dval hex 45 = none := by
  cases hex <;> decide

/-- A decimal digit is a hexadecimal one. -/
theorem dval_mono {c : UInt8} {v : Nat} (h : dval false c = some v) (hex : Bool) : dval hex c = some v := by
  unfold dval at h ⊢
  split at h
  · next hc => rw [if_pos hc]; exact h
  · simp at h

/-- A digit in the loop of the scanner. -/
def push (hex : Bool) (st : Scan) (v : Nat) : Scan :=
  if v = 0 ∧ st.nd = 0 then { st with sawdigits := true, dp := st.dp - 1 }
  else { st with sawdigits := true, nd := st.nd + 1, mant := st.mant * baseOf hex + v }

theorem scanStep_digit {hex : Bool} {c : UInt8} {v : Nat} (st : Scan) (h : dval hex c = some v) : scanStep hex st c = some (push hex st v) := by
  have h1 : c ≠ 95 := by rintro rfl; rw [(dval_not hex).1] at h; cases h
  have h2 : c ≠ 46 := by rintro rfl; rw [(dval_not hex).2.1] at h; cases h
  have h0 := dval_zero hex c
  have hz : v = 0 ↔ c = 48 := by rw [← h0, h]; simp
  unfold scanStep push
  rw [if_neg h1, if_neg h2]
  unfold dval at h
  split at h
  · next hc =>
    cases h
    simp only [if_pos hc, hz, baseOf]
    split <;> rfl
  · next hc =>
    rw [if_neg hc]
    split at h
    · next hd =>
      cases h
      rw [if_pos hd, if_neg (by omega)]
      simp [baseOf, hd.1]
    · cases h

theorem scanStep_sep (hex : Bool) (st : Scan) : scanStep hex st 95 = some { st with underscores := true } := rfl

theorem scanStep_none {hex : Bool} {c : UInt8} (st : Scan) (h : dval hex c = none) (h1 : c ≠ 95) (h2 : c ≠ 46) : scanStep hex st c = none := by
  unfold scanStep
  rw [if_neg h1, if_neg h2]
  unfold dval at h
  split at h
  · cases h
  · next hc =>
    rw [if_neg hc]
    split at h
    · cases h
    · next hd => rw [if_neg hd]

/-- A digit or an underscore. -/
def InRun (hex : Bool) (c : UInt8) : Prop := c = 95 ∨ ∃ v, dval hex c = some v

/-- What the scanner makes of a run of digits and underscores. -/
def run (hex : Bool) (st : Scan) : Bytes → Scan
  | [] => st
  | c :: s =>
    match dval hex c with
    | some v => run hex (push hex st v) s
    | none => run hex { st with underscores := true } s

theorem scan_run {hex : Bool} (a : Bytes) (h : ∀ c ∈ a, InRun hex c) (st : Scan) (rest : Bytes) : scan hex st (a ++ rest) = scan hex (run hex st a) rest := by
  induction a generalizing st with
  | nil => rfl
  | cons c a ih =>
    rw [List.cons_append, scan]
    rcases h c (by simp) with rfl | ⟨v, hv⟩
    · rw [scanStep_sep]
      simp only [run, (dval_not hex).1]
      exact ih (fun c hc => h c (by simp [hc])) _
    · rw [scanStep_digit st hv]
      simp only [run, hv]
      exact ih (fun c hc => h c (by simp [hc])) _

/-- The digits of a run. -/
def vals (hex : Bool) (a : Bytes) : List Nat := a.filterMap (dval hex)

theorem run_spec {hex : Bool} (a : Bytes) (h : ∀ c ∈ a, InRun hex c) (st : Scan) (h0 : st.nd = 0 → st.mant = 0) :
    (run hex st a).mant = (vals hex a).foldl (fun n v => n * baseOf hex + v) st.mant ∧
    (run hex st a).dp - (run hex st a).nd = st.dp - st.nd - (vals hex a).length ∧
    ((run hex st a).sawdigits = true ↔ st.sawdigits = true ∨ vals hex a ≠ []) ∧ (run hex st a).sawdot = st.sawdot ∧
    ((run hex st a).underscores = true ↔ st.underscores = true ∨ 95 ∈ a) ∧ ((run hex st a).nd = 0 → (run hex st a).mant = 0) := by
  induction a generalizing st with
  | nil => simpa [run, vals] using h0
  | cons c a ih =>
    have ih' := ih fun c hc => h c (by simp [hc])
    rcases h c (by simp) with rfl | ⟨v, hv⟩
    · simp only [run, (dval_not hex).1]
      obtain ⟨h1, h2, h3, h4, h5, h6⟩ := ih' { st with underscores := true } h0
      have e : vals hex (95 :: a) = vals hex a := by simp [vals, (dval_not hex).1]
      rw [e]
      exact ⟨h1, h2, h3, h4, by rw [h5]; simp, h6⟩
    · simp only [run, hv]
      have hne : c ≠ 95 := by rintro rfl; rw [(dval_not hex).1] at hv; cases hv
      have e : vals hex (c :: a) = v :: vals hex a := by simp [vals, hv]
      rw [e]
      have hp : ((push hex st v).nd = 0 → (push hex st v).mant = 0) ∧ (push hex st v).mant = st.mant * baseOf hex + v ∧
          (push hex st v).dp - (push hex st v).nd = st.dp - st.nd - 1 ∧ (push hex st v).sawdigits = true ∧ (push hex st v).sawdot = st.sawdot ∧
          (push hex st v).underscores = st.underscores := by
        unfold push
        split
        · next hc => simp [h0 hc.2, hc.1, hc.2]
        · simp; omega
      obtain ⟨p0, p1, p2, p3, p4, p5⟩ := hp
      obtain ⟨h1, h2, h3, h4, h5, h6⟩ := ih' (push hex st v) p0
      refine ⟨by rw [h1, p1]; rfl, by rw [h2, p2]; simp; omega, by rw [h3, p3]; simp, by rw [h4, p4], ?_, h6⟩
      rw [h5, p5]; simp [Ne.symm hne]

theorem digits_vals {hex : Bool} {s : Bytes} {vs : List Nat} (h : Digits (baseOf hex) s vs) : (∀ c ∈ s, InRun hex c) ∧ vals hex s = vs ∧ vs ≠ [] ∧
    ∃ c t, s = c :: t ∧ ∃ v, dval hex c = some v := by
  induction h with
  | one h =>
    rw [digitVal_iff] at h
    exact ⟨by simp only [List.mem_singleton, forall_eq]; exact .inr ⟨_, h⟩, by simp [vals, h], by simp, _, _, rfl, _, h⟩
  | more h hs ih =>
    rw [digitVal_iff] at h
    refine ⟨?_, by rw [← ih.2.1]; simp [vals, h], by simp, _, _, rfl, _, h⟩
    intro c hc
    rcases List.mem_cons.mp hc with rfl | hc
    · exact .inr ⟨_, h⟩
    · exact ih.1 c hc
  | sep h hs ih =>
    rw [digitVal_iff] at h
    refine ⟨?_, by rw [← ih.2.1]; simp [vals, h, (dval_not hex).1], by simp, _, _, rfl, _, h⟩
    intro c hc
    rcases List.mem_cons.mp hc with rfl | hc
    · exact .inr ⟨_, h⟩
    · rcases List.mem_cons.mp hc with rfl | hc
      · exact .inl rfl
      · exact ih.1 c hc

/-! ## Underscores -/

theorem loop_digit {hex : Bool} {c : UInt8} {v : Nat} (h : dval hex c = some v) (saw : UInt8) (s : Bytes) : underscoreLoop hex saw (c :: s) = underscoreLoop hex 48 s := by
  rw [underscoreLoop, if_pos]
  unfold dval at h
  split at h
  · next hc => exact .inl hc
  · split at h
    · next hd => exact .inr hd
    · cases h

theorem loop_other {hex : Bool} {c : UInt8} (h : dval hex c = none) (saw : UInt8) (s : Bytes) :
    underscoreLoop hex saw (c :: s) = if c = 95 then (if saw ≠ 48 then false else underscoreLoop hex 95 s) else if saw = 95 then false else underscoreLoop hex 33 s := by
  rw [underscoreLoop, if_neg]
  unfold dval at h
  split at h
  · cases h
  · next hc =>
    split at h
    · cases h
    · next hd => rintro (h | h); exacts [hc h, hd h]

theorem loop_digits {b hex : Bool} (hb : b = true → hex = true) {s : Bytes} {vs : List Nat} (h : Digits (baseOf b) s vs) (saw : UInt8) (rest : Bytes) :
    underscoreLoop hex saw (s ++ rest) = underscoreLoop hex 48 rest := by
  have up : ∀ {c v}, DigitVal (baseOf b) c v → dval hex c = some v := by
    intro c v h
    rw [digitVal_iff] at h
    cases b with
    | false => exact dval_mono h hex
    | true => rw [hb rfl]; exact h
  induction h generalizing saw with
  | one h => exact loop_digit (up h) _ _
  | more h _ ih => rw [List.cons_append, loop_digit (up h), ih]
  | sep h _ ih =>
    rw [List.cons_append, loop_digit (up h), List.cons_append, loop_other (dval_not hex).1]
    simp [ih]

/-- Without an underscore the check succeeds. -/
theorem loop_none {hex : Bool} (s : Bytes) (h : 95 ∉ s) (saw : UInt8) (hs : saw ≠ 95) : underscoreLoop hex saw s = true := by
  induction s generalizing saw with
  | nil => simp [underscoreLoop, hs]
  | cons c s ih =>
    simp only [List.mem_cons, not_or] at h
    cases hv : dval hex c with
    | some v => rw [loop_digit hv]; exact ih h.2 _ (by decide)
    | none =>
      rw [loop_other hv, if_neg (Ne.symm h.1), if_neg hs]
      exact ih h.2 _ (by decide)

/-- What a run looks like that passes the check. -/
theorem loop_run {b hex : Bool} (hb : b = true → hex = true) (a rest : Bytes) (h : ∀ c ∈ a, InRun b c) (hrest : ∀ c t, rest = c :: t → dval hex c = none ∧ c ≠ 95) (saw : UInt8)
    (hl : underscoreLoop hex saw (a ++ rest) = true) :
    (saw = 95 → ∃ vs, Digits (baseOf b) a vs) ∧
    (saw = 48 → a = [] ∨ (∃ vs, Digits (baseOf b) a vs) ∨ ∃ a' vs, a = 95 :: a' ∧ Digits (baseOf b) a' vs) ∧
    (saw ≠ 48 → saw ≠ 95 → a = [] ∨ ∃ vs, Digits (baseOf b) a vs) ∧ ∃ saw', saw' ≠ 95 ∧ underscoreLoop hex saw' rest = true := by
  induction a generalizing saw with
  | nil =>
    rw [List.nil_append] at hl
    have h95 : saw ≠ 95 := by
      rintro rfl
      cases rest with
      | nil => simp [underscoreLoop] at hl
      | cons c t =>
        obtain ⟨h1, h2⟩ := hrest c t rfl
        rw [loop_other h1, if_neg h2, if_pos rfl] at hl
        cases hl
    exact ⟨fun e => absurd e h95, fun _ => .inl rfl, fun _ _ => .inl rfl, saw, h95, hl⟩
  | cons c a ih =>
    have ih' := ih fun c hc => h c (by simp [hc])
    rcases h c (by simp) with rfl | ⟨v, hv⟩
    · rw [List.cons_append, loop_other (dval_not hex).1, if_pos rfl] at hl
      split at hl
      · cases hl
      · next h48 =>
        obtain ⟨h1, _, _, h4⟩ := ih' 95 hl
        obtain ⟨vs, hvs⟩ := h1 rfl
        have h48 := not_not.mp h48
        subst h48
        exact ⟨fun e => absurd e (by decide), fun _ => .inr (.inr ⟨a, vs, rfl, hvs⟩), fun e => absurd rfl e, h4⟩
    · have hv' : dval hex c = some v := by
        cases b with
        | false => exact dval_mono hv hex
        | true => rw [hb rfl]; exact hv
      rw [List.cons_append, loop_digit hv'] at hl
      obtain ⟨_, h2, _, h4⟩ := ih' 48 hl
      have hd : ∃ vs, Digits (baseOf b) (c :: a) vs := by
        have hc := (digitVal_iff b c v).mpr hv
        rcases h2 rfl with rfl | ⟨vs, hvs⟩ | ⟨a', vs, rfl, hvs⟩
        · exact ⟨_, .one hc⟩
        · exact ⟨_, .more hc hvs⟩
        · exact ⟨_, .sep hc hvs⟩
      exact ⟨fun _ => hd, fun _ => .inr (.inl hd), fun _ _ => .inr hd, h4⟩

/-! ## Values -/

theorem foldl_fraction (b : Nat) (hb : b ≠ 0) (f : List Nat) (n : Nat) :
    ((f.foldl (fun n v => n * b + v) n : Nat) : ℚ) = (n + fraction b f) * b ^ f.length := by
  have hb' : (b : ℚ) ≠ 0 := by exact_mod_cast hb
  induction f generalizing n with
  | nil => simp [fraction]
  | cons v f ih =>
    rw [List.foldl_cons, ih]
    have : fraction b (v :: f) = (v + fraction b f) / b := rfl
    rw [this, List.length_cons, pow_succ]
    push_cast
    field_simp
    ring

/-- The text at which the loop over the digits stops. -/
def Stops (hex : Bool) (rest : Bytes) : Prop := ∀ c t, rest = c :: t → dval hex c = none ∧ c ≠ 95 ∧ c ≠ 46

theorem scan_stops {hex : Bool} {rest : Bytes} (h : Stops hex rest) (st : Scan) : scan hex st rest = (st, rest) := by
  cases rest with
  | nil => rfl
  | cons c t =>
    obtain ⟨h1, h2, h3⟩ := h c t rfl
    rw [scan, scanStep_none st h1 h2 h3]

theorem scan_dot {hex : Bool} {st : Scan} (h : st.sawdot = false) (rest : Bytes) : scan hex st (46 :: rest) = scan hex { st with sawdot := true, dp := st.nd } rest := by
  rw [scan]
  simp [scanStep, h]

theorem base_ne (hex : Bool) : baseOf hex ≠ 0 := by cases hex <;> decide

theorem scan_mantissa {hex : Bool} {m : Bytes} {q : ℚ} (hm : Mantissa (baseOf hex) m q) (u : Bool) {rest : Bytes} (hr : Stops hex rest) :
    ∃ st, scan hex { underscores := u } (m ++ rest) = (st, rest) ∧ st.sawdigits = true ∧
      (st.mant : ℚ) * (baseOf hex : ℚ) ^ ((if st.sawdot then st.dp else st.nd) - (st.nd : Int)) = q := by
  have hb : ((baseOf hex : Nat) : ℚ) ≠ 0 := by exact_mod_cast base_ne hex
  cases hm with
  | @whole _ i hs =>
    obtain ⟨h1, h2, h3, _⟩ := digits_vals hs
    obtain ⟨r1, r2, r3, r4, _, _⟩ := run_spec m h1 { underscores := u } (fun _ => rfl)
    refine ⟨_, by rw [scan_run m h1, scan_stops hr], r3.mpr (.inr (by rw [h2]; exact h3)), ?_⟩
    rw [r4, r1, h2]
    simp [Spec.whole]
  | @point s i hs =>
    obtain ⟨h1, h2, h3, _⟩ := digits_vals hs
    obtain ⟨r1, r2, r3, r4, _, _⟩ := run_spec s h1 { underscores := u } (fun _ => rfl)
    refine ⟨{ run hex { underscores := u } s with sawdot := true, dp := (run hex { underscores := u } s).nd },
      by rw [List.append_assoc, scan_run s h1, List.singleton_append, scan_dot r4, scan_stops hr], r3.mpr (.inr (by rw [h2]; exact h3)), ?_⟩
    simp only [r1, h2]
    simp [Spec.whole]
  | @both s i t f hs ht =>
    obtain ⟨h1, h2, h3, _⟩ := digits_vals hs
    obtain ⟨g1, g2, g3, _⟩ := digits_vals ht
    obtain ⟨r1, r2, r3, r4, _, r6⟩ := run_spec s h1 { underscores := u } (fun _ => rfl)
    obtain ⟨k1, k2, k3, k4, _, _⟩ := run_spec t g1 { run hex { underscores := u } s with sawdot := true, dp := (run hex { underscores := u } s).nd } r6
    refine ⟨_, by rw [List.append_assoc, scan_run s h1, List.cons_append, scan_dot r4, scan_run t g1, scan_stops hr], k3.mpr (.inr (by rw [g2]; exact g3)), ?_⟩
    rw [k4, k1, g2, foldl_fraction _ (base_ne hex), if_pos rfl, k2, g2, r1, h2]
    have e : (((run hex { underscores := u } s).nd : Int) - ((run hex { underscores := u } s).nd : Int) - (f.length : Int)) = -(f.length : Int) := by omega
    simp only [e, zpow_neg, zpow_natCast]
    rw [mul_assoc, mul_inv_cancel₀ (pow_ne_zero _ hb), mul_one]
    rfl
  | @frac t f ht =>
    obtain ⟨g1, g2, g3, _⟩ := digits_vals ht
    obtain ⟨k1, k2, k3, k4, _, _⟩ := run_spec t g1 { sawdot := true, dp := 0, underscores := u } (fun _ => rfl)
    refine ⟨_, by rw [List.cons_append, scan_dot rfl, scan_run t g1, scan_stops hr]; rfl, k3.mpr (.inr (by rw [g2]; exact g3)), ?_⟩
    show _ * _ ^ ((if (run hex { sawdot := true, dp := 0, underscores := u } t).sawdot then _ else _) - _) = _
    rw [k4, k1, g2, foldl_fraction _ (base_ne hex), if_pos rfl, k2, g2]
    have e : ((0 : Int) - ((0 : Nat) : Int) - (f.length : Int)) = -(f.length : Int) := by omega
    simp only [e, zpow_neg, zpow_natCast]
    rw [mul_assoc, mul_inv_cancel₀ (pow_ne_zero _ hb), mul_one]
    simp

/-! ## The exponent -/

/-- The exponent as it is read: a long one is cut. -/
def Cut (x x' : Int) : Prop := (|x| < 100000 → x' = x) ∧ (100000 ≤ x → 10000 ≤ x') ∧ (x ≤ -100000 → x' ≤ -10000)

theorem cut_zero : Cut 0 0 := ⟨fun _ => rfl, fun h => by omega, fun h => by omega⟩

theorem foldl_le (vs : List Nat) (n : Nat) : n ≤ vs.foldl (fun n v => n * 10 + v) n := by
  induction vs generalizing n with
  | nil => exact Nat.le_refl _
  | cons v vs ih => exact Nat.le_trans (by omega) (ih (n * 10 + v))

theorem cap_spec (vs : List Nat) (n : Nat) :
    (vs.foldl (fun n v => n * 10 + v) n < 100000 → vs.foldl (fun e v => if e < 10000 then e * 10 + v else e) n = vs.foldl (fun n v => n * 10 + v) n) ∧
    (100000 ≤ vs.foldl (fun n v => n * 10 + v) n → 10000 ≤ vs.foldl (fun e v => if e < 10000 then e * 10 + v else e) n) := by
  have const : ∀ (vs : List Nat) n, 10000 ≤ n → vs.foldl (fun e v => if e < 10000 then e * 10 + v else e) n = n := by
    intro vs
    induction vs with
    | nil => intros; rfl
    | cons v vs ih => intro n h; rw [List.foldl_cons, if_neg (by omega)]; exact ih n h
  induction vs generalizing n with
  | nil => exact ⟨fun _ => rfl, fun h => by simp at h ⊢; omega⟩
  | cons v vs ih =>
    simp only [List.foldl_cons]
    by_cases h : n < 10000
    · rw [if_pos h]; exact ih _
    · rw [if_neg h, const vs n (by omega)]
      refine ⟨fun hlt => ?_, fun _ => by omega⟩
      have := foldl_le vs (n * 10 + v)
      omega

theorem scanExp_digits {ds : Bytes} (h : ∀ c ∈ ds, InRun false c) (e : Nat) (u : Bool) :
    scanExp e u ds = ((vals false ds).foldl (fun e v => if e < 10000 then e * 10 + v else e) e, (u || decide (95 ∈ ds)), []) := by
  induction ds generalizing e u with
  | nil => simp [scanExp, vals]
  | cons c ds ih =>
    have ih' := ih fun c hc => h c (by simp [hc])
    rcases h c (by simp) with rfl | ⟨v, hv⟩
    · rw [scanExp, if_pos rfl, ih']
      simp [vals, (dval_not false).1]
    · have hne : c ≠ 95 := by rintro rfl; rw [(dval_not false).1] at hv; cases hv
      have hv' := hv
      unfold dval at hv'
      split at hv'
      · next hc =>
        cases hv'
        rw [scanExp, if_neg hne, if_pos hc, ih']
        simp [vals, hv, Ne.symm hne]
      · simp at hv'

theorem scanExp_rest {ds : Bytes} {e e' : Nat} {u u' : Bool} (h : scanExp e u ds = (e', u', [])) : ∀ c ∈ ds, InRun false c := by
  induction ds generalizing e u with
  | nil => simp
  | cons c ds ih =>
    rw [scanExp] at h
    intro x hx
    split at h
    · next hc =>
      rcases List.mem_cons.mp hx with rfl | hx
      · exact .inl hc
      · exact ih h x hx
    · split at h
      · next hc =>
        rcases List.mem_cons.mp hx with rfl | hx
        · exact .inr ⟨x.toNat - 48, by unfold dval; rw [if_pos hc]⟩
        · exact ih h x hx
      · simp at h

theorem dec_range {c : UInt8} {v : Nat} (h : dval false c = some v) : ¬ (c < 48 ∨ c > 57) := by
  unfold dval at h
  split at h
  · next hc => rintro (h | h) <;> have := hc.1 <;> have := hc.2 <;> simp only [UInt8.lt_iff_toNat_lt, UInt8.le_iff_toNat_le, gt_iff_lt] at * <;> omega
  · simp at h

theorem dec_of_range {c : UInt8} (h : ¬ (c < 48 ∨ c > 57)) : ∃ v, dval false c = some v := by
  refine ⟨c.toNat - 48, ?_⟩
  unfold dval
  rw [if_pos]
  simp only [not_or, UInt8.lt_iff_toNat_lt, UInt8.le_iff_toNat_le, gt_iff_lt] at *
  omega

theorem exponent_fwd {low up : UInt8} (hl : lower low = low) (hu : lower up = low) {e : Bytes} {x : Int} (h : Exponent low up e x) (need : Bool) :
    ∃ x' u, Cut x x' ∧ exponent low need e = some (x', u, []) := by
  cases h with
  | @mk c sg neg ds vs hc hs hd =>
    have hd' : Digits (baseOf false) ds vs := hd
    obtain ⟨h1, h2, h3, d, t, rfl, v, hv⟩ := digits_vals hd'
    have hlc : lower c = low := by rcases hc with rfl | rfl <;> assumption
    have hr := dec_range hv
    have hcap := cap_spec vs 0
    have hsc := scanExp_digits h1 0 false
    rw [h2] at hsc
    have hd43 : d ≠ 43 := by rintro rfl; rw [(dval_not false).2.2.1] at hv; cases hv
    have hd45 : d ≠ 45 := by rintro rfl; rw [(dval_not false).2.2.2] at hv; cases hv
    refine ⟨if neg then -((vs.foldl (fun e v => if e < 10000 then e * 10 + v else e) 0 : Nat) : Int) else (vs.foldl (fun e v => if e < 10000 then e * 10 + v else e) 0 : Nat), decide (95 ∈ d :: t), ?_, ?_⟩
    · unfold Spec.whole
      refine ⟨fun h => ?_, fun h => ?_, fun h => ?_⟩
      · cases neg with
        | true => simp only [if_true] at h ⊢; rw [abs_neg] at h; rw [hcap.1 (by exact_mod_cast (by simpa using h))]
        | false => simp only [Bool.false_eq_true, if_false] at h ⊢; rw [hcap.1 (by exact_mod_cast (by simpa using h))]
      · cases neg with
        | true => simp only [if_true] at h; omega
        | false => simp only [Bool.false_eq_true, if_false] at h ⊢; exact_mod_cast hcap.2 (by exact_mod_cast h)
      · cases neg with
        | true => simp only [if_true] at h ⊢; have := hcap.2 (by omega); omega
        | false => simp only [Bool.false_eq_true, if_false] at h; omega
    · cases hs with
      | none => simp [exponent, hlc, hd43, hd45, hr, hsc]
      | plus => simp [exponent, hlc, hr, hsc]
      | minus => simp [exponent, hlc, hr, hsc]

theorem exponent_conv {low up : UInt8} (hlow : ∀ c, lower c = low → c = low ∨ c = up) {need : Bool} {s : Bytes} {x : Int} {u : Bool}
    (h : exponent low need s = some (x, u, [])) :
    s = [] ∧ need = false ∧ u = false ∨ ∃ c sg neg ds, (c = low ∨ c = up) ∧ Sign sg neg ∧ s = c :: (sg ++ ds) ∧ (∀ d ∈ ds, InRun false d) ∧ ds ≠ [] ∧
      (u = true ↔ 95 ∈ ds) ∧ ∃ d t, ds = d :: t ∧ d ≠ 95 := by
  unfold exponent at h
  split at h
  · split at h
    · cases h
    · next hn => exact .inl ⟨rfl, by simpa using hn, by simp at h; exact h.2⟩
  · next c s' =>
    split at h
    · next hc =>
      right
      split at h
      · cases h
      · next d s'' =>
        simp only at h
        have key : ∀ (sg : Bytes) (neg : Bool), Sign sg neg → d :: s'' = sg ++ (if d = 43 ∨ d = 45 then s'' else d :: s'') →
            ∃ c' sg neg ds, (c' = low ∨ c' = up) ∧ Sign sg neg ∧ c :: d :: s'' = c' :: (sg ++ ds) ∧ (∀ d ∈ ds, InRun false d) ∧ ds ≠ [] ∧
            (u = true ↔ 95 ∈ ds) ∧ ∃ d t, ds = d :: t ∧ d ≠ 95 := by
          intro sg neg hs he
          split at h
          · cases h
          · next b t hbt =>
            split at h
            · cases h
            · next hb =>
              simp only [Option.some.injEq, Prod.mk.injEq] at h
              obtain ⟨h1, h2, h3⟩ := h
              have hrun := scanExp_rest (e := 0) (u := false) (ds := b :: t) (e' := (scanExp 0 false (b :: t)).1) (u' := (scanExp 0 false (b :: t)).2.1)
                (by rw [hbt] at h3; rw [← h3])
              rw [hbt] at h2
              rw [scanExp_digits hrun] at h2
              refine ⟨c, sg, neg, b :: t, hlow c hc, hs, by rw [he, hbt], hrun, by simp, by rw [← h2]; simp, b, t, rfl, ?_⟩
              rintro rfl
              obtain ⟨v, hv⟩ := dec_of_range hb
              rw [(dval_not false).1] at hv; cases hv
        by_cases h43 : d = 43
        · exact key [43] false .plus (by simp [h43])
        · by_cases h45 : d = 45
          · exact key [45] true .minus (by simp [h45])
          · exact key [] false .none (by simp [h43, h45])
    · split at h <;> simp at h

end Gse.ParseFloat
