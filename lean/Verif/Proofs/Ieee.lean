import Verif.Model.Ieee
import Mathlib.Tactic.Linarith
import Mathlib.Tactic.Ring
import Mathlib.Tactic.Positivity
import Mathlib.Tactic.NormNum
import Mathlib.Algebra.Order.Round

/-!
# IEEE rounding is monotone, accurate and exact on its own numbers
-/

namespace Gse

theorem rne_int (n : ℤ) : rne (n : ℚ) = n := by
  unfold rne; rw [Int.fract_intCast]; simp

theorem rne_bounds (x : ℚ) : |(rne x : ℚ) - x| ≤ 1 / 2 := by
  have h := Int.floor_add_fract x
  have h0 := Int.fract_nonneg x
  have h1 := Int.fract_lt_one x
  unfold rne
  split
  · rw [abs_le]; constructor <;> linarith
  · split
    · push_cast; rw [abs_le]; constructor <;> linarith
    · split
      · rw [abs_le]; constructor <;> linarith
      · push_cast; rw [abs_le]; constructor <;> linarith

theorem rne_floor (x : ℚ) : rne x = ⌊x⌋ ∨ rne x = ⌊x⌋ + 1 := by
  unfold rne; split
  · left; rfl
  · split
    · right; rfl
    · split
      · left; rfl
      · right; rfl

theorem rne_mono {x y : ℚ} (h : x ≤ y) : rne x ≤ rne y := by
  have hf : ⌊x⌋ ≤ ⌊y⌋ := Int.floor_le_floor h
  rcases lt_or_eq_of_le hf with hlt | heq
  · have hx := rne_floor x
    have hy := rne_floor y
    omega
  · have hfr : Int.fract x ≤ Int.fract y := by
      have hx := Int.floor_add_fract x
      have hy := Int.floor_add_fract y
      rw [heq] at hx
      linarith
    unfold rne
    rw [heq]
    split
    · split
      · exact le_refl _
      · split
        · omega
        · split <;> omega
    · next h1 =>
      split
      · next h2 =>
        rw [if_neg (by linarith), if_pos (by linarith)]
      · next h2 =>
        split
        · rw [if_neg (by linarith)]
          split
          · omega
          · exact le_refl _
        · next h3 =>
          rw [if_neg (by linarith)]
          split
          · exact le_refl _
          · rfl

theorem rne_le_int {x : ℚ} {n : ℤ} (h : x ≤ n) : rne x ≤ n := by
  have := rne_mono h; rwa [rne_int] at this

theorem int_le_rne {x : ℚ} {n : ℤ} (h : (n : ℚ) ≤ x) : n ≤ rne x := by
  have := rne_mono h; rwa [rne_int] at this

theorem rne_neg (x : ℚ) : rne (-x) = -rne x := by
  by_cases hi : Int.fract x = 0
  · have hx : x = (⌊x⌋ : ℚ) := by have := Int.floor_add_fract x; rw [hi] at this; linarith
    rw [hx, show -((⌊x⌋ : ℤ) : ℚ) = ((-⌊x⌋ : ℤ) : ℚ) by push_cast; ring, rne_int, rne_int]
  · have hfl : ⌊-x⌋ = -⌊x⌋ - 1 := by
      rw [Int.floor_eq_iff]
      have h := Int.floor_add_fract x
      have h0 := Int.fract_nonneg x
      have h1 := Int.fract_lt_one x
      have h2 : 0 < Int.fract x := lt_of_le_of_ne h0 (Ne.symm hi)
      push_cast
      constructor <;> linarith
    have hfr : Int.fract (-x) = 1 - Int.fract x := by
      have h := Int.floor_add_fract x
      have h' := Int.floor_add_fract (-x)
      rw [hfl] at h'
      push_cast at h'
      linarith
    unfold rne
    rw [hfr, hfl]
    rcases lt_trichotomy (Int.fract x) (1 / 2) with h | h | h
    · rw [if_neg (by linarith), if_pos (by linarith), if_pos h]; omega
    · rw [h]
      norm_num
      split <;> split <;> omega
    · rw [if_pos (by linarith), if_neg (by linarith), if_pos h]; omega

namespace Format

variable (f : Format)

theorem two_zpow_pos (e : ℤ) : (0 : ℚ) < 2 ^ e := zpow_pos (by norm_num) e

theorem ulpExp_neg (q : ℚ) : f.ulpExp (-q) = f.ulpExp q := by unfold ulpExp; rw [abs_neg]

theorem round_neg (q : ℚ) : f.round (-q) = -f.round q := by
  unfold round
  rw [ulpExp_neg, neg_div, rne_neg]; push_cast; ring

theorem round_zero : f.round 0 = 0 := by
  unfold round; rw [zero_div, show (0 : ℚ) = ((0 : ℤ) : ℚ) by norm_num, rne_int]; simp

/-- A multiple of the unit in the last place is kept. -/
theorem round_of_multiple {q : ℚ} {n : ℤ} (h : q = n * 2 ^ f.ulpExp q) : f.round q = q := by
  have hp := two_zpow_pos (f.ulpExp q)
  unfold round
  have : q / 2 ^ f.ulpExp q = n := by rw [div_eq_iff hp.ne']; exact h
  rw [this, rne_int]; exact h.symm

theorem zpow_mul_int {a b : ℤ} (h : a ≤ b) : ∃ n : ℤ, (2 : ℚ) ^ b = n * 2 ^ a := by
  obtain ⟨k, hk⟩ := Int.le.dest h
  refine ⟨2 ^ k, ?_⟩
  rw [← hk, zpow_add₀ (by norm_num)]
  push_cast
  rw [zpow_natCast]; ring

theorem log_bounds {q : ℚ} (h : 0 < q) : (2 : ℚ) ^ Int.log 2 q ≤ q ∧ q < 2 ^ (Int.log 2 q + 1) := by
  have h1 := Int.zpow_log_le_self (b := 2) (by norm_num) h
  have h2 := Int.lt_zpow_succ_log_self (b := 2) (by norm_num) q
  exact ⟨by exact_mod_cast h1, by exact_mod_cast h2⟩

/-- Numbers `m * 2 ^ e` with at most `p` bits are kept. -/
theorem round_exact {m : ℤ} {e : ℤ} (hm : |m| ≤ 2 ^ f.p) (he : f.emin ≤ e) : f.round (m * 2 ^ e) = m * 2 ^ e := by
  by_cases hz : m = 0
  · subst hz; simp [round_zero]
  have hpos : (0 : ℚ) < |(m : ℚ) * 2 ^ e| := by
    rw [abs_pos]; exact mul_ne_zero (by exact_mod_cast hz) (two_zpow_pos e).ne'
  have habs : |(m : ℚ) * 2 ^ e| = |m| * 2 ^ e := by
    rw [abs_mul, abs_of_pos (two_zpow_pos e)]; push_cast; rfl
  obtain ⟨hl1, _⟩ := log_bounds hpos
  have hp := f.p_pos
  rcases lt_or_eq_of_le hm with hlt | heq
  · have hlog : Int.log 2 |(m : ℚ) * 2 ^ e| < e + f.p := by
      have : |(m : ℚ) * 2 ^ e| < 2 ^ (e + f.p) := by
        rw [habs, zpow_add₀ (by norm_num), mul_comm ((2 : ℚ) ^ e)]
        refine mul_lt_mul_of_pos_right ?_ (two_zpow_pos e)
        rw [zpow_natCast]; exact_mod_cast hlt
      exact (zpow_lt_zpow_iff_right₀ (by norm_num : (1 : ℚ) < 2)).mp (lt_of_le_of_lt hl1 this)
    have hle : f.ulpExp (m * 2 ^ e) ≤ e := by unfold ulpExp; omega
    obtain ⟨n, hn⟩ := zpow_mul_int hle
    refine f.round_of_multiple (n := m * n) ?_
    push_cast
    rw [mul_assoc, ← hn]
  · have hlog : Int.log 2 |(m : ℚ) * 2 ^ e| = e + f.p := by
      rw [habs, heq]; push_cast
      rw [← zpow_natCast, ← zpow_add₀ (by norm_num), add_comm]
      exact_mod_cast Int.log_zpow (R := ℚ) (b := 2) (by norm_num) (e + f.p)
    have hle : f.ulpExp (m * 2 ^ e) ≤ e + f.p := by unfold ulpExp; omega
    obtain ⟨n, hn⟩ := zpow_mul_int hle
    have hm2 : (|m| : ℤ) * (2 : ℚ) ^ e = 2 ^ (e + f.p) := by
      rw [heq, zpow_add₀ (by norm_num), mul_comm]; push_cast; rw [zpow_natCast]
    rcases le_total 0 m with h0 | h0
    · rw [abs_of_nonneg h0] at hm2
      refine f.round_of_multiple (n := n) ?_
      rw [← hn]; exact hm2
    · rw [abs_of_nonpos h0] at hm2
      refine f.round_of_multiple (n := -n) ?_
      push_cast at hm2 ⊢
      rw [neg_mul, ← hn, ← hm2]; ring

theorem round_int {n : ℤ} (hn : |n| ≤ 2 ^ f.p) : f.round n = n := by
  have := f.round_exact (m := n) (e := 0) hn f.emin_le
  simpa using this

theorem round_zpow {e : ℤ} (he : f.emin ≤ e) : f.round (2 ^ e) = 2 ^ e := by
  have := f.round_exact (m := 1) (e := e) (by simpa using one_le_pow₀ (by norm_num : (1 : ℤ) ≤ 2)) he
  simpa using this

theorem round_mono_nonneg {x y : ℚ} (hx : 0 ≤ x) (h : x ≤ y) : f.round x ≤ f.round y := by
  rcases eq_or_lt_of_le hx with h0 | h0
  · rw [← h0, round_zero]
    unfold round
    refine mul_nonneg ?_ (two_zpow_pos _).le
    have : (0 : ℤ) ≤ rne (y / 2 ^ f.ulpExp y) := int_le_rne (by push_cast; exact div_nonneg (hx.trans h) (two_zpow_pos _).le)
    exact_mod_cast this
  have hy : 0 < y := lt_of_lt_of_le h0 h
  have hlog : Int.log 2 x ≤ Int.log 2 y := Int.log_mono_right h0 h
  have hexp : f.ulpExp x ≤ f.ulpExp y := by
    unfold ulpExp; rw [abs_of_pos h0, abs_of_pos hy]; omega
  rcases lt_or_eq_of_le hexp with hlt | heq
  · -- a power of two lies between
    have hy1 : f.ulpExp y = Int.log 2 y - (f.p - 1) := by
      have : f.emin ≤ f.ulpExp x := by unfold ulpExp; omega
      unfold ulpExp at *; rw [abs_of_pos hy] at *; omega
    have hx1 : Int.log 2 x - (f.p - 1) ≤ f.ulpExp x := by unfold ulpExp; rw [abs_of_pos h0]; omega
    have hx2 : f.emin ≤ f.ulpExp x := by unfold ulpExp; omega
    have hp := f.p_pos
    -- B = 2 ^ log y
    obtain ⟨hb1, _⟩ := log_bounds hy
    obtain ⟨_, hb2⟩ := log_bounds h0
    have hxB : x ≤ 2 ^ Int.log 2 y := by
      refine hb2.le.trans (zpow_le_zpow_right₀ (by norm_num) ?_); omega
    have low : f.round x ≤ 2 ^ Int.log 2 y := by
      obtain ⟨n, hn⟩ := zpow_mul_int (show f.ulpExp x ≤ Int.log 2 y by omega)
      unfold round
      rw [hn]
      refine mul_le_mul_of_nonneg_right ?_ (two_zpow_pos _).le
      have : rne (x / 2 ^ f.ulpExp x) ≤ n := rne_le_int (by rw [div_le_iff₀ (two_zpow_pos _), ← hn]; exact hxB)
      exact_mod_cast this
    have high : 2 ^ Int.log 2 y ≤ f.round y := by
      obtain ⟨n, hn⟩ := zpow_mul_int (show f.ulpExp y ≤ Int.log 2 y by omega)
      unfold round
      rw [hn]
      refine mul_le_mul_of_nonneg_right ?_ (two_zpow_pos _).le
      have : n ≤ rne (y / 2 ^ f.ulpExp y) := int_le_rne (by rw [le_div_iff₀ (two_zpow_pos _), ← hn]; exact hb1)
      exact_mod_cast this
    exact low.trans high
  · unfold round
    rw [heq]
    refine mul_le_mul_of_nonneg_right ?_ (two_zpow_pos _).le
    have : rne (x / 2 ^ f.ulpExp y) ≤ rne (y / 2 ^ f.ulpExp y) := rne_mono (div_le_div_of_nonneg_right h (two_zpow_pos _).le)
    exact_mod_cast this

theorem round_nonneg {q : ℚ} (h : 0 ≤ q) : 0 ≤ f.round q := by
  have := f.round_mono_nonneg (le_refl 0) h; rwa [round_zero] at this

theorem round_mono : Monotone f.round := by
  intro x y h
  rcases le_total 0 x with hx | hx
  · exact f.round_mono_nonneg hx h
  · rcases le_total 0 y with hy | hy
    · have h1 := f.round_nonneg hy
      have h2 := f.round_nonneg (show 0 ≤ -x by linarith)
      rw [round_neg] at h2; linarith
    · have := f.round_mono_nonneg (show 0 ≤ -y by linarith) (show -y ≤ -x by linarith)
      rw [round_neg, round_neg] at this; linarith

/-- The error is at most half a unit in the last place. -/
theorem round_err (q : ℚ) : |f.round q - q| ≤ 2 ^ f.ulpExp q / 2 := by
  have hp := two_zpow_pos (f.ulpExp q)
  have h := rne_bounds (q / 2 ^ f.ulpExp q)
  have : f.round q - q = (rne (q / 2 ^ f.ulpExp q) - q / 2 ^ f.ulpExp q) * 2 ^ f.ulpExp q := by
    unfold round; rw [sub_mul, div_mul_cancel₀ _ hp.ne']
  rw [this, abs_mul, abs_of_pos hp]
  calc _ ≤ 1 / 2 * 2 ^ f.ulpExp q := mul_le_mul_of_nonneg_right h hp.le
    _ = _ := by ring

theorem round_err_rel (q : ℚ) : |f.round q - q| ≤ |q| / 2 ^ f.p + 2 ^ (f.emin - 1) := by
  rcases eq_or_ne q 0 with h0 | h0
  · subst h0
    rw [round_zero, sub_zero, abs_zero, zero_div, zero_add]; exact (two_zpow_pos _).le
  refine (f.round_err q).trans ?_
  have hq : 0 < |q| := abs_pos.mpr h0
  rcases max_choice (Int.log 2 |q| - (f.p - 1)) f.emin with h | h
  · have h1 : (2 : ℚ) ^ f.ulpExp q / 2 = 2 ^ Int.log 2 |q| / 2 ^ f.p := by
      unfold ulpExp; rw [h, zpow_sub₀ (by norm_num), zpow_sub₀ (by norm_num), zpow_natCast]; field_simp
    rw [h1]
    have h2 : (2 : ℚ) ^ Int.log 2 |q| / 2 ^ f.p ≤ |q| / 2 ^ f.p :=
      div_le_div_of_nonneg_right (log_bounds hq).1 (by positivity)
    have := two_zpow_pos (f.emin - 1)
    linarith
  · have h1 : (2 : ℚ) ^ f.ulpExp q / 2 = 2 ^ (f.emin - 1) := by
      unfold ulpExp; rw [h, zpow_sub₀ (by norm_num)]; norm_num
    rw [h1]
    have : 0 ≤ |q| / 2 ^ f.p := by positivity
    linarith

/-- Rounding does nothing to what is rounded already. -/
theorem round_round (q : ℚ) : f.round (f.round q) = f.round q := by
  rcases eq_or_ne q 0 with h0 | h0
  · subst h0; rw [round_zero, round_zero]
  have hq : 0 < |q| := abs_pos.mpr h0
  have hp := f.p_pos
  set e := f.ulpExp q with he
  have hr : f.round q = rne (q / 2 ^ e) * 2 ^ e := rfl
  rw [hr]
  refine f.round_exact ?_ (by rw [he]; unfold ulpExp; omega)
  have hlt : |q / 2 ^ e| ≤ 2 ^ f.p := by
    rw [abs_div, abs_of_pos (two_zpow_pos e), div_le_iff₀ (two_zpow_pos e)]
    refine (log_bounds hq).2.le.trans ?_
    rw [← zpow_natCast, ← zpow_add₀ (by norm_num)]
    refine zpow_le_zpow_right₀ (by norm_num) ?_
    rw [he]; unfold ulpExp; omega
  obtain ⟨h1, h2⟩ := abs_le.mp hlt
  rw [abs_le]
  constructor
  · refine int_le_rne ?_; push_cast; exact h1
  · refine rne_le_int ?_; push_cast; exact h2

end Format
end Gse
