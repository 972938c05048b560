import Verif.Spec.Error
import Verif.Proofs.Nearest

/-!
# Rounding errors of sums
-/

namespace Gse

open Spec

namespace Format

variable (f : Format)

/-- Away from the subnormal numbers the error is relative. -/
theorem round_err_normal {q : ℚ} (h : (2 : ℚ) ^ (f.emin + f.p - 1) ≤ |q|) : |f.round q - q| ≤ |q| / 2 ^ f.p := by
  have hq : 0 < |q| := lt_of_lt_of_le (two_zpow_pos _) h
  refine (f.round_err q).trans ?_
  have h2 := (log_bounds hq).2
  have h3 := (zpow_lt_zpow_iff_right₀ (by norm_num : (1 : ℚ) < 2)).mp (h.trans_lt h2)
  have h4 : f.ulpExp q = Int.log 2 |q| - (f.p - 1) := by unfold ulpExp; omega
  have h1 : (2 : ℚ) ^ f.ulpExp q / 2 = 2 ^ Int.log 2 |q| / 2 ^ f.p := by
    rw [h4, zpow_sub₀ (by norm_num), zpow_sub₀ (by norm_num), zpow_natCast]; field_simp
  rw [h1]
  exact div_le_div_of_nonneg_right (log_bounds hq).1 (by positivity)

/-- A multiple of the least unit is rounded with a relative error, whatever its size. -/
theorem round_err_multiple (n : ℤ) : |f.round (n * 2 ^ f.emin) - n * 2 ^ f.emin| ≤ |(n : ℚ) * 2 ^ f.emin| / 2 ^ f.p := by
  rcases le_or_gt ((2 : ℚ) ^ (f.emin + f.p - 1)) |(n : ℚ) * 2 ^ f.emin| with h | h
  · exact f.round_err_normal h
  · have hu : f.round (n * 2 ^ f.emin) = n * 2 ^ f.emin := by
      refine f.round_exact ?_ (le_refl _)
      rw [abs_mul, abs_of_pos (two_zpow_pos f.emin), show f.emin + f.p - 1 = (f.p - 1 : ℤ) + f.emin by ring,
        zpow_add₀ (by norm_num), mul_lt_mul_iff_left₀ (two_zpow_pos f.emin)] at h
      have hp : (2 : ℚ) ^ ((f.p : ℤ) - 1) ≤ 2 ^ f.p := by
        rw [← zpow_natCast]
        exact zpow_le_zpow_right₀ (by norm_num) (by omega)
      exact_mod_cast (h.trans_le hp).le
    rw [hu, sub_self, abs_zero]; positivity

theorem Rep.multiple {f : Format} {r : ℚ} (h : f.Rep r) : ∃ n : ℤ, r = n * 2 ^ f.emin := by
  obtain ⟨m, e, _, h2, rfl⟩ := h
  obtain ⟨k, hk⟩ : ∃ k : ℕ, e = k + f.emin := ⟨(e - f.emin).toNat, by omega⟩
  refine ⟨m * 2 ^ k, ?_⟩
  rw [hk, zpow_add₀ (by norm_num), zpow_natCast]
  push_cast; ring

/-- The error of a sum of two numbers of the format is relative. -/
theorem round_err_add {a b : ℚ} (ha : f.Rep a) (hb : f.Rep b) : |f.round (a + b) - (a + b)| ≤ |a + b| / 2 ^ f.p := by
  obtain ⟨n, rfl⟩ := ha.multiple
  obtain ⟨m, rfl⟩ := hb.multiple
  have := f.round_err_multiple (n + m)
  push_cast at this
  rwa [add_mul] at this

/-- Adding a little to a great power of two does nothing. -/
theorem round_stuck {e : ℤ} (he : f.emin ≤ e) : f.round (2 ^ (e + f.p + 1) + 2 ^ e) = 2 ^ (e + f.p + 1) := by
  have hp := f.p_pos
  have he0 := two_zpow_pos e
  have hk : (2 : ℚ) ^ (e + f.p + 1) = 2 ^ (f.p - 1) * 2 ^ (e + 2) := by
    rw [← zpow_natCast, ← zpow_add₀ (by norm_num)]
    congr 1; omega
  have hpos : (0 : ℚ) < 2 ^ (e + f.p + 1) + 2 ^ e := add_pos (two_zpow_pos _) he0
  have hlog : Int.log 2 ((2 : ℚ) ^ (e + f.p + 1) + 2 ^ e) = e + f.p + 1 := by
    obtain ⟨h3, h4⟩ := log_bounds hpos
    have h1 : (2 : ℚ) ^ (e + f.p + 1) < 2 ^ (Int.log 2 ((2 : ℚ) ^ (e + f.p + 1) + 2 ^ e) + 1) := lt_trans (by linarith) h4
    have h2 : (2 : ℚ) ^ (e + f.p + 1) + 2 ^ e < 2 ^ (e + f.p + 1 + 1) := by
      rw [zpow_add_one₀ (by norm_num) (e + f.p + 1)]
      have : (2 : ℚ) ^ e < 2 ^ (e + f.p + 1) := zpow_lt_zpow_right₀ (by norm_num) (by omega)
      linarith
    have h5 := (zpow_lt_zpow_iff_right₀ (by norm_num : (1 : ℚ) < 2)).mp (h3.trans_lt h2)
    have h6 := (zpow_lt_zpow_iff_right₀ (by norm_num : (1 : ℚ) < 2)).mp h1
    omega
  have hu : f.ulpExp (2 ^ (e + f.p + 1) + 2 ^ e) = e + 2 := by
    unfold ulpExp; rw [abs_of_pos hpos, hlog]; omega
  have hdiv : ((2 : ℚ) ^ (e + f.p + 1) + 2 ^ e) / 2 ^ (e + 2) = ((2 ^ (f.p - 1) : ℤ) : ℚ) + 1 / 4 := by
    rw [div_eq_iff (two_zpow_pos _).ne', hk, zpow_add₀ (by norm_num) e 2]
    push_cast; ring
  have hfr : Int.fract (((2 ^ (f.p - 1) : ℤ) : ℚ) + 1 / 4) = 1 / 4 := by
    rw [Int.fract_intCast_add]
    exact Int.fract_eq_self.mpr ⟨by norm_num, by norm_num⟩
  have hfl : ⌊((2 ^ (f.p - 1) : ℤ) : ℚ) + 1 / 4⌋ = 2 ^ (f.p - 1) := by
    rw [Int.floor_intCast_add]
    norm_num
  unfold round
  rw [hu, hdiv]
  have : rne (((2 ^ (f.p - 1) : ℤ) : ℚ) + 1 / 4) = 2 ^ (f.p - 1) := by
    unfold rne
    rw [hfr, if_pos (by norm_num), hfl]
  rw [this, hk]
  push_cast; ring

/-- Sums of numbers that are `2 ^ e` at most never get beyond a bound. -/
theorem round_bounded {e : ℤ} (he : f.emin ≤ e) {a b : ℚ} (ha : |a| ≤ 2 ^ (e + f.p + 1)) (hb : |b| ≤ 2 ^ e) :
    |f.round (a + b)| ≤ 2 ^ (e + f.p + 1) := by
  obtain ⟨h1, h2⟩ := abs_le.1 ha
  obtain ⟨h3, h4⟩ := abs_le.1 hb
  refine abs_le.2 ⟨?_, ?_⟩
  · have := f.round_mono (show -((2 : ℚ) ^ (e + f.p + 1) + 2 ^ e) ≤ a + b by linarith)
    rwa [f.round_neg, f.round_stuck he] at this
  · have := f.round_mono (show a + b ≤ (2 : ℚ) ^ (e + f.p + 1) + 2 ^ e by linarith)
    rwa [f.round_stuck he] at this

end Format

/-! ### Approximations -/

/-- `v` approximates `x`, a sum of terms of total size `w`, up to the factor `k`. -/
structure Approx (k x w v : ℝ) : Prop where
  one : 1 ≤ k
  size : |x| ≤ w
  near : |v - x| ≤ (k - 1) * w

namespace Approx

theorem mono {k k' x w v : ℝ} (h : Approx k x w v) (hk : k ≤ k') : Approx k' x w v :=
  ⟨h.one.trans hk, h.size, h.near.trans (mul_le_mul_of_nonneg_right (by linarith) ((abs_nonneg x).trans h.size))⟩

theorem zero {k : ℝ} (h : 1 ≤ k) : Approx k 0 0 0 := ⟨h, by simp, by simp⟩

theorem neg {k x w v : ℝ} (h : Approx k x w v) : Approx k (-x) w (-v) :=
  ⟨h.one, by rw [abs_neg]; exact h.size, by rw [← abs_neg, show -(-v - -x) = v - x by ring]; exact h.near⟩

/-- Rounding adds a factor. -/
theorem round {k x w v u r : ℝ} (h : Approx k x w v) (hu : 0 ≤ u) (hr : |r - v| ≤ u * |v|) : Approx (k * (1 + u)) x w r := by
  have hw : 0 ≤ w := (abs_nonneg x).trans h.size
  have hv : |v| ≤ (k - 1) * w + w := by
    calc |v| = |(v - x) + x| := by ring_nf
      _ ≤ |v - x| + |x| := abs_add_le _ _
      _ ≤ _ := add_le_add h.near h.size
  refine ⟨by nlinarith [h.one], h.size, ?_⟩
  calc |r - x| = |(r - v) + (v - x)| := by ring_nf
    _ ≤ |r - v| + |v - x| := abs_add_le _ _
    _ ≤ u * ((k - 1) * w + w) + (k - 1) * w := add_le_add (hr.trans (mul_le_mul_of_nonneg_left hv hu)) h.near
    _ = _ := by ring

/-- Adding without rounding. -/
theorem add {k x w v x' w' v' : ℝ} (h : Approx k x w v) (h' : Approx k x' w' v') : Approx k (x + x') (w + w') (v + v') := by
  refine ⟨h.one, (abs_add_le _ _).trans (add_le_add h.size h'.size), ?_⟩
  calc |v + v' - (x + x')| = |(v - x) + (v' - x')| := by ring_nf
    _ ≤ |v - x| + |v' - x'| := abs_add_le _ _
    _ ≤ (k - 1) * w + (k - 1) * w' := add_le_add h.near h'.near
    _ = _ := by ring

end Approx

/-- `float` addition in these terms. -/
theorem add_approx {f : Format} {e : ℤ} (he : f.emin ≤ e) (htop : e + f.p + 1 < f.emax) {s t : Bool} {a b : ℚ} (ha : f.Rep a) (hb : f.Rep b)
    (ha' : |a| ≤ 2 ^ (e + f.p + 1)) (hb' : |b| ≤ 2 ^ e) {k x w x' w' : ℝ} (h : Approx k x w a) (h' : Approx k x' w' b) :
    ∃ u c, Datum.add f (.fin s a) (.fin t b) = .fin u c ∧ f.Rep c ∧ |c| ≤ 2 ^ (e + f.p + 1) ∧ Approx (k * (1 + (2 ^ f.p)⁻¹)) (x + x') (w + w') c := by
  have hbd := f.round_bounded he ha' hb'
  have hlt : |f.round (a + b)| < 2 ^ f.emax := by
    refine hbd.trans_lt ?_
    rw [← zpow_natCast]
    exact zpow_lt_zpow_right₀ (by norm_num) htop
  obtain ⟨h1, h2⟩ := Datum.make_val (f := f) (s && t) hlt
  obtain ⟨u, hu⟩ := h1.eq
  refine ⟨u, f.round (a + b), by rw [h2] at hu; exact hu, (f.rep_iff _).2 (f.round_round _), hbd, ?_⟩
  refine (h.add h').round (by positivity) ?_
  have := f.round_err_add ha hb
  have h3 : ((|f.round (a + b) - (a + b)| : ℚ) : ℝ) ≤ ((|a + b| / 2 ^ f.p : ℚ) : ℝ) := by exact_mod_cast this
  push_cast at h3
  rw [div_eq_inv_mul] at h3
  exact h3

end Gse
