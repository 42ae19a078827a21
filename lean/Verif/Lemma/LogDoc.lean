import Verif.Lemma.Enc
import Verif.Lemma.LogL
import Verif.Lemma.AtanF2

/-!
The error of `log` in units of the last place.
-/

namespace Vc.Lemma
open Vc.Model Vc.Spec

section
variable {F : Fmt} {w : Nat} {a b s t x : BitVec w}

theorem neg_grid {g : Int} {v : ℝ} (h : OnGrid g v) : OnGrid g (-v) := by
  obtain ⟨k, rfl⟩ := h
  exact ⟨-k, by push_cast; ring⟩

/-- Numbers of some size, of either sign. -/
theorem grid_of_abs (h : FmtW F w) {j : Int} (hj : 0 ≤ j + oneExp F - F.m) (hx : (2 : ℝ) ^ j ≤ |rval F x|) :
    OnGrid (j - F.m) (rval F x) := by
  rcases le_total 0 (rval F x) with h0 | h0
  · rw [abs_of_nonneg h0] at hx
    exact grid_of_le (x := x) hj hx
  · rw [abs_of_nonpos h0] at hx
    have e := rval_flip h x
    have := grid_of_le (x := x ^^^ sgn w) hj (by rw [e]; exact hx)
    rw [e] at this
    simpa using neg_grid this

/-- Halving is exact. -/
theorem fMul_half (h : FmtW F w) {c : BitVec w} (hc : isFinite F c = true ∧ rval F c = 1 / 2) (hs : isFinite F s = true)
    (h0 : (2 : ℝ) ^ (-120 : Int) ≤ rval F s) (h1 : rval F s ≤ 1) :
    isFinite F (fMul F s c) = true ∧ rval F (fMul F s c) = rval F s * (1 / 2) := by
  have hp : 0 < rval F s := lt_of_lt_of_le (by positivity) h0
  obtain ⟨n, hn1, hn2⟩ := exists_mem_Ico_zpow hp (by norm_num : (1 : ℝ) < 2)
  have n1 : -120 < n + 1 := (zpow_lt_zpow_iff_right₀ (by norm_num : (1 : ℝ) < 2)).mp (lt_of_le_of_lt h0 hn2)
  have n2 : n ≤ 0 := by
    have := (zpow_le_zpow_iff_right₀ (by norm_num : (1 : ℝ) < 2)).mp (show (2 : ℝ) ^ n ≤ 2 ^ (0 : Int) by rw [zpow_zero]; linarith)
    exact this
  obtain ⟨k, hk⟩ := grid_of_le (x := s) (by cases h <;> simp only [oneExp, bias, f32, f64] <;> norm_num <;> omega) hn1
  refine fMul_repr h hs hc.1 (OnGrid.repr (g := n - F.m - 1) ⟨k, ?_⟩ ?_ ?_ ?_) (by rw [hc.2])
  · rw [hk, zpow_sub₀ (by norm_num) _ 1, zpow_one]; ring
  · rw [abs_of_pos (by linarith), show n - (F.m : Int) - 1 + ((F.m + 1 : Nat) : Int) = n by push_cast; ring]
    rw [zpow_add₀ (by norm_num), zpow_one] at hn2
    linarith
  · cases h <;> simp only [oneExp, bias, f32, f64] <;> norm_num <;> omega
  · cases h <;> simp only [oneExp, bias, f32, f64] <;> norm_num <;> omega

/-- The last addition of a computation: half a unit in the last place more, even if the sum is beyond a power of two
which the exact value is below. -/
theorem within_add (h : FmtW F w) {c v : ℝ} {j : Int} (ha : isFinite F a = true) (hb : isFinite F b = true) (hv : (2 : ℝ) ^ j ≤ |v|)
    (hj : -100 ≤ j) (hv2 : |v| ≤ 2000) (hc0 : 0 ≤ c) (hc : c ≤ 1) (hd : |rval F a + rval F b - v| ≤ c * 2 ^ (j - F.m)) :
    WithinUlps F (c + 1 / 2) v (fAdd F a b) := by
  have hk12 : KRange F 12 := by cases h <;> decide
  have hp : 0 < |v| := lt_of_lt_of_le (by positivity) hv
  obtain ⟨n, hn1, hn2⟩ := exists_mem_Ico_zpow hp (by norm_num : (1 : ℝ) < 2)
  have n1 : j < n + 1 := (zpow_lt_zpow_iff_right₀ (by norm_num : (1 : ℝ) < 2)).mp (lt_of_le_of_lt hv hn2)
  have n2 : n < 11 := by
    refine (zpow_lt_zpow_iff_right₀ (by norm_num : (1 : ℝ) < 2)).mp (lt_of_le_of_lt (le_trans hn1 hv2) ?_)
    norm_num
  have hd' : |rval F a + rval F b - v| ≤ c * 2 ^ (n - F.m) :=
    le_trans hd (mul_le_mul_of_nonneg_left (zpow_le_zpow_right₀ (by norm_num) (by omega)) hc0)
  have hk : KRange F (n + 1) := by
    unfold KRange
    cases h <;> simp only [oneExp, bias, f32, f64] <;> norm_num <;> omega
  have hpn : (0 : ℝ) < 2 ^ (n - F.m) := by positivity
  have hone : (2 : ℝ) ^ (n - F.m) ≤ 2 ^ n := zpow_le_zpow_right₀ (by norm_num) (by omega)
  have hnn : (2 : ℝ) ^ (n + 1) = 2 * 2 ^ n := by rw [zpow_add₀ (by norm_num), zpow_one]; ring
  have main : isFinite F (fAdd F a b) = true ∧ |rval F (fAdd F a b) - v| ≤ (c + 1 / 2) * 2 ^ (n - F.m) := by
    rcases le_or_gt |rval F a + rval F b| (2 ^ (n + 1)) with hs | hs
    · obtain ⟨f1, f2⟩ := fAdd_err h hk ha hb hs
      refine ⟨f1, ?_⟩
      rw [show n + 1 - (F.m : Int) - 2 = n - F.m - 1 by ring, zpow_sub₀ (by norm_num) _ 1, zpow_one] at f2
      have := abs_add_le (rval F (fAdd F a b) - (rval F a + rval F b)) (rval F a + rval F b - v)
      rw [sub_add_sub_cancel] at this
      linarith
    · -- beyond the power of two
      have hs2 : |rval F a + rval F b| ≤ 2 ^ (12 : Int) := by
        have h1 := abs_add_le (rval F a + rval F b - v) v
        rw [sub_add_cancel] at h1
        have h2 : c * 2 ^ (n - F.m) ≤ 2 ^ n := le_trans (mul_le_of_le_one_left hpn.le hc) hone
        have h3 : (2 : ℝ) ^ n ≤ 2000 := le_trans hn1 hv2
        norm_num
        linarith
      obtain ⟨f1, _⟩ := fAdd_err h hk12 ha hb hs2
      refine ⟨f1, ?_⟩
      set S := rval F a + rval F b with hS
      set r := rval F (fAdd F a b) with hr
      -- the power of two, with the sign of the sum
      have key : ∀ σ : ℝ, σ = 1 ∨ σ = -1 → (2 : ℝ) ^ (n + 1) < σ * S → |r - v| ≤ (c + 1 / 2) * 2 ^ (n - F.m) := by
        intro σ hσ hσS
        have hσ2 : σ * σ = 1 := by rcases hσ with rfl | rfl <;> norm_num
        have habs : ∀ z : ℝ, |σ * z| = |z| := by intro z; rcases hσ with rfl | rfl <;> simp
        have hrep : Repr F (σ * 2 ^ (n + 1)) := by
          refine ⟨if σ = 1 then 1 else -1, n + 1, ?_, ?_, ?_, ?_⟩
          · rcases hσ with rfl | rfl
            · simp
            · norm_num
          · have : (1 : Int) ≤ 2 ^ (F.m + 1) := one_le_pow₀ (by norm_num)
            split <;> simpa using this
          · cases h <;> simp only [oneExp, bias, f32, f64] <;> norm_num <;> omega
          · cases h <;> simp only [oneExp, bias, f32, f64] <;> norm_num <;> omega
        have hcl := fAdd_closest h ha hb hrep
        rw [← hS, ← hr] at hcl
        have e1 : |r - S| = |σ * r - σ * S| := by rw [← mul_sub, habs]
        have e2 : |σ * 2 ^ (n + 1) - S| = σ * S - 2 ^ (n + 1) := by
          rw [← habs, mul_sub, ← mul_assoc, hσ2, one_mul, abs_sub_comm, abs_of_pos (by linarith)]
        have e3 : |r - v| = |σ * r - σ * v| := by rw [← mul_sub, habs]
        have e4 : |S - v| = |σ * S - σ * v| := by rw [← mul_sub, habs]
        rw [e1, e2] at hcl
        rw [e4] at hd'
        rw [e3]
        have hvlt : σ * v < 2 ^ (n + 1) := lt_of_le_of_lt (by rw [← habs v]; exact le_abs_self _) hn2
        have hge : (2 : ℝ) ^ (n + 1) ≤ σ * r := by have := (abs_le.mp hcl).1; linarith
        -- the result is the power of two
        have hg : OnGrid (n + 1 - F.m) (σ * r) := by
          have h1 : OnGrid (n + 1 - F.m) r := by
            refine grid_of_abs h ?_ ?_
            · cases h <;> simp only [oneExp, bias, f32, f64] <;> norm_num <;> omega
            · rw [← hr, ← habs]; exact le_trans hge (le_abs_self _)
          rcases hσ with rfl | rfl
          · simpa using h1
          · simpa using neg_grid h1
        have hg2 : OnGrid (n + 1 - F.m) ((2 : ℝ) ^ (n + 1)) := by
          refine ⟨2 ^ F.m, ?_⟩
          push_cast
          rw [← zpow_natCast, ← zpow_add₀ (by norm_num)]
          congr 1; omega
        obtain ⟨k, hkk⟩ := hg.sub hg2
        have hpn2 : (2 : ℝ) ^ (n + 1 - F.m) = 2 * 2 ^ (n - F.m) := by
          rw [show n + 1 - (F.m : Int) = n - F.m + 1 by ring, zpow_add₀ (by norm_num), zpow_one]; ring
        rw [hpn2] at hkk
        have hub := (abs_le.mp hcl).2
        have hdu := (abs_le.mp hd').2
        have hc1 : c * 2 ^ (n - F.m) ≤ 2 ^ (n - F.m) := mul_le_of_le_one_left hpn.le hc
        have hk0 : (k : ℝ) < 1 := by
          have : (k : ℝ) * (2 * 2 ^ (n - F.m)) < 1 * (2 * 2 ^ (n - F.m)) := by rw [← hkk]; linarith
          exact lt_of_mul_lt_mul_right this (by positivity)
        have hk0' : k < 1 := by exact_mod_cast hk0
        have hk1 : (k : ℝ) ≤ 0 := by exact_mod_cast (by omega : k ≤ 0)
        have hre : σ * r ≤ 2 ^ (n + 1) := by
          have : (k : ℝ) * (2 * 2 ^ (n - F.m)) ≤ 0 := mul_nonpos_of_nonpos_of_nonneg hk1 (by positivity)
          linarith
        rw [abs_of_nonneg (by linarith)]
        linarith
      rcases le_total 0 S with h0 | h0
      · exact key 1 (Or.inl rfl) (by rw [abs_of_nonneg h0] at hs; linarith)
      · exact key (-1) (Or.inr rfl) (by rw [abs_of_nonpos h0] at hs; linarith)
  exact within_of_pow main.1 (by linarith) hn1 main.2

end

end Vc.Lemma
