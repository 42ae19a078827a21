import Verif.Lemma.AtanF

/-!
The precision of `atan` of float: small arguments, and those where the result is close to one half.
-/

namespace Vc.Lemma
open Vc.Model Vc.Spec

theorem atan_lowF : chebBound 0 (17165 / 100000) (pAdd (atanTaylor 0 8) [-(974 / 1000)]) ≤ 29 / 1000 := by decide +kernel

theorem atan_lowF' : chebBound 0 (3 / 10) (pAdd (atanTaylor 0 8) [-(957 / 1000)]) ≤ 5 / 100 := by decide +kernel

theorem atF_near {x : BitVec 32} (hf : isFinite f32 x = true) (h0 : 0 ≤ rval f32 x) (hx : ¬rval f32 0x3ed413cd#32 < rval f32 x) :
    WithinUlps f32 3 (Real.arctan (rval f32 x)) (fAdd f32 0#32 (atSerF x)) := by
  rw [atF_lo.2, not_lt] at hx
  have hle : |rval f32 x| ≤ 4143 / 10000 := by rw [abs_of_nonneg h0]; linarith
  obtain ⟨f, e⟩ := atF_rel hf hle
  have z : isFinite f32 0#32 = true ∧ rval f32 0#32 = 0 := by
    refine ⟨by decide, ?_⟩
    unfold rval
    rw [show fval f32 0#32 = 0 by decide +kernel]; simp
  have g := fAdd_zero' .single z.1 (show isFinite f32 (atSerF x) = true from f) z.2
  have hs := sq_le_of hle
  have lo := atan_lower (lo := 94 / 100) (hi := 17165 / 100000) (c := 974 / 1000) (d := 29 / 1000) (n := 8) atan_lowF (by norm_num)
    (by norm_num) (by norm_num) (t := rval f32 x) (by push_cast; norm_num at hs ⊢; linarith [sq (rval f32 x)])
  refine within_of_rel (c := 2.5) (d := 0) g.1 (by norm_num) le_rfl ?_ (by norm_num)
  rw [g.2]
  unfold atSerF
  rw [zero_mul, ite_self, add_zero]
  have hu := uRel_pos f32
  have h0' := abs_nonneg (rval f32 x)
  have h1 := mul_le_mul_of_nonneg_left lo hu.le
  have h2 := mul_nonneg hu.le h0'
  push_cast at h1
  norm_num at e h1 ⊢
  linarith

theorem OnGrid.add {g : Int} {u v : ℝ} (h : OnGrid g u) (h' : OnGrid g v) : OnGrid g (u + v) := by
  obtain ⟨k, rfl⟩ := h
  obtain ⟨l, rfl⟩ := h'
  exact ⟨k + l, by push_cast; ring⟩

/-- The reduction below `tan(1/2)`. -/
theorem band_parts {x : BitVec 32} (hf : isFinite f32 x = true) (h1 : 0.414 ≤ rval f32 x) (h2 : rval f32 x ≤ 0.5464) :
    ∃ p q : ℝ, (isFinite f32 (fSub f32 x 0x3f800000#32) = true ∧ |rval f32 (fSub f32 x 0x3f800000#32) - (rval f32 x - 1)| ≤ p / 2 ^ 25) ∧
    (isFinite f32 (fAdd f32 x 0x3f800000#32) = true ∧ |rval f32 (fAdd f32 x 0x3f800000#32) - (rval f32 x + 1)| ≤ q / 2 ^ 25) ∧
    ((p = 1 ∧ q = 1) ∨ (p = 0 ∧ q = 2)) := by
  have ho := atF_one
  obtain ⟨k, hk⟩ := grid_of_le (F := f32) (x := x) (j := -2) (by decide) (by norm_num at *; linarith)
  rw [show (-2 : Int) - (f32.m : Int) = -25 by decide] at hk
  have hk' : rval f32 x = k / 2 ^ 25 := by rw [hk]; norm_num; ring
  have s1 := fSub_err .single (k := 0) (by decide) hf ho.1 (by rw [ho.2, abs_le]; constructor <;> norm_num at * <;> linarith)
  have a1 := fAdd_err .single (k := 1) (by decide) hf ho.1 (by rw [ho.2, abs_le]; constructor <;> norm_num at * <;> linarith)
  rw [ho.2] at s1 a1
  rcases Int.even_or_odd' k with ⟨l, hl | hl⟩
  · refine ⟨0, 2, ?_, ⟨a1.1, le_trans a1.2 (by norm_num [f32])⟩, .inr ⟨rfl, rfl⟩⟩
    have g : OnGrid (-24) (rval f32 x) := ⟨l, by rw [hk', hl]; push_cast; norm_num; ring⟩
    have := fSub_grid .single (g := -24) hf ho.1 g (by rw [ho.2]; exact grid_one (by norm_num))
      (by rw [ho.2, abs_le]; constructor <;> norm_num [f32] at * <;> linarith) (by decide) (by decide)
    refine ⟨this.1, ?_⟩
    rw [this.2, ho.2]; simp
  · refine ⟨1, 1, ⟨s1.1, le_trans s1.2 (by norm_num [f32])⟩, ⟨a1.1, ?_⟩, .inl ⟨rfl, rfl⟩⟩
    have key : ∀ m : Int, |(4 * m : ℝ) - k| ≤ 1 →
        |rval f32 (fAdd f32 x 0x3f800000#32) - (rval f32 x + 1)| ≤ 1 / 2 ^ 25 := by
      intro m hm
      rw [abs_le] at hm
      have g : OnGrid (-23) ((4 * m : ℝ) / 2 ^ 25 + 1) := OnGrid.add ⟨m, by norm_num; ring⟩ (grid_one (by norm_num))
      have hr : Repr f32 ((4 * m : ℝ) / 2 ^ 25 + 1) := g.repr (by
        rw [abs_le]
        constructor <;> norm_num [f32] at * <;> linarith) (by decide) (by decide)
      have := fAdd_closest .single hf ho.1 hr
      rw [ho.2] at this
      refine le_trans this ?_
      rw [hk', abs_le]
      constructor <;> norm_num <;> linarith
    rcases Int.even_or_odd' l with ⟨m, hm | hm⟩
    · refine key m ?_
      rw [hl, hm]; push_cast
      rw [abs_le]; constructor <;> linarith
    · refine key (m + 1) ?_
      rw [hl, hm]; push_cast
      rw [abs_le]; constructor <;> linarith

/-- The quotient: its error is smaller the smaller it is. -/
theorem band_quot {x : BitVec 32} (hf : isFinite f32 x = true) (h1 : 0.41421 ≤ rval f32 x) (h2 : rval f32 x ≤ 0.5464) :
    isFinite f32 (fDiv f32 (fSub f32 x 0x3f800000#32) (fAdd f32 x 0x3f800000#32)) = true ∧
    ∃ ρ : ℝ, ρ = (1 - rval f32 x) / (1 + rval f32 x) ∧ 0.293 ≤ ρ ∧ ρ ≤ 0.41423 ∧
    |rval f32 (fDiv f32 (fSub f32 x 0x3f800000#32) (fAdd f32 x 0x3f800000#32)) + ρ| ≤ ((1 + ρ) ^ 2 / 2 * 1.000001 + 1 / 2) / 2 ^ 25 := by
  obtain ⟨p, q, ⟨f1, e1⟩, ⟨f2, e2⟩, hpq⟩ := band_parts hf (by norm_num at *; linarith) h2
  generalize rval f32 x = X at *
  generalize fSub f32 x 0x3f800000#32 = n at *
  generalize fAdd f32 x 0x3f800000#32 = d at *
  have hX : 0 < 1 + X := by norm_num at *; linarith
  obtain ⟨ρ, hρ⟩ : ∃ ρ : ℝ, ρ = (1 - X) / (1 + X) := ⟨_, rfl⟩
  have hρX : ρ * (1 + X) = 1 - X := by rw [hρ]; field_simp
  have r1 : 0.293 ≤ ρ := by rw [hρ, le_div_iff₀ hX]; norm_num at *; linarith
  have r2 : ρ ≤ 0.41423 := by rw [hρ, div_le_iff₀ hX]; norm_num at *; linarith
  have hq2 : q ≤ 2 := by rcases hpq with ⟨-, h⟩ | ⟨-, h⟩ <;> linarith
  have hsum : p + ρ * q ≤ 1 + ρ := by
    rcases hpq with ⟨h, h'⟩ | ⟨h, h'⟩ <;> rw [h, h']
    · linarith
    · norm_num at *; linarith
  have hd : (1 + X) * (1 - 1 / 2 ^ 24) ≤ rval f32 d := by
    rw [abs_le] at e2
    have := e2.1
    norm_num at *
    linarith
  have hdp : 0 < rval f32 d := lt_of_lt_of_le (by positivity) hd
  have hquot : |rval f32 n / rval f32 d + ρ| ≤ (1 + ρ) ^ 2 / 2 * 1.000001 / 2 ^ 25 := by
    rw [show rval f32 n / rval f32 d + ρ = ((rval f32 n - (X - 1)) + ρ * (rval f32 d - (X + 1))) / rval f32 d by
      field_simp
      linear_combination hρX, abs_div, abs_of_pos hdp, div_le_iff₀ hdp]
    refine le_trans (abs_add_le _ _) ?_
    rw [abs_mul, abs_of_nonneg (show 0 ≤ ρ by linarith)]
    have a1 := mul_le_mul_of_nonneg_left e2 (show 0 ≤ ρ by linarith)
    have a2 := mul_le_mul_of_nonneg_left hd (show 0 ≤ (1 + ρ) ^ 2 / 2 * 1.000001 / 2 ^ 25 by positivity)
    have e : (1 + ρ) * (1 + X) = 2 := by linarith
    have a3 : (1 + ρ) ^ 2 / 2 * 1.000001 / 2 ^ 25 * ((1 + X) * (1 - 1 / 2 ^ 24)) = (1 + ρ) / 2 ^ 25 * (1.000001 * (1 - 1 / 2 ^ 24)) := by
      rw [show (1 + ρ) ^ 2 / 2 * 1.000001 / 2 ^ 25 * ((1 + X) * (1 - 1 / 2 ^ 24)) =
        (1 + ρ) * ((1 + ρ) * (1 + X)) / 2 * 1.000001 / 2 ^ 25 * (1 - 1 / 2 ^ 24) by ring, e]
      ring
    rw [a3] at a2
    have a4 : (1 + ρ) / 2 ^ 25 * 1 ≤ (1 + ρ) / 2 ^ 25 * (1.000001 * (1 - 1 / 2 ^ 24)) :=
      mul_le_mul_of_nonneg_left (by norm_num) (by positivity)
    norm_num at *
    linarith
  have hsq : (1 + ρ) ^ 2 ≤ 2.1 := by nlinarith
  have hb : |rval f32 n / rval f32 d| ≤ 2 ^ (-1 : Int) := by
    have := abs_add_le (rval f32 n / rval f32 d + ρ) (-ρ)
    rw [add_neg_cancel_right, abs_neg, abs_of_nonneg (show 0 ≤ ρ by linarith)] at this
    norm_num at *
    linarith
  obtain ⟨f3, e3⟩ := fDiv_err .single (k := -1) (by decide) f1 f2 hdp.ne' hb
  refine ⟨f3, ρ, hρ, r1, r2, ?_⟩
  have e3' : |rval f32 (fDiv f32 n d) - rval f32 n / rval f32 d| ≤ 1 / 2 / 2 ^ 25 := le_trans e3 (by norm_num [f32])
  have := abs_add_le (rval f32 (fDiv f32 n d) - rval f32 n / rval f32 d) (rval f32 n / rval f32 d + ρ)
  rw [show rval f32 (fDiv f32 n d) - rval f32 n / rval f32 d + (rval f32 n / rval f32 d + ρ) = rval f32 (fDiv f32 n d) + ρ by ring] at this
  linarith

/-- The last addition where the result is below one half: it is exact, or the result is one half. -/
theorem band_end {s : BitVec 32} {v : ℝ} (hs : isFinite f32 s = true) (h1 : rval f32 s ≤ -(1 / 4)) (h2 : -(1 / 2) ≤ rval f32 s)
    (hv : v < 1 / 2) (h : |rval f32 0x3f490fdb#32 + rval f32 s - v| ≤ 2.97 / 2 ^ 25) :
    isFinite f32 (fAdd f32 0x3f490fdb#32 s) = true ∧ |rval f32 (fAdd f32 0x3f490fdb#32 s) - v| ≤ 3 / 2 ^ 25 := by
  have hc := atF_c4
  have hg : OnGrid (-25) (rval f32 s) := by
    have := grid_of_le (F := f32) (x := s ^^^ sgn 32) (j := -2) (by decide) (by rw [rval_flip .single]; norm_num at *; linarith)
    rw [rval_flip .single] at this
    obtain ⟨k, hk⟩ := this
    exact ⟨-k, by push_cast; rw [show (-25 : Int) = -2 - (f32.m : Int) by decide]; linarith⟩
  have hg2 : OnGrid (-25) (rval f32 0x3f490fdb#32) := ⟨26353590, by rw [hc.2]; norm_num⟩
  have hV := hg2.add hg
  have hcv : rval f32 0x3f490fdb#32 ≤ 0.7854 := by rw [hc.2]; norm_num
  have hcv' : 0.785 ≤ rval f32 0x3f490fdb#32 := by rw [hc.2]; norm_num
  have exact : ∀ g : Int, -25 ≤ g → g ≤ -24 → OnGrid g (rval f32 0x3f490fdb#32 + rval f32 s) →
      |rval f32 0x3f490fdb#32 + rval f32 s| ≤ 2 ^ (g + 24) →
      isFinite f32 (fAdd f32 0x3f490fdb#32 s) = true ∧ |rval f32 (fAdd f32 0x3f490fdb#32 s) - v| ≤ 3 / 2 ^ 25 := by
    intro g g1 g2 hgr hb
    have := fAdd_repr .single hc.1 hs (hgr.repr (F := f32) hb (by simp [oneExp, bias, f32]; omega)
      (by simp [oneExp, bias, f32]; omega)) rfl
    refine ⟨this.1, ?_⟩
    rw [this.2]
    exact le_trans h (by norm_num)
  rcases le_or_gt (rval f32 0x3f490fdb#32 + rval f32 s) (1 / 2) with hle | hgt
  · exact exact (-25) le_rfl (by norm_num) hV (by rw [abs_le]; constructor <;> norm_num at * <;> linarith)
  · obtain ⟨m, hm⟩ := hV
    have hm' : rval f32 0x3f490fdb#32 + rval f32 s = m / 2 ^ 25 := by rw [hm]; norm_num; ring
    have m1 : (16777216 : ℝ) < m := by
      rw [hm'] at hgt
      norm_num at hgt
      linarith
    have m2 : (m : ℝ) < 16777219 := by
      rw [hm', abs_le] at h
      have := h.2
      norm_num at *
      linarith
    have m1' : 16777216 < m := by exact_mod_cast m1
    have m2' : m < 16777219 := by exact_mod_cast m2
    rcases (by omega : m = 16777218 ∨ m = 16777217) with hc2 | hc2
    · exact exact (-24) (by norm_num) le_rfl ⟨8388609, by rw [hm', hc2]; norm_num⟩ (by rw [hm', hc2, abs_le]; norm_num)
    · have hn : fval f32 0x3f490fdb#32 + fval f32 s = 16777217 * 2 ^ 124 := by
        have : ((fval f32 0x3f490fdb#32 + fval f32 s : Int) : ℝ) = ((16777217 * 2 ^ 124 : Int) : ℝ) := by
          rw [hc2] at hm'
          unfold rval at hm'
          rw [← add_div, div_eq_div_iff (ne_of_gt (one_pos f32)) (by norm_num), show oneExp f32 = 149 by decide] at hm'
          push_cast
          norm_num at hm' ⊢
          linarith
        exact_mod_cast this
      have hz : ∀ z : Bool, roundInt f32 32 (16777217 * 2 ^ 124) z = 0x3f000000#32 := by decide +kernel
      rw [fAdd_fin f32 hc.1 hs, hn, hz]
      have hh := cosF_half
      refine ⟨hh.1, ?_⟩
      rw [hh.2, abs_of_nonneg (by linarith)]
      rw [hm', hc2, abs_le] at h
      have := h.2
      norm_num at *
      linarith

set_option maxHeartbeats 800000 in
/-- One piece of the range. -/
theorem band_piece {x : BitVec 32} {a b A : ℝ} (hf : isFinite f32 x = true) (h1 : 0.41421 ≤ rval f32 x) (h2 : rval f32 x ≤ 0.5464)
    (hv : Real.arctan (rval f32 x) < 1 / 2) {t : BitVec 32} (htd : t = fDiv f32 (fSub f32 x 0x3f800000#32) (fAdd f32 x 0x3f800000#32))
    (ha : 0.28 ≤ a) (hb : b ≤ 4143 / 10000) (ht1 : a ≤ |rval f32 t|) (ht2 : |rval f32 t| ≤ b)
    (hA : |rval f32 t + atWR (rval f32 t) - Real.arctan (rval f32 t)| ≤ A * uRel f32) (hA0 : A ≤ 0.2)
    (hE : ((1.000001 + b) ^ 2 / 2 * 1.000001 + 1 / 2) / (1 + a * (a - 0.000001)) + 2 * A + 0.64 + 0.7336 ≤ 2.97) :
    WithinUlps f32 3 (Real.arctan (rval f32 x)) (fAdd f32 0x3f490fdb#32 (atSerF t)) := by
  obtain ⟨ft, ρ, hρ, r1, r2, hq⟩ := band_quot hf h1 h2
  rw [← htd] at ft hq
  have hu := uRel32
  have hX : 0 ≤ rval f32 x := by norm_num at *; linarith
  have hsq : (1 + ρ) ^ 2 ≤ 2.1 := by nlinarith
  have hq1 : |rval f32 t + ρ| ≤ 0.000001 := by norm_num at *; linarith
  have hneg : rval f32 t ≤ -0.28 := by
    rw [abs_le] at hq1
    norm_num at *
    linarith
  have habs : |rval f32 t| = -rval f32 t := abs_of_nonpos (by norm_num at *; linarith)
  rw [habs] at ht1 ht2
  have hρb : ρ ≤ b + 0.000001 := by rw [abs_le] at hq1; linarith [hq1.2]
  have hρa : a - 0.000001 ≤ ρ := by rw [abs_le] at hq1; linarith [hq1.1]
  have hle : |rval f32 t| ≤ 4143 / 10000 := by rw [habs]; linarith
  obtain ⟨f2, e2⟩ := atSerF_abs ft hle hA
  have hm := arctan_mid (x := rval f32 x) hX
  have hρ' : (rval f32 x - 1) / (rval f32 x + 1) = -ρ := by rw [hρ, add_comm (1 : ℝ), ← neg_div]; congr 1; ring
  rw [hρ'] at hm
  have ha0 : 0 < a := by norm_num at ha; linarith
  have hc0 : 0 ≤ a * (a - 0.000001) := mul_nonneg ha0.le (by norm_num at *; linarith)
  have hlip := arctan_lip (a := rval f32 t) (b := -ρ) (c := a * (a - 0.000001)) hc0 (by
    have := mul_le_mul ht1 hρa (by norm_num at *; linarith) (by linarith)
    linarith)
  rw [sub_neg_eq_add] at hlip
  have hlip' : |Real.arctan (rval f32 t) - Real.arctan (-ρ)| ≤
      ((1.000001 + b) ^ 2 / 2 * 1.000001 + 1 / 2) / (1 + a * (a - 0.000001)) / 2 ^ 25 := by
    refine le_trans hlip ?_
    rw [div_right_comm]
    refine div_le_div_of_nonneg_right (le_trans hq ?_) (by linarith)
    refine div_le_div_of_nonneg_right ?_ (by positivity)
    have : (1 + ρ) ^ 2 ≤ (1.000001 + b) ^ 2 := pow_le_pow_left₀ (by linarith) (by linarith) 2
    linarith
  have hp := pi4F
  have hVv : |rval f32 0x3f490fdb#32 + rval f32 (atSerF t) - Real.arctan (rval f32 x)| ≤ 2.97 / 2 ^ 25 := by
    rw [hm, show rval f32 0x3f490fdb#32 + rval f32 (atSerF t) - (Real.pi / 4 + Real.arctan (-ρ)) =
      (rval f32 0x3f490fdb#32 - Real.pi / 4) + (rval f32 (atSerF t) - Real.arctan (rval f32 t)) +
      (Real.arctan (rval f32 t) - Real.arctan (-ρ)) by ring]
    refine le_trans (abs_add_three _ _ _) ?_
    rw [hu] at hp e2
    generalize ((1.000001 + b) ^ 2 / 2 * 1.000001 + 1 / 2) / (1 + a * (a - 0.000001)) = E at *
    norm_num at *
    linarith
  have hlo : ∀ {t : ℝ}, t ^ 2 ≤ ((3 / 10 : ℚ) : ℝ) → _ := fun ht => atan_lower (lo := 9 / 10) (hi := 3 / 10) (c := 957 / 1000) (d := 5 / 100) (n := 8) atan_lowF' (by norm_num)
    (by norm_num) (by norm_num) ht
  have hs1 : rval f32 (atSerF t) ≤ -(1 / 4) := by
    have := hlo (t := rval f32 t) (by
      have := sq_le_of hle
      push_cast; norm_num at this ⊢; linarith [sq (rval f32 t)])
    rw [habs, abs_of_nonpos (by rw [← Real.arctan_zero]; exact Real.arctan_strictMono.monotone (by norm_num at hneg ⊢; linarith))] at this
    rw [abs_le, hu] at e2
    have := e2.2
    push_cast at *
    norm_num at *
    linarith
  have hs2 : -(1 / 2) ≤ rval f32 (atSerF t) := by
    have := arctan_abs_le (rval f32 t)
    rw [habs] at this
    rw [abs_le] at this
    have := this.1
    rw [abs_le, hu] at e2
    have := e2.1
    norm_num at *
    linarith
  obtain ⟨f3, e3⟩ := band_end f2 hs1 hs2 hv hVv
  refine within_of_pow (j := -2) f3 (by norm_num) ?_ (le_trans e3 (by norm_num [f32]))
  rw [abs_of_nonneg (Real.arctan_nonneg.mpr hX)]
  have := hlo (t := rval f32 x) (by push_cast; norm_num at *; nlinarith)
  rw [abs_of_nonneg hX, abs_of_nonneg (Real.arctan_nonneg.mpr hX)] at this
  push_cast at this
  norm_num at *
  linarith

theorem atF_band {x : BitVec 32} (hf : isFinite f32 x = true) (hx : rval f32 0x3ed413cd#32 < rval f32 x)
    (hv : Real.arctan (rval f32 x) < 1 / 2) : WithinUlps f32 3 (Real.arctan (rval f32 x))
      (fAdd f32 0x3f490fdb#32 (atSerF (fDiv f32 (fSub f32 x 0x3f800000#32) (fAdd f32 x 0x3f800000#32)))) := by
  rw [atF_lo.2] at hx
  have h1 : 0.41421 ≤ rval f32 x := by norm_num; linarith
  have h2 : rval f32 x ≤ 0.5464 := by
    by_contra hcon
    push Not at hcon
    have := Real.arctan_strictMono hcon
    have := atan_5464
    linarith
  obtain ⟨ft, ρ, hρ, r1, r2, hq⟩ := band_quot hf h1 h2
  obtain ⟨t, ht⟩ : ∃ t, t = fDiv f32 (fSub f32 x 0x3f800000#32) (fAdd f32 x 0x3f800000#32) := ⟨_, rfl⟩
  rw [← ht] at hq ⊢
  have hsq : (1 + ρ) ^ 2 ≤ 2.1 := by nlinarith
  have hq1 : |rval f32 t + ρ| ≤ 0.000001 := by norm_num at *; linarith
  have hlo : 7 / 25 ≤ |rval f32 t| := by
    rw [abs_le] at hq1
    rw [abs_of_nonpos (by norm_num at *; linarith)]
    norm_num at *; linarith
  have hhi : |rval f32 t| ≤ 4143 / 10000 := by
    rw [abs_le] at hq1
    rw [abs_of_nonpos (by norm_num at *; linarith)]
    norm_num at *; linarith
  rcases le_total |rval f32 t| (8 / 25) with c0 | c0
  · exact band_piece hf h1 h2 hv ht (by norm_num) (by norm_num) hlo c0 (atF_apx0 hlo c0) (by norm_num) (by norm_num)
  rcases le_total |rval f32 t| (7 / 20) with c1 | c1
  · exact band_piece hf h1 h2 hv ht (by norm_num) (by norm_num) c0 c1 (atF_apx1 c0 c1) (by norm_num) (by norm_num)
  rcases le_total |rval f32 t| (19 / 50) with c2 | c2
  · exact band_piece hf h1 h2 hv ht (by norm_num) (by norm_num) c1 c2 (atF_apx2 c1 c2) (by norm_num) (by norm_num)
  rcases le_total |rval f32 t| (39 / 100) with c3 | c3
  · exact band_piece hf h1 h2 hv ht (by norm_num) (by norm_num) c2 c3 (atF_apx3 c2 c3) (by norm_num) (by norm_num)
  rcases le_total |rval f32 t| (2 / 5) with c4 | c4
  · exact band_piece hf h1 h2 hv ht (by norm_num) (by norm_num) c3 c4 (atF_apx4 c3 c4) (by norm_num) (by norm_num)
  rcases le_total |rval f32 t| (51 / 125) with c5 | c5
  · exact band_piece hf h1 h2 hv ht (by norm_num) (by norm_num) c4 c5 (atF_apx5 c4 c5) (by norm_num) (by norm_num)
  · exact band_piece hf h1 h2 hv ht (by norm_num) (by norm_num) c5 hhi (atF_apx6 c5 hhi) (by norm_num) (by norm_num)

/-- The precision of `atan` of a non-negative number. -/
theorem coreF_within (B : CmpBuild) {x : BitVec 32} (hf : isFinite f32 x = true) (h0 : 0 ≤ rval f32 x) :
    WithinUlps f32 3 (Real.arctan (rval f32 x)) (coreF B x) := by
  rw [coreF_eq B hf]
  split
  · rename_i h; exact atF_far hf h
  · rename_i hhi
    split
    · rename_i hlo
      rcases le_or_gt (1 / 2) (Real.arctan (rval f32 x)) with hv | hv
      · have := arctan_abs_le (rval f32 x)
        rw [abs_of_nonneg h0, abs_of_nonneg (by linarith)] at this
        exact atF_mid hf (by linarith) hhi hv
      · exact atF_band hf hlo hv
    · rename_i h; exact atF_near hf h0 h

end Vc.Lemma
