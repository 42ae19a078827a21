import Verif.Lemma.TrigSmall
import Verif.Prop.TrigAcc

/-!
C76: the documented precision of `sin` and `cos`, in units in the last place.
-/

namespace Vc.Prop
open Vc.Model Vc.Spec Vc.Lemma

theorem sinEndD_small (I : Isa) {m : DMode} {x : BitVec 64} (hf : isFinite f64 x = true) (hx : |rval f64 x| ≤ 157 / 200) :
    (isFinite f64 (sinDL (roundDSse I) m x) = true ∧
      |rval f64 (sinDL (roundDSse I) m x) - Real.sin (rval f64 x)| ≤ 217 / 125 * uRel f64 * |rval f64 x|) ∧
    ApproxAbs f64 (Real.cos (rval f64 x)) (2363 / 1000 * uRel f64) (cosDL (roundDSse I) m x) := by
  obtain ⟨-, h0, h1, h2⟩ := rval_absL .double x
  obtain ⟨f1, f2, f3⟩ := foldD_small I (m := m) (h1.trans hf) h0 (by rw [h2]; exact hx)
  unfold sinDL cosDL sinEndD cosEndD
  generalize foldDL (roundDSse I) m (absL x) = f at *
  have hsm : |rval f64 f.1| ≤ 1571 / 2000 := by
    rw [f2, abs_of_nonneg h0, h2]; exact le_trans hx (by norm_num)
  exact end_small .double quadTable_double f2 f3 (sinD_rel f1 hsm) (cosD_err f1 hsm)

theorem sinEndF_small (I : Isa) {m : FMode} {x : BitVec 32} (hf : isFinite f32 x = true) (hx : |rval f32 x| ≤ 157 / 200) :
    (isFinite f32 (sinFL (roundFSse I) (roundDSse I) m x) = true ∧
      |rval f32 (sinFL (roundFSse I) (roundDSse I) m x) - Real.sin (rval f32 x)| ≤ 2209 / 1000 * uRel f32 * |rval f32 x|) ∧
    ApproxAbs f32 (Real.cos (rval f32 x)) (3151 / 1000 * uRel f32) (cosFL (roundFSse I) (roundDSse I) m x) := by
  obtain ⟨-, h0, h1, h2⟩ := rval_absL .single x
  obtain ⟨f1, f2, f3⟩ := foldF_small I (m := m) (h1.trans hf) h0 (by rw [h2]; exact hx)
  unfold sinFL cosFL sinEndF cosEndF
  generalize foldFL (roundFSse I) (roundDSse I) m (absL x) = f at *
  have hsm : |rval f32 f.1| ≤ 1571 / 2000 := by
    rw [f2, abs_of_nonneg h0, h2]; exact le_trans hx (by norm_num)
  exact end_small .single quadTable_single f2 f3 (sinF_rel f1 hsm) (cosF_err f1 hsm)

theorem sin_within {F : Fmt} {w : Nat} {c k x : ℝ} {r : BitVec w} (hx : |x| ≤ 157 / 200)
    (h : isFinite F r = true ∧ |rval F r - Real.sin x| ≤ c * uRel F * |x|) (hc : 0 ≤ c) (hk : c * (139 / 125) ≤ k) :
    WithinUlps F k (Real.sin x) r := by
  refine within_of_rel h.1 (c := c * (139 / 125)) (d := 0) (by positivity) le_rfl ?_ (by linarith)
  have h1 := mul_le_mul_of_nonneg_left (arg_le_sin hx) (mul_nonneg hc (uRel_pos F).le)
  have h2 := h.2
  split <;> linarith

/-- The result of the double version, rounded to float. -/
theorem narrow_within {x : ℝ} {s c : BitVec 64} (hx : |x| ≤ 157 / 200)
    (hs : isFinite f64 s = true ∧ |rval f64 s - Real.sin x| ≤ 217 / 125 * uRel f64 * |x|)
    (hc : ApproxAbs f64 (Real.cos x) (2363 / 1000 * uRel f64) c) :
    WithinUlps f32 (8 / 5) (Real.sin x) (cvtF2F f64 f32 32 s) ∧ WithinUlps f32 (8 / 5) (Real.cos x) (cvtF2F f64 f32 32 c) := by
  have u1 : uRel f32 = 1 / 16777216 := by unfold uRel; norm_num [f32]
  have u2 : uRel f64 = 1 / 9007199254740992 := by unfold uRel; norm_num [f64]
  have b1 : |Real.sin x| ≤ 1 := Real.abs_sin_le_one x
  have b2 : |Real.cos x| ≤ 1 := Real.abs_cos_le_one x
  constructor
  · have h1 := arg_le_sin hx
    have h2 := hs.2
    rw [u2] at h2
    have h3 : |rval f64 s| ≤ |Real.sin x| + |rval f64 s - Real.sin x| := by
      have := abs_add_le (Real.sin x) (rval f64 s - Real.sin x)
      rwa [add_sub_cancel] at this
    obtain ⟨c1, c2⟩ := cvtF2F_rel .single (k := 1) (by decide) hs.1 (by rw [zpow_one]; linarith)
    refine within_of_rel c1 (c := 21 / 20) (d := 1) (by norm_num) (by norm_num) ?_ (by norm_num)
    unfold RelErr at c2
    have h4 : |rval f32 (cvtF2F f64 f32 32 s) - Real.sin x| ≤
        |rval f32 (cvtF2F f64 f32 32 s) - rval f64 s| + |rval f64 s - Real.sin x| := by
      have := abs_add_le (rval f32 (cvtF2F f64 f32 32 s) - rval f64 s) (rval f64 s - Real.sin x)
      rwa [sub_add_sub_cancel] at this
    rw [u1] at c2 ⊢
    have hz : (if rval f64 s = 0 then (0 : ℝ) else uAbs f32) ≤ if Real.sin x = 0 then 0 else 1 * uAbs f32 := by
      have := uAbs_pos f32
      by_cases e : Real.sin x = 0
      · rw [if_pos e, if_pos]
        rw [e, abs_zero] at h3 h1
        rw [e, sub_zero] at h2
        have h5 : |x| = 0 := le_antisymm (by linarith) (abs_nonneg x)
        rw [h5, mul_zero] at h2
        exact abs_eq_zero.mp (le_antisymm h2 (abs_nonneg _))
      · rw [if_neg e]; split <;> linarith
    have h5 := abs_nonneg (Real.sin x)
    linarith
  · have h2 := hc.2
    rw [u2] at h2
    have h3 : |rval f64 c| ≤ |Real.cos x| + |rval f64 c - Real.cos x| := by
      have := abs_add_le (Real.cos x) (rval f64 c - Real.cos x)
      rwa [add_sub_cancel] at this
    obtain ⟨c1, c2⟩ := cvtF2F_err .single (k := 1) (by decide) hc.1 (by rw [zpow_one]; linarith)
    rw [show (2 : ℝ) ^ ((1 : Int) - (f32.m : Nat) - 2) = 1 / 16777216 by norm_num [f32]] at c2
    have h4 : |rval f32 (cvtF2F f64 f32 32 c) - Real.cos x| ≤
        |rval f32 (cvtF2F f64 f32 32 c) - rval f64 c| + |rval f64 c - Real.cos x| := by
      have := abs_add_le (rval f32 (cvtF2F f64 f32 32 c) - rval f64 c) (rval f64 c - Real.cos x)
      rwa [sub_add_sub_cancel] at this
    exact within_of_abs c1 (cos_ge hx) (c := 8 / 5) (by norm_num) (by rw [u1]; linarith) le_rfl

/-- Double: for arguments of at most 0.785, just below a quarter of `π`, whatever the other entries are, the sine is
correct up to two units in the last place and the cosine up to three, as documented. -/
theorem C76_small_double {n : Nat} {E : TrigEnv n} (h : TrigD n E) (x : BitVec n) {i : Nat} (hi : 64 * (i + 1) ≤ n)
    (hf : isFinite f64 (lane 64 x i) = true) (hx : |rval f64 (lane 64 x i)| ≤ 157 / 200) :
    WithinUlps f64 2 (Real.sin (rval f64 (lane 64 x i))) (lane 64 (vSinD E x) i) ∧
    WithinUlps f64 3 (Real.cos (rval f64 (lane 64 x i))) (lane 64 (vCosD E x) i) ∧
    WithinUlps f64 2 (Real.sin (rval f64 (lane 64 x i))) (lane 64 (vSincosD E x).1 i) ∧
    WithinUlps f64 3 (Real.cos (rval f64 (lane 64 x i))) (lane 64 (vSincosD E x).2 i) := by
  obtain ⟨-, I, hE⟩ := h.ok
  obtain ⟨m, -, hr⟩ := lane_vSinCosD hE x
  obtain ⟨h1, h2⟩ := sinEndD_small I (m := m) hf hx
  rw [← (hr i hi).1] at h1
  rw [← (hr i hi).2] at h2
  have a := sin_within hx h1 (by norm_num) (k := 2) (by norm_num)
  have b := within_of_abs h2.1 (cos_ge hx) (by norm_num) h2.2 (k := 3) (by norm_num)
  exact ⟨a, b, a, b⟩

/-- Witness: 0.75, next to an infinity. -/
example : TrigD 128 (trigSseD sse42) ∧ lane 64 (0x7ff00000000000003fe8000000000000#128) 0 = 0x3fe8000000000000#64 ∧
    isFinite f64 0x3fe8000000000000#64 = true ∧ |rval f64 0x3fe8000000000000#64| ≤ 157 / 200 := by
  refine ⟨.sse _, by decide, by decide, ?_⟩
  rw [rval_lit (v := 3 / 4) false 1022 2251799813685248 (-53) (by decide) (by decide) (by decide) (by decide) (by decide) (by norm_num [f64])]
  norm_num [abs_le]

/-- Float, arguments of at most 0.785: two and a half units for the sine and three and a fifth for the cosine.  What is
missing: the documented two units. -/
theorem C76_small_float_partial {n : Nat} {E : TrigEnvF n} (h : TrigF n E) (x : BitVec n) {i : Nat} (hi : 32 * (i + 1) ≤ n)
    (hf : isFinite f32 (lane 32 x i) = true) (hx : |rval f32 (lane 32 x i)| ≤ 157 / 200) :
    WithinUlps f32 (5 / 2) (Real.sin (rval f32 (lane 32 x i))) (lane 32 (vSinF E x) i) ∧
    WithinUlps f32 (16 / 5) (Real.cos (rval f32 (lane 32 x i))) (lane 32 (vCosF E x) i) ∧
    WithinUlps f32 (5 / 2) (Real.sin (rval f32 (lane 32 x i))) (lane 32 (vSincosF E x).1 i) ∧
    WithinUlps f32 (16 / 5) (Real.cos (rval f32 (lane 32 x i))) (lane 32 (vSincosF E x).2 i) := by
  obtain ⟨c, I, hC, -, hE, hD, hrd⟩ := h.ok
  have small : WithinUlps f32 (5 / 2) (Real.sin (rval f32 (lane 32 x i))) (lane 32 (vSinSmallF E x) i) ∧
      WithinUlps f32 (16 / 5) (Real.cos (rval f32 (lane 32 x i))) (lane 32 (vCosSmallF E x) i) := by
    obtain ⟨m, -, hr⟩ := lane_vSinCosSmallF hE x
    obtain ⟨h1, h2⟩ := sinEndF_small I (m := m) hf hx
    rw [← hrd, ← (hr i hi).1] at h1
    rw [← hrd, ← (hr i hi).2] at h2
    exact ⟨sin_within hx h1 (by norm_num) (by norm_num), within_of_abs h2.1 (cos_ge hx) (by norm_num) h2.2 (by norm_num)⟩
  have big : WithinUlps f32 (5 / 2) (Real.sin (rval f32 (lane 32 x i))) (lane 32 (E.join (vSinD E.D (E.lo x)) (vSinD E.D (E.hi x))) i) ∧
      WithinUlps f32 (16 / 5) (Real.cos (rval f32 (lane 32 x i))) (lane 32 (E.join (vCosD E.D (E.lo x)) (vCosD E.D (E.hi x))) i) := by
    obtain ⟨m, -, e1, e2⟩ := lane_joinD hD hC x hi
    obtain ⟨c1, c2⟩ := cvtF2F_rval hf
    obtain ⟨h1, h2⟩ := sinEndD_small I (m := m) c1 (by rw [c2]; exact hx)
    rw [c2] at h1 h2
    rw [e1, e2]
    have := narrow_within hx h1 h2
    exact ⟨within_mono this.1 (by norm_num), within_mono this.2 (by norm_num)⟩
  refine ⟨?_, ?_, ?_, ?_⟩
  · unfold vSinF; split; exacts [big.1, small.1]
  · unfold vCosF; split; exacts [big.2, small.2]
  · unfold vSincosF; split; exacts [big.1, small.1]
  · unfold vSincosF; split; exacts [big.2, small.2]

/-- Witness: -0.75. -/
example : TrigF 256 (trigAvxF .avxGcc) ∧ lane 32 (set1 (n := 256) 32 0xbf400000#32) 7 = 0xbf400000#32 ∧
    isFinite f32 0xbf400000#32 = true ∧ |rval f32 0xbf400000#32| ≤ 157 / 200 := by
  refine ⟨.avx _, by decide +kernel, by decide, ?_⟩
  rw [rval_lit (v := -(3 / 4)) true 126 4194304 (-24) (by decide) (by decide) (by decide) (by decide) (by decide) (by norm_num [f32])]
  norm_num [abs_le]

/-- The sine of a small number. -/
theorem sin_tiny {z lo hi : ℝ} (h0 : 0 < lo) (h1 : lo ≤ z) (h2 : z ≤ hi) :
    lo - hi ^ 3 / 4 ≤ Real.sin z ∧ Real.sin z ≤ hi := by
  have a := Real.sin_gt_sub_cube (x := z) (by linarith)
  have b := Real.sin_le (x := z) (by linarith)
  have c : z ^ 3 ≤ hi ^ 3 := pow_le_pow_left₀ (by linarith) h2 3
  have d : 0 ≤ hi ^ 3 := pow_nonneg (by linarith) 3
  exact ⟨by linarith, by linarith⟩

/-- Double: the sine of 1457.698991265664 is wrong by more than a hundred thousand units in the last place, while three
are documented for arguments of at most 8192. -/
theorem C76_double_violated {n : Nat} {E : TrigEnv n} (h : TrigD42 n E) :
    |rval f64 (lane 64 (set1 64 0x4096c6cbc45dc8de#64 : BitVec n) 0)| ≤ 8192 ∧
    ¬ WithinUlps f64 100000 (Real.sin (rval f64 (lane 64 (set1 64 0x4096c6cbc45dc8de#64 : BitVec n) 0)))
      (lane 64 (vSinD E (set1 64 0x4096c6cbc45dc8de#64)) 0) := by
  obtain ⟨hn, hE⟩ := h.ok
  have e : lane 64 (vSinD E (set1 64 0x4096c6cbc45dc8de#64)) 0 = 0x3c76d61b58c80000#64 := by
    rw [(set1D hE _ (by omega)).1]
    decide +kernel
  have v1 : rval f64 (0x4096c6cbc45dc8de#64) = 3205513981387887 / 2199023255552 := rval_lit false 1033 1907428335405278 (-42)
    (by decide) (by decide +kernel) (by decide +kernel) (by decide +kernel) (by decide +kernel) (by norm_num [f64])
  have v2 : rval f64 (0x3c76d61b58c80000#64) = 12260174617 / 618970019642690137449562112 := rval_lit false 967 1924262802227200 (-108)
    (by decide) (by decide +kernel) (by decide +kernel) (by decide +kernel) (by decide +kernel) (by norm_num [f64])
  rw [e, lane_set1 _ (by omega), v1]
  refine ⟨by norm_num [abs_le], fun hw => ?_⟩
  have h2 := hw.2.2 (-56)
  rw [v2] at h2
  have a1 := pi_lo
  have a2 := pi_hi
  have hs : Real.sin (3205513981387887 / 2199023255552) = Real.sin (3205513981387887 / 2199023255552 - 928 * (Real.pi / 2)) := by
    have := (sin_quad (3205513981387887 / 2199023255552 - 928 * (Real.pi / 2)) 928).1
    simp only [Nat.cast_ofNat, sub_add_cancel] at this
    rw [this]
    simp [quadSin]
  rw [hs] at h2
  obtain ⟨b1, b2⟩ := sin_tiny (z := 3205513981387887 / 2199023255552 - 928 * (Real.pi / 2))
    (lo := 19807380370827 / 10 ^ 30) (hi := 19807380370828 / 10 ^ 30) (by norm_num) (by norm_num at a2 ⊢; linarith)
    (by norm_num at a1 ⊢; linarith)
  generalize Real.sin (3205513981387887 / 2199023255552 - 928 * (Real.pi / 2)) = v at *
  norm_num at b1 b2
  rw [abs_of_nonneg (by linarith)] at h2
  have h3 := h2 (by norm_num; linarith) (by norm_num; linarith)
  rw [show max ((-56 : Int) - (f64.m : Nat)) (-(oneExp f64 : Nat)) = -108 by decide +kernel, abs_le] at h3
  norm_num at h3
  linarith [h3.1, h3.2]

/-- Witness: these are real versions. -/
example : TrigD42 256 trigAvxD ∧ TrigF42 128 (trigSseF sse42) := ⟨.avx, .sse⟩

theorem not_large {n : Nat} {E : TrigEnvF n} {r : BitVec 32 → BitVec 32} (hE : TrigOk E.toTrigEnv f32 32 r) {l a : BitVec 32}
    (hl : isNaN f32 l = false) (ha : isNaN f32 a = false) (h : ¬ fval f32 l ≤ ((fval f32 a).natAbs : Int)) :
    trigLarge E l (set1 32 a) = false := by
  rw [Bool.eq_false_iff]
  intro ht
  obtain ⟨i, hi, hh⟩ := (trigLarge_iff hE _ hl).mp ht
  rw [lane_set1 _ hi, ha, if_neg (by decide)] at hh
  exact h hh

/-- Float: the sine of 4476.76953125 and the cosine of half of it are wrong by more than 50 units in the last place, while
two are documented. -/
theorem C76_float_violated {n : Nat} {E : TrigEnvF n} (h : TrigF42 n E) :
    (|rval f32 (lane 32 (set1 32 0x458be628#32 : BitVec n) 0)| ≤ 8192 ∧
    ¬ WithinUlps f32 50 (Real.sin (rval f32 (lane 32 (set1 32 0x458be628#32 : BitVec n) 0)))
      (lane 32 (vSinF E (set1 32 0x458be628#32)) 0)) ∧
    (|rval f32 (lane 32 (set1 32 0x450be628#32 : BitVec n) 0)| ≤ 8192 ∧
    ¬ WithinUlps f32 50 (Real.cos (rval f32 (lane 32 (set1 32 0x450be628#32 : BitVec n) 0)))
      (lane 32 (vCosF E (set1 32 0x450be628#32)) 0)) := by
  obtain ⟨c, hc, hC, hE, hD, hr⟩ := h.ok
  have hn := hC.size
  obtain ⟨n1, n2, f1, f2⟩ := limits
  have a1 := pi_lo
  have a2 := pi_hi
  constructor
  · have e : lane 32 (vSinF E (set1 32 0x458be628#32)) 0 = 0x33f7f000#32 := by
      unfold vSinF
      rw [not_large hE n1 (by decide) (by decide +kernel), if_neg (by decide), (set1F hE _ (by omega)).1, hr]
      decide +kernel
    have v1 : rval f32 (0x458be628#32) = 1146053 / 256 := rval_lit false 139 779816 (-11)
      (by decide) (by decide +kernel) (by decide +kernel) (by decide +kernel) (by decide +kernel) (by norm_num [f32])
    have v2 : rval f32 (0x33f7f000#32) = 3967 / 34359738368 := rval_lit false 103 7860224 (-47)
      (by decide) (by decide +kernel) (by decide +kernel) (by decide +kernel) (by decide +kernel) (by norm_num [f32])
    rw [e, lane_set1 _ (by omega), v1]
    refine ⟨by norm_num [abs_le], fun hw => ?_⟩
    have h2 := hw.2.2 (-24)
    rw [v2] at h2
    have hs : Real.sin (1146053 / 256) = Real.sin (2850 * (Real.pi / 2) - 1146053 / 256) := by
      have := (sin_quad (1146053 / 256 - 2850 * (Real.pi / 2)) 2850).1
      simp only [Nat.cast_ofNat, sub_add_cancel] at this
      rw [this, ← neg_sub (1146053 / 256 : ℝ), Real.sin_neg]
      simp [quadSin]
    rw [hs] at h2
    obtain ⟨b1, b2⟩ := sin_tiny (z := 2850 * (Real.pi / 2) - 1146053 / 256)
      (lo := 115455364 / 10 ^ 15) (hi := 115455365 / 10 ^ 15) (by norm_num) (by norm_num at a1 ⊢; linarith)
      (by norm_num at a2 ⊢; linarith)
    generalize Real.sin (2850 * (Real.pi / 2) - 1146053 / 256) = v at *
    norm_num at b1 b2
    rw [abs_of_nonneg (by linarith)] at h2
    have h3 := h2 (by norm_num; linarith) (by norm_num; linarith)
    rw [show max ((-24 : Int) - (f32.m : Nat)) (-(oneExp f32 : Nat)) = -47 by decide +kernel, abs_le] at h3
    norm_num at h3
    linarith [h3.1, h3.2]
  · have e : lane 32 (vCosF E (set1 32 0x450be628#32)) 0 = 0x3377f000#32 := by
      unfold vCosF
      rw [not_large hE n2 (by decide) (by decide +kernel), if_neg (by decide), (set1F hE _ (by omega)).2, hr]
      decide +kernel
    have v1 : rval f32 (0x450be628#32) = 1146053 / 512 := rval_lit false 138 779816 (-12)
      (by decide) (by decide +kernel) (by decide +kernel) (by decide +kernel) (by decide +kernel) (by norm_num [f32])
    have v2 : rval f32 (0x3377f000#32) = 3967 / 68719476736 := rval_lit false 102 7860224 (-48)
      (by decide) (by decide +kernel) (by decide +kernel) (by decide +kernel) (by decide +kernel) (by norm_num [f32])
    rw [e, lane_set1 _ (by omega), v1]
    refine ⟨by norm_num [abs_le], fun hw => ?_⟩
    have h2 := hw.2.2 (-25)
    rw [v2] at h2
    have hs : Real.cos (1146053 / 512) = Real.sin (1425 * (Real.pi / 2) - 1146053 / 512) := by
      have := (sin_quad (1146053 / 512 - 1425 * (Real.pi / 2)) 1425).2
      simp only [Nat.cast_ofNat, sub_add_cancel] at this
      rw [this, ← neg_sub (1146053 / 512 : ℝ), Real.sin_neg]
      simp [quadCos]
    rw [hs] at h2
    obtain ⟨b1, b2⟩ := sin_tiny (z := 1425 * (Real.pi / 2) - 1146053 / 512)
      (lo := 57727682 / 10 ^ 15) (hi := 57727683 / 10 ^ 15) (by norm_num) (by norm_num at a1 ⊢; linarith)
      (by norm_num at a2 ⊢; linarith)
    generalize Real.sin (1425 * (Real.pi / 2) - 1146053 / 512) = v at *
    norm_num at b1 b2
    rw [abs_of_nonneg (by linarith)] at h2
    have h3 := h2 (by norm_num; linarith) (by norm_num; linarith)
    rw [show max ((-25 : Int) - (f32.m : Nat)) (-(oneExp f32 : Nat)) = -48 by decide +kernel, abs_le] at h3
    norm_num at h3
    linarith [h3.1, h3.2]

end Vc.Prop
