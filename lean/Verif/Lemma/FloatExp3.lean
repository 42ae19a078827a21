import Verif.Lemma.FloatExp2

namespace Vc.Lemma

open Vc.Model Vc.Spec

/-! ### ldexp -/

theorem ldexpLane32 (x e : BitVec 32) :
    LdexpR f32 x e.toInt (x + (~~~(laneMask (decide (fmag f32 x = 0)) : BitVec 32) &&& e) <<< 23) := by
  unfold LdexpR
  by_cases h : fmag f32 x = 0
  · rw [if_pos h, decide_eq_true h]
    simp [laneMask]
  · rw [if_neg h, decide_eq_false h, show ~~~(laneMask false : BitVec 32) = BitVec.allOnes 32 from by decide,
      BitVec.allOnes_and, BitVec.toNat_add, BitVec.toNat_shiftLeft, Nat.shiftLeft_eq, BitVec.toInt_eq_toNat_cond]
    have hx := x.isLt
    have he := e.isLt
    show ∃ k : Int, _ = _ + _ * (2 ^ 23 : Int) + k * 2 ^ 32
    generalize x.toNat = a at *
    generalize e.toNat = b at *
    have hd : (4294967296 : Int) ∣ (((a + b * 2 ^ 23 % 2 ^ 32) % 2 ^ 32 : Nat) : Int) -
        (a + (if 2 * b < 2 ^ 32 then (b : Int) else b - (2 ^ 32 : Nat)) * 2 ^ 23) := by
      split <;> omega
    obtain ⟨k, hk⟩ := hd
    exact ⟨k, by omega⟩

theorem ldexpLane64 (x d : BitVec 64) (e : BitVec 32) (h0 : fmag f64 x = 0 → d = 0#64)
    (h1 : fmag f64 x ≠ 0 → d.setWidth 32 = e) : LdexpR f64 x e.toInt (x + d <<< 52) := by
  unfold LdexpR
  by_cases h : fmag f64 x = 0
  · rw [if_pos h, h0 h]
    simp
  · have hd := congrArg BitVec.toNat (h1 h)
    rw [BitVec.toNat_setWidth] at hd
    rw [if_neg h, BitVec.toNat_add, BitVec.toNat_shiftLeft, Nat.shiftLeft_eq, BitVec.toInt_eq_toNat_cond]
    have hx := x.isLt
    have he := e.isLt
    show ∃ k : Int, _ = _ + _ * (2 ^ 52 : Int) + k * 2 ^ 64
    generalize x.toNat = a at *
    generalize e.toNat = b at *
    generalize d.toNat = c at *
    have hd : (18446744073709551616 : Int) ∣ (((a + c * 2 ^ 52 % 2 ^ 64) % 2 ^ 64 : Nat) : Int) -
        (a + (if 2 * b < 2 ^ 32 then (b : Int) else b - (2 ^ 32 : Nat)) * 2 ^ 52) := by
      split <;> omega
    obtain ⟨k, hk⟩ := hd
    exact ⟨k, by omega⟩

theorem lane_ldexpSseF (v e : M128) {i : Nat} (hi : i < 4) :
    LdexpR f32 (Model.lane 32 v i) (Model.lane 32 e i).toInt (Model.lane 32 (ldexpSseF v e) i) := by
  have hr : 32 * (i + 1) ≤ 128 := by omega
  unfold ldexpSseF addEpi slliEpi
  rw [lane_map2 _ _ _ hr, lane_map1 _ _ hr, lane_andnot _ _ hr, lane_vFEq0 .single v hr]
  exact ldexpLane32 _ _

theorem lane_setEpi32_even (e0 e1 : BitVec 32) {i : Nat} (hi : i < 2) :
    Model.lane 32 (setEpi32 0 e1 0 e0) (2 * i) = if i = 0 then e0 else e1 := by
  unfold setEpi32
  rw [lane_ofLanes _ (by omega)]
  match i, hi with
  | 0, _ => rfl
  | 1, _ => rfl

theorem lane_ldexpSseD (v : M128) (e0 e1 : BitVec 32) {i : Nat} (hi : i < 2) :
    LdexpR f64 (Model.lane 64 v i) (if i = 0 then e0 else e1).toInt (Model.lane 64 (ldexpSseD v e0 e1) i) := by
  have hr : 64 * (i + 1) ≤ 128 := by omega
  unfold ldexpSseD addEpi slliEpi
  rw [lane_map2 _ _ _ hr, lane_map1 _ _ hr, lane_andnot _ _ hr, lane_vFEq0 .double v hr]
  apply ldexpLane64
  · intro h; rw [decide_eq_true h]; simp [laneMask]
  · intro h
    rw [decide_eq_false h, show ~~~(laneMask false : BitVec 64) = BitVec.allOnes 64 from by decide, BitVec.allOnes_and,
      ← lane_lo32, lane_setEpi32_even _ _ hi]

/-- The lanes of the doubled integers. -/
theorem lane_double {e : M128} {i : Nat} (hi : i < 4) :
    Model.lane 64 (concat128 (slliEpi 64 (unpacklo 32 e e) 52) (slliEpi 64 (unpackhi 32 e e) 52)) i =
      (Model.lane 32 e i ++ Model.lane 32 e i) <<< 52 := by
  have dbl : ∀ {x : M128} {q : Nat} {a : BitVec 32}, Model.lane 32 x (2 * q) = a → Model.lane 32 x (2 * q + 1) = a →
      Model.lane 64 x q = a ++ a := by
    intro x q a h0 h1
    apply lane_ext (v := 32) (c := 2) (by decide)
    intro j hj
    rw [lane_lane 32 2 _ _ hj]
    match j, hj with
    | 0, _ =>
      rw [Nat.add_zero, h0]
      apply BitVec.eq_of_getLsbD_eq
      intro j hj
      rw [getLsbD_lane, BitVec.getLsbD_append]
      simp [hj]
    | 1, _ =>
      rw [h1]
      apply BitVec.eq_of_getLsbD_eq
      intro j hj
      rw [getLsbD_lane, BitVec.getLsbD_append]
      simp [hj]
  rw [lane_concat128 (k := 2) rfl _ _ (by omega)]
  unfold slliEpi
  by_cases h : i < 2
  · rw [if_pos h, lane_map1 _ _ (by omega)]
    congr 1
    apply dbl
    · rw [lane_unpacklo _ _ (by omega), if_pos (by omega)]; congr 1; omega
    · rw [lane_unpacklo _ _ (by omega), if_neg (by omega)]; congr 1; omega
  · rw [if_neg h, lane_map1 _ _ (by omega)]
    congr 1
    apply dbl
    · rw [lane_unpackhi _ _ (by omega), if_pos (by omega)]; congr 1; omega
    · rw [lane_unpackhi _ _ (by omega), if_neg (by omega)]; congr 1; omega

theorem lane_ldexpAvxD (avx2 : Bool) (v : M256) (e : M128) {i : Nat} (hi : i < 4) :
    LdexpR f64 (Model.lane 64 v i) (Model.lane 32 e i).toInt (Model.lane 64 (ldexpAvxD avx2 v e) i) := by
  unfold ldexpAvxD addEpi
  rw [lane_avx2op (w := 64) (k := 2) rfl _ _ _ _ (by omega), lane_double hi, lane_andnot _ _ (by omega),
    lane_castMask4 (fun j hj => lane_vFEq0 .double v (by omega)) hi]
  apply ldexpLane64
  · intro h; rw [decide_eq_true h]; simp [laneMask]
  · intro h
    rw [decide_eq_false h, show ~~~(laneMask false : BitVec 32) = BitVec.allOnes 32 from by decide, BitVec.allOnes_and]
    apply BitVec.eq_of_getLsbD_eq
    intro j hj
    rw [BitVec.getLsbD_setWidth, BitVec.getLsbD_append]
    simp [hj]

theorem lane_ldexpAvxF (avx2 : Bool) (v e : M256) {i : Nat} (hi : i < 8) :
    LdexpR f32 (Model.lane 32 v i) (Model.lane 32 e i).toInt (Model.lane 32 (ldexpAvxF avx2 v e) i) := by
  have hr : 32 * (i + 1) ≤ 256 := by omega
  unfold ldexpAvxF
  have e1 := lane_avx1 (w := 32) (k := 4) rfl (· <<< 23) avx2 (andnot (vFEq f32 32 v 0#256) e) (i := i) (by omega)
  have e1' : Model.lane 32 (avx1 avx2 (fun x => slliEpi 32 x 23) (fun x => slliEpi 32 x 23)
      (andnot (vFEq f32 32 v 0#256) e)) i = Model.lane 32 (andnot (vFEq f32 32 v 0#256) e) i <<< 23 := e1
  have e2 := lane_split2 (w := 32) (k := 4) rfl (f := addEpi 32) (g := (· + ·)) (fun a b j hj => by
    unfold addEpi; rw [lane_map2 _ _ _ (by omega)]) v (avx1 avx2 (fun x => slliEpi 32 x 23) (fun x => slliEpi 32 x 23)
      (andnot (vFEq f32 32 v 0#256) e)) (i := i) (by omega)
  unfold split2 at e2
  rw [e2, e1', lane_andnot _ _ hr, lane_vFEq0 .single v hr]
  exact ldexpLane32 _ _

/-! ### exponent -/

/-- The exponent of a positive normal number. -/
theorem log2_normal {F : Fmt} {w : Nat} (h : FmtW F w) {x : BitVec w} (hx : isNormal F x = true) (hs : fneg F x = false) :
    IsLog2 F x ((fmag F x / 2 ^ F.m : Nat) - (bias F : Int)) := by
  have hp := pow_pos2 F.m
  have hn := (normal_iff h x).mp hx
  have hm := Nat.mod_lt (fmag F x) hp
  unfold IsLog2
  rw [fval_normal hn.1, hs]
  have hb : 1 ≤ bias F := by cases h <;> decide
  generalize fmag F x / 2 ^ F.m = a at *
  generalize fmag F x % 2 ^ F.m = r at *
  have e1 : 2 ^ oneExp F * 2 ^ ((a : Int) - (bias F : Int)).toNat =
      2 ^ F.m * 2 ^ (a - 1 + (-((a : Int) - (bias F : Int))).toNat) := by
    rw [← Nat.pow_add, ← Nat.pow_add]; congr 1; unfold oneExp; omega
  have e1i : (2 : Int) ^ oneExp F * 2 ^ ((a : Int) - (bias F : Int)).toNat =
      2 ^ F.m * 2 ^ (a - 1 + (-((a : Int) - (bias F : Int))).toNat) := by exact_mod_cast e1
  have e2 : signed false ((2 ^ F.m + r) * 2 ^ (a - 1)) * 2 ^ (-((a : Int) - (bias F : Int))).toNat =
      ((2 ^ F.m + r : Nat) : Int) * 2 ^ (a - 1 + (-((a : Int) - (bias F : Int))).toNat) := by
    unfold signed
    rw [if_neg (by decide), Int.pow_add, ← Int.mul_assoc]
    push_cast; rfl
  rw [e1i, e2]
  generalize a - 1 + (-((a : Int) - (bias F : Int))).toNat = q
  have hq : (0 : Int) < 2 ^ q := Int.pow_pos (by decide)
  refine ⟨Int.mul_le_mul_of_nonneg_right (by push_cast; omega) (by omega), ?_⟩
  rw [← Int.mul_assoc]
  refine Int.mul_lt_mul_of_pos_right ?_ hq
  have : (r : Int) < ((2 ^ F.m : Nat) : Int) := by exact_mod_cast hm
  push_cast at *
  omega

/-- The integer computed by `exponent`, converted. -/
theorem expoLane {F : Fmt} {w : Nat} (h : FmtW F w) {x : BitVec w} (hx : isNormal F x = true) (hs : fneg F x = false)
    {a c : BitVec 32} (ha : a.toNat = fmag F x / 2 ^ F.m) (hc : c.toNat = bias F) :
    isFinite F (cvtI2F F w (a - c)) = true ∧
    ∃ e : Int, fval F (cvtI2F F w (a - c)) = e * 2 ^ oneExp F ∧ IsLog2 F x e := by
  have hf := field_lt F x
  have ht : (a - c).toInt = ((fmag F x / 2 ^ F.m : Nat) : Int) - (bias F : Int) := by
    rw [BitVec.toInt_sub, BitVec.toInt_eq_toNat_of_lt (x := a), BitVec.toInt_eq_toNat_of_lt (x := c), ha, hc]
    · generalize fmag F x / 2 ^ F.m = k at *
      cases h
      · have hf : k < 256 := hf
        show ((k : Int) - (127 : Nat)).bmod (2 ^ 32) = k - (127 : Nat)
        apply Int.bmod_eq_of_le <;> omega
      · have hf : k < 2048 := hf
        show ((k : Int) - (1023 : Nat)).bmod (2 ^ 32) = k - (1023 : Nat)
        apply Int.bmod_eq_of_le <;> omega
    · rw [hc]; cases h <;> decide
    · rw [ha]
      generalize fmag F x / 2 ^ F.m = k at *
      cases h
      · have hf : k < 256 := hf
        omega
      · have hf : k < 2048 := hf
        omega
  have := cvtI2F_exact F h.lt (a := a - c) (r := (a - c).toInt.natAbs) (j := 0) (by
    rw [ht]
    generalize fmag F x / 2 ^ F.m = k at *
    cases h
    · have hf : k < 256 := hf
      show ((k : Int) - (127 : Nat)).natAbs ≤ 2 ^ 24
      omega
    · have hf : k < 2048 := hf
      show ((k : Int) - (1023 : Nat)).natAbs ≤ 2 ^ 53
      omega) (by cases h <;> decide) (by simp)
  refine ⟨this.2.1, _, this.1, ?_⟩
  rw [ht]
  exact log2_normal h hx hs

/-- The exponent field of a number without sign, without masking. -/
theorem toNat_shift {F : Fmt} {w : Nat} (h : FmtW F w) {x : BitVec w} (hs : fneg F x = false) :
    (x >>> F.m).toNat = fmag F x / 2 ^ F.m := by
  rw [BitVec.toNat_ushiftRight, Nat.shiftRight_eq_div_pow, toNat_sm h x, hs, if_neg (by decide), Nat.add_zero]

theorem toNat_shift64 {x : BitVec 64} (hs : fneg f64 x = false) :
    ((x >>> 52).setWidth 32).toNat = fmag f64 x / 2 ^ f64.m := by
  have h := toNat_shift .double hs
  have hf := field_lt f64 x
  rw [BitVec.toNat_setWidth]
  refine (congrArg (· % 2 ^ 32) h).trans ?_
  apply Nat.mod_eq_of_lt
  generalize fmag f64 x / 2 ^ f64.m = k at *
  have hf : k < 2048 := hf
  omega

/-- Lanes of the int difference, for doubles. -/
theorem lane_expo64 (v : M128) {q : Nat} (hq : q < 2) :
    Model.lane 32 (subEpi 32 (srliEpi 64 v 52) (set1 32 0x3ff#32)) (2 * q) =
      (Model.lane 64 v q >>> 52).setWidth 32 - 0x3ff#32 := by
  unfold subEpi srliEpi
  rw [lane_map2 _ _ _ (by omega), lane_lo32, lane_map1 _ _ (by omega), lane_set1 _ (by omega)]

theorem sshift_field {w s : Nat} {x : BitVec w} (hs : x.msb = false) : x.sshiftRight s = x >>> s :=
  BitVec.sshiftRight_eq_of_msb_false hs

end Vc.Lemma
