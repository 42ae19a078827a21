import Verif.Model.LoadStore
import Verif.Lemma.GatherAvx2
import Verif.Lemma.SortNet2
import Verif.Lemma.SseConv
import Verif.Lemma.FloatCvt

/-!
Lemmas about loads and stores.
-/

namespace Vc.Lemma

open Vc.Model Vc.Spec

theorem lane_setWidth {n N w : Nat} (x : BitVec n) {i : Nat} (h : w * (i + 1) ≤ n) (hN : n ≤ N) :
    Model.lane w (x.setWidth N) i = Model.lane w x i := by
  apply BitVec.eq_of_getLsbD_eq
  intro j hj
  rw [getLsbD_lane, getLsbD_lane, BitVec.getLsbD_setWidth]
  have : w * i + j < N := by rw [Nat.mul_add] at h; omega
  simp [this]

/-- `k` bytes loaded from an array into the low part of a register of `N` bits. -/
theorem load_array {w c n k N : Nat} (hw : w = 8 * c) (hc : 0 < c) (hk : k = c * n) (hN : 8 * k ≤ N)
    {m : ByteMem} {a : Int} {e : Nat → BitVec w}
    (he : ∀ i, i < n → EntryAt m (a + (c : Nat) * i) (e i)) :
    ∃ x : BitVec N, (loadLE m a k).map (BitVec.ofNat N) = some x ∧ ∀ i, i < n → Model.lane w x i = e i := by
  subst hw
  have hlt : ∀ j, j < k → j / c < n := fun j hj => by
    rw [Nat.div_lt_iff_lt_mul hc, Nat.mul_comm n c, ← hk]; exact hj
  have hE : EntryAt m a (ofLanes (8 * c) e : BitVec (8 * k)) := by
    intro j hj
    have hj' : j < k := by omega
    have h1 := he (j / c) (hlt j hj') (j % c) (by
      have := Nat.mod_lt j hc
      omega)
    have h2 : (a + (c : Nat) * (j / c : Nat) + (j % c : Nat) : Int) = a + j := by
      have : ((c * (j / c) + j % c : Nat) : Int) = j := by rw [Nat.div_add_mod]
      rw [Int.natCast_add, Int.natCast_mul] at this
      rw [Int.add_assoc, this]
    rw [h2] at h1
    rw [h1]
    have := lane_ofLanes_wide (n := 8 * k) e (i := j) hc (by
      have := hlt j hj'
      rw [hk, Nat.mul_assoc]
      exact Nat.mul_le_mul_left _ (Nat.mul_le_mul_left _ this))
    exact congrArg some this.symm
  refine ⟨(ofLanes (8 * c) e : BitVec (8 * k)).setWidth N, ?_, fun i hi => ?_⟩
  · rw [loadLE_entry hE, Option.map_some, BitVec.ofNat_toNat]
  · have h : 8 * c * (i + 1) ≤ 8 * k := by
      rw [hk, Nat.mul_assoc]
      exact Nat.mul_le_mul_left _ (Nat.mul_le_mul_left _ hi)
    rw [lane_setWidth _ h hN, lane_ofLanes _ h]

/-- What the hardware asks of the address of a load of 16 or 32 bytes. -/
def Al (fl : LFlags) (k : Int) (a : Int) : Prop := fl.unaligned = true ∨ a % k = 0

theorem loada_128 {m : ByteMem} {a : Int} (h : a % 16 = 0) : loada 128 m a = loadu 128 m a :=
  if_pos (show a % ((128 / 8 : Nat) : Int) = 0 from h)

theorem loada_256 {m : ByteMem} {a : Int} (h : a % 32 = 0) : loada 256 m a = loadu 256 m a :=
  if_pos (show a % ((256 / 8 : Nat) : Int) = 0 from h)

theorem load16_array {w c n : Nat} (hw : w = 8 * c) (hc : 0 < c) (hk : 16 = c * n) {fl : LFlags} {m : ByteMem}
    {a : Int} (hal : Al fl 16 a) {e : Nat → BitVec w} (he : ∀ i, i < n → EntryAt m (a + (c : Nat) * i) (e i)) :
    ∃ x, load16 fl m a = some x ∧ ∀ i, i < n → Model.lane w x i = e i := by
  obtain ⟨x, hx, hl⟩ := load_array (N := 128) hw hc hk (by decide) he
  refine ⟨x, ?_, hl⟩
  unfold load16
  by_cases h : fl.unaligned = true
  · rw [if_pos h]; exact hx
  · rw [if_neg h, loada_128 (hal.resolve_left h)]; exact hx

theorem loadLow_array {w c n k : Nat} (hw : w = 8 * c) (hc : 0 < c) (hk : k = c * n) (hN : 8 * k ≤ 128) {m : ByteMem}
    {a : Int} {e : Nat → BitVec w} (he : ∀ i, i < n → EntryAt m (a + (c : Nat) * i) (e i)) :
    ∃ x, loadLow k m a = some x ∧ ∀ i, i < n → Model.lane w x i = e i :=
  load_array hw hc hk hN he

theorem load32_array {w c n : Nat} (hw : w = 8 * c) (hc : 0 < c) (hk : 16 = c * n) {fl : LFlags} {m : ByteMem}
    {a : Int} (hal : Al fl 32 a ∨ fl.streaming = true ∧ a % 16 = 0) {e : Nat → BitVec w}
    (he : ∀ i, i < 2 * n → EntryAt m (a + (c : Nat) * i) (e i)) :
    ∃ x, load32 fl m a = some x ∧ ∀ i, i < 2 * n → Model.lane w x i = e i := by
  obtain ⟨x, hx, hl⟩ := load_array (N := 256) (n := 2 * n) (k := 32) hw hc
    (by rw [Nat.mul_left_comm, ← hk]) (by decide) he
  unfold load32
  by_cases h : fl.unaligned = true
  · rw [if_pos h]; exact ⟨x, hx, hl⟩
  rw [if_neg h]
  have h16 : a % 16 = 0 := by
    rcases hal with h1 | h1
    · have := h1.resolve_left h; omega
    · exact h1.2
  by_cases hs : fl.streaming = true
  · rw [if_pos hs]
    obtain ⟨x0, e0, l0⟩ := load_array (N := 128) (n := n) (k := 16) hw hc hk (by decide)
      fun i hi => he i (by omega)
    have hwk : w * n = 128 := by rw [hw, Nat.mul_assoc, ← hk]
    obtain ⟨x1, e1, l1⟩ := load_array (N := 128) (n := n) (k := 16) (a := a + 16) (e := fun i => e (n + i)) hw hc hk
      (by decide) fun i hi => by
        have := he (n + i) (by omega)
        have h2 : (a + (c : Nat) * ((n + i : Nat) : Int)) = a + 16 + (c : Nat) * (i : Int) := by
          have : ((c * n : Nat) : Int) = 16 := by rw [← hk]; rfl
          push_cast at this ⊢
          rw [Int.mul_add, this]; omega
        rw [h2] at this; exact this
    refine ⟨concat128 x0 x1, ?_, fun i hi => ?_⟩
    · unfold streamLoad256
      rw [loada_128 h16, loada_128 (by omega)]
      unfold loadu
      rw [show (128 / 8 : Nat) = 16 from rfl, e0, e1]; rfl
    · rw [lane_concat128 hwk _ _ hi]
      by_cases hin : i < n
      · rw [if_pos hin, l0 i hin]
      · rw [if_neg hin, l1 _ (by omega)]
        congr 1; omega
  · rw [if_neg hs]
    rcases hal with h1 | h1
    · rw [loada_256 (h1.resolve_left h)]; exact ⟨x, hx, hl⟩
    · exact absurd h1.1 hs

/-- Conversion after a load. -/
theorem load_map {L N w v n : Nat} {o : Option (BitVec L)} {e : Nat → BitVec w}
    (h : ∃ x, o = some x ∧ ∀ i, i < n → Model.lane w x i = e i) (f : BitVec L → BitVec N)
    (P : BitVec w → BitVec v → Prop)
    (hf : ∀ x i, i < n → P (Model.lane w x i) (Model.lane v (f x) i)) :
    ∃ r, o.map f = some r ∧ ∀ i, i < n → P (e i) (Model.lane v r i) := by
  obtain ⟨x, rfl, hl⟩ := h
  exact ⟨f x, rfl, fun i hi => by rw [← hl i hi]; exact hf x i hi⟩

theorem load_map2 {L M N w v n : Nat} {o : Option (BitVec L)} {e : Nat → BitVec w}
    (h : ∃ x, o = some x ∧ ∀ i, i < n → Model.lane w x i = e i) (f : BitVec L → BitVec M) (g : BitVec M → BitVec N)
    (P : BitVec w → BitVec v → Prop)
    (hf : ∀ x i, i < n → P (Model.lane w x i) (Model.lane v (g (f x)) i)) :
    ∃ r, (o.map f).map g = some r ∧ ∀ i, i < n → P (e i) (Model.lane v r i) := by
  obtain ⟨x, rfl, hl⟩ := h
  exact ⟨g (f x), rfl, fun i hi => by rw [← hl i hi]; exact hf x i hi⟩

theorem load_id {L w n : Nat} {o : Option (BitVec L)} {e : Nat → BitVec w}
    (h : ∃ x, o = some x ∧ ∀ i, i < n → Model.lane w x i = e i) (P : BitVec w → BitVec w → Prop) (hP : ∀ x, P x x) :
    ∃ r, o = some r ∧ ∀ i, i < n → P (e i) (Model.lane w r i) := by
  obtain ⟨x, rfl, hl⟩ := h
  exact ⟨x, rfl, fun i hi => by rw [hl i hi]; exact hP _⟩

/-! ### Conversion of one entry -/

theorem sext_eq {v : Nat} (w : Nat) (a : BitVec v) : a.signExtend w = BitVec.ofInt w (val true a) := rfl

theorem zext_eq {v : Nat} (w : Nat) (a : BitVec v) : a.zeroExtend w = BitVec.ofInt w (val false a) := by
  unfold val
  rw [if_neg Bool.false_ne_true]
  apply BitVec.eq_of_toNat_eq
  rw [BitVec.ofInt_natCast, BitVec.toNat_ofNat, BitVec.toNat_setWidth]

theorem cast_eq (w : Nat) (s : Bool) (a : BitVec w) : a = BitVec.ofInt w (val s a) := by
  unfold val
  cases s
  · rw [if_neg Bool.false_ne_true, BitVec.ofInt_natCast, BitVec.ofNat_toNat, BitVec.setWidth_eq]
  · rw [if_pos rfl, BitVec.ofInt_toInt]

theorem rounded_of_exact {F : Fmt} {w : Nat} {r : BitVec w} {n : Int} (h : ExactInt F n r) : RoundedInt F n r := by
  obtain ⟨hf, hv⟩ := h
  refine ⟨?_, fun y hy => ?_⟩
  · rw [Bool.eq_false_iff]
    intro hn
    unfold isFinite at hf
    unfold isNaN at hn
    simp only [decide_eq_true_eq] at hf hn
    omega
  · have : fval F r * ((1 : Nat) : Int) - n * 2 ^ oneExp F = 0 := by rw [hv]; simp
    rw [this]
    refine ⟨Nat.zero_le _, fun h0 => .inl ?_⟩
    have : fval F y * ((1 : Nat) : Int) - n * 2 ^ oneExp F = 0 := Int.natAbs_eq_zero.mp h0.symm
    rw [hv]
    have e : fval F y * ((1 : Nat) : Int) = fval F y := Int.mul_one _
    omega

/-- Small integers via int. -/
theorem cvtI2F_ext {F : Fmt} {w v : Nat} (h : FmtW F w) (hv : v ≤ 16) (a : BitVec v) :
    RoundedInt F (val true a) (cvtI2F F w (a.signExtend 32)) ∧
    RoundedInt F (val false a) (cvtI2F F w (a.zeroExtend 32)) := by
  have e1 : (a.signExtend 32).toInt = val true a := by
    unfold val; rw [if_pos rfl]; exact BitVec.toInt_signExtend_of_le (by omega)
  have e2 : (a.zeroExtend 32).toInt = val false a := by
    have := a.isLt
    have h2 : 2 ^ v ≤ 2 ^ 16 := Nat.pow_le_pow_right (by decide) hv
    unfold val
    rw [if_neg Bool.false_ne_true, BitVec.toInt_eq_toNat_cond, BitVec.toNat_setWidth, Nat.mod_eq_of_lt (by omega),
      if_pos (by omega)]
  constructor
  · rw [← e1]; exact cvtI2F_nearest h _
  · rw [← e2]; exact cvtI2F_nearest h _

/-- The conversion in the AVX load of floats from unsigned integers. -/
def avxU2f (v : BitVec 32) : BitVec 32 :=
  if v.toInt < 0 then fAdd f32 (cvtI2F f32 32 (v - 0x80000000#32)) two31f else cvtI2F f32 32 v

theorem lane_avxUintFloat (avx2 : Bool) (y : M256) {i : Nat} (hi : i < 8) :
    Model.lane 32 (avxUintFloat avx2 y) i = avxU2f (Model.lane 32 y i) := by
  have h := (by omega : 32 * (i + 1) ≤ 256)
  unfold avxUintFloat avxU2f cvtepi32PsN
  have hm : Model.lane 32 (avx2op avx2 (cmpgtEpi 32) (cmpgtEpi 32) 0#256 y) i = _ :=
    lane_avx2op (k := 4) rfl (fun a b => laneMask (decide (b.toInt < a.toInt))) avx2 0#256 y hi
  have hs : Model.lane 32 (avx2op avx2 (subEpi 32) (subEpi 32) y (set1 32 0x80000000#32)) i = _ :=
    lane_avx2op (k := 4) rfl (fun a b => a - b) avx2 y (set1 32 0x80000000#32) hi
  rw [lane_blendvIntr _ _ _ h, hm, laneMask_msb (by decide), lane_zero, lane_map1 _ _ h, lane_map2 _ _ _ h,
    lane_map1 _ _ h, hs, lane_set1 _ h, lane_set1 _ h]
  simp only [decide_eq_true_eq, BitVec.toInt_zero]

theorem avxU2f_spec (v : BitVec 32) (h : v.toNat ≤ 2147483648 + 16777216) : RoundedInt f32 v.toNat (avxU2f v) := by
  unfold avxU2f
  by_cases hneg : v.toInt < 0
  · rw [if_pos hneg]
    have hge : 2147483648 ≤ v.toNat := by
      rw [BitVec.toInt_eq_toNat_cond] at hneg
      split at hneg <;> omega
    have hlt := v.isLt
    have hs : (v - 0x80000000#32).toInt = (v.toNat : Int) - 2147483648 := by
      rw [BitVec.toInt_eq_toNat_cond, BitVec.toNat_sub]
      have e : (0x80000000#32).toNat = 2147483648 := by decide
      rw [e]
      split <;> omega
    obtain ⟨cf, cv⟩ := cvtI2F_small .single (v - 0x80000000#32) (by rw [hs]; omega)
    have hv31 : fval f32 two31f = 2147483648 * 2 ^ oneExp f32 := by decide +kernel
    have hsum : fval f32 (cvtI2F f32 32 (v - 0x80000000#32)) + fval f32 two31f = (v.toNat : Int) * 2 ^ oneExp f32 := by
      rw [cv, hs, hv31, ← Int.add_mul]; congr 1; omega
    rw [fAdd_fin f32 cf isTwo31f.fin, hsum]
    exact roundInt_nearest .single _ _
  · rw [if_neg hneg]
    have e : v.toInt = v.toNat := by
      have := v.isLt
      rw [BitVec.toInt_eq_toNat_cond] at hneg ⊢
      split at hneg
      · rw [if_pos (by assumption)]
      · omega
    rw [← e]
    exact cvtI2F_nearest .single v

theorem lane_avxExtend (avx2 sgn : Bool) {v w c sh : Nat} (hw : w * c = 128) (hsh : 8 * sh = v * c) (x : M128) {i : Nat}
    (hi : i < 2 * c) :
    Model.lane w (avxExtend avx2 sgn v w sh x) i =
      if sgn then (Model.lane v x i).signExtend w else (Model.lane v x i).zeroExtend w := by
  have room : ∀ {n j : Nat}, j < c → n = 128 → w * (j + 1) ≤ n := fun {n j} hj hn => by
    rw [hn, ← hw]; exact Nat.mul_le_mul_left _ hj
  have room2 : w * (i + 1) ≤ 256 := by
    have : w * (i + 1) ≤ w * (2 * c) := Nat.mul_le_mul_left _ hi
    rw [Nat.mul_left_comm, hw] at this; exact this
  unfold avxExtend
  cases avx2
  · rw [if_neg Bool.false_ne_true]
    cases sgn
    · rw [if_neg Bool.false_ne_true, if_neg Bool.false_ne_true, lane_concat128 hw _ _ hi]
      unfold cvtepuIntr
      by_cases h : i < c
      · rw [if_pos h, lane_ofLanes _ (room h rfl)]
      · rw [if_neg h, lane_ofLanes _ (room (by omega) rfl), lane_srliSi128 x hsh, Nat.sub_add_cancel (by omega)]
    · rw [if_pos rfl, if_pos rfl, lane_concat128 hw _ _ hi]
      unfold cvtepiIntr
      by_cases h : i < c
      · rw [if_pos h, lane_ofLanes _ (room h rfl)]
      · rw [if_neg h, lane_ofLanes _ (room (by omega) rfl), lane_srliSi128 x hsh, Nat.sub_add_cancel (by omega)]
  · rw [if_pos rfl, lane_ofLanes _ room2]

end Vc.Lemma
