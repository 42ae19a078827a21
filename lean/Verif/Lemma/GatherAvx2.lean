import Verif.Model.GatherAvx2
import Verif.Spec.ByteMem
import Verif.Spec.Mask
import Verif.Lemma.Masked
import Verif.Lemma.FloatCvt2

/-!
Lemmas for the gathers with AVX2 instructions.
-/

namespace Vc.Lemma

open Vc.Spec Vc.Model

theorem loadLE_of_bytes (m : ByteMem) : ∀ (k : Nat) (a : Int) (v : Nat),
    (∀ j : Nat, j < k → m (a + j) = some (BitVec.ofNat 8 (v / 256 ^ j))) → loadLE m a k = some (v % 256 ^ k)
  | 0, _, v, _ => by rw [Nat.pow_zero, Nat.mod_one]; rfl
  | k + 1, a, v, h => by
    have h0 := h 0 (by omega)
    rw [Nat.pow_zero, Nat.div_one, show a + ((0 : Nat) : Int) = a by omega] at h0
    have ih := loadLE_of_bytes m k (a + 1) (v / 256) fun j hj => by
      have := h (j + 1) (by omega)
      rw [show a + ((j + 1 : Nat) : Int) = a + 1 + j by omega] at this
      rw [this, Nat.pow_succ, Nat.mul_comm, ← Nat.div_div_eq_div_mul]
    show (m a).bind (fun b => (loadLE m (a + 1) k).bind fun r => some (b.toNat + 256 * r)) = _
    rw [h0, ih]
    show some ((BitVec.ofNat 8 v).toNat + _) = _
    rw [BitVec.toNat_ofNat, Nat.pow_succ 256, Nat.mul_comm (256 ^ k), Nat.mod_mul]

theorem loadLE_none (m : ByteMem) : ∀ (k : Nat) (a : Int) (j : Nat), j < k → m (a + j) = none →
    loadLE m a k = none
  | 0, _, _, hj, _ => absurd hj (by omega)
  | k + 1, a, j, hj, h => by
    show (m a).bind (fun b => (loadLE m (a + 1) k).bind fun r => some (b.toNat + 256 * r)) = _
    cases hb : m a with
    | none => rfl
    | some b =>
      match j, h with
      | 0, h => rw [show a + ((0 : Nat) : Int) = a by omega, hb] at h; exact absurd h (by simp)
      | j + 1, h =>
        rw [show a + ((j + 1 : Nat) : Int) = a + 1 + j by omega] at h
        rw [loadLE_none m k (a + 1) j (by omega) h]
        rfl

theorem loadLE_entry {c : Nat} {m : ByteMem} {a : Int} {v : BitVec (8 * c)} (h : EntryAt m a v) :
    loadLE m a c = some v.toNat := by
  rw [loadLE_of_bytes m c a v.toNat]
  · rw [Nat.mod_eq_of_lt]
    have := v.isLt
    rwa [Nat.pow_mul] at this
  · intro j hj
    rw [h j (by omega)]
    congr 1
    apply BitVec.eq_of_toNat_eq
    rw [BitVec.extractLsb'_toNat, BitVec.toNat_ofNat, Nat.shiftRight_eq_div_pow, Nat.pow_mul]

theorem load_entry {w : Nat} (hw : w = 32 ∨ w = 64) {m : ByteMem} {a : Int} {v : BitVec w} (h : EntryAt m a v) :
    (loadLE m a (w / 8)).map (BitVec.ofNat w) = some v := by
  have : ∀ c, w = 8 * c → (loadLE m a c).map (BitVec.ofNat w) = some v := by
    rintro c rfl
    rw [loadLE_entry h]
    show some _ = _
    rw [BitVec.ofNat_toNat, BitVec.setWidth_eq]
  exact this (w / 8) (by omega)

theorem toIntV_lane {l : Nat} {idx : Nat → Int} {i : Nat} (hi : 32 * (i + 1) ≤ l) (h : InInt32 (idx i)) :
    (lane 32 (toIntV l idx) i).toInt = idx i := by
  unfold toIntV
  rw [lane_ofLanes _ hi, BitVec.toInt_ofInt]
  obtain ⟨h1, h2⟩ := h
  rw [Int.bmod_def]
  split <;> omega

theorem idxBits_room {n w i : Nat} (hn : n = 128 ∨ n = 256) (hw : w = 32 ∨ w = 64) (hi : w * (i + 1) ≤ n) :
    32 * (i + 1) ≤ idxBits n w := by
  rcases hn with rfl | rfl <;> rcases hw with rfl | rfl
  · rw [show idxBits 128 32 = 128 from rfl]; omega
  · rw [show idxBits 128 64 = 128 from rfl]; omega
  · rw [show idxBits 256 32 = 256 from rfl]; omega
  · rw [show idxBits 256 64 = 128 from rfl]; omega

/-- The 32-bit load at an entry of `mt` bytes. -/
def Window (mt : Nat) (m : ByteMem) (p : Int) (e : BitVec (8 * mt)) (x : BitVec 32) : Prop :=
  (loadLE m p 4).map (BitVec.ofNat 32) = some x ∧ x.setWidth (8 * mt) = e

theorem window_exists {mt : Nat} (hmt : mt ≤ 4) {m : ByteMem} {p : Int} {e : BitVec (8 * mt)}
    (he : EntryAt m p e) (hr : Readable m p 4) : ∃ x, Window mt m p e x := by
  obtain ⟨b0, h0⟩ := hr 0 (by decide)
  obtain ⟨b1, h1⟩ := hr 1 (by decide)
  obtain ⟨b2, h2⟩ := hr 2 (by decide)
  obtain ⟨b3, h3⟩ := hr 3 (by decide)
  have := b0.isLt
  have := b1.isLt
  have := b2.isLt
  have := b3.isLt
  let V := b0.toNat + 256 * (b1.toNat + 256 * (b2.toNat + 256 * b3.toNat))
  have hb : ∀ j : Nat, j < 4 → m (p + j) = some (BitVec.ofNat 8 (V / 256 ^ j)) := by
    intro j hj
    match j, hj with
    | 0, _ => rw [h0]; congr 1; apply BitVec.eq_of_toNat_eq; rw [BitVec.toNat_ofNat]; omega
    | 1, _ => rw [h1]; congr 1; apply BitVec.eq_of_toNat_eq; rw [BitVec.toNat_ofNat]; omega
    | 2, _ => rw [h2]; congr 1; apply BitVec.eq_of_toNat_eq; rw [BitVec.toNat_ofNat]; omega
    | 3, _ => rw [h3]; congr 1; apply BitVec.eq_of_toNat_eq; rw [BitVec.toNat_ofNat]; omega
  have l4 := loadLE_of_bytes m 4 p V hb
  have lm := loadLE_of_bytes m mt p V fun j hj => hb j (by omega)
  rw [loadLE_entry he] at lm
  have ev := Option.some.inj lm
  refine ⟨BitVec.ofNat 32 V, ?_, ?_⟩
  · rw [l4]
    show some (BitVec.ofNat 32 (V % 256 ^ 4)) = _
    rw [show V % 256 ^ 4 = V by omega]
  · apply BitVec.eq_of_toNat_eq
    rw [BitVec.toNat_setWidth, BitVec.toNat_ofNat, ev, Nat.pow_mul]
    show V % 2 ^ 32 % 256 ^ mt = _
    rw [show V % 2 ^ 32 = V by omega]

theorem sext_low (v : BitVec 16) : (v <<< 8).sshiftRight 8 = (v.setWidth 8).signExtend 16 := by
  apply BitVec.eq_of_getLsbD_eq
  intro k hk
  rw [BitVec.getLsbD_sshiftRight, BitVec.getLsbD_signExtend, BitVec.msb_eq_getLsbD_last, BitVec.msb_eq_getLsbD_last]
  simp only [BitVec.getLsbD_shiftLeft, BitVec.getLsbD_setWidth]
  by_cases h : k < 8
  · simp [h, show 8 + k < 16 by omega, show ¬ 16 ≤ k by omega, hk, show ¬ 8 + k < 8 by omega]
  · simp [h, show ¬ 8 + k < 16 by omega, show ¬ 16 ≤ k by omega, hk]

theorem zext_low (v : BitVec 16) : v &&& 0xff#16 = (v.setWidth 8).setWidth 16 := by
  apply BitVec.eq_of_getLsbD_eq
  intro k hk
  rw [BitVec.getLsbD_and, BitVec.getLsbD_setWidth, BitVec.getLsbD_setWidth]
  match k, hk with
  | 0, _ | 1, _ | 2, _ | 3, _ | 4, _ | 5, _ | 6, _ | 7, _ | 8, _ | 9, _ | 10, _ | 11, _ | 12, _ | 13, _ | 14, _
  | 15, _ => simp <;> decide
  | k + 16, hk => omega

/-- What the 16-bit lane becomes. -/
theorem lane_fixByte {n mt : Nat} (hmt : mt = 1 ∨ mt = 2) (ms : Bool) {v : BitVec n} {i : Nat}
    (hi : 16 * (i + 1) ≤ n) {x : BitVec 32} {e : BitVec (8 * mt)} (hv : lane 16 v i = x.setWidth 16)
    (he : x.setWidth (8 * mt) = e) : lane 16 (fixByte mt ms v) i = to16 ms e := by
  unfold fixByte to16
  rcases hmt with rfl | rfl
  · have h8 : (lane 16 v i).setWidth 8 = e := by
      rw [hv, ← he]
      apply BitVec.eq_of_getLsbD_eq
      intro k hk
      simp only [BitVec.getLsbD_setWidth]
      simp [show k < 16 by omega, show k < 8 by omega]
    rw [if_pos rfl]
    cases ms
    · rw [if_neg Bool.false_ne_true, lane_and, lane_set1 _ hi, zext_low, h8]
      apply BitVec.eq_of_toNat_eq
      have := e.isLt
      rw [BitVec.toNat_setWidth]
      unfold val
      rw [if_neg Bool.false_ne_true, BitVec.toNat_ofInt]
      omega
    · rw [if_pos rfl]
      unfold sraiEpi slliEpi
      rw [lane_map1 _ _ hi, lane_map1 _ _ hi, sext_low, h8]
      apply BitVec.eq_of_toInt_eq
      have := BitVec.toInt_lt (x := e)
      have := BitVec.le_toInt e
      rw [BitVec.toInt_signExtend_of_le (by decide), BitVec.toInt_ofInt]
      unfold val
      rw [if_pos rfl, Int.bmod_def]
      split <;> omega
  · rw [if_neg (by decide), hv]
    have h16 : x.setWidth 16 = e := he
    rw [h16]
    unfold val
    cases ms
    · rw [if_neg Bool.false_ne_true, BitVec.ofInt_natCast, BitVec.ofNat_toNat, BitVec.setWidth_eq]
    · rw [if_pos rfl]; exact (BitVec.ofInt_toInt (x := e)).symm

theorem lane_narrow16 (sgn : Bool) (x : M256) {i : Nat} (hi : i < 8) :
    lane 16 (narrow16 sgn x) i = (lane 32 x i).setWidth 16 := by
  unfold narrow16
  cases sgn
  · exact lane_cvtIntUshortAvx x hi
  · exact lane_cvtIntShortAvx true x hi

theorem lane_narrow16x2 (sgn : Bool) (x0 x1 : M256) :
    ∃ r, narrow16x2 sgn x0 x1 = some r ∧ ∀ i, i < 16 → lane 16 r i =
      (if i < 8 then lane 32 x0 i else lane 32 x1 (i - 8)).setWidth 16 := by
  unfold narrow16x2
  cases sgn
  · exact lane_simdCastIntUshort2 x0 x1
  · exact lane_simdCastIntShort2 x0 x1

/-- The masked gather of 32-bit windows. -/
theorem windows_masked {mt : Nat} (hmt : mt = 1 ∨ mt = 2) {Scale : Nat} {m : ByteMem} {a : Int} {idx : Nat → Int}
    {p : Nat → Bool} {k : M256} (hk : ∀ i, i < 8 → lane 32 k i = laneMask (p i))
    {e : Nat → BitVec (8 * mt)} (hin : ∀ i, i < 8 → p i = true → InInt32 (idx i))
    (he : ∀ i, i < 8 → p i = true → EntryAt m (a + idx i * Scale * mt) (e i))
    (hr : ∀ i, i < 8 → p i = true → Readable m (a + idx i * Scale * mt) 4) :
    ∃ g : M256, maskI32gather 32 (mt * Scale) 0#256 k m a (toIntV 256 idx) = some g ∧
      ∀ i, i < 8 → p i = true → (lane 32 g i).setWidth (8 * mt) = e i := by
  have hx : ∀ i, ∃ x : BitVec 32, i < 8 →
      (if p i then (loadLE m (a + idx i * Scale * mt) 4).map (BitVec.ofNat 32) else some 0#32) = some x ∧
      (p i = true → x.setWidth (8 * mt) = e i) := by
    intro i
    by_cases h8 : i < 8
    · cases hp : p i
      · exact ⟨0#32, fun _ => ⟨rfl, fun h => absurd h Bool.false_ne_true⟩⟩
      · obtain ⟨x, h1, h2⟩ := window_exists (by omega) (he i h8 hp) (hr i h8 hp)
        exact ⟨x, fun _ => ⟨by rw [if_pos rfl]; exact h1, fun _ => h2⟩⟩
    · exact ⟨0#32, fun h => absurd h h8⟩
  obtain ⟨x, hx⟩ := Classical.axiomOfChoice hx
  unfold maskI32gather
  obtain ⟨g, hg, hl⟩ := generate_some (n := 256) (w := 32) (v := x) (g := fun i =>
    if (lane 32 k i).msb then (loadLE m (a + (lane 32 (toIntV 256 idx) i).toInt * (mt * Scale : Nat)) (32 / 8)).map
      (BitVec.ofNat 32) else some (lane 32 (0#256) i)) (fun i hi => by
    have h8 : i < 8 := by omega
    rw [hk i h8, laneMask_msb (by decide), ← (hx i h8).1]
    cases hp : p i
    · rw [if_neg Bool.false_ne_true, if_neg Bool.false_ne_true, lane_zero]
    · rw [if_pos rfl, if_pos rfl, toIntV_lane hi (hin i h8 hp), Int.natCast_mul, Int.mul_comm (mt : Int),
        ← Int.mul_assoc])
  exact ⟨g, hg, fun i hi hp => by rw [hl i (by omega)]; exact (hx i hi).2 hp⟩

theorem generate_congr {n w : Nat} (hw : 0 < w) (hd : w ∣ n) {g g' : Nat → Option (BitVec w)}
    (h : ∀ i, w * (i + 1) ≤ n → g i = g' i) : (generate w g : Option (BitVec n)) = generate w g' := by
  by_cases hs : ∀ i, w * (i + 1) ≤ n → ∃ v, g i = some v
  · have hv : ∀ i, ∃ v, w * (i + 1) ≤ n → g i = some v := fun i => by
      by_cases hi : w * (i + 1) ≤ n
      · obtain ⟨v, hv⟩ := hs i hi; exact ⟨v, fun _ => hv⟩
      · exact ⟨0, fun h => absurd h hi⟩
    obtain ⟨v, hv⟩ := Classical.axiomOfChoice hv
    obtain ⟨r, hr, hl⟩ := generate_some (n := n) hv
    obtain ⟨r', hr', hl'⟩ := generate_some (n := n) (g := g') (v := v) fun i hi => by rw [← h i hi, hv i hi]
    rw [hr, hr']
    congr 1
    refine reg_ext w hw hd fun i hi => ?_
    have hi' : w * (i + 1) ≤ n := Nat.le_trans (Nat.mul_le_mul_left _ hi) (Nat.mul_div_le n w)
    exact (hl i hi').trans (hl' i hi').symm
  · have : ∃ i, w * (i + 1) ≤ n ∧ g i = none := by
      apply Classical.byContradiction
      intro hn
      apply hs
      intro i hi
      cases hg : g i with
      | none => exact absurd ⟨i, hi, hg⟩ hn
      | some v => exact ⟨v, rfl⟩
    obtain ⟨i, hi, hg⟩ := this
    rw [generate_none hw hi hg, generate_none hw hi (by rw [← h i hi, hg])]

/-- The unmasked instruction is the masked one with all lanes active. -/
theorem i32gather_eq {l n w : Nat} (hw : 0 < w) (hd : w ∣ n) (scale : Nat) (src : BitVec n) (m : ByteMem) (a : Int)
    (idx : BitVec l) :
    (i32gather w scale m a idx : Option (BitVec n)) = maskI32gather w scale src (BitVec.allOnes n) m a idx := by
  unfold i32gather maskI32gather
  refine generate_congr hw hd fun i hi => ?_
  have e : (lane w (BitVec.allOnes n) i).msb = true := by
    rw [lane_allOnes hi, BitVec.msb_allOnes hw]
  rw [e, if_pos rfl]

/-- An active lane with an unreadable byte. -/
theorem maskI32gather_none {l n w : Nat} (hw : 0 < w) {scale : Nat} {src k : BitVec n} {m : ByteMem} {a : Int}
    {idx : BitVec l} {i j : Nat} (hi : w * (i + 1) ≤ n) (hk : (lane w k i).msb = true) (hj : j < w / 8)
    (h : m (a + (lane 32 idx i).toInt * scale + j) = none) : maskI32gather w scale src k m a idx = none := by
  unfold maskI32gather
  refine generate_none hw hi ?_
  rw [hk, if_pos rfl, loadLE_none m _ _ j hj h]
  rfl

end Vc.Lemma
