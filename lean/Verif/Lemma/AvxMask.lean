import Verif.Lemma.Avx
import Verif.Lemma.SseMask
import Verif.Lemma.Interleave
import Verif.Model.AvxMask

namespace Vc.Lemma

open Vc.Model Vc.Spec

theorem lo128_concat (a b : M128) : lo128 (concat128 a b) = a := by
  apply reg_ext 128 (by decide) (by decide)
  intro i hi
  obtain rfl : i = 0 := by omega
  rw [lane_lo128 (w := 128) (k := 1) rfl _ (by decide), lane_concat128 (w := 128) (k := 1) rfl _ _ (by decide)]
  rfl

theorem hi128_concat (a b : M128) : hi128 (concat128 a b) = b := by
  apply reg_ext 128 (by decide) (by decide)
  intro i hi
  obtain rfl : i = 0 := by omega
  rw [lane_hi128 (w := 128) (k := 1) rfl _ (by decide), lane_concat128 (w := 128) (k := 1) rfl _ _ (by decide)]
  rfl

theorem lt_of_room {w c i : Nat} (hc : w * c = 128) (hi : w * (i + 1) ≤ 256) : i < 2 * c := by
  have : w * (i + 1) ≤ w * (2 * c) := by rw [Nat.mul_left_comm, hc]; exact hi
  have h0 : 0 < w := by
    rcases Nat.eq_zero_or_pos w with rfl | h
    · simp at hc
    · exact h
  have := Nat.le_of_mul_le_mul_left this h0
  omega

theorem lt_of_room1 {w c i : Nat} (hc : w * c = 128) (hi : w * (i + 1) ≤ 128) : i < c := by
  have : w * (i + 1) ≤ w * c := by rw [hc]; exact hi
  have h0 : 0 < w := by
    rcases Nat.eq_zero_or_pos w with rfl | h
    · simp at hc
    · exact h
  have := Nat.le_of_mul_le_mul_left this h0
  omega

/-! ### Halves of a mask -/

theorem isMask_lo {w c : Nat} (hc : w * c = 128) {k : M256} {b : Nat → Bool} (h : IsMask w k b) :
    IsMask w (lo128 k) b :=
  isMask_of fun i hi => by
    rw [lane_lo128 hc _ (lt_of_room1 hc hi), h.lane_eq (by omega)]

theorem isMask_hi {w c : Nat} (hc : w * c = 128) {k : M256} {b : Nat → Bool} (h : IsMask w k b) :
    IsMask w (hi128 k) (fun i => b (c + i)) :=
  isMask_of fun i hi => by
    rw [lane_hi128 hc _ (lt_of_room1 hc hi), h.lane_eq]
    rw [show c + i + 1 = c + (i + 1) by omega, Nat.mul_add, hc]
    omega

theorem isMask_concat {w c : Nat} (hc : w * c = 128) {x y : M128} {bx by' : Nat → Bool} (hx : IsMask w x bx)
    (hy : IsMask w y by') :
    IsMask w (concat128 x y) (fun i => if i < c then bx i else by' (i - c)) :=
  isMask_of fun i hi => by
    have hi2 := lt_of_room hc hi
    rw [lane_concat128 hc _ _ hi2]
    by_cases h : i < c
    · rw [if_pos h, if_pos h, hx.lane_eq (lane_room hc h)]
    · rw [if_neg h, if_neg h, hy.lane_eq (lane_room hc (by omega))]

/-! ### Packing and unpacking -/

theorem satSigned16_laneMask (p : Bool) : satSigned 16 (laneMask p : BitVec 32) = laneMask p := by
  cases p <;> decide

theorem packs16_isMask {c : Nat} (hc : c = 1 ∨ c = 2) {x y : M128} {bx by' : Nat → Bool}
    (hx : IsMask (32 * c) x bx) (hy : IsMask (32 * c) y by') :
    IsMask (16 * c) (packs 16 x y) (fun i => if i < 4 / c then bx i else by' (i - 4 / c)) := by
  have hc0 : 0 < c := by omega
  have hd : 32 * c ∣ 128 := by rcases hc with rfl | rfl <;> decide
  have nx := hx.narrow hc0 (by decide) hd
  have ny := hy.narrow hc0 (by decide) hd
  apply isMask_of
  intro i hi
  apply lane_ext (v := 16) (by decide)
  intro j hj
  have hr : 16 * (c * i + j + 1) ≤ 128 := by
    have : c * i + j + 1 ≤ c * (i + 1) := by rw [Nat.mul_add]; omega
    have := Nat.mul_le_mul_left 16 this
    rw [← Nat.mul_assoc 16] at this
    omega
  rw [lane_lane _ _ _ _ hj, lane_packs _ _ hr, lane_laneMask hj]
  have hq : (c * i + j) / c = i := by
    rw [Nat.add_comm, Nat.add_mul_div_left _ _ hc0, Nat.div_eq_of_lt hj]; omega
  by_cases hlt : c * i + j < 64 / 16
  · rw [if_pos hlt]
    have e : Model.lane 32 x (c * i + j) = laneMask (bx i) := by
      rw [nx.lane_eq (by omega), hq]
    have hi8 : i < 4 / c := by rcases hc with rfl | rfl <;> omega
    rw [if_pos hi8]
    show satSigned 16 (Model.lane 32 x (c * i + j)) = _
    rw [e, satSigned16_laneMask]
  · rw [if_neg hlt]
    have e : Model.lane 32 y (c * i + j - 4) = laneMask (by' (i - 4 / c)) := by
      rw [ny.lane_eq (by omega)]
      congr 2
      rcases hc with rfl | rfl <;> omega
    have hi8 : ¬ i < 4 / c := by rcases hc with rfl | rfl <;> omega
    rw [if_neg hi8]
    show satSigned 16 (Model.lane 32 y (c * i + j - 4)) = _
    rw [e, satSigned16_laneMask]

theorem unpackhi_isMask {v : Nat} (hv : 0 < v) (hd : v * (64 / v) = 64) {k : M128} {b : Nat → Bool}
    (h : IsMask v k b) : IsMask (v * 2) (unpackhi v k k) (fun i => b (64 / v + i)) := by
  apply isMask_of
  intro i hi
  have hi' : v * (64 / v + i + 1) ≤ 128 := by
    have : v * 2 * (i + 1) = v * (i + 1) + v * (i + 1) := by rw [Nat.mul_right_comm]; omega
    rw [Nat.add_assoc, Nat.mul_add, hd]
    omega
  have w := unpackhi_wide hi k k
  apply (eq_halves hv _ _).mpr
  rw [w.1, w.2, h.lane_eq hi', lane_laneMask (by decide), lane_laneMask (by decide)]
  simp

/-- Both halves of a mask unpacked: all lanes twice as wide. -/
theorem widen_isMask {v : Nat} (hv : 0 < v) (hd : v * (64 / v) = 64) {k : M128} {b : Nat → Bool}
    (h : IsMask v k b) : IsMask (v * 2) (concat128 (unpacklo v k k) (unpackhi v k k)) b := by
  have hc : v * 2 * (64 / v) = 128 := by rw [Nat.mul_right_comm, hd]
  refine (isMask_concat hc (unpacklo_isMask hv h) (unpackhi_isMask hv hd h)).congr fun i _ => ?_
  by_cases h1 : i < 64 / v
  · rw [if_pos h1]
  · rw [if_neg h1]; congr 1; omega

/-! ### `permute4x64<X0, X2, X1, X3>` -/

theorem sel_flip : sel4 (0 + 2 * 4 + 1 * 16 + 3 * 64) 0 = 0 ∧ sel4 (0 + 2 * 4 + 1 * 16 + 3 * 64) 1 = 2 ∧
    sel4 (0 + 2 * 4 + 1 * 16 + 3 * 64) 2 = 1 ∧ sel4 (0 + 2 * 4 + 1 * 16 + 3 * 64) 3 = 3 := by decide

theorem lane64_flip (x : M256) :
    Model.lane 64 (flipMiddle x) 0 = Model.lane 64 x 0 ∧ Model.lane 64 (flipMiddle x) 1 = Model.lane 64 x 2 ∧
    Model.lane 64 (flipMiddle x) 2 = Model.lane 64 x 1 ∧ Model.lane 64 (flipMiddle x) 3 = Model.lane 64 x 3 := by
  have s := sel_flip
  refine ⟨?_, ?_, ?_, ?_⟩ <;> (unfold flipMiddle permute4x64Imm; rw [lane_ofLanes _ (by decide)])
  · rw [s.1]
  · rw [s.2.1]
  · rw [s.2.2.1]
  · rw [s.2.2.2]

/-- Lanes of the flipped register, narrower than 64 bits. -/
theorem lane_flip {w c : Nat} (hc : w * c = 64) (x : M256) {i : Nat} (hi : i < 4 * c) :
    Model.lane w (flipMiddle x) i =
      Model.lane w x (if i < c then i else if i < 2 * c then i + c else if i < 3 * c then i - c else i) := by
  have hc0 : 0 < c := by omega
  have f := lane64_flip x
  have key : ∀ q q', i / c = q → Model.lane 64 (flipMiddle x) q = Model.lane 64 x q' →
      Model.lane w (flipMiddle x) i = Model.lane w x (c * q' + i % c) := by
    intro q q' hq h
    refine lane_of_wide w c hc0 hq ?_
    have : ∀ m, m = 64 → Model.lane m (flipMiddle x) q = Model.lane m x q' := by rintro m rfl; exact h
    exact this _ hc
  have dm := Nat.div_add_mod i c
  have ml := Nat.mod_lt i hc0
  by_cases h1 : i < c
  · rw [if_pos h1, key 0 0 (Nat.div_eq_of_lt h1) f.1, Nat.mod_eq_of_lt h1]; simp
  rw [if_neg h1]
  by_cases h2 : i < 2 * c
  · have hq : i / c = 1 := by
      apply Nat.div_eq_of_lt_le <;> omega
    rw [hq] at dm
    rw [if_pos h2, key 1 2 hq f.2.1]
    congr 1; omega
  rw [if_neg h2]
  by_cases h3 : i < 3 * c
  · have hq : i / c = 2 := by
      apply Nat.div_eq_of_lt_le <;> omega
    rw [hq] at dm
    rw [if_pos h3, key 2 1 hq f.2.2.1]
    congr 1; omega
  rw [if_neg h3]
  have hq : i / c = 3 := by
    apply Nat.div_eq_of_lt_le <;> omega
  rw [hq] at dm
  rw [key 3 3 hq f.2.2.2]
  congr 1

/-- `packs` of two registers of 256 bits, put in order. -/
theorem flip_packs {v c : Nat} (hv : 0 < v) (hc : v * c = 64) (x y : M256) :
    flipMiddle (packs256 v x y) =
      concat128 (packs v (lo128 x) (hi128 x)) (packs v (lo128 y) (hi128 y)) := by
  have h2c : v * (2 * c) = 128 := by rw [Nat.mul_left_comm, hc]
  have hdv : 256 / v = 4 * c := by
    rw [show 256 = v * (4 * c) by rw [Nat.mul_left_comm, hc], Nat.mul_div_cancel_left _ hv]
  have h64 : 64 / v = c := by rw [← hc, Nat.mul_div_cancel_left _ hv]
  apply reg_ext v hv ⟨4 * c, by rw [Nat.mul_left_comm, hc]⟩
  intro i hi
  rw [hdv] at hi
  have P : ∀ a b : M128, ∀ j, j < 2 * c → Model.lane v (packs v a b) j = if j < c then satSigned v (Model.lane (2 * v) a j)
      else satSigned v (Model.lane (2 * v) b (j - c)) := by
    intro a b j hj
    rw [lane_packs _ _ (lane_room h2c hj), h64]
  rw [lane_flip hc _ hi]
  unfold packs256
  by_cases h1 : i < c
  · rw [if_pos h1, lane_concat128 h2c _ _ (by omega), if_pos (by omega), P _ _ _ (by omega), if_pos h1,
      lane_concat128 h2c _ _ (by omega), if_pos (by omega), P _ _ _ (by omega), if_pos h1]
  rw [if_neg h1]
  by_cases h2 : i < 2 * c
  · rw [if_pos h2, lane_concat128 h2c _ _ (by omega), if_neg (by omega), P _ _ _ (by omega), if_pos (by omega),
      lane_concat128 h2c _ _ (by omega), if_pos (by omega), P _ _ _ (by omega), if_neg h1]
    congr 2; omega
  rw [if_neg h2]
  by_cases h3 : i < 3 * c
  · rw [if_pos h3, lane_concat128 h2c _ _ (by omega), if_pos (by omega), P _ _ _ (by omega), if_neg (by omega),
      lane_concat128 h2c _ _ (by omega), if_neg (by omega), P _ _ _ (by omega), if_pos (by omega)]
    congr 2; omega
  rw [if_neg h3, lane_concat128 h2c _ _ (by omega), if_neg (by omega), P _ _ _ (by omega), if_neg (by omega),
    lane_concat128 h2c _ _ (by omega), if_neg (by omega), P _ _ _ (by omega), if_neg (by omega)]

/-- The low half of a register, unpacked over a register of 256 bits. -/
theorem unpack_flip (k : M256) :
    unpacklo256 16 (flipMiddle k) (flipMiddle k) =
      concat128 (unpacklo 16 (lo128 k) (lo128 k)) (unpackhi 16 (lo128 k) (lo128 k)) := by
  apply reg_ext 16 (by decide) (by decide)
  intro i hi
  have hi : i < 16 := hi
  have hc : 16 * 8 = 128 := rfl
  unfold unpacklo256
  rw [lane_concat128 hc _ _ hi, lane_concat128 hc _ _ hi]
  by_cases h1 : i < 8
  · rw [if_pos h1, if_pos h1, lane_unpacklo _ _ (by omega), lane_unpacklo _ _ (by omega),
      ite_self, ite_self, lane_lo128 hc _ (by omega), lane_lo128 hc _ (by omega),
      lane_flip (c := 4) rfl _ (by omega), if_pos (by omega)]
  · rw [if_neg h1, if_neg h1, lane_unpacklo _ _ (by omega), lane_unpackhi _ _ (by omega),
      ite_self, ite_self, lane_hi128 hc _ (by omega), lane_lo128 hc _ (by omega),
      lane_flip (c := 4) rfl _ (by omega), if_neg (by omega), if_neg (by omega), if_pos (by omega)]
    congr 1; omega

/-! ### Zero extension -/

theorem isMask_zeroExtend {w c : Nat} (hc : w * c = 128) {x : M128} {b : Nat → Bool} (h : IsMask w x b) :
    IsMask w (zeroExtend none x) (fun i => if i < c then b i else false) :=
  isMask_concat hc h (isMask_zero (n := 128) w)

theorem prefix_zeroExtend {w c : Nat} (hc : w * c = 128) (ext : Option M128) {x : M128} {b : Nat → Bool}
    (h : IsMask w x b) : MaskPrefix w c (zeroExtend ext x) b := fun i h1 h2 => by
  have : Model.lane w (zeroExtend ext x) i = laneMask (b i) := by
    unfold zeroExtend
    rw [lane_concat128 hc _ _ (by omega), if_pos h1, h.lane_eq (lane_room hc h1)]
  exact this

theorem prefix_of_isMask {n w s : Nat} {k : BitVec n} {b b' : Nat → Bool} (h : IsMask w k b')
    (e : ∀ i, i < s → b' i = b i) : MaskPrefix w s k b := fun i h1 h2 => by
  have := h.lane_eq h2
  rw [e i h1] at this
  exact this

theorem prefix_congr {n w s s' : Nat} {k : BitVec n} {b b' : Nat → Bool} (h : MaskPrefix w s k b)
    (hs : s' ≤ s) (e : ∀ i, i < s' → b i = b' i) : MaskPrefix w s' k b' := fun i h1 h2 => by
  have := h i (by omega) h2
  rw [e i h1] at this
  exact this

/-! ### Numbers made of masks -/

theorem movemaskEpi8_eq (avx2 : Bool) (k : M256) : movemaskEpi8 avx2 k = movemask 8 k := by
  unfold movemaskEpi8
  cases avx2
  · rw [if_neg Bool.false_ne_true]
    apply Nat.eq_of_testBit_eq
    intro i
    rw [Nat.testBit_or, Nat.testBit_shiftLeft, movemask_testBit, movemask_testBit, movemask_testBit]
    have hc : 8 * 16 = 128 := rfl
    by_cases h1 : i < 16
    · rw [lane_lo128 hc _ h1]
      have e1 : decide (i ≥ 16) = false := by simp; omega
      have e2 : decide (i < 128 / 8) = true := by simp; omega
      have e3 : decide (i < 256 / 8) = true := by simp; omega
      rw [e1, e2, e3]; simp
    · have e2 : decide (i < 128 / 8) = false := by simp; omega
      have e1 : decide (i ≥ 16) = true := by simp; omega
      rw [e1, e2]
      by_cases h2 : i < 32
      · rw [lane_hi128 hc _ (show i - 16 < 16 by omega), show 16 + (i - 16) = i by omega]
        have e3 : decide (i - 16 < 128 / 8) = true := by simp; omega
        have e4 : decide (i < 256 / 8) = true := by simp; omega
        rw [e3, e4]; simp
      · have e3 : decide (i - 16 < 128 / 8) = false := by simp; omega
        have e4 : decide (i < 256 / 8) = false := by simp; omega
        rw [e3, e4]; simp
  · rw [if_pos rfl]

/-- Every second bit set, `n` times. -/
def evens : Nat → Nat
  | 0 => 0
  | n + 1 => 4 * evens n + 1

theorem pext_evens (n : Nat) : ∀ x i, (pext x (evens n) (2 * n)).testBit i = (decide (i < n) && x.testBit (2 * i)) := by
  induction n with
  | zero => intro x i; simp [pext]
  | succ n ih =>
    intro x i
    have e : pext x (evens (n + 1)) (2 * (n + 1)) = x % 2 + 2 * pext (x / 4) (evens n) (2 * n) := by
      rw [show 2 * (n + 1) = 2 * n + 1 + 1 by omega]
      show (if (4 * evens n + 1).testBit 0 = true then _ else _) = _
      rw [if_pos (by simp; omega)]
      show x % 2 + 2 * (if ((4 * evens n + 1) / 2).testBit 0 = true then _ else _) = _
      rw [if_neg (by simp; omega), Nat.div_div_eq_div_mul, Nat.div_div_eq_div_mul,
        show evens (n + 1) / (2 * 2) = evens n by show (4 * evens n + 1) / 4 = _; omega]
    rw [e]
    cases i with
    | zero =>
      rw [Nat.testBit_zero]
      simp [Nat.testBit_zero]
    | succ i =>
      rw [Nat.testBit_succ, show (x % 2 + 2 * pext (x / 4) (evens n) (2 * n)) / 2 = pext (x / 4) (evens n) (2 * n) by omega,
        ih, show 2 * (i + 1) = 2 * i + 2 by omega, Nat.testBit_add]
      simp

theorem evens_16 : evens 16 = 0x55555555 := by decide

theorem pext_5 (x i : Nat) : (pext x 0x55555555 32).testBit i = (decide (i < 16) && x.testBit (2 * i)) := by
  rw [← evens_16]; exact pext_evens 16 x i

theorem pext_5_lt (x : Nat) : pext x 0x55555555 32 < 65536 := by
  apply Nat.lt_pow_two_of_testBit (n := 16)
  intro i hi
  rw [pext_5]
  have : decide (i < 16) = false := by simp; omega
  rw [this]; rfl

/-! ### Wide masks from narrow ones -/

theorem IsMask_wide {n v c : Nat} (hv : 0 < v) {k : BitVec n} {b : Nat → Bool}
    (h : IsMask v k (fun i => b (i / c))) : IsMask (v * c) k b := by
  apply isMask_of
  intro i hi
  apply lane_ext (v := v) hv
  intro j hj
  have hc0 : 0 < c := by omega
  rw [lane_lane _ _ _ _ hj, lane_laneMask hj, h.lane_eq]
  · show laneMask (b ((c * i + j) / c)) = _
    rw [Nat.add_comm, Nat.add_mul_div_left _ _ hc0, Nat.div_eq_of_lt hj, Nat.zero_add]
  · have : c * i + j + 1 ≤ c * (i + 1) := by rw [Nat.mul_add]; omega
    have := Nat.mul_le_mul_left v this
    rw [← Nat.mul_assoc v] at this
    omega

/-- `unpacklo_epi8` of wider lanes. -/
theorem unpacklo8_isMask {v c : Nat} (hv : 0 < v) (hc : 0 < c) (hd : v * c ∣ 128) {k : M128} {b : Nat → Bool}
    (h : IsMask (v * c) k b) : IsMask (v * 2 * c) (unpacklo v k k) b :=
  IsMask_wide (by omega) (unpacklo_isMask hv (h.narrow hc (by decide) hd))

theorem unpackhi8_isMask {v c : Nat} (hv : 0 < v) (hc : 0 < c) (hd : v * c * (64 / (v * c)) = 64) {k : M128} {b : Nat → Bool}
    (h : IsMask (v * c) k b) : IsMask (v * 2 * c) (unpackhi v k k) (fun i => b (64 / (v * c) + i)) := by
  have h64 : v * (64 / v) = 64 := Nat.mul_div_cancel' ⟨c * (64 / (v * c)), by rw [← Nat.mul_assoc, hd]⟩
  refine IsMask_wide (by omega) ((unpackhi_isMask hv h64 (h.narrow hc (by decide)
    ⟨2 * (64 / (v * c)), by rw [Nat.mul_left_comm, hd]⟩)).congr fun i _ => ?_)
  have : 64 / v = c * (64 / (v * c)) := by
    have : v * (64 / v) = v * (c * (64 / (v * c))) := by rw [h64, ← Nat.mul_assoc, hd]
    exact Nat.eq_of_mul_eq_mul_left hv this
  show b ((64 / v + i) / c) = b (64 / (v * c) + i / c)
  rw [this, Nat.add_comm, Nat.add_mul_div_left _ _ hc, Nat.add_comm]

/-! ### `shifted` -/

theorem permute_1z (k : M256) : memPermute128 (some 1) none k = concat128 (hi128 k) 0#128 := rfl
theorem permute_z0 (k : M256) : memPermute128 none (some 0) k = concat128 0#128 (lo128 k) := rfl

/-- The lanes of a register moved by `j` lanes of `m` bytes. -/
theorem lane_shiftedBytes {m c : Nat} (hm : m * c = 16) (ext : Option M128) (u : M128) (k : M256) {a : Int}
    (ha : -(2 * c : Nat) < a ∧ a < (2 * c : Nat)) {i : Nat} (hi : i < 2 * c) :
    Model.lane (8 * m) (shiftedBytes ext u (a * m) k) i =
      if i < c ∨ a < c then
        (if 0 ≤ (i : Int) + a ∧ (i : Int) + a < (2 * c : Nat) then Model.lane (8 * m) k (i + a).toNat else 0#(8 * m))
      else Model.lane (8 * m) (ext.getD 0#128) (i - c) := by
  have hc : 8 * m * c = 128 := by rw [Nat.mul_assoc, hm]
  have hm0 : 0 < m := by
    rcases Nat.eq_zero_or_pos m with rfl | h
    · simp at hm
    · exact h
  have hm' : (c : Int) * m = 16 := by rw [← Int.natCast_mul, Nat.mul_comm, hm]; rfl
  have lt_iff : ∀ x y : Int, x * m < y * m ↔ x < y := fun x y =>
    ⟨fun h => Int.lt_of_mul_lt_mul_right h (by omega), fun h => Int.mul_lt_mul_of_pos_right h (by omega)⟩
  have le_iff : ∀ x y : Int, x * m ≤ y * m ↔ x ≤ y := fun x y =>
    ⟨fun h => Int.le_of_mul_le_mul_right h (by omega), fun h => Int.mul_le_mul_of_nonneg_right h (by omega)⟩
  have toN : ∀ x : Int, 0 ≤ x → 8 * (x * m).toNat = 8 * m * x.toNat := fun x hx => by
    rw [Int.toNat_mul hx (by omega), Int.toNat_natCast, Nat.mul_assoc, Nat.mul_comm m]
  unfold shiftedBytes
  have c1 : (16 ≤ a * m) ↔ (c : Int) ≤ a := by rw [← hm', le_iff]
  have c2 : (0 < a * (m : Int)) ↔ 0 < a := by
    have := lt_iff 0 a; rwa [Int.zero_mul] at this
  have c3 : (a * m ≤ -16) ↔ a ≤ -(c : Int) := by rw [← hm', ← Int.neg_mul, le_iff]
  by_cases h1 : (c : Int) ≤ a
  · rw [if_pos (c1.mpr h1)]
    have e : 8 * (a * m - 16).toNat = 8 * m * (a - c).toNat := by
      rw [← hm', ← Int.sub_mul, toN _ (by omega)]
    unfold zeroExtend
    rw [lane_concat128 hc _ _ hi]
    by_cases hic : i < c
    · rw [if_pos hic, if_pos (.inl hic), lane_srliSi128 _ e]
      by_cases hin : (i : Int) + a < (2 * c : Nat)
      · rw [if_pos ⟨by omega, hin⟩, lane_hi128 hc _ (by omega)]
        congr 1; omega
      · rw [if_neg (by omega), lane_out]
        have := Nat.mul_le_mul_left (8 * m) (show c ≤ i + (a - c).toNat by omega)
        omega
    · rw [if_neg hic, if_neg (by omega)]
  rw [if_neg (mt c1.mp h1), if_pos (show i < c ∨ a < (c : Int) from .inr (by omega))]
  by_cases h2 : 0 < a
  · rw [if_pos (c2.mpr h2), permute_1z]
    unfold alignr256
    rw [lo128_concat, hi128_concat, lane_concat128 hc _ _ hi]
    have e := toN a (by omega)
    by_cases hic : i < c
    · rw [if_pos hic, lane_alignr _ _ e hc hic]
      by_cases hin : i + a.toNat < c
      · rw [if_pos hin, if_pos (by omega), lane_lo128 hc _ hin]; congr 1; omega
      · rw [if_neg hin, if_pos (by omega), lane_hi128 hc _ (by omega)]; congr 1; omega
    · rw [if_neg hic, lane_alignr _ _ e hc (by omega)]
      by_cases hin : i - c + a.toNat < c
      · rw [if_pos hin, lane_hi128 hc _ hin, if_pos (by omega)]; congr 1; omega
      · rw [if_neg hin, if_neg (by omega), lane_zero]
  rw [if_neg (mt c2.mp h2)]
  by_cases h3 : a ≤ -(c : Int)
  · rw [if_pos (c3.mpr h3), permute_z0]
    unfold castTo256
    have e : 8 * (-16 - a * m).toNat = 8 * m * (-c - a).toNat := by
      rw [← hm', ← Int.neg_mul, ← Int.sub_mul, toN _ (by omega)]
    rw [lo128_concat, lane_concat128 hc _ _ hi]
    by_cases hic : i < c
    · rw [if_pos hic, if_neg (by omega), lane_zero]
    · rw [if_neg hic, lane_slliSi128 _ e (lane_room hc (by omega))]
      by_cases hin : i - c < (-c - a).toNat
      · rw [if_pos hin, if_neg (by omega)]
      · rw [if_neg hin, if_pos (by omega), lane_lo128 hc _ (by omega)]; congr 1; omega
  · rw [if_neg (mt c3.mp h3), permute_z0]
    unfold alignr256
    have e : 8 * (16 + a * m).toNat = 8 * m * (c + a).toNat := by
      rw [← hm', ← Int.add_mul, toN _ (by omega)]
    rw [lo128_concat, hi128_concat, lane_concat128 hc _ _ hi]
    by_cases hic : i < c
    · rw [if_pos hic, lane_alignr _ _ e hc hic]
      by_cases hin : i + (c + a).toNat < c
      · rw [if_pos hin, if_neg (by omega), lane_zero]
      · rw [if_neg hin, if_pos (by omega), lane_lo128 hc _ (by omega)]; congr 1; omega
    · rw [if_neg hic, lane_alignr _ _ e hc (by omega)]
      by_cases hin : i - c + (c + a).toNat < c
      · rw [if_pos hin, if_pos (by omega), lane_lo128 hc _ hin]; congr 1; omega
      · rw [if_neg hin, if_pos (by omega), lane_hi128 hc _ (by omega)]; congr 1; omega

/-! ### Joining masks -/

theorem joined_nil (c i : Nat) : joined c [] i = false := rfl

theorem joined_cons {c : Nat} (hc : 0 < c) (b : Nat → Bool) (bs : List (Nat → Bool)) (i : Nat) :
    joined c (b :: bs) i = if i < c then b i else joined c bs (i - c) := by
  unfold joined
  by_cases h : i < c
  · rw [if_pos h, Nat.div_eq_of_lt h, Nat.mod_eq_of_lt h]; rfl
  · rw [if_neg h]
    have e1 : i / c = (i - c) / c + 1 := Nat.div_eq_sub_div hc (by omega)
    have e2 : i % c = (i - c) % c := Nat.mod_eq_sub_mod (by omega)
    rw [e1, e2]; rfl

/-- Units of 32 bits of two registers in turn, read in lanes of 16 bits. -/
theorem lane16_unpacklo32 (x y : M128) {i : Nat} (hi : i < 8) :
    Model.lane 16 (unpacklo 32 x y) i =
      if i / 2 % 2 = 0 then Model.lane 16 x (2 * (i / 4) + i % 2) else Model.lane 16 y (2 * (i / 4) + i % 2) := by
  have e := lane_unpacklo (w := 32) x y (i := i / 2) (by omega)
  rw [Nat.div_div_eq_div_mul] at e
  by_cases h : i / 2 % 2 = 0
  · rw [if_pos h] at e ⊢
    exact lane_of_wide 16 2 (by decide) rfl e
  · rw [if_neg h] at e ⊢
    exact lane_of_wide 16 2 (by decide) rfl e

theorem lane16_unpackhi32 (x y : M128) {i : Nat} (hi : i < 8) :
    Model.lane 16 (unpackhi 32 x y) i =
      if i / 2 % 2 = 0 then Model.lane 16 x (2 * (2 + i / 4) + i % 2) else Model.lane 16 y (2 * (2 + i / 4) + i % 2) := by
  have e := lane_unpackhi (w := 32) x y (i := i / 2) (by omega)
  rw [Nat.div_div_eq_div_mul] at e
  by_cases h : i / 2 % 2 = 0
  · rw [if_pos h] at e ⊢
    exact lane_of_wide 16 2 (by decide) rfl e
  · rw [if_neg h] at e ⊢
    exact lane_of_wide 16 2 (by decide) rfl e

end Vc.Lemma
