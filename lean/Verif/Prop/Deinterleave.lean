import Verif.Lemma.Deinterleave

/-!
C66: `Vc::deinterleave(&a, &b, memory)` puts the even entries of the memory into `a` and the odd ones into `b`.
-/

namespace Vc.Prop
open Vc.Model Vc.Spec Vc.Lemma

/-- The entries of a register. -/
def entries (w : Nat) {n : Nat} (x : BitVec n) (i : Nat) : BitVec w := Model.lane w x i

/-- Two registers are loaded. -/
private theorem of_two {w c n : Nat} (hc : w * c = n) (hw : 0 < w) {m : ILMem w} {a : Int}
    {f : BitVec n → BitVec n → Option (BitVec n × BitVec n)}
    (hf : ∀ x y, ∃ p q, f x y = some (p, q) ∧ Deint w c x y p q) :
    Deinterleaved c SameEntry (entries w) m a ((loadTwo n m a).bind fun r => f r.1 r.2) := by
  constructor
  · rw [← loadTwo_none hc hw]
    cases h : loadTwo n m a with
    | none => simp
    | some r =>
      obtain ⟨p, q, h1, _⟩ := hf r.1 r.2
      simp [h1]
  · intro x y hr i hi
    cases h : loadTwo n m a with
    | none => rw [h] at hr; exact absurd hr (by simp)
    | some r =>
      obtain ⟨p, q, h1, h2⟩ := hf r.1 r.2
      rw [h] at hr
      have e : f r.1 r.2 = some (x, y) := hr
      rw [h1] at e
      cases e
      exact ⟨⟨_, loadTwo_some hc hw h (by omega), (h2 i hi).1⟩, ⟨_, loadTwo_some hc hw h (by omega), (h2 i hi).2⟩⟩

/-- One register is loaded. -/
private theorem of_one {n c v : Nat} (hc : 16 * (2 * c) = n) {m : ILMem 16} {a : Int} {conv : BitVec 16 → BitVec v → Prop}
    {f : BitVec n → BitVec n × BitVec n}
    (hf : ∀ x : BitVec n, ∀ i, i < c → (∀ j, j < 2 * c → m (a + Int.ofNat j) = some (Model.lane 16 x j)) →
      conv (Model.lane 16 x (2 * i)) (Model.lane v (f x).1 i) ∧
      conv (Model.lane 16 x (2 * i + 1)) (Model.lane v (f x).2 i)) :
    Deinterleaved c conv (entries v) m a ((loadReg n m a).map f) := by
  constructor
  · rw [← loadReg_none hc (by decide)]
    cases h : loadReg n m a <;> simp
  · intro x y hr i hi
    cases h : loadReg n m a with
    | none => rw [h] at hr; exact absurd hr (by simp)
    | some r =>
      rw [h] at hr
      have e : some (f r) = some (x, y) := hr
      have e := Option.some.inj e
      have hx : (f r).1 = x := by rw [e]
      have hy : (f r).2 = y := by rw [e]
      have hm := fun j hj => loadReg_some hc (by decide) h (j := j) hj
      have := hf r i hi hm
      rw [hx, hy] at this
      exact ⟨⟨_, hm _ (by omega), this.1⟩, ⟨_, hm _ (by omega), this.2⟩⟩

/-- SSE, memory of the entry type of the vectors: float_v, int_v and uint_v; double_v; short_v and ushort_v. -/
theorem C66_sse (m : ILMem 32) (m' : ILMem 64) (m'' : ILMem 16) (a : Int) :
    Deinterleaved 4 SameEntry (entries 32) m a (sseDeint deint32 m a) ∧
    Deinterleaved 2 SameEntry (entries 64) m' a (sseDeint deint64 m' a) ∧
    Deinterleaved 8 SameEntry (entries 16) m'' a (sseDeint deint16 m'' a) :=
  ⟨of_two (w := 32) (c := 4) rfl (by decide) (f := fun x y => some (deint32 x y)) fun x y => ⟨_, _, rfl, deint32_spec x y⟩,
   of_two (w := 64) (c := 2) rfl (by decide) (f := fun x y => some (deint64 x y)) fun x y => ⟨_, _, rfl, deint64_spec x y⟩,
   of_two (w := 16) (c := 8) rfl (by decide) (f := fun x y => some (deint16 x y)) fun x y => ⟨_, _, rfl, deint16_spec x y⟩⟩

/-- AVX, memory of the entry type: float_v; int_v and uint_v; double_v; short_v and ushort_v. -/
theorem C66_avx (m : ILMem 32) (m' : ILMem 64) (m'' : ILMem 16) (a : Int) :
    Deinterleaved 8 SameEntry (entries 32) m a (avxDeint deint32Avx m a) ∧
    Deinterleaved 8 SameEntry (entries 32) m a (avxDeint deint32iAvx m a) ∧
    Deinterleaved 4 SameEntry (entries 64) m' a (avxDeint deint64Avx m' a) ∧
    Deinterleaved 16 SameEntry (entries 16) m'' a (avxDeint deint16Avx m'' a) :=
  ⟨of_two (w := 32) (c := 8) rfl (by decide) deint32Avx_spec, of_two (w := 32) (c := 8) rfl (by decide) deint32Avx_spec,
   of_two (w := 64) (c := 4) rfl (by decide) deint64Avx_spec, of_two (w := 16) (c := 16) rfl (by decide) deint16Avx_spec⟩

/-- Scalar vectors. -/
theorem C66_scalar {w : Nat} (m : ILMem w) (a : Int) :
    Deinterleaved 1 SameEntry (fun x _ => x) m a (deintScalar m a) := by
  constructor
  · unfold deintScalar
    cases h0 : m (a + 0) with
    | none => exact ⟨fun _ => ⟨0, by decide, h0⟩, fun _ => rfl⟩
    | some p =>
      cases h1 : m (a + 1) with
      | none => exact ⟨fun _ => ⟨1, by decide, h1⟩, fun _ => rfl⟩
      | some q =>
        refine ⟨fun h => absurd h (by simp), ?_⟩
        rintro ⟨j, hj, h⟩
        match j, hj with
        | 0, _ => rw [show a + Int.ofNat 0 = a + 0 from rfl, h0] at h; exact absurd h (by simp)
        | 1, _ => rw [show a + Int.ofNat 1 = a + 1 from rfl, h1] at h; exact absurd h (by simp)
  · intro x y h i hi
    unfold deintScalar at h
    cases h0 : m (a + 0) with
    | none => rw [h0] at h; exact absurd h (by simp)
    | some p =>
      cases h1 : m (a + 1) with
      | none => rw [h0, h1] at h; exact absurd h (by simp)
      | some q =>
        rw [h0, h1] at h
        cases h
        match i, hi with
        | 0, _ => exact ⟨⟨_, h0, rfl⟩, ⟨_, h1, rfl⟩⟩

private theorem sse_map (f : M128 → M128 × M128) (m : ILMem 16) (a : Int) :
    sseDeintCvt f m a = (loadReg 128 m a).map f := by
  unfold sseDeintCvt
  cases loadReg 128 m a <;> rfl

private theorem avx_map (f : M256 → M256 × M256) (m : ILMem 16) (a : Int) :
    avxDeintCvt f m a = (loadReg 256 m a).map f := by
  unfold avxDeintCvt
  cases loadReg 256 m a <;> rfl

private theorem srai_slli {x : M128} {j : Nat} (hj : j < 4) :
    Model.lane 32 (sraiEpi 32 (slliEpi 32 x 16) 16) j = (Model.lane 32 x j <<< 16).sshiftRight 16 := by
  have hr := lane_room (w := 32) (n := 128) rfl hj
  rw [sraiEpi, slliEpi, lane_map1 _ _ hr, lane_map1 _ _ hr]

private theorem srai16 {x : M128} {j : Nat} (hj : j < 4) :
    Model.lane 32 (sraiEpi 32 x 16) j = (Model.lane 32 x j).sshiftRight 16 :=
  lane_map1 _ _ (lane_room (w := 32) (n := 128) rfl hj)

private theorem srli16 {x : M128} {j : Nat} (hj : j < 4) :
    Model.lane 32 (srliEpi 32 x 16) j = Model.lane 32 x j >>> 16 :=
  lane_map1 _ _ (lane_room (w := 32) (n := 128) rfl hj)

private theorem srli_slli {x : M128} {j : Nat} (hj : j < 4) :
    Model.lane 32 (srliEpi 32 (slliEpi 32 x 16) 16) j = (Model.lane 32 x j <<< 16) >>> 16 := by
  have hr := lane_room (w := 32) (n := 128) rfl hj
  rw [srliEpi, slliEpi, lane_map1 _ _ hr, lane_map1 _ _ hr]

private theorem cvt {n : Nat} {x : BitVec n} {j : Nat} (hj : 32 * (j + 1) ≤ n) {d : BitVec 32} (h : Model.lane 32 x j = d) :
    Model.lane 32 (cvtepi32PsN x) j = cvtI2F f32 32 d := by
  rw [cvtepi32PsN, lane_map1 _ _ hj, h]

/-- SSE, memory of 16-bit integers: int_v from short, uint_v from unsigned short, float_v from both. -/
theorem C66_sse_convert (m : ILMem 16) (a : Int) :
    Deinterleaved 4 (SameInt true) (entries 32) m a (sseDeintCvt deintIntShort m a) ∧
    Deinterleaved 4 (SameInt false) (entries 32) m a (sseDeintCvt deintUintUshort m a) ∧
    Deinterleaved 4 (SameFloat f32 true) (entries 32) m a (sseDeintCvt deintFloatShort m a) ∧
    Deinterleaved 4 (SameFloat f32 false) (entries 32) m a (sseDeintCvt deintFloatUshort m a) := by
  simp only [sse_map]
  refine ⟨of_one (c := 4) rfl fun x i hi _ => ?_, of_one (c := 4) rfl fun x i hi _ => ?_,
    of_one (c := 4) rfl fun x i hi _ => ?_, of_one (c := 4) rfl fun x i hi _ => ?_⟩
  all_goals have hr := lane_room (w := 32) (n := 128) rfl hi
  · exact sameInt_short (srai_slli hi) (srai16 hi)
  · exact sameInt_ushort (srli_slli hi) (srli16 hi)
  · exact sameFloat_short (cvt hr (srai_slli hi)) (cvt hr (srai16 hi))
  · exact sameFloat_ushort (cvt hr (srli_slli hi)) (cvt hr (srli16 hi))

/-- AVX, memory of 16-bit integers: int_v from short, float_v from short and unsigned short. -/
theorem C66_avx_convert (m : ILMem 16) (a : Int) :
    Deinterleaved 8 (SameInt true) (entries 32) m a (avxDeintCvt deintIntShortAvx m a) ∧
    Deinterleaved 8 (SameFloat f32 true) (entries 32) m a (avxDeintCvt deintFloatShortAvx m a) ∧
    Deinterleaved 8 (SameFloat f32 false) (entries 32) m a (avxDeintCvt deintFloatUshortAvx m a) := by
  simp only [avx_map]
  refine ⟨of_one (c := 8) rfl fun x i hi _ => ?_, of_one (c := 8) rfl fun x i hi _ => ?_,
    of_one (c := 8) rfl fun x i hi _ => ?_⟩
  all_goals have hr := lane_room (w := 32) (n := 256) rfl hi
  · exact sameInt_short (lane_halves (f := fun d => (d <<< 16).sshiftRight 16) (g := fun y => sraiEpi 32 (slliEpi 32 y 16) 16)
        (fun _ _ hj => srai_slli hj) x hi)
      (lane_halves (f := fun d => d.sshiftRight 16) (g := fun y => sraiEpi 32 y 16) (fun _ _ hj => srai16 hj) x hi)
  · exact sameFloat_short
      (cvt hr (lane_halves (f := fun d => (d <<< 16).sshiftRight 16) (g := fun y => sraiEpi 32 (slliEpi 32 y 16) 16)
        (fun _ _ hj => srai_slli hj) x hi))
      (cvt hr (lane_halves (f := fun d => d.sshiftRight 16) (g := fun y => sraiEpi 32 y 16)
        (fun _ _ hj => srai16 hj) x hi))
  · exact sameFloat_ushort
      (cvt hr (lane_halves (f := fun d => (d <<< 16) >>> 16) (g := fun y => blendImm 16 y 0#128 0xaa)
        (fun _ _ hj => lane_blendaa _ hj) x hi))
      (cvt hr (lane_halves (f := fun d => d >>> 16) (g := fun y => srliEpi 32 y 16)
        (fun _ _ hj => srli16 hj) x hi))

/-- AVX uint_v from unsigned short: right as long as all entries are less than 32768.  Missing: greater entries,
which are wrong. -/
theorem C66_avx_uint_partial (m : ILMem 16) (a : Int)
    (h : ∀ j, j < 16 → ∀ p, m (a + Int.ofNat j) = some p → p.toNat < 32768) :
    Deinterleaved 8 (SameInt false) (entries 32) m a (avxDeintCvt deintUintUshortAvx m a) := by
  rw [avx_map]
  refine of_one (c := 8) rfl fun x i hi hm => ?_
  have h0 := h (2 * i) (by omega) _ (hm _ (by omega))
  have h1 := h (2 * i + 1) (by omega) _ (hm _ (by omega))
  have hs := sameInt_short (x := x) (y := (deintUintUshortAvx x).1) (z := (deintUintUshortAvx x).2)
    (lane_halves (f := fun d => (d <<< 16).sshiftRight 16) (g := fun y => sraiEpi 32 (slliEpi 32 y 16) 16)
      (fun _ _ hj => srai_slli hj) x hi)
    (lane_halves (f := fun d => d.sshiftRight 16) (g := fun y => sraiEpi 32 y 16) (fun _ _ hj => srai16 hj) x hi)
  have key : ∀ (p : BitVec 16) (r : BitVec 32), p.toNat < 32768 → SameInt true p r → SameInt false p r := by
    intro p r hp hs
    unfold SameInt val at hs ⊢
    rw [if_pos rfl, if_pos rfl, BitVec.toInt_eq_toNat_of_lt (x := p) (by omega)] at hs
    rw [if_neg (by decide), if_neg (by decide), ← hs, toInt_nonneg_toNat (by omega)]
  exact ⟨key _ _ h0 hs.1, key _ _ h1 hs.2⟩

/-- Entries of 32768 and more come out with the upper 16 bits set: 40000 becomes 4294941760. -/
theorem C66_avx_uint_violated : ∃ (m : ILMem 16) (a : Int),
    ¬ Deinterleaved 8 (SameInt false) (entries 32) m a (avxDeintCvt deintUintUshortAvx m a) ∧
    ∃ x y, avxDeintCvt deintUintUshortAvx m a = some (x, y) ∧ (entries 32 x 0).toNat = 4294941760 ∧ m a = some 40000#16 := by
  have e : avxDeintCvt deintUintUshortAvx (fun _ => some 40000#16) 0 =
      some (deintUintUshortAvx (set1 16 40000#16)) := by
    have h : loadReg 256 (fun _ => some 40000#16) 0 = some (set1 16 40000#16) := by
      unfold loadReg
      exact if_pos (fun _ _ => rfl)
    rw [avx_map, h]
    rfl
  have e0 : (entries 32 (deintUintUshortAvx (set1 16 40000#16)).1 0).toNat = 4294941760 := by decide +kernel
  refine ⟨fun _ => some 40000#16, 0, fun h => ?_, _, _, e, e0, rfl⟩
  obtain ⟨p, hp, hv⟩ := (h.2 _ _ e 0 (by decide)).1
  cases hp
  unfold SameInt val at hv
  rw [if_neg (by decide), if_neg (by decide)] at hv
  have e1 := hv.symm.trans (congrArg (Nat.cast (R := Int)) e0)
  exact absurd e1 (by decide)

/-- Non-vacuity: sixteen entries 0, …, 15. -/
example : ∃ x y, avxDeintCvt deintUintUshortAvx (fun a => if 0 ≤ a ∧ a < 16 then some (BitVec.ofInt 16 a) else none) 0 =
    some (x, y) ∧ entries 32 x 3 = 6#32 ∧ entries 32 y 7 = 15#32 :=
  ⟨_, _, rfl, by decide +kernel, by decide +kernel⟩

example : ∃ x y, sseDeint deint16 (fun a => if 0 ≤ a ∧ a < 16 then some (BitVec.ofInt 16 a) else none) 0 =
    some (x, y) ∧ entries 16 x 3 = 6#16 ∧ entries 16 y 7 = 15#16 :=
  ⟨_, _, rfl, by decide +kernel, by decide +kernel⟩

end Vc.Prop
