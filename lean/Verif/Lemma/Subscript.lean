import Verif.Model.Subscript
import Verif.Lemma.SimdArraySort
import Verif.Lemma.SimdArrayReduce
import Verif.Lemma.SimdArrayMove

/-!
Lemmas for the subscript operators and for the index check of interleaved memory.
-/

namespace Vc.Lemma
open Vc.Model Vc.Spec

/-! ### Ratios -/

theorem ratio_den_pos {num den p q : Nat} (hd : 0 < den) (hq : 0 < q) :
    0 < (ratioMultiply num den p q).2 := by
  unfold ratioMultiply
  have h : 0 < den * q := Nat.mul_pos hd hq
  exact Nat.div_pos (Nat.le_of_dvd h (Nat.gcd_dvd_right _ _)) (Nat.gcd_pos_of_pos_right _ h)

theorem ratio_inv {num den p q s : Nat} (hd : 0 < den) (hq : 0 < q) (h : num * p = s * den) :
    (ratioMultiply num den p q).1 * q = s * (ratioMultiply num den p q).2 := by
  unfold ratioMultiply
  have hg : 0 < Nat.gcd (num * p) (den * q) := Nat.gcd_pos_of_pos_right _ (Nat.mul_pos hd hq)
  have h1 := Nat.div_mul_cancel (Nat.gcd_dvd_left (num * p) (den * q))
  have h2 := Nat.div_mul_cancel (Nat.gcd_dvd_right (num * p) (den * q))
  generalize num * p / Nat.gcd (num * p) (den * q) = A at *
  generalize den * q / Nat.gcd (num * p) (den * q) = B at *
  generalize Nat.gcd (num * p) (den * q) = g at *
  refine Nat.eq_of_mul_eq_mul_right hg ?_
  calc A * q * g = A * g * q := by rw [Nat.mul_right_comm]
    _ = s * den * q := by rw [h1, h]
    _ = s * (den * q) := Nat.mul_assoc _ _ _
    _ = s * (B * g) := by rw [h2]
    _ = s * B * g := (Nat.mul_assoc _ _ _).symm

theorem ratio_dvd {A B u s : Nat} (hB : 0 < B) (hu : 0 < u) (h : A * u = s * B) :
    A % B = 0 ↔ s % u = 0 := by
  constructor
  · intro hm
    obtain ⟨q, rfl⟩ := Nat.dvd_of_mod_eq_zero hm
    have : s = q * u := by
      refine Nat.eq_of_mul_eq_mul_right hB ?_
      rw [← h, Nat.mul_assoc, Nat.mul_comm]
    rw [this, Nat.mul_mod_left]
  · intro hm
    obtain ⟨q, rfl⟩ := Nat.dvd_of_mod_eq_zero hm
    have : A = q * B := by
      refine Nat.eq_of_mul_eq_mul_right hu ?_
      rw [h, Nat.mul_assoc, Nat.mul_comm]
    rw [this, Nat.mul_mod_left]

theorem ratio_quot {A B u s : Nat} (hB : 0 < B) (hu : 0 < u) (h : A * u = s * B) (hm : s % u = 0) :
    A / B = s / u := by
  obtain ⟨q, rfl⟩ := Nat.dvd_of_mod_eq_zero hm
  have : A = q * B := by
    refine Nat.eq_of_mul_eq_mul_right hu ?_
    rw [h, Nat.mul_assoc, Nat.mul_comm]
  rw [this, Nat.mul_div_cancel _ hB, Nat.mul_div_cancel_left _ hu]

/-! ### Steps -/

/-- Size of the type the expression ends with. -/
def endSize : Nat → List Step → Nat
  | u, [] => u
  | _, .member _ u :: t => endSize u t
  | _, .elem _ u :: t => endSize u t
  | _, .elems _ u :: t => endSize u t

/-- Distance of the objects for consecutive values of the last index. -/
def endStride : Nat → List Step → Nat
  | s, [] => s
  | s, .member _ _ :: t => endStride s t
  | s, .elem _ _ :: t => endStride s t
  | _, .elems _ u :: t => endStride u t

/-- Part of the address that depends on the index vectors of the steps. -/
def varBytes (l : Nat) : List Step → Int
  | [] => 0
  | .member _ _ :: t => varBytes l t
  | .elem _ _ :: t => varBytes l t
  | .elems j u :: t => j l * Int.ofNat u + varBytes l t

/-- All types have a positive size. -/
def Positive : List Step → Prop
  | [] => True
  | .member _ u :: t => 0 < u ∧ Positive t
  | .elem _ u :: t => 0 < u ∧ Positive t
  | .elems _ u :: t => 0 < u ∧ Positive t

/-- Every index vector subscripts objects whose distance is a multiple of the element size. -/
def Divides : Nat → List Step → Prop
  | _, [] => True
  | s, .member _ _ :: t => Divides s t
  | s, .elem _ _ :: t => Divides s t
  | s, .elems _ u :: t => s % u = 0 ∧ Divides u t

theorem endStride_pos {s : Nat} (steps : List Step) (hs : 0 < s) (hp : Positive steps) :
    0 < endStride s steps := by
  induction steps generalizing s with
  | nil => exact hs
  | cons st t ih =>
    cases st with
    | member o u => exact ih hs hp.2
    | elem j u => exact ih hs hp.2
    | elems j u => exact ih hp.1 hp.2

theorem stepAddress_add (l : Nat) (a c : Int) (steps : List Step) :
    stepAddress l (a + c) steps = stepAddress l a steps + c := by
  induction steps generalizing a with
  | nil => rfl
  | cons st t ih =>
    cases st with
    | member o u =>
      show stepAddress l (a + c + Int.ofNat o) t = stepAddress l (a + Int.ofNat o) t + c
      rw [← ih]; congr 1; omega
    | elem j u =>
      show stepAddress l (a + c + Int.ofNat j * Int.ofNat u) t =
        stepAddress l (a + Int.ofNat j * Int.ofNat u) t + c
      rw [← ih]; congr 1; omega
    | elems j u =>
      show stepAddress l (a + c + j l * Int.ofNat u) t = stepAddress l (a + j l * Int.ofNat u) t + c
      rw [← ih]; congr 1; omega

/-- What the operation is after some steps: `v` is the index without overflow and `s` the distance of
the objects for consecutive indexes. -/
structure SubInv {b : Nat} (l : Nat) (o : SubOp b) (s : Nat) (v : Int) : Prop where
  den : 0 < o.den
  esize : 0 < o.esize
  ratio : o.num * o.esize = s * o.den
  idx : o.idx l = BitVec.ofInt b v

theorem ofInt_mul_ofNat {b : Nat} (v : Int) (k : Nat) :
    BitVec.ofInt b v * BitVec.ofNat b k = BitVec.ofInt b (v * Int.ofNat k) := by
  rw [BitVec.ofInt_mul]
  simp

theorem sub_final {b : Nat} (l : Nat) (steps : List Step) (o : SubOp b) (s : Nat) (v : Int)
    (hi : SubInv l o s v) (hp : Positive steps) (hd : Divides s steps) :
    ∃ v', SubInv l (steps.foldl subStep o) (endStride s steps) v' ∧
      (steps.foldl subStep o).esize = endSize o.esize steps ∧
      v' * Int.ofNat (endStride s steps) = v * Int.ofNat s + varBytes l steps ∧
      (steps.foldl subStep o).addr + v' * Int.ofNat (endStride s steps) =
        stepAddress l (o.addr + v * Int.ofNat s) steps := by
  induction steps generalizing o s v with
  | nil => exact ⟨v, hi, rfl, by simp [endStride, varBytes], rfl⟩
  | cons st t ih =>
    cases st with
    | member off u =>
      obtain ⟨hu, hp⟩ := hp
      obtain ⟨v', h1, h2, h3, h4⟩ := ih (subStep o (.member off u)) s v
        ⟨ratio_den_pos hi.den hu, hu, ratio_inv hi.den hu hi.ratio, hi.idx⟩ hp hd
      refine ⟨v', h1, h2, h3, ?_⟩
      show (t.foldl subStep (subStep o (.member off u))).addr + _ =
        stepAddress l (o.addr + v * Int.ofNat s + Int.ofNat off) t
      rw [show o.addr + v * Int.ofNat s + Int.ofNat off =
        (subStep o (.member off u)).addr + v * Int.ofNat s by simp only [subStep]; omega, ← h4]
      rfl
    | elem j u =>
      obtain ⟨hu, hp⟩ := hp
      obtain ⟨v', h1, h2, h3, h4⟩ := ih (subStep o (.elem j u)) s v
        ⟨ratio_den_pos hi.den hu, hu, ratio_inv hi.den hu hi.ratio, hi.idx⟩ hp hd
      refine ⟨v', h1, h2, h3, ?_⟩
      show (t.foldl subStep (subStep o (.elem j u))).addr + _ =
        stepAddress l (o.addr + v * Int.ofNat s + Int.ofNat j * Int.ofNat u) t
      rw [show o.addr + v * Int.ofNat s + Int.ofNat j * Int.ofNat u =
        (subStep o (.elem j u)).addr + v * Int.ofNat s by simp only [subStep]; omega, ← h4]
      rfl
    | elems j u =>
      obtain ⟨hu, hp⟩ := hp
      obtain ⟨hdv, hd⟩ := hd
      have hq := ratio_quot (ratio_den_pos (num := o.num) (p := o.esize) hi.den hu) hu
        (ratio_inv hi.den hu hi.ratio) hdv
      have hidx : (subStep o (.elems j u)).idx l =
          BitVec.ofInt b (v * Int.ofNat (s / u) + j l) := by
        simp only [subStep, applyScaleAndAdd]
        rw [hq, hi.idx]
        split
        · rename_i h
          rw [h, BitVec.ofInt_add]; simp
        · rw [ofInt_mul_ofNat, ← BitVec.ofInt_add]
      obtain ⟨v', h1, h2, h3, h4⟩ := ih (subStep o (.elems j u)) u (v * Int.ofNat (s / u) + j l)
        ⟨Nat.one_pos, hu, by simp [subStep], hidx⟩ hp hd
      have hsu : v * Int.ofNat (s / u) * Int.ofNat u = v * Int.ofNat s := by
        rw [Int.mul_assoc]
        congr 1
        simp only [Int.ofNat_eq_natCast]
        rw [← Int.natCast_mul, Nat.div_mul_cancel (Nat.dvd_of_mod_eq_zero hdv)]
      refine ⟨v', h1, h2, ?_, ?_⟩
      · show _ = v * Int.ofNat s + (j l * Int.ofNat u + varBytes l t)
        show v' * Int.ofNat (endStride u t) = _
        rw [h3, Int.add_mul, hsu]; omega
      · show (t.foldl subStep (subStep o (.elems j u))).addr + v' * Int.ofNat (endStride u t) =
          stepAddress l (o.addr + v * Int.ofNat s + j l * Int.ofNat u) t
        rw [h4, Int.add_mul, hsu]
        show stepAddress l (o.addr + _) t = _
        congr 1; omega

/-- The value is one of the `b` bit type. -/
def Representable (b : Nat) (sgn : Bool) (v : Int) : Prop :=
  if sgn then -2 ^ (b - 1) ≤ v ∧ v < 2 ^ (b - 1) else 0 ≤ v ∧ v < 2 ^ b

theorem indexValue_ofInt {b : Nat} {sgn : Bool} {v : Int} (h : Representable b sgn v) (hb : 0 < b) :
    indexValue sgn (BitVec.ofInt b v) = v := by
  unfold Representable at h
  unfold indexValue
  cases sgn with
  | true =>
    simp only [if_true] at h ⊢
    rw [BitVec.toInt_ofInt]
    have e : ((2 ^ b : Nat) : Int) = 2 * 2 ^ (b - 1) := by
      rw [show b = (b - 1) + 1 by omega, Nat.pow_succ]; simp; omega
    exact Int.bmod_eq_of_le (by rw [e]; omega) (by rw [e]; omega)
  | false =>
    simp only [Bool.false_eq_true, if_false] at h ⊢
    rw [BitVec.toNat_ofInt]
    have : v % ((2 ^ b : Nat) : Int) = v := Int.emod_eq_of_lt h.1 (by simpa using h.2)
    rw [this]
    exact Int.toNat_of_nonneg h.1

theorem ofInt_indexValue {b : Nat} (sgn : Bool) (x : BitVec b) :
    BitVec.ofInt b (indexValue sgn x) = x := by
  unfold indexValue
  cases sgn <;> simp

/-- A factor of a representable value is representable. -/
theorem representable_of_mul {b : Nat} {v : Int} {k : Nat} (hk : 0 < k)
    (h : Representable b true (v * Int.ofNat k)) : Representable b true v := by
  unfold Representable at h ⊢
  simp only [if_true] at h ⊢
  generalize (2 : Int) ^ (b - 1) = D at *
  obtain ⟨h1, h2⟩ := h
  have hk' : (1 : Int) ≤ Int.ofNat k := by simp only [Int.ofNat_eq_natCast]; omega
  generalize Int.ofNat k = K at *
  by_cases hv : 0 ≤ v
  · have := Int.mul_le_mul_of_nonneg_left hk' hv
    omega
  · have := Int.mul_le_mul_of_nonpos_left (a := v) (by omega) hk'
    omega

/-! ### Duplicates in a sorted list -/

theorem rotated_get {α : Type} (z : α) (t : List α) {i : Nat} (h : i < t.length) :
    (Spec.rotated z 1 t)[i]'(by simpa [Spec.rotated, Spec.tab] using h) =
      t[(i + 1) % t.length]'(Nat.mod_lt _ (by omega)) := by
  simp only [Spec.rotated, Spec.tab, List.getElem_map, List.getElem_range, Spec.lane]
  have e : (Int.ofNat i + 1) % (t.length : Int) = (((i + 1) % t.length : Nat) : Int) := by
    simp
  rw [e, if_pos (by omega)]
  have hm : (i + 1) % t.length < t.length := Nat.mod_lt _ (by omega)
  rw [Int.toNat_natCast]
  simp only [List.getD, List.getElem?_eq_getElem hm, Option.getD_some]

theorem sorted_nodup_iff {α : Type} [DecidableEq α] (z : α) {le : α → α → Bool} (hle : LinOrd le)
    {t : List α} (hs : t.Pairwise fun a b => le a b = true) (hn : 2 ≤ t.length) :
    (∀ b ∈ List.zipWith (fun a b => a == b) t (Spec.rotated z 1 t), b = false) ↔ t.Nodup := by
  have hlen : (Spec.rotated z 1 t).length = t.length := by simp [Spec.rotated, Spec.tab]
  have hs' := List.pairwise_iff_getElem.mp hs
  constructor
  · intro h
    have hne : ∀ i (hi : i + 1 < t.length), t[i] ≠ t[i + 1] := by
      intro i hi e
      have hz : i < (List.zipWith (fun a b => a == b) t (Spec.rotated z 1 t)).length := by
        simp [hlen]; omega
      have := h _ (List.getElem_mem hz)
      rw [List.getElem_zipWith, rotated_get z t (by omega)] at this
      have hmod : (i + 1) % t.length = i + 1 := Nat.mod_eq_of_lt hi
      simp only [hmod, beq_eq_false_iff_ne] at this
      exact this e
    rw [List.Nodup, List.pairwise_iff_getElem]
    intro i j hi hj hij e
    have h1 : le t[i] t[i + 1] = true := hs' i (i + 1) hi (by omega) (by omega)
    by_cases hj1 : j = i + 1
    · subst hj1; exact hne i hj e
    · have h2 : le t[i + 1] t[j] = true := hs' (i + 1) j (by omega) hj (by omega)
      exact hne i (by omega) (hle.antisymm _ _ h1 (e ▸ h2))
  · intro h b hb
    obtain ⟨i, hi, rfl⟩ := List.mem_iff_getElem.mp hb
    have hi' : i < t.length := by simp [hlen] at hi; exact hi
    rw [List.getElem_zipWith, rotated_get z t hi']
    have hm : (i + 1) % t.length < t.length := Nat.mod_lt _ (by omega)
    rw [beq_eq_false_iff_ne]
    intro e
    have := (List.getElem_inj h).mp e
    by_cases hc : i + 1 < t.length
    · rw [Nat.mod_eq_of_lt hc] at this; omega
    · rw [show i + 1 = t.length by omega, Nat.mod_self] at this; omega

end Vc.Lemma
