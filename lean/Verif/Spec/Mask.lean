import Verif.Spec.Lane

/-!
Masks as functions from lanes to truth values.
-/

namespace Vc.Spec

/-- The register `k` of `n` bits, read with lanes of width `w`, holds the truth values `b`. -/
def IsMask {n : Nat} (w : Nat) (k : BitVec n) (b : Nat → Bool) : Prop :=
  ∀ i, w * (i + 1) ≤ n → k.extractLsb' (w * i) w = boolLane w (b i)

/-- The first `s` lanes of `k` hold the truth values `b`; the other lanes may be anything. -/
def MaskPrefix {n : Nat} (w s : Nat) (k : BitVec n) (b : Nat → Bool) : Prop :=
  ∀ i, i < s → w * (i + 1) ≤ n → k.extractLsb' (w * i) w = boolLane w (b i)

/-- The truth values of several masks of `c` lanes, one after the other; false behind the last. -/
def joined (c : Nat) (bs : List (Nat → Bool)) (i : Nat) : Bool := bs.getD (i / c) (fun _ => false) (i % c)

/-- The byte of a C++ `bool`. -/
def boolByte (b : Bool) : BitVec 8 := if b then 1#8 else 0#8

/-- Lane widths of the masks: 8, 16, 32, 64 bit. -/
def MaskWidth (w : Nat) : Prop := w = 8 ∨ w = 16 ∨ w = 32 ∨ w = 64

/-- Lane widths of the AVX masks: 16, 32, 64 bit. -/
def AvxMaskWidth (w : Nat) : Prop := w = 16 ∨ w = 32 ∨ w = 64

end Vc.Spec
