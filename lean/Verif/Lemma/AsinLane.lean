import Verif.Model.Asin
import Verif.Lemma.ArcLane

/-!
`sqrt` and `asin`, lane by lane.
-/

namespace Vc.Lemma
open Vc.Model Vc.Spec Vc.Prop

theorem RV.sqrt {n w i : Nat} (F : Fmt) (hi : w * (i + 1) ≤ n) {x : BitVec n} {a : BitVec w} (hx : RV w i x a) :
    RV w i (vSqrt F w x) (fSqrt F a) := by
  unfold RV at *; subst hx; exact lane_map1 _ _ hi

theorem asinF_lane {n i : Nat} {E : ArcEnv n} (h : ArcOk E f32 32) (hi : 32 * (i + 1) ≤ n) {v : BitVec n} {a : BitVec 32}
    (hv : RV 32 i v a) : RV 32 i (asinF (vArc E f32 32) (vSqrt f32 32) v) (asinF (sArc E.B f32 32) (fSqrt f32) a) := by
  have C := RV.c h hi
  have negative := RM.lt h hi hv (C 0#32)
  have a0 := RV.abs h hi hv
  have out := RM.gt h hi a0 (C 0x3f800000#32)
  have small := RM.lt h hi a0 (C 0x38d1b717#32)
  have gt05 := RM.gt h hi a0 (C 0x3f000000#32)
  have z := RV.set h hi (RV.mul h hi a0 a0) gt05 (RV.mul h hi (RV.sub h hi (C 0x3f800000#32) a0) (C 0x3f000000#32))
  have x := RV.set h hi a0 gt05 (RV.sqrt f32 hi z)
  have p := RV.horner h hi z (C 0x3d2cb352#32) [0x3cc617e3#32, 0x3d3a3ec7#32, 0x3d9980f6#32, 0x3e2aaae4#32]
  have z := RV.add h hi (RV.mul h hi (RV.mul h hi p z) x) x
  have z := RV.set h hi z gt05 (RV.sub h hi (C 0x3fc90fdb#32) (RV.add h hi z z))
  have z := RV.set h hi z small a0
  have z := RV.set h hi z negative (RV.neg h hi z)
  exact RV.setQnan h hi z out

theorem asinD_lane {n i : Nat} {E : ArcEnv n} (h : ArcOk E f64 64) (hi : 64 * (i + 1) ≤ n) {v : BitVec n} {a : BitVec 64}
    (hv : RV 64 i v a) : RV 64 i (asinD (vArc E f64 64) (vSqrt f64 64) v) (asinD (sArc E.B f64 64) (fSqrt f64) a) := by
  have C := RV.c h hi
  have negative := RM.lt h hi hv (C 0#64)
  have a0 := RV.abs h hi hv
  have out := RM.gt h hi a0 (C 0x3ff0000000000000#64)
  have small := RM.lt h hi a0 (C 0x3e45798ee2308c3a#64)
  have large := RM.gt h hi a0 (C 0x3fe4000000000000#64)
  have zz := RV.sub h hi (C 0x3ff0000000000000#64) a0
  have r := RV.horner h hi zz (C 0x3f684fc3988e9f08#64)
    [0xbfe2079259f9290f#64, 0x401bdff5baf33e6a#64, 0xc03991aaac01ab68#64, 0x403c896240f3081d#64]
  have s := RV.horner h hi zz (RV.add h hi zz (C 0xc035f2a2b6bf5d8c#64))
    [0x40626219af6a7f42#64, 0xc077fe08959063ee#64, 0x40756709b0b644be#64]
  have q := RV.sqrt f64 hi (RV.add h hi zz zz)
  have z := RV.sub h hi (C 0x3fe921fb54442d18#64) q
  have z := RV.sub h hi z (RV.sub h hi (RV.mul h hi q (RV.div h hi (RV.mul h hi zz r) s)) (C 0x3c91a62633145c07#64))
  have z := RV.add h hi z (C 0x3fe921fb54442d18#64)
  have a2 := RV.mul h hi a0 a0
  have p := RV.horner h hi a2 (C 0x3f716b9b0bd48ad3#64)
    [0xbfe34341333e5c16#64, 0x4015c74b178a2dd9#64, 0xc0304331de27907b#64, 0x40339007da779259#64, 0xc020656c06ceafd5#64]
  have q := RV.horner h hi a2 (RV.add h hi a2 (C 0xc02d7b590b5e0eab#64))
    [0x40519fc025fe9054#64, 0xc06265bb6d3576d7#64, 0x4061705684ffbf9d#64, 0xc04898220a3607ac#64]
  have z := RV.set h hi z (RM.notM h hi large) (RV.add h hi (RV.mul h hi a0 (RV.div h hi (RV.mul h hi a2 p) q)) a0)
  have z := RV.set h hi z negative (RV.neg h hi z)
  have z := RV.set h hi z small hv
  exact RV.setQnan h hi z out

end Vc.Lemma
