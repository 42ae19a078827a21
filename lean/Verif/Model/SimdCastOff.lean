import Verif.Model.SimdArrayOps

/-!
# simd_cast with offset from SimdArray (Vc/common/simdarray.h:2312-2391, 2424-2466)

`n` is the number of lanes of the return type, `N` that of the argument.
-/

namespace Vc.Model
open Vc.Spec Vc.Lemma

namespace Cast
variable (E : CastEnv α β)

/-- The loop `for (i = first; i < last; ++i) r[i - first] = static_cast<R>(x[i])`. Models
Vc/common/simdarray.h:2382-2386; `cnt` iterations. -/
def copyFrom (first : Nat) (x : SA α) : Nat → SA β → Option (SA β)
  | 0, r => some r
  | i + 1, r => do
    let r ← copyFrom first x i r
    let v ← x.get E.C ((first + i : Nat) : Int)
    r.set E.C' (i : Int) (E.f v)

mutual
/-- `simd_cast<SimdArray<U, n>, off>(x)`. Models Vc/common/simdarray.h:2312-2391. -/
def castOff (N n off : Nat) (x : SA α) : Option (SA β) :=
  if off = 0 then simdCast E N n [x]
  else match x with
    | .atom l => if E.C.atomic N then offNative E N n off l else none          -- forward
    | .node a b =>
      if E.C.atomic N then none
      else if _h : 2 ≤ N then
        if leftSize N ≤ off * n then
          if leftSize N % n = 0 then castOff (rightSize N) n (off - leftSize N / n) b  -- right
          else castWithOff (rightSize N) n (off * n - leftSize N) b             -- right, nofit
        else if (off + 1) * n ≤ leftSize N then castOff (leftSize N) n off a    -- left
        else                                                                    -- copy scalars
          copyFrom E (off * n) (.node a b) (min N ((off + 1) * n) - off * n)
            (SA.broadcast E.C' E.zt n)
      else none
termination_by (N, 0, n)
decreasing_by
  · exact Prod.Lex.left _ _ (rightSize_lt _h)
  · exact Prod.Lex.left _ _ (rightSize_lt _h)
  · exact Prod.Lex.left _ _ (leftSize_lt _h)

/-- `simd_cast_with_offset<SimdArray<U, n>, off>(x)` from one array. Models
Vc/common/simdarray.h:2001-2006, 2424-2466. -/
def castWithOff (N n off : Nat) (x : SA α) : Option (SA β) :=
  if off = 0 then simdCast E N n [x]
  else if N ≤ off then some (SA.broadcast E.C' E.zt n)
  else if off % n = 0 then castOff N n (off / n) x
  else if E.C'.atomic n then do
    castOff N n (off / n) (← x.shifted E.C E.zs N ((off % n : Nat) : Int))
  else if _h : 2 ≤ n then do
    let a ← castWithOff N (leftSize n) off x
    let b ← castWithOff N (rightSize n) (off + leftSize n) x
    return .node a b
  else none
termination_by (N, 1, n)
decreasing_by
  · apply Prod.Lex.right; apply Prod.Lex.left; omega
  · apply Prod.Lex.right; apply Prod.Lex.left; omega
  · apply Prod.Lex.right; apply Prod.Lex.right; exact leftSize_lt _h
  · apply Prod.Lex.right; apply Prod.Lex.right; exact rightSize_lt _h
end

end Cast
end Vc.Model
