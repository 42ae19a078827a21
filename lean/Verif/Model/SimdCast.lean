import Verif.Model.SimdArray

/-!
# simd_cast to and from SimdArray (Vc/common/simdarray.h:1861-2539)

The overload set is modelled by functions whose `if`s are the `enable_if` conditions. `C` is
the environment of the source entry type, `C'` the one of the target entry type, `f` the
conversion of one entry (`static_cast`), `zs` and `zt` zero of source and target. `none` means
that no overload is viable (the program does not compile) or that a lane outside an array is
accessed.
-/

namespace Vc.Model
open Vc.Spec Vc.Lemma

structure CastEnv (α : Type u) (β : Type v) where
  C : Cfg
  C' : Cfg
  f : α → β
  zs : α
  zt : β

namespace Cast
variable (E : CastEnv α β)

mutual
/-- `simd_cast<SimdArray<U, n>>(x, xs...)` from native vectors of `m` lanes each. Models
Vc/common/simdarray.h:2051-2114 (overloads {1} to {4}). -/
def ofNative (m n : Nat) (xs : List (List α)) : Option (SA β) :=
  if xs.length = 0 then none
  else if E.C'.atomic n then
    if m * (xs.length - 1) < n then some (.atom (natCast E.f E.zt n xs))      -- {1}
    else if _h1 : 2 ≤ xs.length then ofNative m n xs.dropLast                 -- {2}
    else none
  else if _h : 2 ≤ n then
    if leftSize n < m * xs.length then do                                     -- {3}
      let a ← dropArguments m (leftSize n) xs
      let b ← withOffset m (rightSize n) (leftSize n) xs
      return .node a b
    else do                                                                   -- {4}
      let a ← ofNative m (leftSize n) xs
      return .node a (SA.broadcast E.C' E.zt (rightSize n))
  else none
termination_by (n, 0, xs.length)
decreasing_by
  · apply Prod.Lex.right; apply Prod.Lex.right; simp; omega
  · exact Prod.Lex.left _ _ (leftSize_lt _h)
  · exact Prod.Lex.left _ _ (rightSize_lt _h)
  · exact Prod.Lex.left _ _ (leftSize_lt _h)

/-- `simd_cast_drop_arguments`: drops arguments from the end as long as the remaining ones
fill the return type. Models Vc/common/simdarray.h:2008-2032, 2368-2405. -/
def dropArguments (m n : Nat) (xs : List (List α)) : Option (SA β) :=
  if _h : 2 ≤ xs.length ∧ n ≤ (xs.length - 1) * m then dropArguments m n xs.dropLast
  else ofNative m n xs
termination_by (n, 1, xs.length)
decreasing_by
  · apply Prod.Lex.right; apply Prod.Lex.right; simp; omega
  · apply Prod.Lex.right; apply Prod.Lex.left; omega

/-- `simd_cast_with_offset<SimdArray<U, n>, offset>(x, xs...)` from native vectors. Models
Vc/common/simdarray.h:1957-1996, 2407-2450. -/
def withOffset (m n off : Nat) (xs : List (List α)) : Option (SA β) :=
  if off = 0 then ofNative m n xs
  else match xs with
    | [] => none
    | [x] =>
      if m ≤ off then some (SA.broadcast E.C' E.zt n)
      else if off % n = 0 then offNative m n (off / n) x
      else if E.C'.atomic n then offNative m n (off / n) (natShifted E.zs (off % n : Nat) x)
      else if _h : 2 ≤ n then do
        let a ← withOffset m (leftSize n) off [x]
        let b ← withOffset m (rightSize n) (off + leftSize n) [x]
        return .node a b
      else none
    | _ :: y :: ys =>
      if m ≤ off then withOffset m n (off - m) (y :: ys) else none
termination_by (n, 1, xs.length)
decreasing_by
  · apply Prod.Lex.right; apply Prod.Lex.left; omega
  · apply Prod.Lex.right; apply Prod.Lex.left; omega
  · apply Prod.Lex.right; apply Prod.Lex.left; omega
  · exact Prod.Lex.left _ _ (leftSize_lt _h)
  · exact Prod.Lex.left _ _ (rightSize_lt _h)
  · apply Prod.Lex.right; apply Prod.Lex.right; simp

/-- `simd_cast<SimdArray<U, n>, offset>(x)` from one native vector. Models
Vc/common/simdarray.h:2120-2175. -/
def offNative (m n off : Nat) (x : List α) : Option (SA β) :=
  if E.C'.atomic n then some (.atom (natCastOff E.f E.zt n off x))
  else if _h : 2 ≤ n then
    if n * off + leftSize n < m then do
      let a ← withOffset m (leftSize n) (off * n) [x]
      let b ← withOffset m (rightSize n) (off * n + leftSize n) [x]
      return .node a b
    else do
      let a ← withOffset m (leftSize n) (off * n) [x]
      return .node a (SA.broadcast E.C' E.zt (rightSize n))
  else none
termination_by (n, 0, 1)
decreasing_by
  · exact Prod.Lex.left _ _ (leftSize_lt _h)
  · exact Prod.Lex.left _ _ (rightSize_lt _h)
  · exact Prod.Lex.left _ _ (leftSize_lt _h)
end

/-- `extract_interleaved<I>(a..., b...)`. Models Vc/common/simdarray.h:2477-2507. -/
def extractInterleaved : Nat → List γ → List γ → Option γ
  | 0, a :: _, _ => some a
  | 1, _, b :: _ => some b
  | i + 2, _ :: as, _ :: bs => extractInterleaved i as bs
  | _, _, _ => none

/-- `simd_cast_interleaved_argument_order`: the argument list `a0, b0, a1, b1, ...`. Models
Vc/common/simdarray.h:2508-2525. -/
def interleavedArguments (as bs : List γ) : Option (List γ) :=
  (List.range (as.length * 2)).mapM fun i => extractInterleaved i as bs

/-- `internal_data(x)`; only for atomic arrays. -/
def data : SA γ → Option (List γ)
  | .atom l => some l
  | .node _ _ => none

/-- `internal_data0(x)`; only for generic arrays. -/
def data0 : SA γ → Option (SA γ)
  | .atom _ => none
  | .node a _ => some a

/-- `internal_data1(x)`; only for generic arrays. -/
def data1 : SA γ → Option (SA γ)
  | .atom _ => none
  | .node _ b => some b

/-- The loops of `simd_cast_impl_smaller_input` / `simd_cast_impl_larger_input`:
`for (i = 0; i < cnt; ++i) r[i + off] = static_cast<U>(last[i])`. Models
Vc/common/simdarray.h:1888-1925. -/
def copyLanes (off : Nat) (last : SA α) : Nat → SA β → Option (SA β)
  | 0, r => some r
  | i + 1, r => do
    let r ← copyLanes off last i r
    let v ← last.get E.C (i : Int)
    r.set E.C' ((i + off : Nat) : Int) (E.f v)

theorem length_mapM {f : γ → Option δ} {l : List γ} {r : List δ} (h : l.mapM f = some r) :
    r.length = l.length := by
  induction l generalizing r with
  | nil => simp at h; subst h; rfl
  | cons a l ih =>
    simp only [List.mapM_cons, Option.pure_def, Option.bind_eq_bind, Option.bind_eq_some_iff,
      Option.some.injEq] at h
    obtain ⟨_, _, t, ht, rfl⟩ := h
    simp [ih ht]

/-- `simd_cast<SimdArray<U, n>>(x, xs...)` from arrays `SimdArray<T, N>`. Models
Vc/common/simdarray.h:2181-2278. -/
def simdCast (N n : Nat) (xs : List (SA α)) : Option (SA β) :=
  if xs.length = 0 then none
  else if E.C.atomic N then do
    let ds ← xs.mapM data
    if xs.length = 1 ∨ N * (xs.length - 1) < n then ofNative E N n ds          -- indivisible
    else ofNative E N n ds.dropLast                                           -- indivisible2
  else if _h : 2 ≤ N then
    if (N - 1) &&& N = 0 then
      if xs.length = 1 ∧ 2 * n ≤ N then do                                    -- single bisectable
        let as ← xs.mapM data0
        simdCast (leftSize N) n as
      else if N * (xs.length - 1) < n then do       -- single bisectable2, bisectable
        let as ← xs.mapM data0
        let bs ← xs.mapM data1
        let args ← interleavedArguments as bs
        simdCast (leftSize N) n args
      else if _h2 : 2 ≤ xs.length then simdCast N n xs.dropLast               -- bisectable2
      else none
    else do
      let r ← if _h2 : 2 ≤ xs.length then simdCast N n xs.dropLast
              else some (SA.broadcast E.C' E.zt n)
      let last ← xs.getLast?
      let off := N * (xs.length - 1)
      if N * xs.length ≤ n then copyLanes E off last N r                      -- remaining
      else copyLanes E off last (n - off) r                                   -- remaining2
  else none
termination_by (N, xs.length)
decreasing_by
  · exact Prod.Lex.left _ _ (leftSize_lt _h)
  · exact Prod.Lex.left _ _ (leftSize_lt _h)
  · apply Prod.Lex.right; simp; omega
  · apply Prod.Lex.right; simp; omega

end Cast

/-- `simd_cast<SimdArray<T, n>>(x)` for an array `x` of `N` lanes and the same entry type.
The overload for identical types returns its argument (Vc/common/simd_cast.h). -/
def SA.cast (C : Cfg) (z : α) (N n : Nat) (x : SA α) : Option (SA α) :=
  if N = n then some x else Cast.simdCast ⟨C, C, id, z, z⟩ N n [x]

end Vc.Model
