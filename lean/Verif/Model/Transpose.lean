import Verif.Model.SimdArray

/-!
`tie(a, b, c, d) = transpose(w, x, y, z)` for `SimdArray` (/repo/Vc/common/simdarray.h:2577-2648,
/repo/Vc/common/vectortuple.h:96-100, /repo/Vc/common/transpose.h) and the scalar float_v
(/repo/Vc/scalar/vector.tcc:225-229).  The SSE function on four registers is `transpose44`.

The result is the list of the vectors assigned, in the order of the `tie` arguments.  `none`: there is no
such function, the program does not compile.

`transpose` takes its arguments by value and returns an object with references to these parameters.  It is
implementation-defined whether the parameters still exist when the assignment reads them; the model assumes
they do.
-/

namespace Vc.Model

/-- `TransposeTag<1, 1>` (/repo/Vc/scalar/vector.tcc:225-229). -/
def transpose11 (x : α) : α := x

/-- `_mm_unpacklo_ps`, `_mm_unpackhi_ps` on the lanes of a native vector. -/
def unpackLow (x y : List α) : List α :=
  match x, y with
  | [x0, x1, _, _], [y0, y1, _, _] => [x0, y0, x1, y1]
  | _, _ => []
def unpackHigh (x y : List α) : List α :=
  match x, y with
  | [_, _, x2, x3], [_, _, y2, y3] => [x2, y2, x3, y3]
  | _, _ => []

/-- `transpose_impl` of four SSE float_v (/repo/Vc/sse/vector.tcc:769-786), on lanes. -/
def transposeNative (in0 in1 in2 in3 : List α) : List (List α) :=
  let tmp0 := unpackLow in0 in2
  let tmp1 := unpackLow in1 in3
  let tmp2 := unpackHigh in0 in2
  let tmp3 := unpackHigh in1 in3
  [unpackLow tmp0 tmp1, unpackHigh tmp0 tmp1, unpackLow tmp2 tmp3, unpackHigh tmp2 tmp3]

/-- `internal_data0`, `internal_data1`. -/
def SA.data0 : SA α → Option (SA α)
  | .node a _ => some a
  | .atom _ => none
def SA.data1 : SA α → Option (SA α)
  | .node _ b => some b
  | .atom _ => none

/-- `TransposeTag<2, 4>`: four arrays of two scalars to two arrays of four scalars
(/repo/Vc/common/simdarray.h:2594-2610). -/
def transpose24 (in0 in1 in2 in3 : SA α) : Option (SA α × SA α) := do
  return (.node (.node (← in0.data0) (← in1.data0)) (.node (← in2.data0) (← in3.data0)),
    .node (.node (← in0.data1) (← in1.data1)) (.node (← in2.data1) (← in3.data1)))

/-- `TransposeTag<4, 4>`: arrays of one native vector of four lanes (/repo/Vc/common/simdarray.h:2579-2592)
and arrays of four scalars (/repo/Vc/common/simdarray.h:2627-2647). -/
def SA.transpose (in0 in1 in2 in3 : SA α) : Option (List (SA α)) :=
  match in0, in1, in2, in3 with
  | .atom l0, .atom l1, .atom l2, .atom l3 =>
    if l0.length = 4 then some ((transposeNative l0 l1 l2 l3).map .atom) else none
  | in0, in1, in2, in3 => do
    let (r0, r1) ← transpose24 (← in0.data0) (← in1.data0) (← in2.data0) (← in3.data0)
    let (r2, r3) ← transpose24 (← in0.data1) (← in1.data1) (← in2.data1) (← in3.data1)
    return [r0, r1, r2, r3]

end Vc.Model
