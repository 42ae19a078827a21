import Verif.Model.SimdCast

/-!
# SimdArray operations that move lanes (Vc/common/simdarray.h)

`C` is the compile-time environment, `z` the value zero, `n` the template argument. All
functions return `none` where the C++ code reads a lane outside of an array, calls a native
operation outside its specified range or does not compile.
-/

namespace Vc.Model
open Vc.Spec Vc.Lemma

namespace SA

mutual
/-- `shifted(int)`. Models Vc/common/simdarray.h:439-442 (atomic), 1127-1160. -/
def shifted (C : Cfg) (z : α) (n : Nat) (k : Int) (x : SA α) : Option (SA α) :=
  match x with
  | .atom l => if C.atomic n then some (.atom (natShifted z k l)) else none
  | .node a b =>
    if C.atomic n then none
    else if _h : 2 ≤ n then
      let n0 := leftSize n
      let n1 := rightSize n
      if k = 0 then some (.node a b)
      else if k < 0 then
        if k > -(n0 : Int) then do
          let r0 ← shifted C z (leftSize n) k a
          let r1 ← shiftedIn C z (rightSize n) (leftSize n) k b a
          return .node r0 r1
        else if k = -(n0 : Int) then do
          return .node (broadcast C z n0) (← a.cast C z n0 n1)
        else do
          let s ← shifted C z (leftSize n) (k + n0) a
          return .node (broadcast C z n0) (← s.cast C z n0 n1)
      else if k ≥ (n : Int) then some (broadcast C z n)
      else if k ≥ (n0 : Int) then do
        let c ← b.cast C z n1 n0
        let r0 ← shifted C z (leftSize n) (k - n0) c
        return .node r0 (broadcast C z n1)
      else if k ≥ (n1 : Int) then do
        let r0 ← shiftedIn C z (leftSize n) (rightSize n) k a b
        return .node r0 (broadcast C z n1)
      else do
        let r0 ← shiftedIn C z (leftSize n) (rightSize n) k a b
        let r1 ← shifted C z (rightSize n) k b
        return .node r0 r1
    else none
termination_by (n, 0)
decreasing_by
  all_goals first
    | exact Prod.Lex.left _ _ (leftSize_lt _h)
    | exact Prod.Lex.left _ _ (rightSize_lt _h)

/-- `shifted(int, const SimdArray<T, nn> &shiftIn)`. Models Vc/common/simdarray.h:444-449
(atomic), 1162-1190 (halves of different type or `nn ≠ n`), 1203-1252 (bisectable). -/
def shiftedIn (C : Cfg) (z : α) (n nn : Nat) (k : Int) (x y : SA α) : Option (SA α) :=
  match x with
  | .atom l =>
    if C.atomic n then do
      match ← y.cast C z nn n with
      | .atom y' => return .atom (← natShiftedIn z k l y')
      | .node _ _ => none
    else none
  | .node a b =>
    if C.atomic n then none
    else if _h : 2 ≤ n then
      if leftSize n = rightSize n ∧ n = nn then
        match y with
        | .atom _ => none
        | .node y0 y1 =>
          let s0 := (leftSize n : Int)
          let s := (n : Int)
          if k < 0 ∧ k > -s0 then do
            let r0 ← shiftedIn C z (leftSize n) (leftSize n) k a y1
            let r1 ← shiftedIn C z (leftSize n) (leftSize n) k b a
            return .node r0 r1
          else if k < 0 ∧ k = -s0 then some (.node y1 a)
          else if k < 0 ∧ k > -s then do
            let r0 ← shiftedIn C z (leftSize n) (leftSize n) (k + s0) y1 y0
            let r1 ← shiftedIn C z (leftSize n) (leftSize n) (k + s0) a y1
            return .node r0 r1
          else if k < 0 ∧ k = -s then some (.node y0 y1)
          else if k < 0 ∧ k > -2 * s then shifted C z n (k + s) (.node y0 y1)
          else if k = 0 then some (.node a b)
          else if k < s0 then do
            let r0 ← shiftedIn C z (leftSize n) (leftSize n) k a b
            let r1 ← shiftedIn C z (leftSize n) (leftSize n) k b y0
            return .node r0 r1
          else if k = s0 then some (.node b y0)
          else if k < s then do
            let r0 ← shiftedIn C z (leftSize n) (leftSize n) (k - s0) b y0
            let r1 ← shiftedIn C z (leftSize n) (leftSize n) (k - s0) y0 y1
            return .node r0 r1
          else if k = s then some (.node y0 y1)
          else if k < 2 * s then shifted C z n (k - s) (.node y0 y1)
          else some (broadcast C z n)
      else if k < 0 then
        gen C n fun (i : Nat) =>
          let j := (i : Int) + k
          if j ≥ 0 then (SA.node a b).get C j
          else if j ≥ -(n : Int) then y.get C (j + n)
          else some z
      else
        gen C n fun (i : Nat) =>
          let j := (i : Int) + k
          if j < n then (SA.node a b).get C j
          else if j < 2 * (n : Int) then y.get C (j - n)
          else some z
    else none
termination_by (n, 1)
decreasing_by
  all_goals first
    | exact Prod.Lex.left _ _ (leftSize_lt _h)
    | (apply Prod.Lex.right; omega)
end

/-- `rotated(int)`. Models Vc/common/simdarray.h:451-454 (atomic), 1256-1304 (without the
`Vc_MSVC` branch). -/
def rotated (C : Cfg) (z : α) (n : Nat) (k : Int) (x : SA α) : Option (SA α) :=
  match x with
  | .atom l => if C.atomic n then some (.atom (natRotated k l)) else none
  | .node a b =>
    if C.atomic n then none
    else
      let n0 := leftSize n
      let n1 := rightSize n
      let size0 := (n0 : Int)
      let size1 := (n1 : Int)
      let m := Int.tmod k n
      if m = 0 then some (.node a b)
      else
        let amount := if m < 0 then m + n else m
        do
          let d0cvtd ← a.cast C z n0 n1
          let d1cvtd ← b.cast C z n1 n0
          if amount = size0 ∧ n0 = n1 then return .node d1cvtd d0cvtd
          else if amount < size1 then
            return .node (← a.shiftedIn C z n0 n0 amount d1cvtd)
              (← b.shiftedIn C z n1 n1 amount d0cvtd)
          else if amount = size1 then
            return .node (← a.shiftedIn C z n0 n0 amount d1cvtd) d0cvtd
          else if n - amount < size1 then do
            let s0 ← d1cvtd.shifted C z n0 (size1 - size0)
            let s1 ← a.shifted C z n0 (size0 - size1)
            return .node (← a.shiftedIn C z n0 n0 (amount - n) s0)
              (← b.shiftedIn C z n1 n0 (amount - n) s1)
          else if n - amount = size1 then do
            let s0 ← d1cvtd.shifted C z n0 (size1 - size0)
            let s1 ← a.shifted C z n0 (size0 - size1)
            return .node (← a.shiftedIn C z n0 n0 (-size1) s0) (← s1.cast C z n0 n1)
          else if amount ≤ size0 then do
            let t ← a.shiftedIn C z n0 n0 size1 d1cvtd
            let s1 ← a.shifted C z n0 (amount - size1)
            return .node (← t.shiftedIn C z n0 n0 (amount - size1) a) (← s1.cast C z n0 n1)
          else do
            let t ← a.shiftedIn C z n0 n0 size1 d1cvtd
            let s1 ← a.shiftedIn C z n0 n0 (amount - size1) d1cvtd
            return .node (← t.shiftedIn C z n0 n0 (amount - size1) a) (← s1.cast C z n0 n1)

/-- `reversed()`. Models Vc/common/simdarray.h:469-472 (atomic), 1339-1359 (without the
`Vc_MSVC` branch). -/
def reversed (C : Cfg) (z : α) (n : Nat) (x : SA α) : Option (SA α) :=
  match x with
  | .atom l => if C.atomic n then some (.atom l.reverse) else none
  | .node a b =>
    if C.atomic n then none
    else if _h : 2 ≤ n then
      if leftSize n = rightSize n then do
        let c1 ← b.cast C z (rightSize n) (leftSize n)
        let c0 ← a.cast C z (leftSize n) (rightSize n)
        let r0 ← reversed C z (leftSize n) c1
        let r1 ← reversed C z (rightSize n) c0
        return .node r0 r1
      else do
        let s ← a.shiftedIn C z (leftSize n) (rightSize n) (rightSize n : Int) b
        let r0 ← reversed C z (leftSize n) s
        let r ← reversed C z (leftSize n) a
        let t ← r.shifted C z (leftSize n) ((leftSize n : Int) - rightSize n)
        return .node r0 (← t.cast C z (leftSize n) (rightSize n))
    else none
termination_by n
decreasing_by
  all_goals first
    | exact leftSize_lt _h
    | exact rightSize_lt _h

mutual
/-- `interleaveLow(x)`. Models Vc/common/simdarray.h:461-464 (atomic), 1308-1313. -/
def interleaveLow (C : Cfg) (z : α) (n : Nat) (x y : SA α) : Option (SA α) :=
  match x, y with
  | .atom l, .atom m => if C.atomic n then some (.atom (natInterleaveLow l m)) else none
  | .node a _, .node c _ =>
    if C.atomic n then none
    else if _h : 2 ≤ n then do
      let r0 ← interleaveLow C z (leftSize n) a c
      let r1 ← interleaveHigh C z (leftSize n) a c
      return .node r0 (← r1.cast C z (leftSize n) (rightSize n))
    else none
  | _, _ => none
termination_by n
decreasing_by
  all_goals exact leftSize_lt _h

/-- `interleaveHigh(x)`. Models Vc/common/simdarray.h:465-468 (atomic), 1315-1335. -/
def interleaveHigh (C : Cfg) (z : α) (n : Nat) (x y : SA α) : Option (SA α) :=
  match x, y with
  | .atom l, .atom m => if C.atomic n then some (.atom (natInterleaveHigh l m)) else none
  | .node a b, .node c d =>
    if C.atomic n then none
    else if _h : 2 ≤ n then do
      if leftSize n = rightSize n then do
        let r0 ← interleaveLow C z (rightSize n) b d
        let r1 ← interleaveHigh C z (rightSize n) b d
        return .node r0 r1
      else do
        let h0 ← interleaveHigh C z (leftSize n) a c
        let l1 ← interleaveLow C z (rightSize n) b d
        let c1 ← l1.cast C z (rightSize n) (leftSize n)
        let r0 ← h0.shiftedIn C z (leftSize n) (leftSize n) (rightSize n : Int) c1
        let r1 ← interleaveHigh C z (rightSize n) b d
        return .node r0 r1
    else none
  | _, _ => none
termination_by n
decreasing_by
  all_goals first
    | exact leftSize_lt _h
    | exact rightSize_lt _h
end

/-! ## Reductions -/

/-- Native reduction (`Vector::sum()`, ...) at the lane level. `none` for a vector without
lanes, which does not exist. -/
def natReduce (op : α → α → α) : List α → Option α
  | [] => none
  | a :: l => some (l.foldl op a)

/-- `sum()`, `product()`, `min()`, `max()`; `op` is both `binary_fun_` (lane-wise) and
`scalar_fun_`. Models Vc/common/simdarray.h:412-424 (atomic), 1062-1082. -/
def reduce (C : Cfg) (op : α → α → α) (n : Nat) (x : SA α) : Option α :=
  match x with
  | .atom l => if C.atomic n then natReduce op l else none
  | .node a b =>
    if C.atomic n then none
    else if _h : 2 ≤ n then
      if leftSize n = rightSize n then do
        let c ← a.zipWith op b
        reduce C op (leftSize n) c
      else do
        let r0 ← reduce C op (leftSize n) a
        let r1 ← reduce C op (rightSize n) b
        return op r0 r1
    else none
termination_by n
decreasing_by
  all_goals first
    | exact leftSize_lt _h
    | exact rightSize_lt _h

/-- The lanes with a set mask bit. -/
def natSelected : List α → List Bool → List α
  | a :: l, m :: ms => if m then a :: natSelected l ms else natSelected l ms
  | _, _ => []

/-- Native masked reduction at the lane level: the reduction of the selected lanes, `e` (some
implementation-specific value) if there is none. -/
def natReduceMasked (op : α → α → α) (e : α) (l : List α) (m : List Bool) : α :=
  (natReduce op (natSelected l m)).getD e

/-- `isEmpty()` of a mask array. -/
def isEmpty : SA Bool → Bool
  | .atom m => m.all (!·)
  | .node a b => a.isEmpty && b.isEmpty

/-- `sum(mask)`, `product(mask)`, `min(mask)`, `max(mask)`. Models
Vc/common/simdarray.h:413-418 (atomic), 1083-1095. -/
def reduceMasked (op : α → α → α) (e : α) : SA α → SA Bool → Option α
  | .atom l, .atom m => some (natReduceMasked op e l m)
  | .node a b, .node m0 m1 =>
    if m0.isEmpty then reduceMasked op e b m1
    else if m1.isEmpty then reduceMasked op e a m0
    else do
      let r0 ← reduceMasked op e a m0
      let r1 ← reduceMasked op e b m1
      return op r0 r1
  | _, _ => none

/-- Native `partialSum()` at the lane level. -/
def natScan (op : α → α → α) : List α → List α
  | [] => []
  | a :: l => a :: go a l
where
  go (acc : α) : List α → List α
    | [] => []
    | b :: l => op acc b :: go (op acc b) l

/-- `partialSum()`: `ps0 = data0.partialSum(); tmp = data1; tmp[0] += ps0[data0.size() - 1];
return {ps0, tmp.partialSum()}`. Models Vc/common/simdarray.h:425-428 (atomic), 1104-1110. -/
def partialSum (C : Cfg) (op : α → α → α) (n : Nat) (x : SA α) : Option (SA α) :=
  match x with
  | .atom l => if C.atomic n then some (.atom (natScan op l)) else none
  | .node a b =>
    if C.atomic n then none
    else if _h : 2 ≤ n then do
      let ps0 ← partialSum C op (leftSize n) a
      let t0 ← b.get C 0
      let p ← ps0.get C ((leftSize n : Int) - 1)
      let tmp ← b.set C 0 (op t0 p)
      let ps1 ← partialSum C op (rightSize n) tmp
      return .node ps0 ps1
    else none
termination_by n
decreasing_by
  all_goals first
    | exact leftSize_lt _h
    | exact rightSize_lt _h

/-! ## Sorting -/

/-- The loop `for (i = n; i < m; ++i) sortable[i] = top` of
Vc/common/simdarray.h:1386-1393; `cnt` steps from `i`. -/
def fillFrom (C : Cfg) (top : α) : Nat → Nat → SA α → Option (SA α)
  | _, 0, x => some x
  | i, cnt + 1, x => do
    let y ← x.set C (i : Int) top
    fillFrom C top (i + 1) cnt y

/-- `sorted()` for array sizes with equal halves. `natSort` is the native `sorted()`, `mn` and
`mx` are `Vc::min`, `Vc::max`. Models Vc/common/simdarray.h:474-477 (atomic), 1361-1378. -/
def sortedPow2 (C : Cfg) (z : α) (natSort : List α → List α) (mn mx : α → α → α) (n : Nat)
    (x : SA α) : Option (SA α) :=
  match x with
  | .atom l => if C.atomic n then some (.atom (natSort l)) else none
  | .node a b =>
    if C.atomic n then none
    else if _h : 2 ≤ n then
      if leftSize n = rightSize n then do
        let sa ← sortedPow2 C z natSort mn mx (leftSize n) a
        let sb ← sortedPow2 C z natSort mn mx (leftSize n) b
        let rb ← sb.reversed C z (leftSize n)
        let lo ← sa.zipWith mn rb
        let hi ← sa.zipWith mx rb
        let r0 ← sortedPow2 C z natSort mn mx (leftSize n) lo
        let r1 ← sortedPow2 C z natSort mn mx (leftSize n) hi
        return .node r0 r1
      else none
    else none
termination_by n
decreasing_by
  all_goals exact leftSize_lt _h

/-- `sorted()`. With unequal halves the array is cast to the next power of two, the new lanes
are set to `top` (`infinity()` or `numeric_limits::max()`), sorted and cast back; all arrays
reached from there have equal halves. Models Vc/common/simdarray.h:474-477 (atomic),
1361-1394. -/
def sorted (C : Cfg) (z top : α) (natSort : List α → List α) (mn mx : α → α → α) (n : Nat)
    (x : SA α) : Option (SA α) :=
  if C.atomic n ∨ leftSize n = rightSize n then sortedPow2 C z natSort mn mx n x
  else do
    let s ← x.cast C z n (nextPow2 n)
    let s ← fillFrom C top n (nextPow2 n - n) s
    let s ← sortedPow2 C z natSort mn mx (nextPow2 n) s
    s.cast C z (nextPow2 n) n

end SA
end Vc.Model
