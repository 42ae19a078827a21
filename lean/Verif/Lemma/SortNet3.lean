import Verif.Lemma.SortNet2

/-!
The networks of the AVX vectors with 32 and 64 bit entries and of SSE double_v.
-/

namespace Vc.Lemma

open Vc.Model Vc.Prop

section
variable {ok : BitVec 32 → Prop} {key : BitVec 32 → Int} {v : Nat → Int}

def wH1 : Nat → Wire := wmax (fun i => .inp (4 + i)) .inp
def wL1 : Nat → Wire := wmin (fun i => .inp (4 + i)) .inp
def wX1 : Nat → Wire := wmix evenP (· / 2) wL1 wH1
def wY1 : Nat → Wire := wmix evenP (fun i => 2 + i / 2) wL1 wH1
def wL2 : Nat → Wire := wmin wX1 wY1
def wH2 : Nat → Wire := wmax wX1 wY1
def wX : Nat → Wire := wmin wL2 fun i => wH2 ([0, 0, 2, 2].getD i 0)
def wY : Nat → Wire := wmax wH2 fun i => wL2 ([1, 1, 3, 3].getD i 0)
def wB (i : Nat) : Wire := if Nat.blt i 2 then wY ([1, 0, 1, 0].getD i 0) else wX ([1, 0, 1, 0].getD i 0)
def wA : Nat → Wire := wmix (fun i => Nat.blt i 2) (fun i => 2 + i % 2) wX wY
/-- `b` reversed. -/
def wRB (i : Nat) : Wire := wB ([3, 2, 1, 0].getD i 0)

/-- `a` holds the entries 1, 3, 5, 7 in ascending order, `b` the entries 0, 2, 4, 6 in descending
order. -/
theorem check_a : check 8 [1, 3, 5, 7] wA = true := by decide +kernel
theorem check_rb : check 8 [0, 2, 4, 6] wRB = true := by decide +kernel

theorem rep_halves {mn mx : M128 → M128 → M128} (H : MinMax ok key 4 mn mx)
    {perm : Nat → Nat → Nat → Nat → M128 → Option M128}
    (hp : ∀ d3 d2 d1 d0 x, d0 < 4 ∧ d1 < 4 ∧ d2 < 4 ∧ d3 < 4 → ∃ r, perm d3 d2 d1 d0 x = some r ∧
      ∀ i, i < 4 → lane 32 r i = lane 32 x ([d0, d1, d2, d3].getD i 0))
    {u : M256} (hu : Rep ok key 8 v u .inp) :
    ∃ x y a b, sortAvx32Halves perm mn mx u = some (x, y, a, b) ∧
      Rep ok key 4 v x wX ∧ Rep ok key 4 v y wY ∧ Rep ok key 4 v a wA ∧ Rep ok key 4 v b wB := by
  have dcba : Rep ok key 4 v (Model.lo128 u) .inp := hu.lo128 (k := 4) (by decide)
  have hgfe : Rep ok key 4 v (Model.hi128 u) fun i => .inp (4 + i) := hu.hi128 (k := 4) (by decide)
  have l := hgfe.mn H dcba
  have h := hgfe.mx H dcba
  have x := l.unpacklo (by decide) h
  have y := l.unpackhi (c := 2) (by decide) (by decide) (by decide) h
  have l := x.mn H y
  have h := x.mx H y
  obtain ⟨r1, e1, p1⟩ := hp 2 2 0 0 _ (by decide)
  obtain ⟨r2, e2, p2⟩ := hp 3 3 1 1 _ (by decide)
  have x := l.mn H (h.shuffle32 p1 (by decide))
  have y := h.mx H (l.shuffle32 p2 (by decide))
  obtain ⟨b, -, e3, p3⟩ := C37_shuffle (d0 := 1) (d1 := 0) (d2 := 9) (d3 := 8) (by decide) (by decide)
    (by decide) (by decide) (mx (mx (unpacklo 32 _ _) _) r2) (mn (mn (unpacklo 32 _ _) _) r1)
  refine ⟨_, _, _, b, ?_, x, y, x.unpackhi64 (c := 2) (by decide) (by decide) (by decide) y,
    y.mix x (fun i => Nat.blt i 2) (fun i => [1, 0, 1, 0].getD i 0) fun i hi => ?_⟩
  · unfold sortAvx32Halves
    simp only [e1, e2, bind, Option.bind]
    rw [e3]
  · rw [p3 i hi]
    match i, hi with
    | 0, _ => exact ⟨by decide, (if_pos rfl).symm⟩
    | 1, _ => exact ⟨by decide, (if_pos rfl).symm⟩
    | 2, _ => exact ⟨by decide, (if_neg (by decide)).symm⟩
    | 3, _ => exact ⟨by decide, (if_neg (by decide)).symm⟩

def wMerge : Nat → Wire :=
  let l := wmin wA wB
  let h := wmax wA wB
  let a := wmix evenP (· / 2) l h
  let b := wmix evenP (fun i => 2 + i / 2) l h
  let l := wmin a b
  let h := wmax a b
  let a := wmix evenP (· / 2) l h
  let b := wmix evenP (fun i => 2 + i / 2) l h
  let l := wmin a b
  let h := wmax a b
  wcat 4 (wmix evenP (· / 2) l h) (wmix evenP (fun i => 2 + i / 2) l h)

theorem check_merge : check 8 (List.range 8) wMerge = true := by decide +kernel

theorem rep_merge {mn mx : M128 → M128 → M128} (H : MinMax ok key 4 mn mx) {a b : M128}
    (ha : Rep ok key 4 v a wA) (hb : Rep ok key 4 v b wB) :
    Rep ok key 8 v (sortAvx32Merge mn mx a b) wMerge := by
  have l := ha.mn H hb
  have h := ha.mx H hb
  have a := l.unpacklo (by decide) h
  have b := l.unpackhi (c := 2) (by decide) (by decide) (by decide) h
  have l := a.mn H b
  have h := a.mx H b
  have a := l.unpacklo (by decide) h
  have b := l.unpackhi (c := 2) (by decide) (by decide) (by decide) h
  have l := a.mn H b
  have h := a.mx H b
  exact (l.unpacklo (by decide) h).concat (k := 4) (by decide)
    (l.unpackhi (c := 2) (by decide) (by decide) (by decide) h)

theorem regPermute4_some (d3 d2 d1 d0 : Nat) (x : M128) (h : d0 < 4 ∧ d1 < 4 ∧ d2 < 4 ∧ d3 < 4) :
    ∃ r, regPermute4 d3 d2 d1 d0 x = some r ∧
      ∀ i, i < 4 → lane 32 r i = lane 32 x ([d0, d1, d2, d3].getD i 0) := by
  obtain ⟨r, -, e, p⟩ := (C37_permute h x).2
  exact ⟨r, e, p⟩

theorem regPermutePs_some (d3 d2 d1 d0 : Nat) (x : M128) (h : d0 < 4 ∧ d1 < 4 ∧ d2 < 4 ∧ d3 < 4) :
    ∃ r, regPermutePs d3 d2 d1 d0 x = some r ∧
      ∀ i, i < 4 → lane 32 r i = lane 32 x ([d0, d1, d2, d3].getD i 0) := (C37_permute h x).1

end

section
variable {ok : BitVec 64 → Prop} {key : BitVec 64 → Int} {v : Nat → Int}

theorem lane_shuffle_swap (x : M128) {i : Nat} (hi : i < 2) : lane 64 (shufflePd x x 1) i = lane 64 x (1 - i) := by
  rw [lane_shufflePd _ _ _ hi]
  match i, hi with
  | 0, _ => rfl
  | 1, _ => rfl

theorem regPermutePd_same {d : Nat} (h : d < 2) (x : M128) : ∃ r, regPermutePd d d x = some r ∧
    ∀ i, i < 2 → d < 2 ∧ lane 64 r i = lane 64 x d := by
  unfold regPermutePd
  rw [if_pos (by omega)]
  refine ⟨_, rfl, fun i hi => ⟨h, ?_⟩⟩
  rw [lane_shufflePd _ _ _ hi, show (d + d * 2) % 2 = d by omega, show (d + d * 2) / 2 % 2 = d by
    match d, h with | 0, _ => rfl | 1, _ => rfl]
  split <;> rfl

def wL4 : Nat → Wire := wmin .inp fun i => .inp (2 + i)
def wH4 : Nat → Wire := wmax .inp fun i => .inp (2 + i)
def wL5 : Nat → Wire := wmin (wmix evenP (· / 2) wL4 wH4) (wmix evenP (fun i => 1 + i / 2) wL4 wH4)
def wH5 : Nat → Wire := wmax (wmix evenP (· / 2) wL4 wH4) (wmix evenP (fun i => 1 + i / 2) wL4 wH4)
def wDouble : Nat → Wire := wcat 2 (wmin wL5 fun _ => wH5 0) (wmax wH5 fun _ => wL5 1)

theorem check_double : check 4 (List.range 4) wDouble = true := by decide +kernel

theorem rep_double (H : MinMax ok key 2 (vFMin Spec.f64 64) (vFMax Spec.f64 64))
    {u : M256} (hu : Rep ok key 4 v u .inp) :
    ∃ r, sortAvxDouble u = some r ∧ Rep ok key 4 v r wDouble := by
  have lo : Rep ok key 2 v (Model.lo128 u) .inp := hu.lo128 (k := 2) (by decide)
  have hi : Rep ok key 2 v (Model.hi128 u) fun i => .inp (2 + i) := hu.hi128 (k := 2) (by decide)
  have l := lo.mn H hi
  have h := lo.mx H hi
  have x := l.unpacklo (by decide) h
  have y := l.unpackhi (c := 1) (by decide) (by decide) (by decide) h
  have l := x.mn H y
  have h := x.mx H y
  obtain ⟨r1, e1, p1⟩ := regPermutePd_same (d := 0) (by decide) (vFMax Spec.f64 64 _ _)
  obtain ⟨r2, e2, p2⟩ := regPermutePd_same (d := 1) (by decide) (vFMin Spec.f64 64 _ _)
  have a := l.mn H (h.sel (fun _ => 0) p1)
  have b := h.mx H (l.sel (fun _ => 1) p2)
  refine ⟨_, ?_, a.concat (k := 2) (by decide) b⟩
  unfold sortAvxDouble
  simp only [e1, e2, bind, Option.bind, pure]

end

end Vc.Lemma
