import Verif.Prop.ExCfg
import Verif.Lemma.SimdCastOff

/-!
# C26: simd_cast

`E.C`, `E.C'` are the environments of the source and the target entry type, `E.f` the conversion
of an entry, `E.zs`, `E.zt` zero of the source and the target entry type. `lane z l j` is `l[j]`,
or `z` if there is no such element.
-/

namespace Vc.Prop
open Vc.Model Vc.Spec Vc.Lemma

variable {α β : Type _} {C : Cfg}

theorem get_of_tab (hC : C.Valid) {n : Nat} (hn : 1 ≤ n) {r : SA α} (h : SA.WF C n r)
    {F : Int → α} (t : r.toList = tab n F) (i : Nat) (hi : i < n) :
    r.get C (i : Int) = some (F i) := by
  rw [get_eq hC hn h, t, List.getElem?_eq_getElem (by simpa using hi), tab_getElem]

/-- `simd_cast<SimdArray<U, n>>(x0, x1, ...)` of arrays with `N` lanes each: lane `i` is the
converted lane `i` of the concatenation, lanes beyond are zero, surplus lanes are dropped. With
more than one superfluous argument no overload exists. -/
theorem C26_cast (E : CastEnv α β) (hC : E.C.Valid) (hC' : E.C'.Valid) (hf : E.f E.zs = E.zt)
    (N n : Nat) (hN : 1 ≤ N) (hn : 1 ≤ n) (xs : List (SA α)) (hx : ∀ x ∈ xs, SA.WF E.C N x)
    (h1 : 1 ≤ xs.length) (h2 : xs.length = 1 ∨ N * (xs.length - 2) < n) :
    ∃ r, Cast.simdCast E N n xs = some r ∧ SA.WF E.C' n r ∧
      ∀ i : Nat, i < n → r.get E.C' (i : Int) =
        some (lane E.zt ((xs.flatMap SA.toList).map E.f) i) := by
  obtain ⟨r, e, w, t⟩ := simdCast_wf E hC hC' hf n hn N hN _ xs rfl hx h1 h2
  refine ⟨r, e, w, fun i hi => ?_⟩
  rw [get_of_tab hC' hn w (F := fun i => lane E.zt ((lanes xs).map E.f) i) t i hi]
  simp [lanes, List.flatMap]

/-- Three arrays of five `int`s to one array of 13 `short`s. -/
example : ∃ (E : CastEnv Int Int) (xs : List (SA Int)), E.C.Valid ∧ E.C'.Valid ∧ E.f E.zs = E.zt ∧
    (∀ x ∈ xs, SA.WF E.C 5 x) ∧ xs.length = 3 ∧ 5 * (xs.length - 2) < 13 := by
  obtain ⟨x, hx, _⟩ := exists_of_lanes exCfg_valid [(1 : Int), 2, -3, 4, 5] (by decide)
  refine ⟨⟨exCfg, exCfg', fun a => a.bmod 65536, 0, 0⟩, [x, x, x], exCfg_valid, exCfg'_valid, by decide,
    ?_, rfl, by simp⟩
  intro y hy
  simp at hy
  subst hy; exact hx

/-- `simd_cast<SimdArray<U, n>>(v0, v1, ...)` of native vectors with `m` lanes each. -/
theorem C26_cast_native (E : CastEnv α β) (hC' : E.C'.Valid) (hf : E.f E.zs = E.zt) (m n : Nat)
    (hm : IsPow2 m) (hn : 1 ≤ n) (xs : List (List α)) (hx : ∀ x ∈ xs, x.length = m)
    (h1 : 1 ≤ xs.length) (h2 : xs.length = 1 ∨ m * (xs.length - 1) < n) :
    ∃ r, Cast.ofNative E m n xs = some r ∧ SA.WF E.C' n r ∧
      ∀ i : Nat, i < n → r.get E.C' (i : Int) = some (lane E.zt (xs.flatten.map E.f) i) := by
  obtain ⟨r, e, w, t⟩ := (native_casts E hC' hf hm n hn).1 xs hx h1 h2
  exact ⟨r, e, w, fun i hi => get_of_tab hC' hn w t i hi⟩

example : IsPow2 4 ∧ (∀ x ∈ [[1, 2, 3, 4], [5, 6, 7, 8]], x.length = 4) ∧ 4 * (2 - 1) < 7 :=
  ⟨⟨2, rfl⟩, by decide, by decide⟩

/-- The part of the source that `simd_cast<SimdArray<U, n>, off>` converts, starting with lane
`off * n`, if source or target have a power-of-two number of lanes or the shifts of the second
half of the source are right (`ShiftOk`, C20). Missing: the other cases, for which the claim is
false (below). -/
theorem C26_cast_offset_partial (E : CastEnv α β) (hC : E.C.Valid) (hC' : E.C'.Valid)
    (hf : E.f E.zs = E.zt) (N n off : Nat) (hN : 1 ≤ N) (hn : 1 ≤ n)
    (hs : IsPow2 N ∨ IsPow2 n ∨
      ∀ (M k : Nat), 1 ≤ M → M < N → 0 < k → k < n → ShiftOk E.C M k)
    (x : SA α) (hx : SA.WF E.C N x) :
    ∃ r, Cast.castOff E N n off x = some r ∧ SA.WF E.C' n r ∧
      ∀ i : Nat, i < n → r.get E.C' (i : Int) =
        some (lane E.zt (x.toList.map E.f) (i + (off * n : Nat))) := by
  obtain ⟨r, e, w, t⟩ := castOff_wf E hC hC' hf N hN n hn hs off x hx
  exact ⟨r, e, w, fun i hi => get_of_tab hC' hn w t i hi⟩

/-- `float` arrays of up to three lanes with SSE meet the third alternative for every target. -/
example (n : Nat) : ∀ (M k : Nat), 1 ≤ M → M < 3 → 0 < k → k < n → ShiftOk exCfg M k := by
  intro M k h1 h2 _ _
  have : M = 1 ∨ M = 2 := by omega
  rcases this with rfl | rfl
  · exact .pow2 ⟨0, rfl⟩
  · exact .pow2 ⟨1, rfl⟩

/-- `simd_cast<SimdArray<U, n>, off>(v)` of a native vector. -/
theorem C26_cast_offset_native (E : CastEnv α β) (hC' : E.C'.Valid) (hf : E.f E.zs = E.zt)
    (m n off : Nat) (hm : IsPow2 m) (hn : 1 ≤ n) (x : List α) (hx : x.length = m) :
    ∃ r, Cast.offNative E m n off x = some r ∧ SA.WF E.C' n r ∧
      ∀ i : Nat, i < n → r.get E.C' (i : Int) =
        some (lane E.zt (x.map E.f) (i + (off * n : Nat))) := by
  obtain ⟨r, e, w, t⟩ := (native_casts E hC' hf hm n hn).2.2.1 x off hx
  exact ⟨r, e, w, fun i hi => get_of_tab hC' hn w t i hi⟩

example : IsPow2 8 ∧ (List.range 8).length = 8 := ⟨⟨3, rfl⟩, rfl⟩

/-- `double` with SSE: native widths 2 and 1, entries of 8 bytes. -/
def exCfgD : Cfg := ⟨[2, 1], 8, 127⟩

theorem exCfgD_valid : exCfgD.Valid where
  widths := by
    intro w hw
    simp only [exCfgD, List.mem_cons, List.not_mem_nil, or_false] at hw
    rcases hw with rfl | rfl
    · exact ⟨1, rfl⟩
    · exact ⟨0, rfl⟩
  last := rfl
  sz := ⟨3, rfl⟩
  amask := ⟨7, rfl⟩

theorem sizes13 : leftSize 13 = 8 ∧ rightSize 13 = 5 ∧ leftSize 5 = 4 ∧ rightSize 5 = 1 ∧
    leftSize 4 = 2 ∧ rightSize 4 = 2 := by decide +kernel

/-- The unrestricted claim is false: `simd_cast<SimdArray<float, 5>, 2>(x)` of a
`SimdArray<double, 13>` reads past the end of an array of one `double` (`none`). -/
theorem C26_cast_offset_violated :
    ∃ x : SA Nat, SA.WF exCfgD 13 x ∧
      Cast.castOff (⟨exCfgD, exCfg, id, 0, 0⟩ : CastEnv Nat Nat) 13 5 2 x = none := by
  obtain ⟨x, wx, tx⟩ := exists_of_lanes exCfgD_valid (List.range 13) (by decide)
  refine ⟨x, wx, ?_⟩
  have a13 : exCfgD.atomic 13 = false := by decide
  have a5 : exCfgD.atomic 5 = false := by decide
  have a4 : exCfgD.atomic 4 = false := by decide
  have a2 : exCfgD.atomic 2 = true := by decide
  have a1 : exCfgD.atomic 1 = true := by decide
  obtain ⟨sL, sR, sL5, sR5, sL4, sR4⟩ := sizes13
  obtain ⟨a, b, rfl, wa, wb⟩ := WF.exists_node a13 (show SA.WF exCfgD 13 x from wx)
  rw [sR] at wb
  obtain ⟨c, d, rfl, wc, wd⟩ := WF.exists_node a5 wb
  rw [sL5] at wc
  rw [sR5] at wd
  obtain ⟨c0, c1, rfl, wc0, wc1⟩ := WF.exists_node a4 wc
  obtain ⟨l, rfl, hl⟩ := WF.exists_atom a1 wd
  match l, hl with
  | [v], _ =>
    rw [Cast.castOff.eq_def, if_neg (by decide)]
    dsimp only
    rw [if_neg (by simp [a13]), dif_pos (by decide), if_pos (by rw [sL]; decide),
      if_neg (by rw [sL]; decide), sR, sL]
    rw [Cast.castWithOff, if_neg (by decide), if_neg (by decide), if_neg (by decide),
      if_neg (by decide), dif_pos (by decide), sL5, sR5]
    rw [Cast.castWithOff, if_neg (by decide), if_neg (by decide), if_neg (by decide),
      if_pos (by decide)]
    have hs : SA.shifted exCfgD 0 5 ((((2 * 5 - 8) % 4 : Nat)) : Int)
        (.node (.node c0 c1) (.atom [v])) = none := by
      rw [SA.shifted, if_neg (by simp [a5]), dif_pos (by decide), if_neg (by decide),
        if_neg (by decide), if_neg (by decide), if_neg (by rw [sL5]; decide),
        if_pos (by rw [sR5]; decide), sL5, sR5]
      have h2 : ∀ f : Nat → Option Nat, f 1 = none → SA.gen exCfgD 2 f = none := by
        intro f hf
        rw [SA.gen, if_pos a2]
        cases h0 : f 0 with
        | none => simp [List.range, List.range.loop, h0]
        | some _ => simp [List.range, List.range.loop, h0, hf]
      have h4 : ∀ f : Nat → Option Nat, f 3 = none → SA.gen exCfgD 4 f = none := by
        intro f hf
        rw [SA.gen, if_neg (by simp [a4]), dif_pos (by decide), sL4, sR4, h2 (fun i => f (i + 2)) hf]
        cases SA.gen exCfgD 2 f <;> rfl
      rw [SA.shiftedIn, if_neg (by simp [a4]), dif_pos (by decide), if_neg (by simp),
        if_neg (by decide), h4 _ rfl]
      rfl
    dsimp only
    rw [hs]
    rfl

end Vc.Prop
