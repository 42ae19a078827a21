import Verif.Model.ExpSplit
import Verif.Lemma.SimdArray
import Verif.Lemma.Where
import Verif.Prop.ExCfg

/-!
# C107: frexp and ldexp of SimdArray
-/

namespace Vc.Prop
open Vc.Model Vc.Spec Vc.Lemma

variable {α β : Type}

private theorem seg_offset {CI : Cfg} (hCI : CI.Valid) {w : Nat} (hw : 1 ≤ w) (hp : IsPow2 w) (k : Nat) :
    segOffset CI w k = k * w * CI.sz := by
  have hb := (broadcast_wf hCI () w hw).1
  obtain ⟨-, -, h1, h2⟩ := layout hCI hw _ hb
  rw [nextPow2_of_isPow2 hp] at h2
  unfold segOffset
  rw [Nat.le_antisymm h2 h1, Nat.mul_assoc]

private theorem splice2 (l ea eb : List β) (o h : Nat) (ha : ea.length = h) (hb : eb.length = h) (hl : o + 2 * h ≤ l.length) :
    (l.take o ++ ea ++ l.drop (o + h)).take (o + h) ++ eb ++ (l.take o ++ ea ++ l.drop (o + h)).drop (o + h + h) =
      l.take o ++ (ea ++ eb) ++ l.drop (o + 2 * h) := by
  have h1 : (l.take o ++ ea).length = o + h := by simp [ha]; omega
  rw [List.take_left' h1, List.drop_append, List.drop_eq_nil_of_le (by omega), h1, List.drop_drop, List.nil_append]
  simp only [List.append_assoc]
  congr 4
  omega

private theorem pow2_half {n : Nat} (hn : 2 ≤ n) (hp : IsPow2 n) :
    leftSize n = rightSize n ∧ n = 2 * leftSize n ∧ IsPow2 (leftSize n) := by
  have h1 := (leftSize_eq_rightSize_iff hn).mpr hp
  have h2 := leftSize_add_rightSize hn
  exact ⟨h1, by omega, isPow2_leftSize (by omega)⟩

/-- The exponents are a segment of a native vector. -/
private theorem frexp_seg {C CI : Cfg} (hC : C.Valid) (hCI : CI.Valid) (f : α → α × β) (n : Nat) (hn : 1 ≤ n) :
    IsPow2 n → ∀ (x : SA α), SA.WF C n x → ∀ (l : List β) (p k : Nat), l.length = p * n → k < p →
      ∃ r, SA.frexp CI f x (.seg l p k) =
          some (r, .seg (l.take (k * n) ++ x.toList.map (fun v => (f v).2) ++ l.drop (k * n + n)) p k) ∧
        SA.WF C n r ∧ r.toList = x.toList.map fun v => (f v).1 := by
  refine template_induction hC (P := fun n => IsPow2 n → ∀ (x : SA α), SA.WF C n x → ∀ (l : List β) (p k : Nat),
      l.length = p * n → k < p → ∃ r, SA.frexp CI f x (.seg l p k) =
          some (r, .seg (l.take (k * n) ++ x.toList.map (fun v => (f v).2) ++ l.drop (k * n + n)) p k) ∧
        SA.WF C n r ∧ r.toList = x.toList.map fun v => (f v).1) ?_ ?_ n hn
  · intro n hn ha hp x hx l p k hl hk
    obtain ⟨xs, rfl, hxs⟩ := WF.exists_atom ha hx
    have hs0 : 0 < CI.sz := hCI.sz.pos
    have hle : k * n + n ≤ l.length := by
      have : (k + 1) * n ≤ p * n := Nat.mul_le_mul_right _ hk
      rw [Nat.add_mul] at this
      omega
    have ho := seg_offset hCI hn hp k
    refine ⟨.atom (xs.map fun v => (f v).1), ?_, ⟨by simp [hxs], ha⟩, rfl⟩
    have h1 : l.length / p = n := by rw [hl, Nat.mul_div_cancel_left _ (by omega)]
    simp only [SA.frexp, EArg.store, hxs, ho, Nat.mul_div_cancel _ hs0, Nat.mul_mod_left]
    rw [if_pos ⟨h1, trivial, hle⟩]
    rfl
  · intro n hn ha ih0 ih1 hp x hx l p k hl hk
    obtain ⟨a, b, rfl, wa, wb⟩ := WF.exists_node ha hx
    obtain ⟨e1, e2, e3⟩ := pow2_half hn hp
    have la := WF.length hC (one_le_leftSize (by omega)) wa
    have lb := WF.length hC (one_le_rightSize hn) wb
    rw [← e1] at ih1 lb
    have hle : k * n + n ≤ l.length := by
      have : (k + 1) * n ≤ p * n := Nat.mul_le_mul_right _ hk
      rw [Nat.add_mul] at this
      omega
    have hkn : 2 * k * leftSize n = k * n := by rw [Nat.mul_comm 2 k, Nat.mul_assoc, ← e2]
    have hkn1 : (2 * k + 1) * leftSize n = k * n + leftSize n := by rw [Nat.add_mul, hkn, Nat.one_mul]
    obtain ⟨r0, f0, w0, t0⟩ := ih0 e3 a wa l (2 * p) (2 * k)
      (by rw [hl, Nat.mul_comm 2 p, Nat.mul_assoc, ← e2]) (by omega)
    rw [hkn] at f0
    have hl1 : (l.take (k * n) ++ a.toList.map (fun v => (f v).2) ++ l.drop (k * n + leftSize n)).length = l.length := by
      simp only [List.length_append, List.length_take, List.length_map, List.length_drop, la]
      omega
    obtain ⟨r1, f1, w1, t1⟩ := ih1 e3 b (by rw [e1]; exact wb)
      (l.take (k * n) ++ a.toList.map (fun v => (f v).2) ++ l.drop (k * n + leftSize n)) (2 * p) (2 * k + 1)
      (by rw [hl1, hl, Nat.mul_comm 2 p, Nat.mul_assoc, ← e2]) (by omega)
    rw [hkn1] at f1
    refine ⟨.node r0 r1, ?_, ⟨ha, w0, by rw [← e1]; exact w1⟩, ?_⟩
    · have hs := splice2 l (a.toList.map fun v => (f v).2) (b.toList.map fun v => (f v).2) (k * n) (leftSize n)
        (by simp [la]) (by simp [lb]) (by omega)
      simp only [SA.frexp, f0, f1, Option.bind_eq_bind, Option.bind_some, hs]
      rw [show k * n + 2 * leftSize n = k * n + n by omega]
      simp [SA.toList]
    · simp [SA.toList, t0, t1]

/-- `frexp(x, &e)` of SimdArrays: component `i` of the result and of `e` are the mantissa and the exponent of component
`i`, for all sizes and all native sizes of the two types. The previous contents of `e` do not matter. -/
theorem C107_frexp {C CI : Cfg} (hC : C.Valid) (hCI : CI.Valid) (f : α → α × β) (n : Nat) (hn : 1 ≤ n)
    (x : SA α) (hx : SA.WF C n x) (e : SA β) (he : SA.WF CI n e) :
    ∃ r e', SA.frexp CI f x (.tree e) = some (r, .tree e') ∧ SA.WF C n r ∧ SA.WF CI n e' ∧
      r.toList = x.toList.map (fun v => (f v).1) ∧ e'.toList = x.toList.map fun v => (f v).2 := by
  revert x e
  refine template_induction hC (P := fun n => ∀ (x : SA α), SA.WF C n x → ∀ (e : SA β), SA.WF CI n e →
    ∃ r e', SA.frexp CI f x (.tree e) = some (r, .tree e') ∧ SA.WF C n r ∧ SA.WF CI n e' ∧
      r.toList = x.toList.map (fun v => (f v).1) ∧ e'.toList = x.toList.map fun v => (f v).2) ?_ ?_ n hn
  · intro n hn ha x hx e he
    obtain ⟨xs, rfl, hxs⟩ := WF.exists_atom ha hx
    obtain ⟨d, hd⟩ : ∃ d : α, True := ⟨xs[0]'(by omega), trivial⟩
    obtain ⟨t, e1, wt, tt⟩ := gen_wf hCI n hn (fun i => (xs.map fun v => (f v).2)[i]?)
      (fun i => (f (xs.getD i d)).2) (fun i hi => by simp [hxs, hi, List.getD])
    refine ⟨.atom (xs.map fun v => (f v).1), t, ?_, ⟨by simp [hxs], ha⟩, wt, rfl, ?_⟩
    · simp only [SA.frexp, EArg.store, hxs, WF.size hCI hn he, if_true, e1, Option.map_some]
    · rw [tt]
      show _ = xs.map _
      apply List.ext_getElem
      · simp [hxs]
      · intro i h1 h2
        simp only [List.length_map] at h2
        simp [List.getD, h2]
  · intro n hn ha ih0 ih1 x hx e he
    obtain ⟨a, b, rfl, wa, wb⟩ := WF.exists_node ha hx
    cases hI : CI.atomic n with
    | false =>
      obtain ⟨ea, eb, rfl, wea, web⟩ := WF.exists_node hI he
      obtain ⟨r0, t0, f0, w0, v0, x0, y0⟩ := ih0 a wa ea wea
      obtain ⟨r1, t1, f1, w1, v1, x1, y1⟩ := ih1 b wb eb web
      refine ⟨.node r0 r1, .node t0 t1, ?_, ⟨ha, w0, w1⟩, ⟨hI, v0, v1⟩, ?_, ?_⟩
      · simp only [SA.frexp, f0, f1, Option.bind_eq_bind, Option.bind_some]
      · simp [SA.toList, x0, x1]
      · simp [SA.toList, y0, y1]
    | true =>
      obtain ⟨l, rfl, hl⟩ := WF.exists_atom hI he
      have hp := hCI.isPow2 hI
      obtain ⟨r, h1, h2, h3⟩ := frexp_seg hC hCI f n (by omega) hp (.node a b) hx l 1 0 (by omega) (by decide)
      simp only [Nat.zero_mul, List.take_zero, List.nil_append, Nat.zero_add] at h1
      rw [List.drop_eq_nil_of_le (by omega), List.append_nil] at h1
      refine ⟨r, .atom ((SA.node a b).toList.map fun v => (f v).2), ?_, h2, ⟨?_, hI⟩, h3, rfl⟩
      · simp only [SA.frexp, Nat.mul_one, Nat.mul_zero, Nat.zero_add] at h1 ⊢
        revert h1
        cases h4 : SA.frexp CI f a (.seg l 2 0) with
        | none => intro h1; cases h1
        | some r0 =>
          simp only [Option.bind_eq_bind, Option.bind_some]
          cases h5 : r0.2 with
          | tree _ => intro h1; cases h1
          | seg l1 p1 k1 =>
            simp only
            cases h6 : SA.frexp CI f b (.seg l1 2 1) with
            | none => intro h1; cases h1
            | some r1 =>
              simp only [Option.bind_some]
              cases h7 : r1.2 with
              | tree _ => intro h1; cases h1
              | seg l2 p2 k2 =>
                intro h1
                simp only [Option.some.injEq, Prod.mk.injEq, EArg.seg.injEq] at h1 ⊢
                exact ⟨h1.1, by rw [h1.2.1]⟩
      · simp [WF.length hC (by omega) hx]

/-- `double` with SSE (native widths 2 and 1). -/
def exDoubleSse : Cfg := ⟨[2, 1], 8, 127⟩

theorem exDoubleSse_valid : exDoubleSse.Valid where
  widths := by
    intro w hw
    simp only [exDoubleSse, List.mem_cons, List.not_mem_nil, or_false] at hw
    rcases hw with rfl | rfl
    · exact ⟨1, rfl⟩
    · exact ⟨0, rfl⟩
  last := rfl
  sz := ⟨3, rfl⟩
  amask := ⟨7, rfl⟩

/-- `frexp` of seven components with SSE: the four exponents of one `int` vector come from two `double` vectors, the
others from one vector and one scalar. -/
example : ∃ (x : SA Nat) (e : SA Nat), SA.WF exDoubleSse 7 x ∧ SA.WF exCfg 7 e ∧
    x.toList = [10, 11, 12, 13, 14, 15, 16] ∧
    ∃ r e', SA.frexp exCfg (fun v => (v % 4, v / 4)) x (.tree e) = some (r, .tree e') ∧
      r.toList = [2, 3, 0, 1, 2, 3, 0] ∧ e'.toList = [2, 2, 3, 3, 3, 3, 4] := by
  obtain ⟨x, wx, tx⟩ := exists_of_lanes exDoubleSse_valid [10, 11, 12, 13, 14, 15, 16] (by decide)
  obtain ⟨e, we, -⟩ := exists_of_lanes exCfg_valid [0, 0, 0, 0, 0, 0, 0] (by decide)
  obtain ⟨r, e', h1, -, -, h2, h3⟩ :=
    C107_frexp exDoubleSse_valid exCfg_valid (fun v : Nat => (v % 4, v / 4)) 7 (by decide) x wx e we
  refine ⟨x, e, wx, we, tx, r, e', h1, ?_, ?_⟩
  · rw [h2, tx]; rfl
  · rw [h3, tx]; rfl

/-- The exponents are a segment of a native vector. -/
private theorem ldexp_seg {C : Cfg} (hC : C.Valid) (g : α → β → α) (n : Nat) (hn : 1 ≤ n) :
    IsPow2 n → ∀ (x : SA α), SA.WF C n x → ∀ (l : List β) (p k : Nat), l.length = p * n → k < p →
      ∃ r, SA.ldexp g x (.seg l p k) = some r ∧ SA.WF C n r ∧
        r.toList = List.zipWith g x.toList ((l.drop (k * n)).take n) := by
  refine template_induction hC (P := fun n => IsPow2 n → ∀ (x : SA α), SA.WF C n x → ∀ (l : List β) (p k : Nat),
      l.length = p * n → k < p → ∃ r, SA.ldexp g x (.seg l p k) = some r ∧ SA.WF C n r ∧
        r.toList = List.zipWith g x.toList ((l.drop (k * n)).take n)) ?_ ?_ n hn
  · intro n hn ha hp x hx l p k hl hk
    obtain ⟨xs, rfl, hxs⟩ := WF.exists_atom ha hx
    have hle : k * n + n ≤ l.length := by
      have : (k + 1) * n ≤ p * n := Nat.mul_le_mul_right _ hk
      rw [Nat.add_mul] at this
      omega
    have h1 : l.length / p = n := by rw [hl, Nat.mul_div_cancel_left _ (by omega)]
    refine ⟨.atom (List.zipWith g xs ((l.drop (k * n)).take n)), ?_, ⟨?_, ha⟩, rfl⟩
    · simp only [SA.ldexp, EArg.load, hxs, h1, if_true, Option.map_some]
    · simp [hxs]; omega
  · intro n hn ha ih0 ih1 hp x hx l p k hl hk
    obtain ⟨a, b, rfl, wa, wb⟩ := WF.exists_node ha hx
    obtain ⟨e1, e2, e3⟩ := pow2_half hn hp
    have la := WF.length hC (one_le_leftSize (by omega)) wa
    rw [← e1] at ih1
    have hkn : 2 * k * leftSize n = k * n := by rw [Nat.mul_comm 2 k, Nat.mul_assoc, ← e2]
    have hkn1 : (2 * k + 1) * leftSize n = k * n + leftSize n := by rw [Nat.add_mul, hkn, Nat.one_mul]
    obtain ⟨r0, f0, w0, t0⟩ := ih0 e3 a wa l (2 * p) (2 * k)
      (by rw [hl, Nat.mul_comm 2 p, Nat.mul_assoc, ← e2]) (by omega)
    obtain ⟨r1, f1, w1, t1⟩ := ih1 e3 b (by rw [e1]; exact wb) l (2 * p) (2 * k + 1)
      (by rw [hl, Nat.mul_comm 2 p, Nat.mul_assoc, ← e2]) (by omega)
    rw [hkn] at t0
    rw [hkn1] at t1
    refine ⟨.node r0 r1, ?_, ⟨ha, w0, by rw [← e1]; exact w1⟩, ?_⟩
    · simp only [SA.ldexp, f0, f1, Option.bind_eq_bind, Option.bind_some]
      rfl
    · have hle : k * n + n ≤ l.length := by
        have : (k + 1) * n ≤ p * n := Nat.mul_le_mul_right _ hk
        rw [Nat.add_mul] at this
        omega
      have hsplit : (l.drop (k * n)).take n =
          (l.drop (k * n)).take (leftSize n) ++ (l.drop (k * n + leftSize n)).take (leftSize n) := by
        have h : ∀ (m : List β) (h : Nat), m.take (2 * h) = m.take h ++ (m.drop h).take h := fun m h => by
          rw [Nat.two_mul, List.take_add]
        have h := h (l.drop (k * n)) (leftSize n)
        rw [← e2, List.drop_drop] at h
        exact h
      simp only [SA.toList, t0, t1]
      rw [hsplit, List.zipWith_append]
      simp [la]
      omega

/-- `ldexp(x, e)` of SimdArrays: component `i` of the result is computed from the components `i` of `x` and `e`, for all
sizes and all native sizes of the two types. -/
theorem C107_ldexp {C CI : Cfg} (hC : C.Valid) (hCI : CI.Valid) (g : α → β → α) (n : Nat) (hn : 1 ≤ n)
    (x : SA α) (hx : SA.WF C n x) (e : SA β) (he : SA.WF CI n e) :
    ∃ r, SA.ldexp g x (.tree e) = some r ∧ SA.WF C n r ∧ r.toList = List.zipWith g x.toList e.toList := by
  revert x e
  refine template_induction hC (P := fun n => ∀ (x : SA α), SA.WF C n x → ∀ (e : SA β), SA.WF CI n e →
    ∃ r, SA.ldexp g x (.tree e) = some r ∧ SA.WF C n r ∧ r.toList = List.zipWith g x.toList e.toList) ?_ ?_ n hn
  · intro n hn ha x hx e he
    obtain ⟨xs, rfl, hxs⟩ := WF.exists_atom ha hx
    refine ⟨.atom (List.zipWith g xs e.toList), ?_, ⟨?_, ha⟩, rfl⟩
    · simp only [SA.ldexp, EArg.load, hxs, WF.size hCI hn he, if_true, Option.map_some]
    · simp [hxs, WF.length hCI hn he]
  · intro n hn ha ih0 ih1 x hx e he
    obtain ⟨a, b, rfl, wa, wb⟩ := WF.exists_node ha hx
    cases hI : CI.atomic n with
    | false =>
      obtain ⟨ea, eb, rfl, wea, web⟩ := WF.exists_node hI he
      obtain ⟨r0, f0, w0, x0⟩ := ih0 a wa ea wea
      obtain ⟨r1, f1, w1, x1⟩ := ih1 b wb eb web
      refine ⟨.node r0 r1, ?_, ⟨ha, w0, w1⟩, ?_⟩
      · simp only [SA.ldexp, f0, f1, Option.bind_eq_bind, Option.bind_some]; rfl
      · simp only [SA.toList, x0, x1]
        rw [List.zipWith_append]
        rw [WF.length hC (one_le_leftSize (by omega)) wa, WF.length hCI (one_le_leftSize (by omega)) wea]
    | true =>
      obtain ⟨l, rfl, hl⟩ := WF.exists_atom hI he
      have hp := hCI.isPow2 hI
      obtain ⟨r, h1, h2, h3⟩ := ldexp_seg hC g n (by omega) hp (.node a b) hx l 1 0 (by omega) (by decide)
      simp only [Nat.zero_mul, List.drop_zero] at h3
      rw [List.take_of_length_le (by omega)] at h3
      exact ⟨r, h1, h2, h3⟩

/-- `ldexp` of seven components. -/
example : ∃ (x : SA Nat) (e : SA Nat), SA.WF exDoubleSse 7 x ∧ SA.WF exCfg 7 e ∧
    ∃ r, SA.ldexp (fun v k => v * 2 ^ k) x (.tree e) = some r ∧ r.toList = [10, 22, 48, 13, 28, 60, 16] := by
  obtain ⟨x, wx, tx⟩ := exists_of_lanes exDoubleSse_valid [10, 11, 12, 13, 14, 15, 16] (by decide)
  obtain ⟨e, we, te⟩ := exists_of_lanes exCfg_valid [0, 1, 2, 0, 1, 2, 0] (by decide)
  obtain ⟨r, h1, -, h2⟩ := C107_ldexp exDoubleSse_valid exCfg_valid (fun v k : Nat => v * 2 ^ k) 7 (by decide) x wx e we
  exact ⟨x, e, wx, we, r, h1, by rw [h2, tx, te]; rfl⟩

/-- Round trip: if `g` inverts `f`, `ldexp(frexp(x, &e), e)` is `x`. -/
theorem C107_roundtrip {C CI : Cfg} (hC : C.Valid) (hCI : CI.Valid) (f : α → α × β) (g : α → β → α) (n : Nat) (hn : 1 ≤ n)
    (x : SA α) (hx : SA.WF C n x) (hfg : ∀ v ∈ x.toList, g (f v).1 (f v).2 = v) (e : SA β) (he : SA.WF CI n e) :
    ∃ r e' y, SA.frexp CI f x (.tree e) = some (r, .tree e') ∧ SA.ldexp g r (.tree e') = some y ∧
      y.toList = x.toList := by
  obtain ⟨r, e', h1, h2, h3, h4, h5⟩ := C107_frexp hC hCI f n hn x hx e he
  obtain ⟨y, h6, h7, h8⟩ := C107_ldexp hC hCI g n hn r h2 e' h3
  refine ⟨r, e', y, h1, h6, ?_⟩
  rw [h8, h4, h5, List.zipWith_map, List.zipWith_self]
  conv => rhs; rw [← List.map_id x.toList]
  exact List.map_congr_left fun v hv => hfg v hv

/-- An inverse pair on all numbers. -/
example : ∀ v : Nat, (fun m k : Nat => m + 4 * k) ((fun v : Nat => (v % 4, v / 4)) v).1 ((fun v : Nat => (v % 4, v / 4)) v).2 = v :=
  fun v => by show v % 4 + 4 * (v / 4) = v; omega

end Vc.Prop
