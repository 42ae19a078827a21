import Verif.Model.SimdCastOff
import Verif.Lemma.SimdArrayShift2

namespace Vc.Lemma
open Vc.Model Vc.Spec

section
variable (E : CastEnv α β)

theorem copyFrom_wf (hC : E.C.Valid) (hC' : E.C'.Valid) {N n : Nat}
    (hN : 1 ≤ N) (hn : 1 ≤ n) {x : SA α} (hx : SA.WF E.C N x) {first : Nat} {r : SA β}
    (hr : SA.WF E.C' n r) : ∀ cnt, first + cnt ≤ N → cnt ≤ n →
      ∃ y, Cast.copyFrom E first x cnt r = some y ∧ SA.WF E.C' n y ∧
        y.toList = tab n fun i => if i < cnt then
          lane E.zt (x.toList.map E.f) (i + first) else lane E.zt r.toList i := by
  intro cnt
  induction cnt with
  | zero =>
    intro _ _
    refine ⟨r, rfl, hr, ?_⟩
    have hl := WF.length hC' hn hr
    refine (eq_tab_lane E.zt hl).trans ?_
    apply tab_congr
    intro i _ _
    rw [if_neg (by omega)]
  | succ i ih =>
    intro h1 h2
    obtain ⟨y, ey, wy, ty⟩ := ih (by omega) (by omega)
    have hll : x.toList.length = N := WF.length hC hN hx
    have hg : x.get E.C ((first + i : Nat) : Int) = some (x.toList[first + i]'(by omega)) := by
      rw [get_eq hC hN hx]
      exact List.getElem?_eq_getElem (by omega)
    obtain ⟨w, ew, ww, tw⟩ := set_eq hC' (E.f (x.toList[first + i]'(by omega))) hn wy i (by omega)
    refine ⟨w, by simp only [Cast.copyFrom, ey, hg, Option.bind_eq_bind, Option.bind_some, ew], ww, ?_⟩
    rw [tw, ty]
    apply eq_tab (by simp)
    intro j hj
    simp only [List.length_set, tab_length] at hj
    rw [List.getElem_set]
    split
    · rename_i e
      subst e
      rw [if_pos (by omega)]
      have : (i : Int) + first = ((first + i : Nat) : Int) := by omega
      rw [this, lane_eq_getElem _ _ (first + i) (by rw [List.length_map]; omega)]
      simp
    · rename_i e
      rw [tab_getElem]
      by_cases hc : (j : Int) < i
      · rw [if_pos hc, if_pos (by omega)]
      · rw [if_neg hc, if_neg (by omega)]

def CastOffOk (N n : Nat) : Prop := ∀ (off : Nat) (x : SA α), SA.WF E.C N x →
  ∃ r, Cast.castOff E N n off x = some r ∧ SA.WF E.C' n r ∧
    r.toList = tab n fun i => lane E.zt (x.toList.map E.f) (i + (off * n : Nat))

def CastWithOffOk (N n : Nat) : Prop := ∀ (off : Nat) (x : SA α), SA.WF E.C N x →
  ∃ r, Cast.castWithOff E N n off x = some r ∧ SA.WF E.C' n r ∧
    r.toList = tab n fun i => lane E.zt (x.toList.map E.f) (i + off)

/-- Cases in which the offset cast does not need a `shifted` that is wrong. -/
def CastShifts (N n : Nat) : Prop :=
  IsPow2 N ∨ IsPow2 n ∨ ∀ (M k : Nat), 1 ≤ M → M < N → 0 < k → k < n → ShiftOk E.C M k

theorem isPow2_rightSize {N : Nat} (h : IsPow2 N) (h2 : 2 ≤ N) : IsPow2 (rightSize N) := by
  have hl := isPow2_leftSize (n := N) (by omega)
  have hs := leftSize_add_rightSize h2
  obtain ⟨k, rfl⟩ := h
  obtain ⟨j, hj⟩ := hl
  have hlt := leftSize_lt h2
  have hle := rightSize_le_leftSize (2 ^ k)
  rw [hj] at hs hlt hle
  have h1 : j < k := (Nat.pow_lt_pow_iff_right (by decide)).mp hlt
  have h3 : k ≤ j + 1 := by
    apply (Nat.pow_le_pow_iff_right (a := 2) (by decide)).mp
    rw [Nat.pow_succ]; omega
  have : k = j + 1 := by omega
  subst this
  rw [Nat.pow_succ] at hs
  exact ⟨j, by rw [Nat.pow_succ]; omega⟩

theorem castOff_step (hC : E.C.Valid) (hC' : E.C'.Valid) (hf : E.f E.zs = E.zt) {N n : Nat}
    (hN : 1 ≤ N) (hn : 1 ≤ n) (ih : 2 ≤ N → CastOffOk E (leftSize N) n ∧ CastOffOk E (rightSize N) n)
    (ihR : 2 ≤ N → leftSize N % n ≠ 0 → ∀ (off : Nat) (x : SA α), leftSize N ≤ off * n →
      SA.WF E.C (rightSize N) x →
      ∃ r, Cast.castWithOff E (rightSize N) n (off * n - leftSize N) x = some r ∧ SA.WF E.C' n r ∧
        r.toList = tab n fun i => lane E.zt (x.toList.map E.f) (i + (off * n - leftSize N : Nat))) :
    CastOffOk E N n := by
  intro off x wx
  rw [Cast.castOff.eq_def]
  by_cases h0 : off = 0
  · rw [if_pos h0]
    obtain ⟨r, er, wr, tr⟩ := simdCast_wf E hC hC' hf n hn N hN 1 [x] rfl
      (by intro y hy; simp at hy; subst hy; exact wx) (by omega) (.inl rfl)
    refine ⟨r, er, wr, ?_⟩
    rw [tr]
    subst h0
    unfold resize
    apply tab_congr
    intro i _ _
    simp [lanes]
  · rw [if_neg h0]
    cases ha : E.C.atomic N with
    | true =>
      obtain ⟨l, rfl, hl⟩ := WF.exists_atom ha wx
      dsimp only
      rw [if_pos rfl]
      obtain ⟨-, -, hF, -⟩ := native_casts E hC' hf (hC.isPow2 ha) n hn
      exact hF l off hl
    | false =>
      have hn2 := hC.two_le hN ha
      have hsum := leftSize_add_rightSize hn2
      have hL1 := one_le_leftSize (n := N) hN
      have hR1 := one_le_rightSize hn2
      obtain ⟨a, b, rfl, wa, wb⟩ := WF.exists_node ha wx
      have la := WF.length hC hL1 wa
      have lb := WF.length hC hR1 wb
      dsimp only
      rw [if_neg (by simp), dif_pos hn2]
      by_cases h1 : leftSize N ≤ off * n
      · rw [if_pos h1]
        by_cases h2 : leftSize N % n = 0
        · rw [if_pos h2]
          obtain ⟨r, er, wr, tr⟩ := (ih hn2).2 (off - leftSize N / n) b wb
          refine ⟨r, er, wr, ?_⟩
          rw [tr]
          apply tab_congr
          intro i hi _
          have hd : leftSize N / n * n = leftSize N := Nat.div_mul_cancel (Nat.dvd_of_mod_eq_zero h2)
          rw [Nat.sub_mul, hd]
          simp only [SA.toList, List.map_append, lane_append, List.length_map, la]
          rw [if_neg (by omega)]
          congr 1; omega
        · rw [if_neg h2]
          obtain ⟨r, er, wr, tr⟩ := ihR hn2 h2 off b h1 wb
          refine ⟨r, er, wr, ?_⟩
          rw [tr]
          apply tab_congr
          intro i hi _
          simp only [SA.toList, List.map_append, lane_append, List.length_map, la]
          rw [if_neg (by omega)]
          congr 1; omega
      · rw [if_neg h1]
        have hm : (off + 1) * n = off * n + n := by rw [Nat.add_mul, Nat.one_mul]
        by_cases h2 : (off + 1) * n ≤ leftSize N
        · rw [if_pos h2]
          obtain ⟨r, er, wr, tr⟩ := (ih hn2).1 off a wa
          refine ⟨r, er, wr, ?_⟩
          rw [tr]
          apply tab_congr
          intro i hi _
          simp only [SA.toList, List.map_append, lane_append, List.length_map, la]
          rw [if_pos (by omega)]
        · rw [if_neg h2]
          obtain ⟨wz, tz⟩ := broadcast_wf hC' E.zt n hn
          obtain ⟨r, er, wr, tr⟩ := copyFrom_wf E hC hC' hN hn wx wz (first := off * n)
            (min N ((off + 1) * n) - off * n) (by omega) (by omega)
          refine ⟨r, er, wr, ?_⟩
          rw [tr]
          apply tab_congr
          intro i hi _
          have lx : (SA.node a b).toList.length = N := WF.length hC hN wx
          split
          · rfl
          · rw [tz, lane_replicate, lane_of_ge]
            rw [List.length_map]; omega

theorem castWithOff_step (hC : E.C.Valid) (hC' : E.C'.Valid) (hf : E.f E.zs = E.zt) {N : Nat}
    (hN : 1 ≤ N) {n : Nat} (hn : 1 ≤ n) (hO : ∀ k, 1 ≤ k → k ≤ n → CastOffOk E N k)
    (hS : ∀ k : Nat, 0 < k → k < n → ShiftOk E.C N k) : CastWithOffOk E N n := by
  induction n using Nat.strongRecOn with
  | ind n ih =>
    intro off x wx
    have lx := WF.length hC hN wx
    rw [Cast.castWithOff]
    by_cases h0 : off = 0
    · rw [if_pos h0]
      have := hO n hn (by omega) 0 x wx
      rw [Cast.castOff.eq_def, if_pos rfl] at this
      subst h0
      simpa using this
    · rw [if_neg h0]
      by_cases h1 : N ≤ off
      · rw [if_pos h1]
        obtain ⟨wz, tz⟩ := broadcast_wf hC' E.zt n hn
        refine ⟨_, rfl, wz, ?_⟩
        rw [tz, ← tab_const]
        apply tab_congr
        intro i h _
        rw [lane_of_ge]
        rw [List.length_map]; omega
      · rw [if_neg h1]
        by_cases h2 : off % n = 0
        · rw [if_pos h2]
          have := hO n hn (by omega) (off / n) x wx
          rwa [Nat.div_mul_cancel (Nat.dvd_of_mod_eq_zero h2)] at this
        · rw [if_neg h2]
          cases ha : E.C'.atomic n with
          | true =>
            rw [if_pos rfl]
            obtain ⟨s, es, ws, ts⟩ := shifted_general hC E.zs
              (hS (off % n) (by omega) (Nat.mod_lt _ hn)) hN x wx
            rw [es, Option.bind_eq_bind, Option.bind_some]
            obtain ⟨r, er, wr, tr⟩ := hO n hn (by omega) (off / n) s ws
            refine ⟨r, er, wr, ?_⟩
            rw [tr, ts]
            apply tab_congr
            intro i hi _
            have hd := Nat.div_add_mod off n
            rw [Nat.mul_comm] at hd
            have hd' : ((off / n * n : Nat) : Int) + ((off % n : Nat) : Int) = off := by omega
            rw [← hf, lane_map, lane_map, lane_tab]
            have hd' : ((off / n * n : Nat) : Int) + ((off % n : Nat) : Int) = off := by
              rw [hf] at *; omega
            split
            · congr 2; omega
            · rw [lane_of_ge _ x.toList]; omega
          | false =>
            have hn2 := hC'.two_le hn ha
            have hsum := leftSize_add_rightSize hn2
            have hL1 := one_le_leftSize (n := n) hn
            have hR1 := one_le_rightSize hn2
            have hLt := leftSize_lt hn2
            have hRt := rightSize_lt hn2
            rw [if_neg (by simp), dif_pos hn2]
            obtain ⟨a, ea, wa, ta⟩ := ih _ hLt hL1 (fun k h1 h2 => hO k h1 (by omega))
              (fun k h1 h2 => hS k h1 (by omega)) off x wx
            obtain ⟨b, eb, wb, tb⟩ := ih _ hRt hR1 (fun k h1 h2 => hO k h1 (by omega))
              (fun k h1 h2 => hS k h1 (by omega)) (off + leftSize n) x wx
            refine ⟨.node a b, by rw [ea, eb]; rfl, ⟨ha, wa, wb⟩, ?_⟩
            rw [SA.toList, ta, tb]
            refine tab_split hsum _ _ _ ?_ ?_ <;> intro i h0 h1
            · rfl
            · congr 1; omega

/-- All shifts of sub-arrays by amounts below `n` are right, or not needed. -/
theorem castOff_wf (hC : E.C.Valid) (hC' : E.C'.Valid) (hf : E.f E.zs = E.zt) :
    ∀ N, 1 ≤ N → ∀ n, 1 ≤ n → CastShifts E N n → CastOffOk E N n := by
  intro N
  induction N using Nat.strongRecOn with
  | ind N ih =>
    intro hN n hn hcs
    have hsub : 2 ≤ N → ∀ k, 1 ≤ k → k ≤ n → (k = n ∨ ¬ IsPow2 n) → CastShifts E (rightSize N) k := by
      intro h2 k h1 hk hp
      rcases hcs with h | h | h
      · exact .inl (isPow2_rightSize h h2)
      · rcases hp with rfl | hp
        · exact .inr (.inl h)
        · exact absurd h hp
      · exact .inr (.inr fun M j hM hlt h0 hj => h M j hM (by have := rightSize_lt h2; omega) h0 (by omega))
    refine castOff_step E hC hC' hf hN hn ?_ ?_
    · intro h2
      exact ⟨ih _ (leftSize_lt h2) (one_le_leftSize hN) n hn (.inl (isPow2_leftSize hN)),
        ih _ (rightSize_lt h2) (one_le_rightSize h2) n hn (hsub h2 n hn (by omega) (.inl rfl))⟩
    · intro h2 hmod off x hoff wx
      by_cases hp : IsPow2 n
      · have hl := isPow2_leftSize hN
        have hlt : leftSize N < n := by
          apply Decidable.byContradiction
          intro hc
          exact hmod (Nat.mod_eq_zero_of_dvd (hp.dvd_of_le hl (by omega)))
        obtain ⟨c, hc⟩ := hl.dvd_of_le hp (by omega)
        have hle := rightSize_le_leftSize N
        have hL1 := one_le_leftSize (n := N) hN
        have hc2 : 2 ≤ c := by
          apply Decidable.byContradiction
          intro h
          have : c = 0 ∨ c = 1 := by omega
          rcases this with rfl | rfl <;> simp at hc <;> omega
        have hn2l : 2 * leftSize N ≤ n := by
          rw [hc, Nat.mul_comm]; exact Nat.mul_le_mul_left _ hc2
        have ho : 1 ≤ off := by
          apply Decidable.byContradiction
          intro h
          have : off = 0 := by omega
          subst this
          simp at hoff; omega
        have hon : n ≤ off * n := Nat.le_mul_of_pos_left n ho
        have lx := WF.length hC (one_le_rightSize h2) wx
        obtain ⟨wz, tz⟩ := broadcast_wf hC' E.zt n hn
        rw [Cast.castWithOff, if_neg (by omega), if_pos (by omega)]
        refine ⟨_, rfl, wz, ?_⟩
        rw [tz, ← tab_const]
        apply tab_congr
        intro i h _
        rw [lane_of_ge]
        rw [List.length_map]; omega
      · refine castWithOff_step E hC hC' hf (one_le_rightSize h2) hn ?_ ?_ _ x wx
        · intro k h1 hk
          exact ih _ (rightSize_lt h2) (one_le_rightSize h2) k h1 (hsub h2 k h1 hk (.inr hp))
        · intro k h0 hk
          rcases hcs with h | h | h
          · exact .pow2 (isPow2_rightSize h h2)
          · exact absurd h hp
          · exact h _ k (one_le_rightSize h2) (rightSize_lt h2) h0 hk

end
end Vc.Lemma
