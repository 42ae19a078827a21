import Verif.Model.SimdCast
import Verif.Lemma.SimdArray

namespace Vc.Lemma
open Vc.Model Vc.Spec

variable {α β : Type _}

/-! ## Native operations at the lane level -/

theorem natShifted_eq (z : α) (k : Int) (l : List α) : natShifted z k l = shifted z k l := by
  unfold natShifted shifted
  split
  · rename_i hk
    apply eq_tab (by simp)
    intro i hi
    simp only [List.length_take, List.length_append, List.length_drop, List.length_replicate] at hi
    rw [List.getElem_take, List.getElem_append]
    split
    · rename_i h
      simp only [List.length_drop] at h
      rw [List.getElem_drop, ← lane_eq_getElem z]
      congr 1; omega
    · rename_i h
      simp only [List.length_drop] at h
      rw [List.getElem_replicate, lane_of_ge]
      omega
  · rename_i hk
    apply eq_tab (by simp)
    intro i hi
    simp only [List.length_take, List.length_append, List.length_replicate] at hi
    rw [List.getElem_take, List.getElem_append]
    split
    · rename_i h
      simp only [List.length_replicate] at h
      rw [List.getElem_replicate, lane_of_lt]
      omega
    · rename_i h
      simp only [List.length_replicate] at h ⊢
      rw [← lane_eq_getElem z]
      congr 1; omega

@[simp] theorem natShifted_length (z : α) (k : Int) (l : List α) :
    (natShifted z k l).length = l.length := by rw [natShifted_eq, shifted_length]

theorem take_append_replicate (z : α) (l : List α) (w : Nat) :
    (l ++ List.replicate w z).take w = resize z w l := by
  unfold resize
  apply eq_tab (by simp)
  intro i hi
  rw [List.getElem_take, List.getElem_append]
  split
  · rw [lane_eq_getElem]
  · rename_i h
    rw [List.getElem_replicate, lane_of_ge]; omega

theorem natCast_eq (f : α → β) (z : β) (w : Nat) (xs : List (List α)) :
    natCast f z w xs = resize z w (xs.flatten.map f) := take_append_replicate _ _ _

theorem lane_drop (z : α) (l : List α) (n : Nat) (j : Int) (hj : 0 ≤ j) :
    lane z (l.drop n) j = lane z l (j + n) := by
  obtain ⟨i, rfl⟩ := Int.eq_ofNat_of_zero_le hj
  unfold lane
  rw [if_pos hj, if_pos (by omega)]
  have : ((i : Int) + n).toNat = n + i := by omega
  simp [List.getD, List.getElem?_drop, this]

theorem natCastOff_eq (f : α → β) (z : β) (w off : Nat) (x : List α) :
    natCastOff f z w off x = tab w fun i => lane z (x.map f) (i + (off * w : Nat)) := by
  unfold natCastOff
  rw [take_append_replicate, List.map_drop]
  unfold resize
  apply tab_congr
  intro i h0 _
  exact lane_drop _ _ _ _ h0

/-! ## Casts from native vectors -/

/-- All arguments have `m` lanes. -/
def AllLen (m : Nat) (xs : List (List α)) : Prop := ∀ x ∈ xs, x.length = m

theorem AllLen.flatten {m : Nat} : ∀ {xs : List (List α)}, AllLen m xs →
    xs.flatten.length = xs.length * m
  | [], _ => by simp
  | x :: xs, h => by
    simp only [List.flatten_cons, List.length_append, List.length_cons, Nat.add_mul, Nat.one_mul]
    rw [AllLen.flatten (fun y hy => h y (List.mem_cons_of_mem _ hy)), h x (by simp)]
    omega

theorem AllLen.dropLast {m : Nat} {xs : List (List α)} (h : AllLen m xs) :
    AllLen m xs.dropLast := fun x hx => h x (List.dropLast_subset _ hx)

theorem AllLen.tail {m : Nat} {x : List α} {xs : List (List α)} (h : AllLen m (x :: xs)) :
    AllLen m xs := fun y hy => h y (List.mem_cons_of_mem _ hy)

theorem lane_dropLast {m : Nat} (z : β) (f : α → β) {xs : List (List α)} (h : AllLen m xs)
    (j : Int) (hj : j < ((xs.length - 1) * m : Nat)) :
    lane z (xs.dropLast.flatten.map f) j = lane z (xs.flatten.map f) j := by
  rcases List.eq_nil_or_concat xs with rfl | ⟨ys, y, rfl⟩
  · rfl
  · simp only [List.concat_eq_append, List.dropLast_concat, List.flatten_append,
      List.map_append, lane_append]
    have hl : (List.map f ys.flatten).length = ys.length * m := by
      rw [List.length_map]
      exact AllLen.flatten (fun x hx => h x (by simp [hx]))
    simp only [List.concat_eq_append, List.length_append, List.length_cons, List.length_nil,
      Nat.zero_add, Nat.add_sub_cancel] at hj
    rw [if_pos (by rw [hl]; exact hj)]

section
variable (E : CastEnv α β)

def OfNativeOk (m n : Nat) : Prop := ∀ xs : List (List α), AllLen m xs → 1 ≤ xs.length →
  (xs.length = 1 ∨ m * (xs.length - 1) < n) →
  ∃ r, Cast.ofNative E m n xs = some r ∧ SA.WF E.C' n r ∧
    r.toList = resize E.zt n (xs.flatten.map E.f)

def DropOk (m n : Nat) : Prop := ∀ xs : List (List α), AllLen m xs → 1 ≤ xs.length →
  ∃ r, Cast.dropArguments E m n xs = some r ∧ SA.WF E.C' n r ∧
    r.toList = resize E.zt n (xs.flatten.map E.f)

def WithOffOk (m n : Nat) : Prop := ∀ (xs : List (List α)) (off : Nat), AllLen m xs →
  1 ≤ xs.length → (xs.length = 1 ∨ (m ∣ off ∧ m * (xs.length - 1) < off + n)) →
  ∃ r, Cast.withOffset E m n off xs = some r ∧ SA.WF E.C' n r ∧
    r.toList = tab n fun i => lane E.zt (xs.flatten.map E.f) (i + off)

def OffOk (m n : Nat) : Prop := ∀ (x : List α) (off : Nat), x.length = m →
  ∃ r, Cast.offNative E m n off x = some r ∧ SA.WF E.C' n r ∧
    r.toList = tab n fun i => lane E.zt (x.map E.f) (i + (off * n : Nat))

theorem ofNative_step (hC : E.C'.Valid) {m : Nat} (hm : IsPow2 m) {n : Nat} (hn : 1 ≤ n)
    (ihO : ∀ k, 1 ≤ k → k < n → OfNativeOk E m k)
    (ihD : ∀ k, 1 ≤ k → k < n → DropOk E m k)
    (ihW : ∀ k, 1 ≤ k → k < n → WithOffOk E m k) : OfNativeOk E m n := by
  intro xs hlen h1 hk
  have hmp := hm.pos
  have hfl := AllLen.flatten hlen
  rw [Cast.ofNative, if_neg (by omega)]
  cases ha : E.C'.atomic n with
  | true =>
    have : m * (xs.length - 1) < n := by
      rcases hk with hk | hk
      · rw [hk]; omega
      · exact hk
    rw [if_pos rfl, if_pos this]
    exact ⟨_, rfl, ⟨by simp [natCast_eq], ha⟩, natCast_eq _ _ _ _⟩
  | false =>
    have hn2 := hC.two_le hn ha
    have hsum := leftSize_add_rightSize hn2
    have hL1 := one_le_leftSize hn
    have hR1 := one_le_rightSize hn2
    rw [if_neg (by simp), dif_pos hn2]
    split
    · rename_i h3
      obtain ⟨a, ea, wa, ta⟩ := ihD _ hL1 (leftSize_lt hn2) xs hlen h1
      obtain ⟨b, eb, wb, tb⟩ := ihW _ hR1 (rightSize_lt hn2) xs (leftSize n) hlen h1 (by
        rcases hk with hk | hk
        · exact .inl hk
        · by_cases hx : xs.length = 1
          · exact .inl hx
          · refine .inr ⟨?_, by omega⟩
            have : m * 1 ≤ m * (xs.length - 1) := Nat.mul_le_mul_left _ (by omega)
            exact hm.dvd_of_le (isPow2_leftSize hn) (le_leftSize hn2 hm (by omega)))
      refine ⟨.node a b, by simp [ea, eb], ⟨ha, wa, wb⟩, ?_⟩
      rw [SA.toList, ta, tb]
      unfold resize
      conv => rhs; rw [← hsum]
      rw [tab_append]
      congr 1
      apply tab_congr
      intro i _ _
      congr 1; omega
    · rename_i h3
      obtain ⟨a, ea, wa, ta⟩ := ihO _ hL1 (leftSize_lt hn2) xs hlen h1 (by
        right
        have h4 : m * (xs.length - 1) + m = m * xs.length := by
          obtain ⟨k, hk'⟩ : ∃ k, xs.length = k + 1 := ⟨xs.length - 1, by omega⟩
          rw [hk', Nat.add_sub_cancel, Nat.mul_add, Nat.mul_one]
        omega)
      obtain ⟨wb, tb⟩ := broadcast_wf hC E.zt _ hR1
      refine ⟨.node a _, by simp [ea], ⟨ha, wa, wb⟩, ?_⟩
      rw [SA.toList, ta, tb]
      unfold resize
      conv => rhs; rw [← hsum]
      rw [tab_append, ← tab_const]
      congr 1
      apply tab_congr
      intro i _ _
      rw [lane_of_ge]
      rw [List.length_map, hfl, Nat.mul_comm]
      omega

theorem drop_step {m n : Nat} (ih : OfNativeOk E m n) : DropOk E m n := by
  have : ∀ k, ∀ xs : List (List α), xs.length = k → AllLen m xs → 1 ≤ xs.length →
      ∃ r, Cast.dropArguments E m n xs = some r ∧ SA.WF E.C' n r ∧
        r.toList = resize E.zt n (xs.flatten.map E.f) := by
    intro k
    induction k with
    | zero => intro xs h0 _ h1; omega
    | succ k ihk =>
      intro xs hk hlen h1
      rw [Cast.dropArguments]
      split
      · rename_i hc
        obtain ⟨r, er, wr, tr⟩ := ihk xs.dropLast (by simp [hk]) hlen.dropLast (by simp; omega)
        refine ⟨r, er, wr, ?_⟩
        rw [tr]
        unfold resize
        apply tab_congr
        intro i _ hi
        exact lane_dropLast _ _ hlen _ (by omega)
      · rename_i hc
        apply ih xs hlen h1
        by_cases hx : xs.length = 1
        · exact .inl hx
        · right
          rw [Nat.mul_comm]
          omega
  intro xs; exact this _ xs rfl

theorem off_step (hC : E.C'.Valid) {m n : Nat} (hn : 1 ≤ n)
    (ihW : ∀ k, 1 ≤ k → k < n → WithOffOk E m k) : OffOk E m n := by
  intro x off hx
  rw [Cast.offNative]
  cases ha : E.C'.atomic n with
  | true =>
    rw [if_pos rfl]
    refine ⟨_, rfl, ⟨by simp [natCastOff_eq], ha⟩, natCastOff_eq _ _ _ _ _⟩
  | false =>
    have hn2 := hC.two_le hn ha
    have hsum := leftSize_add_rightSize hn2
    have hL1 := one_le_leftSize hn
    have hR1 := one_le_rightSize hn2
    have hal : AllLen m [x] := by intro y hy; simp at hy; subst hy; exact hx
    rw [if_neg (by simp), dif_pos hn2]
    obtain ⟨a, ea, wa, ta⟩ := ihW _ hL1 (leftSize_lt hn2) [x] (off * n) hal (by simp) (.inl rfl)
    obtain ⟨b, eb, wb, tb⟩ := ihW _ hR1 (rightSize_lt hn2) [x] (off * n + leftSize n) hal
      (by simp) (.inl rfl)
    obtain ⟨wz, tz⟩ := broadcast_wf hC E.zt _ hR1
    simp only [List.flatten_cons, List.flatten_nil, List.append_nil] at ta tb
    split
    · refine ⟨.node a b, by simp [ea, eb], ⟨ha, wa, wb⟩, ?_⟩
      rw [SA.toList, ta, tb]
      conv => rhs; rw [← hsum]
      rw [tab_append, hsum]
      congr 1
      apply tab_congr
      intro i _ _
      congr 1; omega
    · rename_i hc
      refine ⟨.node a _, by simp [ea], ⟨ha, wa, wz⟩, ?_⟩
      rw [SA.toList, ta, tz, ← tab_const]
      conv => rhs; rw [← hsum]
      rw [tab_append, hsum]
      congr 1
      apply tab_congr
      intro i h0 _
      rw [lane_of_ge]
      rw [List.length_map, hx]
      rw [Nat.mul_comm n off] at hc
      omega

theorem withOff_step (hC : E.C'.Valid) (hf : E.f E.zs = E.zt) {m n : Nat} (hn : 1 ≤ n)
    (hO : OfNativeOk E m n) (hF : OffOk E m n)
    (ihW : ∀ k, 1 ≤ k → k < n → WithOffOk E m k) : WithOffOk E m n := by
  intro xs
  induction xs with
  | nil => intro off _ h1 _; simp at h1
  | cons x ys ih =>
    intro off hlen h1 hk
    rw [Cast.withOffset.eq_def]
    by_cases hoff : off = 0
    · subst hoff
      rw [if_pos rfl]
      obtain ⟨r, er, wr, tr⟩ := hO (x :: ys) hlen h1 (by
        rcases hk with hk | hk
        · exact .inl hk
        · exact .inr (by omega))
      refine ⟨r, er, wr, ?_⟩
      rw [tr]
      unfold resize
      apply tab_congr
      intro i _ _
      congr 1; omega
    · rw [if_neg hoff]
      match ys, ih with
      | [], ih =>
        have hx : x.length = m := hlen x (by simp)
        dsimp only
        simp only [List.flatten_cons, List.flatten_nil, List.append_nil]
        split
        · rename_i hmo
          obtain ⟨wz, tz⟩ := broadcast_wf hC E.zt n hn
          refine ⟨_, rfl, wz, ?_⟩
          rw [tz, ← tab_const]
          apply tab_congr
          intro i h0 _
          rw [lane_of_ge]
          rw [List.length_map, hx]; omega
        · rename_i hmo
          have hdm := Nat.div_add_mod off n
          split
          · rename_i hdiv
            obtain ⟨r, er, wr, tr⟩ := hF x (off / n) hx
            refine ⟨r, er, wr, ?_⟩
            rw [tr]
            apply tab_congr
            intro i h0 _
            congr 1
            rw [Nat.mul_comm]
            omega
          · rename_i hdiv
            split
            · rename_i ha
              obtain ⟨r, er, wr, tr⟩ := hF (natShifted E.zs (off % n : Nat) x) (off / n)
                (by simp [hx])
              refine ⟨r, er, wr, ?_⟩
              rw [tr]
              apply tab_congr
              intro i h0 _
              rw [← hf, lane_map, lane_map, natShifted_eq, lane_shifted]
              congr 1
              have e : n * (off / n) = off / n * n := Nat.mul_comm _ _
              split
              · congr 1; omega
              · rename_i hni
                rw [lane_of_ge]
                omega
            · rename_i ha
              have ha' : E.C'.atomic n = false := by simpa using ha
              have hn2 := hC.two_le hn ha'
              have hsum := leftSize_add_rightSize hn2
              have hL1 := one_le_leftSize hn
              have hR1 := one_le_rightSize hn2
              rw [dif_pos hn2]
              obtain ⟨a, ea, wa, ta⟩ := ihW _ hL1 (leftSize_lt hn2) [x] off hlen (by simp) (.inl rfl)
              obtain ⟨b, eb, wb, tb⟩ := ihW _ hR1 (rightSize_lt hn2) [x] (off + leftSize n) hlen
                (by simp) (.inl rfl)
              simp only [List.flatten_cons, List.flatten_nil, List.append_nil] at ta tb
              refine ⟨.node a b, by simp [ea, eb], ⟨ha', wa, wb⟩, ?_⟩
              rw [SA.toList, ta, tb]
              conv => rhs; rw [← hsum]
              rw [tab_append]
              congr 1
              apply tab_congr
              intro i _ _
              congr 1; omega
      | y :: ys, ih =>
        dsimp only
        simp only [List.length_cons] at hk
        have hk' : m ∣ off ∧ m * (ys.length + 1) < off + n := by
          rcases hk with hk | hk
          · omega
          · simpa using hk
        have hmo : m ≤ off := Nat.le_of_dvd (by omega) hk'.1
        rw [if_pos hmo]
        obtain ⟨r, er, wr, tr⟩ := ih (off - m) hlen.tail (by simp) (by
          right
          refine ⟨Nat.dvd_sub hk'.1 (Nat.dvd_refl _), ?_⟩
          simp only [List.length_cons, Nat.add_sub_cancel]
          rw [Nat.mul_add, Nat.mul_one] at hk'
          omega)
        refine ⟨r, er, wr, ?_⟩
        rw [tr]
        apply tab_congr
        intro i h0 _
        rw [List.flatten_cons (l := x), List.map_append, lane_append, if_neg]
        · congr 1
          rw [List.length_map, hlen x (by simp)]; omega
        · rw [List.length_map, hlen x (by simp)]; omega

theorem native_casts (hC : E.C'.Valid) (hf : E.f E.zs = E.zt) {m : Nat} (hm : IsPow2 m) (n : Nat)
    (hn : 1 ≤ n) : OfNativeOk E m n ∧ DropOk E m n ∧ OffOk E m n ∧ WithOffOk E m n := by
  induction n using Nat.strongRecOn with
  | ind n ih =>
    have hO : OfNativeOk E m n := ofNative_step E hC hm hn (fun k h1 hk => (ih k hk h1).1)
      (fun k h1 hk => (ih k hk h1).2.1) (fun k h1 hk => (ih k hk h1).2.2.2)
    have hF : OffOk E m n := off_step E hC hn (fun k h1 hk => (ih k hk h1).2.2.2)
    exact ⟨hO, drop_step E hO, hF,
      withOff_step E hC hf hn hO hF (fun k h1 hk => (ih k hk h1).2.2.2)⟩

end

/-! ## Casts from SimdArray -/

theorem extractInterleaved_eq {γ : Type _} : ∀ (i : Nat) (as bs : List γ), as.length = bs.length →
    Cast.extractInterleaved i as bs = ((as.zip bs).flatMap fun p => [p.1, p.2])[i]?
  | 0, [], [], _ => rfl
  | 1, [], [], _ => rfl
  | _ + 2, [], [], _ => rfl
  | 0, _ :: _, _ :: _, _ => by simp [Cast.extractInterleaved]
  | 1, _ :: _, _ :: _, _ => by simp [Cast.extractInterleaved]
  | i + 2, _ :: as, _ :: bs, h => by
    simp only [Cast.extractInterleaved, List.zip_cons_cons, List.flatMap_cons]
    rw [extractInterleaved_eq i as bs (by simpa using h)]
    simp

theorem mapM_getElem? {γ : Type _} (l : List γ) :
    (List.range l.length).mapM (fun i => l[i]?) = some l := by
  cases l with
  | nil => rfl
  | cons a t =>
    have := mapM_eq_some (f := fun i => (a :: t)[i]?) (g := fun i => (a :: t).getD i a)
      (l := List.range (a :: t).length) (by
        intro i hi
        simp only [List.mem_range] at hi
        rw [List.getElem?_eq_getElem hi, List.getD_eq_getElem?_getD, List.getElem?_eq_getElem hi]
        rfl)
    rw [this]
    congr 1
    apply List.ext_getElem (by simp)
    intro i h1 h2
    rw [List.getElem_map, List.getElem_range, List.getD_eq_getElem?_getD,
      List.getElem?_eq_getElem h2]
    rfl

theorem interleavedArguments_eq {γ : Type _} (as bs : List γ) (h : as.length = bs.length) :
    Cast.interleavedArguments as bs = some ((as.zip bs).flatMap fun p => [p.1, p.2]) := by
  unfold Cast.interleavedArguments
  have hl : as.length * 2 = ((as.zip bs).flatMap fun p => [p.1, p.2]).length := by
    simp [List.length_flatMap, h, List.map_const', List.sum_replicate_nat]
  rw [hl]
  conv => lhs; arg 1; ext i; rw [extractInterleaved_eq i as bs h]
  exact mapM_getElem? _

/-- All arguments have type `SimdArray<T, N>`. -/
def AllWF (C : Cfg) (N : Nat) (xs : List (SA α)) : Prop := ∀ x ∈ xs, SA.WF C N x

/-- All lanes of the argument list. -/
def lanes (xs : List (SA α)) : List α := xs.flatMap SA.toList

theorem lanes_length {C : Cfg} (hC : C.Valid) {N : Nat} (hN : 1 ≤ N) :
    ∀ {xs : List (SA α)}, AllWF C N xs → (lanes xs).length = xs.length * N
  | [], _ => by simp [lanes]
  | x :: xs, h => by
    have ih := lanes_length hC hN (xs := xs) (fun y hy => h y (List.mem_cons_of_mem _ hy))
    unfold lanes at ih ⊢
    rw [List.flatMap_cons, List.length_append, ih, WF.length hC hN (h x (by simp)),
      List.length_cons, Nat.add_mul, Nat.one_mul, Nat.add_comm]

theorem lanes_append (xs ys : List (SA α)) : lanes (xs ++ ys) = lanes xs ++ lanes ys := by
  simp [lanes]

theorem AllWF.dropLast {C : Cfg} {N : Nat} {xs : List (SA α)} (h : AllWF C N xs) :
    AllWF C N xs.dropLast := fun x hx => h x (List.dropLast_subset _ hx)

theorem lane_lanes_dropLast {C : Cfg} (hC : C.Valid) {N : Nat} (hN : 1 ≤ N) (z : β) (f : α → β)
    {xs : List (SA α)} (h : AllWF C N xs) (j : Int) (hj : j < ((xs.length - 1) * N : Nat)) :
    lane z ((lanes xs.dropLast).map f) j = lane z ((lanes xs).map f) j := by
  rcases List.eq_nil_or_concat xs with rfl | ⟨ys, y, rfl⟩
  · rfl
  · simp only [List.concat_eq_append, List.dropLast_concat, lanes_append, List.map_append,
      lane_append]
    have hl := lanes_length hC hN (xs := ys) (fun x hx => h x (by simp [hx]))
    simp only [List.concat_eq_append, List.length_append, List.length_cons, List.length_nil,
      Nat.zero_add, Nat.add_sub_cancel] at hj
    rw [if_pos (by rw [List.length_map, hl]; exact hj)]

theorem mapM_data {C : Cfg} {N : Nat} (ha : C.atomic N = true) {xs : List (SA α)}
    (h : AllWF C N xs) : xs.mapM Cast.data = some (xs.map SA.toList) := by
  apply mapM_eq_some
  intro x hx
  obtain ⟨l, rfl, _⟩ := WF.exists_atom ha (h x hx)
  rfl

theorem mapM_data0 {C : Cfg} {N : Nat} (ha : C.atomic N = false) {xs : List (SA α)}
    (h : AllWF C N xs) : xs.mapM Cast.data0 = some (xs.map SA.splitLo) := by
  apply mapM_eq_some
  intro x hx
  obtain ⟨a, b, rfl, _⟩ := WF.exists_node ha (h x hx)
  rfl

theorem mapM_data1 {C : Cfg} {N : Nat} (ha : C.atomic N = false) {xs : List (SA α)}
    (h : AllWF C N xs) : xs.mapM Cast.data1 = some (xs.map SA.splitHi) := by
  apply mapM_eq_some
  intro x hx
  obtain ⟨a, b, rfl, _⟩ := WF.exists_node ha (h x hx)
  rfl

theorem lanes_interleaved {C : Cfg} {N : Nat} (ha : C.atomic N = false) :
    ∀ {xs : List (SA α)}, AllWF C N xs →
      lanes (((xs.map SA.splitLo).zip (xs.map SA.splitHi)).flatMap fun p => [p.1, p.2]) = lanes xs
  | [], _ => rfl
  | x :: xs, h => by
    have ih := lanes_interleaved ha (xs := xs) (fun y hy => h y (List.mem_cons_of_mem _ hy))
    obtain ⟨a, b, rfl, _⟩ := WF.exists_node ha (h x (by simp))
    simp only [List.map_cons, List.zip_cons_cons, List.flatMap_cons, lanes_append, ih]
    simp [lanes, SA.splitLo, SA.splitHi, SA.toList]

theorem copyLanes_wf (E : CastEnv α β) (hC : E.C.Valid) (hC' : E.C'.Valid) {N n : Nat}
    (hN : 1 ≤ N) (hn : 1 ≤ n) {last : SA α} (hlast : SA.WF E.C N last) {off : Nat} {r : SA β}
    (hr : SA.WF E.C' n r) : ∀ cnt, cnt ≤ N → off + cnt ≤ n →
      ∃ y, Cast.copyLanes E off last cnt r = some y ∧ SA.WF E.C' n y ∧
        y.toList = tab n fun i => if off ≤ i ∧ i < off + cnt then
          lane E.zt (last.toList.map E.f) (i - off) else lane E.zt r.toList i := by
  intro cnt
  induction cnt with
  | zero =>
    intro _ _
    refine ⟨r, rfl, hr, ?_⟩
    have hl := WF.length hC' hn hr
    rw [← tab_lane' E.zt r.toList n hl]
    apply tab_congr
    intro i _ _
    rw [if_neg (by omega), tab_lane' E.zt r.toList n hl]
  | succ i ih =>
    intro h1 h2
    obtain ⟨y, ey, wy, ty⟩ := ih (by omega) (by omega)
    have hll : last.toList.length = N := WF.length hC hN hlast
    have hg : last.get E.C (i : Int) = some (last.toList[i]'(by omega)) := by
      rw [get_eq hC hN hlast]
      exact List.getElem?_eq_getElem (by omega)
    obtain ⟨w, ew, ww, tw⟩ := set_eq hC' (E.f (last.toList[i]'(by omega))) hn wy (i + off) (by omega)
    refine ⟨w, by simp only [Cast.copyLanes, ey, hg, Option.bind_eq_bind, Option.bind_some, ew], ww, ?_⟩
    rw [tw, ty]
    apply eq_tab (by simp)
    intro j hj
    simp only [List.length_set, tab_length] at hj
    rw [List.getElem_set]
    split
    · rename_i e
      subst e
      rw [if_pos (by omega)]
      have : ((i + off : Nat) : Int) - off = (i : Nat) := by omega
      rw [this, lane_eq_getElem _ _ i (by rw [List.length_map]; omega)]
      simp
    · rename_i e
      rw [tab_getElem]
      by_cases hc : (off : Int) ≤ j ∧ (j : Int) < off + i
      · rw [if_pos hc, if_pos (by omega)]
      · rw [if_neg hc, if_neg (by omega)]

theorem isPow2_of_and' {N : Nat} (hN : 1 ≤ N) (h : (N - 1) &&& N = 0) : IsPow2 N :=
  isPow2_of_and hN (by rw [Nat.and_comm]; exact h)

theorem simdCast_wf (E : CastEnv α β) (hC : E.C.Valid) (hC' : E.C'.Valid)
    (hf : E.f E.zs = E.zt) (n : Nat) (hn : 1 ≤ n) :
    ∀ N, 1 ≤ N → ∀ k, ∀ xs : List (SA α), xs.length = k → AllWF E.C N xs → 1 ≤ k →
      (k = 1 ∨ N * (k - 2) < n) →
      ∃ r, Cast.simdCast E N n xs = some r ∧ SA.WF E.C' n r ∧
        r.toList = resize E.zt n ((lanes xs).map E.f) := by
  intro N
  induction N using Nat.strongRecOn with
  | ind N ihN =>
    intro hN k
    induction k with
    | zero => intro xs _ _ h1; omega
    | succ k ihk =>
      intro xs hk hwf h1 hpre
      rw [Cast.simdCast, if_neg (by omega)]
      cases ha : E.C.atomic N with
      | true =>
        rw [if_pos rfl]
        obtain ⟨hO, -, -, -⟩ := native_casts E hC' hf (hC.isPow2 ha) n hn
        have hds := mapM_data ha hwf
        have hal : AllLen N (xs.map SA.toList) := by
          intro l hl
          obtain ⟨x, hx, rfl⟩ := List.mem_map.mp hl
          exact WF.length hC hN (hwf x hx)
        have hfl : (xs.map SA.toList).flatten = lanes xs := by
          simp [lanes, List.flatMap_def]
        simp only [hds, Option.bind_eq_bind, Option.bind_some]
        split
        · rename_i hc
          obtain ⟨r, er, wr, tr⟩ := hO _ hal (by simp; omega) (by simpa using hc)
          exact ⟨r, er, wr, by rw [tr, hfl]⟩
        · rename_i hc
          obtain ⟨r, er, wr, tr⟩ := hO _ hal.dropLast (by simp; omega) (by
            simp only [List.length_dropLast, List.length_map]
            rcases hpre with hp | hp
            · omega
            · have e : xs.length - 1 - 1 = k + 1 - 2 := by omega
              rw [e]
              exact .inr hp)
          refine ⟨r, er, wr, ?_⟩
          rw [tr]
          unfold resize
          apply tab_congr
          intro i _ hi
          rw [lane_dropLast _ _ hal, hfl]
          rw [List.length_map, Nat.mul_comm]
          omega
      | false =>
        have hN2 := hC.two_le hN ha
        have hsum := leftSize_add_rightSize hN2
        rw [if_neg (by simp), dif_pos hN2]
        split
        · rename_i hp2
          have hpow := isPow2_of_and' hN hp2
          have heq := (leftSize_eq_rightSize_iff hN2).mpr hpow
          have hwfLo : AllWF E.C (leftSize N) (xs.map SA.splitLo) := by
            intro y hy
            obtain ⟨x, hx, rfl⟩ := List.mem_map.mp hy
            obtain ⟨a, b, rfl, h1, h2⟩ := WF.exists_node ha (hwf x hx)
            exact h1
          have hwfHi : AllWF E.C (leftSize N) (xs.map SA.splitHi) := by
            intro y hy
            obtain ⟨x, hx, rfl⟩ := List.mem_map.mp hy
            obtain ⟨a, b, rfl, h1, h2⟩ := WF.exists_node ha (hwf x hx)
            rw [heq]; exact h2
          split
          · rename_i hc
            rw [mapM_data0 ha hwf]
            simp only [Option.bind_eq_bind, Option.bind_some]
            obtain ⟨r, er, wr, tr⟩ := ihN _ (leftSize_lt hN2) (one_le_leftSize hN) 1
              (xs.map SA.splitLo) (by simp [hc.1]) hwfLo (by omega) (.inl rfl)
            refine ⟨r, er, wr, ?_⟩
            rw [tr]
            match xs, hc with
            | [x], hc =>
              obtain ⟨a, b, rfl, h1, h2⟩ := WF.exists_node ha (hwf x (by simp))
              unfold resize
              apply tab_congr
              intro i h0 hi
              have hla := WF.length hC (one_le_leftSize hN) h1
              simp only [List.map_cons, List.map_nil, lanes, List.flatMap_cons, List.flatMap_nil,
                List.append_nil, SA.splitLo, SA.toList, List.map_append, lane_append,
                List.length_map, hla]
              rw [if_pos (by omega)]
          · rename_i hc
            split
            · rename_i hlt
              rw [mapM_data0 ha hwf, mapM_data1 ha hwf]
              simp only [Option.bind_eq_bind, Option.bind_some]
              rw [interleavedArguments_eq _ _ (by simp)]
              simp only [Option.bind_some]
              obtain ⟨r, er, wr, tr⟩ := ihN _ (leftSize_lt hN2) (one_le_leftSize hN) (2 * (k + 1))
                (((xs.map SA.splitLo).zip (xs.map SA.splitHi)).flatMap fun p => [p.1, p.2])
                (by
                  simp [List.length_flatMap, hk, List.map_const', List.sum_replicate_nat, Nat.mul_comm]) (by
                  intro y hy
                  obtain ⟨p, hp, hy⟩ := List.mem_flatMap.mp hy
                  have := List.of_mem_zip (show (p.1, p.2) ∈ _ from hp)
                  simp only [List.mem_cons, List.not_mem_nil, or_false] at hy
                  rcases hy with rfl | rfl
                  · exact hwfLo _ this.1
                  · exact hwfHi _ this.2) (by omega) (by
                  right
                  have e : 2 * (k + 1) - 2 = 2 * k := by omega
                  have e2 : xs.length - 1 = k := by omega
                  rw [e, ← Nat.mul_assoc]
                  have e3 : leftSize N * 2 = N := by omega
                  rw [e3, ← e2]; exact hlt)
              refine ⟨r, er, wr, ?_⟩
              rw [tr, lanes_interleaved ha hwf]
            · rename_i hge
              have hk2 : 2 ≤ xs.length := by
                rcases Nat.lt_or_ge xs.length 2 with h | h
                · have : xs.length - 1 = 0 := by omega
                  rw [this] at hge; omega
                · exact h
              rw [dif_pos hk2]
              obtain ⟨r, er, wr, tr⟩ := ihk xs.dropLast (by simp [hk]) hwf.dropLast (by omega) (by
                rcases hpre with hp | hp
                · omega
                · right
                  exact Nat.lt_of_le_of_lt (Nat.mul_le_mul_left _ (by omega)) hp)
              refine ⟨r, er, wr, ?_⟩
              rw [tr]
              unfold resize
              apply tab_congr
              intro i _ hi
              rw [lane_lanes_dropLast hC hN _ _ hwf]
              rw [Nat.mul_comm]
              omega
        · have hlen := lanes_length hC hN hwf
          obtain ⟨ys, last, rfl⟩ : ∃ ys last, xs = ys ++ [last] := by
            rcases List.eq_nil_or_concat xs with rfl | ⟨ys, y, rfl⟩
            · simp at hk
            · exact ⟨ys, y, by simp⟩
          have hwl : SA.WF E.C N last := hwf last (by simp)
          have hwy : AllWF E.C N ys := fun x hx => hwf x (by simp [hx])
          have hly := lanes_length hC hN hwy
          simp only [List.length_append, List.length_cons, List.length_nil, Nat.zero_add] at hk
          have hlen2 : (ys ++ [last]).length = ys.length + 1 := by simp
          have hmul : N * (ys.length + 1) = N * ys.length + N := by rw [Nat.mul_add, Nat.mul_one]
          have key : ∀ r, SA.WF E.C' n r → r.toList = resize E.zt n ((lanes ys).map E.f) →
              ∃ y, (if N * (ys.length + 1) ≤ n then Cast.copyLanes E (N * ys.length) last N r
                else Cast.copyLanes E (N * ys.length) last (n - N * ys.length) r) = some y ∧
                SA.WF E.C' n y ∧
                y.toList = resize E.zt n ((lanes (ys ++ [last])).map E.f) := by
            intro r wr tr
            have hl1 : ((lanes ys).map E.f).length = N * ys.length := by
              rw [List.length_map, hly, Nat.mul_comm]
            have hl2 : (last.toList.map E.f).length = N := by
              rw [List.length_map]; exact WF.length hC hN hwl
            have hlast : lanes [last] = last.toList := by simp [lanes]
            have key : ∀ cnt, cnt ≤ N → N * ys.length + cnt ≤ n →
                (cnt = N ∨ n = N * ys.length + cnt) →
                ∃ y, Cast.copyLanes E (N * ys.length) last cnt r = some y ∧ SA.WF E.C' n y ∧
                  y.toList = resize E.zt n ((lanes (ys ++ [last])).map E.f) := by
              intro cnt h1 h2 h3
              obtain ⟨y, ey, wy, ty⟩ := copyLanes_wf E hC hC' hN hn hwl (off := N * ys.length) wr
                cnt h1 h2
              refine ⟨y, ey, wy, ?_⟩
              rw [ty]
              unfold resize
              apply tab_congr
              intro i h0 hi
              rw [lanes_append, List.map_append, lane_append, hl1, hlast, tr, lane_resize]
              by_cases hc : ((N * ys.length : Nat) : Int) ≤ i ∧
                  i < ((N * ys.length : Nat) : Int) + cnt
              · rw [if_pos hc, if_neg (by omega)]
              · rw [if_neg hc, if_pos hi]
                split
                · rfl
                · rename_i hni
                  rw [lane_of_ge _ _ _ (by omega), lane_of_ge _ _ _ (by omega)]
            split
            · exact key N (Nat.le_refl _) (by omega) (.inl rfl)
            · rename_i hgt
              by_cases hoff : N * ys.length ≤ n
              · exact key (n - N * ys.length) (by omega) (by omega) (.inr (by omega))
              · have : n - N * ys.length = 0 := by omega
                rw [this]
                refine ⟨r, rfl, wr, ?_⟩
                rw [tr]
                unfold resize
                apply tab_congr
                intro i h0 hi
                rw [lanes_append, List.map_append, lane_append, hl1, if_pos (by omega)]
          simp only [Option.bind_eq_bind, Option.bind_some, List.getLast?_append,
            List.getLast?_singleton, Option.some_or, hlen2, List.dropLast_concat]
          by_cases h2 : 2 ≤ ys.length + 1
          · rw [dif_pos h2]
            obtain ⟨r, er, wr, tr⟩ := ihk ys (by omega) hwy (by omega) (by
              rcases hpre with hp | hp
              · omega
              · right
                exact Nat.lt_of_le_of_lt (Nat.mul_le_mul_left _ (by omega)) hp)
            rw [er]
            exact key r wr tr
          · rw [dif_neg h2]
            have : ys = [] := List.eq_nil_of_length_eq_zero (by omega)
            subst this
            obtain ⟨wz, tz⟩ := broadcast_wf hC' E.zt n hn
            refine key _ wz ?_
            rw [tz, ← tab_const]
            unfold resize
            apply tab_congr
            intro i h0 _
            rw [lane_of_ge]
            simp [lanes]; omega

/-- A cast between lengths of the same entry type. -/
theorem cast_wf {C : Cfg} (hC : C.Valid) (z : α) {N n : Nat} (hN : 1 ≤ N) (hn : 1 ≤ n) {x : SA α}
    (h : SA.WF C N x) :
    ∃ r, x.cast C z N n = some r ∧ SA.WF C n r ∧ r.toList = resize z n x.toList := by
  unfold SA.cast
  split
  · rename_i e
    subst e
    refine ⟨x, rfl, h, ?_⟩
    have := resize_self z x.toList
    rw [WF.length hC hN h] at this
    exact this.symm
  · obtain ⟨r, er, wr, tr⟩ := simdCast_wf ⟨C, C, id, z, z⟩ hC hC rfl n hn N hN 1 [x] rfl
      (by intro y hy; simp at hy; subst hy; exact h) (by omega) (.inl rfl)
    refine ⟨r, er, wr, ?_⟩
    rw [tr]
    simp [lanes]

end Vc.Lemma
