import Verif.Model.Where
import Verif.Lemma.SimdArray

namespace Vc.Lemma
open Vc.Model Vc.Spec

variable {C : Cfg}

theorem mapM_length {f : γ → Option δ} : ∀ {l : List γ} {r : List δ}, l.mapM f = some r →
    r.length = l.length
  | [], r, h => by simp at h; subst h; rfl
  | a :: l, r, h => by
    simp only [List.mapM_cons, Option.pure_def, Option.bind_eq_bind, Option.bind_eq_some_iff,
      Option.some.injEq] at h
    obtain ⟨_, _, t, ht, rfl⟩ := h
    simp [mapM_length ht]

theorem mapM_append_some {f : γ → Option δ} : ∀ {l l' : List γ} {r r' : List δ},
    l.mapM f = some r → l'.mapM f = some r' → (l ++ l').mapM f = some (r ++ r') := by
  intro l l' r r' h h'
  rw [List.mapM_append, h, h']; rfl

/-- If the lane-wise operation is defined in all lanes the result is. -/
theorem zipWithM_wf (hC : C.Valid) (f : α → β → Option γ) (n : Nat) (hn : 1 ≤ n) :
    ∀ (x : SA α) (y : SA β) (t : List γ), SA.WF C n x → SA.WF C n y →
      (x.toList.zip y.toList).mapM (fun p => f p.1 p.2) = some t →
      ∃ r, x.zipWithM f y = some r ∧ SA.WF C n r ∧ r.toList = t := by
  refine template_induction hC (P := fun n => ∀ (x : SA α) (y : SA β) (t : List γ),
      SA.WF C n x → SA.WF C n y →
      (x.toList.zip y.toList).mapM (fun p => f p.1 p.2) = some t →
      ∃ r, x.zipWithM f y = some r ∧ SA.WF C n r ∧ r.toList = t) ?_ ?_ n hn
  · intro n hn ha x y t wx wy h
    obtain ⟨l, rfl, hl⟩ := WF.exists_atom ha wx
    obtain ⟨m, rfl, hm⟩ := WF.exists_atom ha wy
    simp only [SA.toList] at h
    refine ⟨.atom t, by rw [SA.zipWithM, h]; rfl, ⟨?_, ha⟩, rfl⟩
    rw [mapM_length h, List.length_zip]; omega
  · intro n hn ha ih0 ih1 x y t wx wy h
    obtain ⟨a, b, rfl, wa, wb⟩ := WF.exists_node ha wx
    obtain ⟨c, d, rfl, wc, wd⟩ := WF.exists_node ha wy
    have la := WF.length hC (one_le_leftSize (by omega)) wa
    have lc := WF.length hC (one_le_leftSize (by omega)) wc
    rw [SA.toList, SA.toList, List.zip_append (by omega), List.mapM_append] at h
    simp only [Option.pure_def, Option.bind_eq_bind, Option.bind_eq_some_iff,
      Option.some.injEq] at h
    obtain ⟨t0, h0, t1, h1, rfl⟩ := h
    obtain ⟨r0, e0, w0, rfl⟩ := ih0 a c t0 wa wc h0
    obtain ⟨r1, e1, w1, rfl⟩ := ih1 b d t1 wb wd h1
    exact ⟨.node r0 r1, by simp [SA.zipWithM, e0, e1], ⟨ha, w0, w1⟩, rfl⟩

/-- If it is undefined in one lane the whole operation is undefined. -/
theorem zipWithM_none (hC : C.Valid) (f : α → β → Option γ) (n : Nat) (hn : 1 ≤ n) :
    ∀ (x : SA α) (y : SA β), SA.WF C n x → SA.WF C n y →
      (x.toList.zip y.toList).mapM (fun p => f p.1 p.2) = none → x.zipWithM f y = none := by
  refine template_induction hC (P := fun n => ∀ (x : SA α) (y : SA β),
      SA.WF C n x → SA.WF C n y →
      (x.toList.zip y.toList).mapM (fun p => f p.1 p.2) = none → x.zipWithM f y = none) ?_ ?_ n hn
  · intro n hn ha x y wx wy h
    obtain ⟨l, rfl, hl⟩ := WF.exists_atom ha wx
    obtain ⟨m, rfl, hm⟩ := WF.exists_atom ha wy
    simp only [SA.toList] at h
    rw [SA.zipWithM, h]; rfl
  · intro n hn ha ih0 ih1 x y wx wy h
    obtain ⟨a, b, rfl, wa, wb⟩ := WF.exists_node ha wx
    obtain ⟨c, d, rfl, wc, wd⟩ := WF.exists_node ha wy
    have la := WF.length hC (one_le_leftSize (by omega)) wa
    have lc := WF.length hC (one_le_leftSize (by omega)) wc
    rw [SA.toList, SA.toList, List.zip_append (by omega), List.mapM_append] at h
    rw [SA.zipWithM]
    cases h0 : (a.toList.zip c.toList).mapM (fun p => f p.1 p.2) with
    | none => rw [ih0 a c wa wc h0]; rfl
    | some t0 =>
      obtain ⟨r0, e0, w0, rfl⟩ := zipWithM_wf hC f _ (one_le_leftSize (by omega)) a c t0 wa wc h0
      cases h1 : (b.toList.zip d.toList).mapM (fun p => f p.1 p.2) with
      | none => rw [e0, ih1 b d wb wd h1]; rfl
      | some t1 => rw [h0, h1] at h; simp at h

theorem setZeroInverted_wf (hC : C.Valid) (z : α) (n : Nat) (hn : 1 ≤ n) :
    ∀ (x : SA α) (m : SA Bool), SA.WF C n x → SA.WF C n m →
      ∃ r, x.setZeroInverted z m = some r ∧ SA.WF C n r ∧
        r.toList = List.zipWith (fun v b => if b then v else z) x.toList m.toList := by
  refine template_induction hC (P := fun n => ∀ (x : SA α) (m : SA Bool),
      SA.WF C n x → SA.WF C n m →
      ∃ r, x.setZeroInverted z m = some r ∧ SA.WF C n r ∧
        r.toList = List.zipWith (fun v b => if b then v else z) x.toList m.toList) ?_ ?_ n hn
  · intro n hn ha x m wx wm
    obtain ⟨l, rfl, hl⟩ := WF.exists_atom ha wx
    obtain ⟨b, rfl, hb⟩ := WF.exists_atom ha wm
    exact ⟨_, rfl, ⟨by simp; omega, ha⟩, rfl⟩
  · intro n hn ha ih0 ih1 x m wx wm
    obtain ⟨a, b, rfl, wa, wb⟩ := WF.exists_node ha wx
    obtain ⟨c, d, rfl, wc, wd⟩ := WF.exists_node ha wm
    have la := WF.length hC (one_le_leftSize (by omega)) wa
    have lc := WF.length hC (one_le_leftSize (by omega)) wc
    obtain ⟨r0, e0, w0, t0⟩ := ih0 a c wa wc
    obtain ⟨r1, e1, w1, t1⟩ := ih1 b d wb wd
    refine ⟨.node r0 r1, by simp [SA.setZeroInverted, e0, e1], ⟨ha, w0, w1⟩, ?_⟩
    rw [SA.toList, SA.toList, SA.toList, t0, t1, List.zipWith_append (by omega)]

/-- Lane `i` of a list of `n` lanes. -/
theorem get_lane (hC : C.Valid) {n : Nat} (hn : 1 ≤ n) {x : SA α} (h : SA.WF C n x) {i : Nat}
    (hi : i < x.toList.length) : x.get C (i : Int) = some x.toList[i] := by
  rw [get_eq hC hn h, List.getElem?_eq_getElem hi]

theorem mapM_getElem {f : γ → Option δ} : ∀ {l : List γ} {r : List δ}, l.mapM f = some r →
    ∀ (i : Nat) (h : i < l.length) (h' : i < r.length), f l[i] = some r[i]
  | [], r, h, i, hi, _ => by simp at hi
  | a :: l, r, h, i, hi, hi' => by
    simp only [List.mapM_cons, Option.pure_def, Option.bind_eq_bind, Option.bind_eq_some_iff,
      Option.some.injEq] at h
    obtain ⟨b, hb, t, ht, rfl⟩ := h
    cases i with
    | zero => simpa using hb
    | succ i => simpa using mapM_getElem ht i (by simpa using hi) (by simpa using hi')

theorem mapM_isSome {f : γ → Option δ} : ∀ {l : List γ}, (∀ a ∈ l, (f a).isSome = true) →
    ∃ r, l.mapM f = some r
  | [], _ => ⟨[], rfl⟩
  | a :: l, h => by
    obtain ⟨r, hr⟩ := mapM_isSome (l := l) (fun b hb => h b (List.mem_cons_of_mem _ hb))
    obtain ⟨b, hb⟩ := Option.isSome_iff_exists.mp (h a (by simp))
    exact ⟨b :: r, by simp [List.mapM_cons, hb, hr]⟩

theorem mapM_none {f : γ → Option δ} : ∀ {l : List γ} (a : γ), a ∈ l → f a = none →
    l.mapM f = none
  | b :: l, a, h, hf => by
    rw [List.mapM_cons]
    rcases List.mem_cons.mp h with rfl | h
    · rw [hf]; rfl
    · rw [mapM_none a h hf]
      cases f b <;> rfl

end Vc.Lemma
