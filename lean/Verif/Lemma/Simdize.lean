import Verif.Model.Simdize
import Verif.Prop.SimdArray
import Verif.Prop.SimdMask
import Verif.Prop.SimdArrayMove
import Verif.Prop.SimdCast
import Verif.Prop.Where

/-!
Lemmas about simdized objects.
-/

namespace Vc.Lemma
open Vc.Model Vc.Spec Vc.Prop

section
variable {m : Nat} {β : Fin m → Type}

theorem put_self (a : (k : Fin m) → β k) (k : Fin m) (v : β k) : put a k v k = v := by
  simp [put]

theorem put_ne (a : (k : Fin m) → β k) {k j : Fin m} (h : k ≠ j) (v : β k) : put a k v j = a j := by
  simp [put, h]

theorem pack_some {f : (k : Fin m) → Option (β k)} {g : (k : Fin m) → β k} (h : ∀ k, f k = some (g k)) :
    pack f = some g := by
  have h' : ∀ k, (f k).isSome := fun k => by simp [h k]
  unfold pack
  rw [dif_pos h']
  congr 1
  funext k
  simp [h k]

theorem pack_eq_some_iff {f : (k : Fin m) → Option (β k)} {g : (k : Fin m) → β k} :
    pack f = some g ↔ ∀ k, f k = some (g k) := by
  constructor
  · intro h k
    unfold pack at h
    split at h
    · rename_i hs
      have := congrFun (Option.some.inj h) k
      rw [← this]; simp
    · cases h
  · exact pack_some

theorem pack_isSome_iff {f : (k : Fin m) → Option (β k)} : (pack f).isSome ↔ ∀ k, (f k).isSome := by
  unfold pack
  split
  · rename_i h; simp [h]
  · rename_i h; simp [h]

theorem pack_congr {f g : (k : Fin m) → Option (β k)} (h : ∀ k, f k = g k) : pack f = pack g := by
  rw [show f = g from funext h]

/-- A loop over the members that replaces each by a function of it. -/
theorem foldPut_aux (f : (k : Fin m) → β k → Option (β k)) (g : (k : Fin m) → β k) :
    ∀ (l : List (Fin m)) (a : (k : Fin m) → β k), l.Nodup → (∀ k ∈ l, f k (a k) = some (g k)) →
      ∃ r, l.foldlM (fun a k => (f k (a k)).map (put a k)) a = some r ∧
        ∀ k, r k = if k ∈ l then g k else a k
  | [], a, _, _ => ⟨a, rfl, fun k => by simp⟩
  | k :: l, a, hn, h => by
    have hk := List.nodup_cons.mp hn
    obtain ⟨r, e, hr⟩ := foldPut_aux f g l (put a k (g k)) hk.2 (by
      intro j hj
      have : k ≠ j := fun e => hk.1 (e ▸ hj)
      rw [put_ne _ this]
      exact h j (List.mem_cons_of_mem _ hj))
    refine ⟨r, ?_, ?_⟩
    · rw [List.foldlM_cons, h k List.mem_cons_self]
      exact e
    · intro j
      rw [hr j]
      by_cases hj : j ∈ l
      · rw [if_pos hj, if_pos (List.mem_cons_of_mem _ hj)]
      · rw [if_neg hj]
        by_cases e : k = j
        · subst e; rw [put_self, if_pos List.mem_cons_self]
        · rw [put_ne _ e, if_neg]
          simp only [List.mem_cons, not_or]
          exact ⟨fun e' => e e'.symm, hj⟩

theorem foldPut (f : (k : Fin m) → β k → Option (β k)) (g a : (k : Fin m) → β k)
    (h : ∀ k, f k (a k) = some (g k)) :
    (List.finRange m).foldlM (fun a k => (f k (a k)).map (put a k)) a = some g := by
  obtain ⟨r, e, hr⟩ := foldPut_aux f g (List.finRange m) a (List.nodup_finRange m) fun k _ => h k
  rw [e]
  congr 1
  funext k
  rw [hr k, if_pos (List.mem_finRange k)]

/-- The same if one of the steps fails. -/
theorem foldPut_none (f : (k : Fin m) → β k → Option (β k)) :
    ∀ (l : List (Fin m)) (a : (k : Fin m) → β k), l.Nodup → (∃ k ∈ l, f k (a k) = none) →
      l.foldlM (fun a k => (f k (a k)).map (put a k)) a = none
  | [], _, _, ⟨_, h, _⟩ => absurd h List.not_mem_nil
  | k :: l, a, hn, ⟨j, hj, h⟩ => by
    have hk := List.nodup_cons.mp hn
    rw [List.foldlM_cons]
    cases e : f k (a k) with
    | none => rfl
    | some v =>
      have hkj : k ≠ j := by intro e'; subst e'; rw [e] at h; cases h
      have hjl : j ∈ l := by
        rcases List.mem_cons.mp hj with e' | h'
        · exact absurd e'.symm hkj
        · exact h'
      exact foldPut_none f l (put a k v) hk.2 ⟨j, hjl, by rw [put_ne _ hkj]; exact h⟩

theorem foldl_put (v a : (k : Fin m) → β k) :
    (List.finRange m).foldl (fun x k => put x k (v k)) a = v := by
  have h := foldPut (fun k _ => some (v k)) v a fun _ => rfl
  have e : ∀ (l : List (Fin m)) (a : (k : Fin m) → β k),
      l.foldlM (fun a k => (some (v k)).map (put a k)) a = some (l.foldl (fun x k => put x k (v k)) a) := by
    intro l
    induction l with
    | nil => intro a; rfl
    | cons k l ih => intro a; rw [List.foldlM_cons, List.foldl_cons]; exact ih _
  exact Option.some.inj ((e _ a).symm.trans h)

end

/-! ## One member -/

theorem member_get (K : Member) (hC : K.cfg.Valid) {n : Nat} (hn : 1 ≤ n) {x : SA K.Entry}
    (hx : SA.WF K.cfg n x) (i : Nat) : K.get n x i = x.toList[i]? := by
  cases K with
  | vec β C z => exact get_eq hC hn hx i
  | mask C => exact maskGet_eq hC n hn x hx i

theorem member_set (K : Member) (hC : K.cfg.Valid) {n : Nat} (hn : 1 ≤ n) {x : SA K.Entry}
    (hx : SA.WF K.cfg n x) {i : Nat} (hi : i < n) (v : K.Entry) :
    ∃ y, K.set n x i v = some y ∧ SA.WF K.cfg n y ∧ y.toList = x.toList.set i v := by
  cases K with
  | vec β C z => exact set_eq hC v hn hx i hi
  | mask C => exact maskSet_eq hC v n hn x hx i hi

theorem member_set_get (K : Member) (hC : K.cfg.Valid) {n : Nat} (hn : 1 ≤ n) {x : SA K.Entry}
    (hx : SA.WF K.cfg n x) {i : Nat} (hi : i < n) (v : K.Entry) :
    ∃ y, K.set n x i v = some y ∧ SA.WF K.cfg n y ∧
      ∀ j, K.get n y j = if j = i then some v else K.get n x j := by
  obtain ⟨y, e, w, t⟩ := member_set K hC hn hx hi v
  refine ⟨y, e, w, fun j => ?_⟩
  rw [member_get K hC hn w, member_get K hC hn hx, t, List.getElem?_set]
  have := WF.length hC hn hx
  by_cases h : i = j
  · subst h; simp only [if_true]; rw [if_pos (by omega)]
  · rw [if_neg h, if_neg fun e => h e.symm]

theorem member_isSome (K : Member) (hC : K.cfg.Valid) {n : Nat} (hn : 1 ≤ n) {x : SA K.Entry}
    (hx : SA.WF K.cfg n x) (i : Nat) : (K.get n x i).isSome ↔ i < n := by
  rw [member_get K hC hn hx, Option.isSome_iff_ne_none, Ne, List.getElem?_eq_none_iff, WF.length hC hn hx]
  omega

/-! ## Whole objects -/

section
variable {m : Nat} {K : Fin m → Member} {N : Nat}

/-- An object of the type `Adapter<S, T, N>`: all members have `N` lanes. -/
def AdWF (K : Fin m → Member) (N : Nat) (a : Adapter K) : Prop := ∀ k, SA.WF (K k).cfg N (a k)

/-- All entry types have valid environments. -/
def AdValid (K : Fin m → Member) : Prop := ∀ k, (K k).cfg.Valid

variable (hK : AdValid K) (hN : 1 ≤ N)
include hK hN

theorem extract_isSome {a : Adapter K} (ha : AdWF K N a) {i : Nat} (hi : i < N) :
    (extractImpl N a i).isSome :=
  pack_isSome_iff.mpr fun k => (member_isSome (K k) (hK k) hN (ha k) i).mpr hi

omit hK hN in
theorem extract_get {a : Adapter K} {i : Nat} {x : Obj K} :
    extractImpl N a i = some x ↔ ∀ k, (K k).get N (a k) i = some (x k) := pack_eq_some_iff

theorem assign_spec {a : Adapter K} (ha : AdWF K N a) {i : Nat} (hi : i < N) (x : Obj K) :
    ∃ b, assignImpl N a i x = some b ∧ AdWF K N b ∧
      ∀ k j, (K k).get N (b k) j = if j = i then some (x k) else (K k).get N (a k) j := by
  have h := fun k => member_set_get (K k) (hK k) hN (ha k) hi (x k)
  refine ⟨fun k => (h k).choose, ?_, fun k => (h k).choose_spec.2.1, fun k => (h k).choose_spec.2.2⟩
  exact foldPut (fun k v => (K k).set N v i (x k)) _ a fun k => (h k).choose_spec.1

theorem assign_extract {a : Adapter K} (ha : AdWF K N a) {i : Nat} (hi : i < N) (x : Obj K) :
    ∃ b, assignImpl N a i x = some b ∧ AdWF K N b ∧
      ∀ j, extractImpl N b j = if j = i then some x else extractImpl N a j := by
  obtain ⟨b, e, w, h⟩ := assign_spec hK hN ha hi x
  refine ⟨b, e, w, fun j => ?_⟩
  by_cases hj : j = i
  · rw [if_pos hj]
    exact pack_some fun k => by rw [h k j, if_pos hj]
  · rw [if_neg hj]
    exact pack_congr fun k => by rw [h k j, if_neg hj]

omit hK hN in
/-- Writing the same member of the same object for a list of members, every value computed from members
that have not been written yet. -/
theorem writes_aux (p i : Nat) (v : (k : Fin m) → Adapters K → Option (K k).Entry)
    (g : (k : Fin m) → SA (K k).Entry) (s0 : Adapters K)
    (hv : ∀ k (s : Adapters K), (∀ r, s r k = s0 r k) →
      (v k s).bind (fun x => (K k).set N (s p k) i x) = some (g k)) :
    ∀ (l : List (Fin m)) (s : Adapters K), l.Nodup → (∀ k ∈ l, ∀ r, s r k = s0 r k) →
      ∃ s', l.foldlM (fun s k => (v k s).bind fun x => Adapters.write N s p k i x) s = some s' ∧
        ∀ r k, s' r k = if r = p ∧ k ∈ l then g k else s r k
  | [], s, _, _ => ⟨s, rfl, fun r k => by simp⟩
  | k :: l, s, hn, h => by
    have hk := List.nodup_cons.mp hn
    have h0 := hv k s (h k List.mem_cons_self)
    obtain ⟨x, hx, hs⟩ := Option.bind_eq_some_iff.mp h0
    obtain ⟨s', e, hr⟩ := writes_aux p i v g s0 hv l (fun q => if q = p then put (s p) k (g k) else s q) hk.2
      (by
        intro j hj r
        have hkj : k ≠ j := fun e => hk.1 (e ▸ hj)
        by_cases hrp : r = p
        · subst hrp
          simp only [if_true]
          rw [put_ne _ hkj]
          exact h j (List.mem_cons_of_mem _ hj) r
        · simp only [if_neg hrp]
          exact h j (List.mem_cons_of_mem _ hj) r)
    refine ⟨s', ?_, ?_⟩
    · rw [List.foldlM_cons, hx]
      simp only [Option.bind_some, Adapters.write, hs, Option.map_some]
      exact e
    · intro r j
      rw [hr r j]
      by_cases hrp : r = p
      · subst hrp
        simp only [true_and, if_true]
        by_cases hj : j ∈ l
        · rw [if_pos hj, if_pos (List.mem_cons_of_mem _ hj)]
        · rw [if_neg hj]
          by_cases e : k = j
          · subst e; rw [put_self, if_pos List.mem_cons_self]
          · rw [put_ne _ e, if_neg]
            simp only [List.mem_cons, not_or]
            exact ⟨fun e' => e e'.symm, hj⟩
      · simp only [hrp, false_and, if_false]

theorem swap_spec {s : Adapters K} (hs : ∀ r, AdWF K N (s r)) {p i q j : Nat} (hi : i < N) (hj : j < N) :
    ∃ s', swapLanes N s p i q j = some s' ∧ (∀ r, AdWF K N (s' r)) ∧
      ∀ r k l, (K k).get N (s' r k) l =
        if r = q ∧ l = j then (K k).get N (s p k) i
        else if r = p ∧ l = i then (K k).get N (s q k) j else (K k).get N (s r k) l := by
  obtain ⟨tmp, ht⟩ := Option.isSome_iff_exists.mp (extract_isSome hK hN (hs p) hi)
  obtain ⟨other, ho⟩ := Option.isSome_iff_exists.mp (extract_isSome hK hN (hs q) hj)
  have ht' := extract_get.mp ht
  have ho' := extract_get.mp ho
  have h1 := fun k => member_set_get (K k) (hK k) hN (hs p k) hi (other k)
  obtain ⟨s1, e1, r1⟩ := writes_aux (N := N) p i (fun k s => (K k).get N (s q k) j)
    (fun k => (h1 k).choose) s (by
      intro k s' hs'
      rw [hs' q, ho' k, hs' p]
      exact (h1 k).choose_spec.1) (List.finRange m) s (List.nodup_finRange m) (fun _ _ _ => rfl)
  have w1 : ∀ r, AdWF K N (s1 r) := by
    intro r k
    rw [r1 r k]
    split
    · exact (h1 k).choose_spec.2.1
    · exact hs r k
  have g1 : ∀ r k l, (K k).get N (s1 r k) l =
      if r = p ∧ l = i then (K k).get N (s q k) j else (K k).get N (s r k) l := by
    intro r k l
    rw [r1 r k]
    by_cases hr : r = p
    · subst hr
      simp only [List.mem_finRange, and_self, if_true, true_and]
      rw [(h1 k).choose_spec.2.2 l, ho' k]
    · rw [if_neg (fun c => hr c.1), if_neg (fun c => hr c.1)]
  have h2 := fun k => member_set_get (K k) (hK k) hN (w1 q k) hj (tmp k)
  obtain ⟨s2, e2, r2⟩ := writes_aux (N := N) q j (fun k _ => some (tmp k))
    (fun k => (h2 k).choose) s1 (by
      intro k s' hs'
      rw [hs' q]
      exact (h2 k).choose_spec.1) (List.finRange m) s1 (List.nodup_finRange m) (fun _ _ _ => rfl)
  refine ⟨s2, ?_, ?_, ?_⟩
  · have : swapLanes N s p i q j = (some tmp).bind fun tmp => (some s1).bind fun s =>
        (List.finRange m).foldlM (fun s k => Adapters.write N s q k j (tmp k)) s := by
      rw [← ht, ← e1]; rfl
    rw [this]
    exact e2
  · intro r k
    rw [r2 r k]
    split
    · exact (h2 k).choose_spec.2.1
    · exact w1 r k
  · intro r k l
    rw [r2 r k]
    by_cases hr : r = q
    · subst hr
      simp only [List.mem_finRange, and_self, if_true, true_and]
      rw [(h2 k).choose_spec.2.2 l, ht' k, g1]
    · rw [if_neg (fun c => hr c.1), if_neg (fun c => hr c.1), g1]

/-- A loop that assigns one object per lane. -/
theorem assignLoop {σ : Type} (f : Nat → σ → Option (Obj K × σ)) (xs : Nat → Obj K) (st : Nat → σ) :
    ∀ (c : Nat) (a : Adapter K) (_ : AdWF K N a) (_ : c ≤ N)
      (_ : ∀ i, i < c → f i (st i) = some (xs i, st (i + 1))),
      ∃ b, (List.range c).foldlM
          (fun (p : Adapter K × σ) i => do
            let (x, s) ← f i p.2
            return (← assignImpl N p.1 i x, s)) (a, st 0) = some (b, st c) ∧ AdWF K N b ∧
        ∀ j, extractImpl N b j = if j < c then some (xs j) else extractImpl N a j
  | 0, a, ha, _, _ => ⟨a, rfl, ha, fun j => by simp⟩
  | c + 1, a, ha, hc, hf => by
    obtain ⟨b, e, w, h⟩ := assignLoop f xs st c a ha (by omega) fun i hi => hf i (by omega)
    obtain ⟨b', e', w', h'⟩ := assign_extract hK hN w (i := c) (by omega) (xs c)
    refine ⟨b', ?_, w', ?_⟩
    · rw [List.range_succ, List.foldlM_append, e]
      simp only [Option.bind_eq_bind, Option.bind_some, List.foldlM_cons, List.foldlM_nil, hf c (by omega), e']
      rfl
    · intro j
      rw [h' j]
      by_cases hj : j = c
      · rw [if_pos hj, if_pos (by omega), hj]
      · rw [if_neg hj, h j]
        by_cases hjc : j < c
        · rw [if_pos hjc, if_pos (by omega)]
        · rw [if_neg hjc, if_neg (by omega)]

end
end Vc.Lemma
