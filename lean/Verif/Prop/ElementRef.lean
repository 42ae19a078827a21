import Verif.Model.ElementRef
import Verif.Lemma.Apply
import Verif.Lemma.SimdArray
import Verif.Lemma.SimdMask
import Verif.Prop.AvxMask
import Verif.Prop.ExCfg

/-!
C88: `v[i]` behaves like a reference to a variable.

The theorems compare any program (`Spec.Stmt`) that reads, assigns, changes and swaps elements of
vectors, masks and SimdArrays through the proxies with the same program on independent variables
(`Spec.Store`): the same values, and undefined behaviour in exactly the same cases. The objects may be
the same or different ones, references may alias.
-/

namespace Vc.Prop

open Vc.Model Vc.Spec Vc.Lemma

variable {S V : Type}

/-- What the program sees of the objects: the elements by reading them. -/
def view (A : Accessor S V) (h : Objs S V) : Store V :=
  { elem := fun o i => A.get (h.obj o) i, var := h.var }

/-- `set` changes one element, and it is defined exactly where `get` is. -/
private structure Lawful (A : Accessor S V) (I : S → Prop) : Prop where
  undef : ∀ s i v, I s → A.get s i = none → A.set s i v = none
  upd : ∀ s i u v, I s → A.get s i = some u → ∃ t, A.set s i v = some t ∧ I t ∧
    ∀ j, A.get t j = if j = i then some v else A.get s j

section

variable {A : Accessor S V} {I : S → Prop} (hA : Lawful A I)
include hA

private theorem store_some {h : Objs S V} (hI : ∀ o, I (h.obj o)) {r : Elem} {u : V}
    (hr : (view A h).get r = some u) (v : V) :
    ∃ h', h.store A r v = some h' ∧ (∀ o, I (h'.obj o)) ∧ view A h' = (view A h).put r v := by
  obtain ⟨t, e, it, g⟩ := hA.upd (h.obj r.obj) r.index u v (hI _) hr
  refine ⟨_, by rw [Objs.store, e]; rfl, fun o => ?_, ?_⟩
  · show I (if o = r.obj then t else h.obj o)
    split
    · exact it
    · exact hI o
  · unfold view Store.put
    congr 1
    funext o i
    show A.get (if o = r.obj then t else h.obj o) i = _
    by_cases ho : o = r.obj
    · rw [if_pos ho, g]
      by_cases hi : i = r.index
      · rw [if_pos hi, if_pos ⟨ho, hi⟩]
      · rw [if_neg hi, if_neg (fun c => hi c.2), ho]
    · rw [if_neg ho, if_neg (fun c => ho c.1)]

private theorem store_none {h : Objs S V} (hI : ∀ o, I (h.obj o)) {r : Elem}
    (hr : (view A h).get r = none) (v : V) : h.store A r v = none := by
  rw [Objs.store, hA.undef _ _ _ (hI _) hr]; rfl

/-- Both undefined, or both defined with objects that show the expected store. -/
private def Agree (A : Accessor S V) (I : S → Prop) (x : Option (Objs S V)) (y : Option (Store V)) :
    Prop :=
  match y with
  | none => x = none
  | some t => ∃ h, x = some h ∧ (∀ o, I (h.obj o)) ∧ view A h = t

private theorem step_agree (c : Stmt V) {h : Objs S V} (hI : ∀ o, I (h.obj o)) :
    Agree A I (h.step A c) ((view A h).step c) := by
  have ld : ∀ r, h.load A r = (view A h).get r := fun _ => rfl
  have ar : ∀ e, h.arg A e = (view A h).operand e := by rintro (v | k | r) <;> rfl
  have vr : ∀ k, (view A h).var k = h.var k := fun _ => rfl
  cases c with
  | read x r =>
    simp only [Objs.step, Store.step, ld]
    cases hr : (view A h).get r with
    | none => exact rfl
    | some u => exact ⟨_, rfl, hI, rfl⟩
  | assign r e =>
    simp only [Objs.step, Store.step, ar]
    cases he : (view A h).operand e with
    | none => cases (view A h).get r <;> exact rfl
    | some v =>
      cases hr : (view A h).get r with
      | none => exact store_none hA hI hr v
      | some u => exact store_some hA hI hr v
  | opAssign f r e =>
    simp only [Objs.step, Store.step, Objs.opAssign, ar, ld]
    cases hr : (view A h).get r with
    | none => exact rfl
    | some u =>
      cases he : (view A h).operand e with
      | none => exact rfl
      | some v =>
        simp only [Option.bind_some]
        cases f u v with
        | none => exact rfl
        | some t => exact store_some hA hI hr t
  | pre f r =>
    simp only [Objs.step, Store.step, Objs.pre, ld]
    cases hr : (view A h).get r with
    | none => exact rfl
    | some u =>
      simp only [Option.bind_some]
      cases f u with
      | none => exact rfl
      | some t => exact store_some hA hI hr t
  | post f x r =>
    simp only [Objs.step, Store.step, Objs.post, ld]
    cases hr : (view A h).get r with
    | none => exact rfl
    | some u =>
      simp only [Option.bind_some]
      cases f u with
      | none => exact rfl
      | some t =>
        obtain ⟨h', e, i, w⟩ := store_some hA hI hr t
        simp only [Option.bind_some, e]
        exact ⟨_, rfl, i, congrArg (fun q : Store V => q.putVar x u) w⟩
  | swap a b =>
    simp only [Objs.step, Store.step, Objs.swapRefs, ld]
    cases ha : (view A h).get a with
    | none => exact rfl
    | some u =>
      cases hb : (view A h).get b with
      | none => exact rfl
      | some v =>
        obtain ⟨h', e, i, w⟩ := store_some hA hI ha v
        simp only [Option.bind_some, e]
        have hb' : ∃ z, (view A h').get b = some z := by
          rw [w]
          unfold Store.put Store.get
          simp only
          split
          · exact ⟨_, rfl⟩
          · exact ⟨_, hb⟩
        obtain ⟨z, hz⟩ := hb'
        obtain ⟨h2, e2, i2, w2⟩ := store_some hA i hz u
        exact ⟨h2, e2, i2, by rw [w2, w]⟩
  | swapVar x r =>
    simp only [Objs.step, Store.step, Objs.swapVarRef, ld]
    cases hr : (view A h).get r with
    | none => exact rfl
    | some u =>
      obtain ⟨h', e, i, w⟩ := store_some hA (h := h.setVar x u) hI (r := r) (u := u) hr (h.var x)
      exact ⟨h', e, i, by rw [w]; rfl⟩
  | swapElem r x =>
    simp only [Objs.step, Store.step, Objs.swapRefVar, ld]
    cases hr : (view A h).get r with
    | none => exact rfl
    | some u =>
      obtain ⟨h', e, i, w⟩ := store_some hA hI hr (h.var x)
      simp only [Option.bind_some, e]
      exact ⟨_, rfl, i, by rw [vr, ← w]; rfl⟩

private theorem run_agree (p : List (Stmt V)) {h : Objs S V} (hI : ∀ o, I (h.obj o)) :
    Agree A I (h.run A p) ((view A h).run p) := by
  induction p generalizing h with
  | nil => exact ⟨h, rfl, hI, rfl⟩
  | cons c p ih =>
    have hs := step_agree hA c hI
    rw [Objs.run, Store.run]
    cases e : (view A h).step c with
    | none =>
      rw [e] at hs
      rw [show h.step A c = none from hs]
      exact rfl
    | some t =>
      rw [e] at hs
      obtain ⟨h', e', i', rfl⟩ := hs
      rw [e']
      exact ih i'

private theorem run_view (p : List (Stmt V)) {h : Objs S V} (hI : ∀ o, I (h.obj o)) :
    (h.run A p).map (view A) = (view A h).run p ∧
    ∀ h', h.run A p = some h' → ∀ o, I (h'.obj o) := by
  have := run_agree hA p hI
  cases e : (view A h).run p with
  | none =>
    rw [e] at this
    rw [show h.run A p = none from this]
    exact ⟨rfl, fun _ c => by cases c⟩
  | some t =>
    rw [e] at this
    obtain ⟨h', e', i', rfl⟩ := this
    rw [e']
    exact ⟨rfl, fun _ c => by cases c; exact i'⟩

end

private theorem vec_lawful (n w : Nat) : Lawful (vecAccess n w) (fun _ => True) where
  undef s i v _ h := by
    simp only [vecAccess] at h ⊢
    split at h
    · cases h
    · rename_i hi; rw [if_neg hi]
  upd s i u v _ h := by
    simp only [vecAccess] at h ⊢
    split at h
    · rename_i hi
      refine ⟨_, if_pos hi, trivial, fun j => ?_⟩
      by_cases hj : 0 ≤ j ∧ j < (n / w : Nat)
      · rw [if_pos hj, lane_setLane _ _ _ (by omega), if_pos hj]
        by_cases e : j = i
        · rw [if_pos e, if_pos (by rw [e])]
        · rw [if_neg e, if_neg (by omega)]
      · rw [if_neg hj, if_neg (fun e : j = i => hj (e ▸ hi)), if_neg hj]
    · cases h

private theorem mask_lawful {M : Type} (N : Nat) (get : M → Nat → Bool) (set : M → Nat → Bool → M)
    (P : M → (Nat → Bool) → Prop)
    (h : ∀ k b i, P k b → i < N → get k i = b i ∧ ∀ v, P (set k i v) (fun j => if j = i then v else b j)) :
    Lawful (S := M) (V := Bool)
      ⟨fun k i => if 0 ≤ i ∧ i < (N : Nat) then some (get k i.toNat) else none,
        fun k i v => if 0 ≤ i ∧ i < (N : Nat) then some (set k i.toNat v) else none⟩
      (fun k => ∃ b, P k b) where
  undef s i v _ hn := by
    simp only at hn ⊢
    split at hn
    · cases hn
    · rename_i hi; rw [if_neg hi]
  upd s i u v hb hu := by
    obtain ⟨b, hb⟩ := hb
    simp only at hu ⊢
    split at hu
    · rename_i hi
      have hs := (h s b i.toNat hb (by omega)).2 v
      refine ⟨_, if_pos hi, ⟨_, hs⟩, fun j => ?_⟩
      by_cases hj : 0 ≤ j ∧ j < (N : Nat)
      · rw [if_pos hj, if_pos hj, (h _ _ j.toNat hs (by omega)).1, (h s b j.toNat hb (by omega)).1]
        by_cases e : j = i
        · rw [if_pos e, if_pos (by rw [e])]
        · rw [if_neg e, if_neg (by omega)]
      · rw [if_neg hj, if_neg (fun e : j = i => hj (e ▸ hi)), if_neg hj]
    · cases hu

private theorem list_set_get? {l : List V} {i j : Nat} (hi : i < l.length) (v : V) :
    (l.set i v)[j]? = if j = i then some v else l[j]? := by
  rw [List.getElem?_set]
  by_cases e : i = j
  · subst e; simp [hi]
  · rw [if_neg e, if_neg (fun c => e c.symm)]

private theorem setEntryAt_none (C : Cfg) (v : V) (x : SA V) (o : Nat) (h : x.entryAt C o = none) :
    x.setEntryAt C v o = none := by
  induction x generalizing o with
  | atom l =>
    rw [SA.entryAt] at h
    rw [SA.setEntryAt]
    split at h
    · rename_i ho
      rw [List.getElem?_eq_none_iff] at h
      rw [if_neg (by omega)]
    · rename_i ho
      rw [if_neg (by omega)]
  | node a b iha ihb =>
    rw [SA.entryAt] at h
    rw [SA.setEntryAt]
    split at h
    · rename_i h1; rw [if_pos h1, iha _ h]; rfl
    · rename_i h1
      rw [if_neg h1]
      split at h
      · rename_i h2; rw [if_pos h2, ihb _ h]; rfl
      · rename_i h2; rw [if_neg h2]

private theorem maskSet_none (v : Bool) (x : SA Bool) (n i : Nat) (h : x.maskGet n i = none) :
    x.maskSet n i v = none := by
  induction x generalizing n i with
  | atom l =>
    rw [SA.maskGet, List.getElem?_eq_none_iff] at h
    rw [SA.maskSet, if_neg (by omega)]
  | node a b iha ihb =>
    rw [SA.maskGet] at h
    rw [SA.maskSet]
    split at h
    · rename_i h1; rw [if_pos h1, iha _ _ h]; rfl
    · rename_i h1; rw [if_neg h1, ihb _ _ h]; rfl

/-! ### The theorems -/

/-- SSE and AVX vectors with entries of `w` bits in registers of `n` bits. -/
theorem C88_vector (n w : Nat) (p : List (Stmt (BitVec w))) (h : Objs (BitVec n) (BitVec w)) :
    (h.run (vecAccess n w) p).map (view (vecAccess n w)) = (view (vecAccess n w) h).run p :=
  (run_view (vec_lawful n w) p (fun _ => trivial)).1

/-- The elements of a vector are its lanes. -/
theorem C88_vector_view (n w : Nat) (h : Objs (BitVec n) (BitVec w)) (o : Nat) (i : Nat) :
    (view (vecAccess n w) h).elem o i = (entries w (h.obj o))[i]? := by
  show (if (0 : Int) ≤ (i : Int) ∧ (i : Int) < (n / w : Nat) then _ else none) = _
  unfold entries
  rw [List.getElem?_map]
  by_cases hi : i < n / w
  · rw [if_pos (by omega), List.getElem?_range hi]; rfl
  · rw [if_neg (by omega), List.getElem?_eq_none (by simpa using hi)]; rfl

/-- SSE masks; they stay valid masks. -/
theorem C88_mask_sse {w : Nat} (hw : MaskWidth w) (p : List (Stmt Bool)) (h : Objs M128 Bool)
    (hm : ∀ o, ∃ b, IsMask w (h.obj o) b) :
    (h.run (sseMaskAccess w) p).map (view (sseMaskAccess w)) = (view (sseMaskAccess w) h).run p ∧
    ∀ h', h.run (sseMaskAccess w) p = some h' → ∀ o, ∃ b, IsMask w (h'.obj o) b :=
  run_view (mask_lawful (128 / w) (maskGet (128 / w)) (maskSet w) (IsMask w)
    (fun _ _ _ hk hi => C36_subscript hw hk hi)) p hm

/-- AVX masks; they stay valid masks. -/
theorem C88_mask_avx (avx2 : Bool) {w : Nat} (hw : AvxMaskWidth w) (p : List (Stmt Bool))
    (h : Objs M256 Bool) (hm : ∀ o, ∃ b, IsMask w (h.obj o) b) :
    (h.run (avxMaskAccess avx2 w) p).map (view (avxMaskAccess avx2 w)) =
      (view (avxMaskAccess avx2 w) h).run p ∧
    ∀ h', h.run (avxMaskAccess avx2 w) p = some h' → ∀ o, ∃ b, IsMask w (h'.obj o) b :=
  run_view (mask_lawful (256 / w) (amGet avx2 (256 / w)) (amSet w) (IsMask w)
    (fun _ _ _ hk hi => C63_subscript avx2 hw hk hi)) p hm

/-- The elements of a mask are its truth values. -/
theorem C88_mask_view (avx2 : Bool) {w v : Nat} (hw : MaskWidth w) (hv : AvxMaskWidth v)
    (h : Objs M128 Bool) (h' : Objs M256 Bool) (o i : Nat) (b b' : Nat → Bool)
    (hm : IsMask w (h.obj o) b) (hm' : IsMask v (h'.obj o) b') :
    (i < 128 / w → (view (sseMaskAccess w) h).elem o i = some (b i)) ∧
    (i < 256 / v → (view (avxMaskAccess avx2 v) h').elem o i = some (b' i)) := by
  refine ⟨fun hi => ?_, fun hi => ?_⟩
  · show (if (0 : Int) ≤ (i : Int) ∧ (i : Int) < (128 / w : Nat) then _ else none) = _
    rw [if_pos (by omega)]
    exact congrArg some (C36_subscript hw hm hi).1
  · show (if (0 : Int) ≤ (i : Int) ∧ (i : Int) < (256 / v : Nat) then _ else none) = _
    rw [if_pos (by omega)]
    exact congrArg some (C63_subscript avx2 hv hm' hi).1

example : MaskWidth 16 ∧ IsMask (n := 128) 16 0#128 (fun _ => false) :=
  ⟨.inr (.inl rfl), fun i hi => by simp [boolLane]⟩

/-- Scalar vectors and masks. -/
theorem C88_scalar (p : List (Stmt V)) (h : Objs V V) :
    (h.run (scalarAccess V) p).map (view (scalarAccess V)) = (view (scalarAccess V) h).run p := by
  refine (run_view (I := fun _ => True) ⟨fun s i v _ hn => ?_, fun s i u v _ hu => ?_⟩ p
    (fun _ => trivial)).1
  · simp only [scalarAccess] at hn ⊢
    split at hn
    · cases hn
    · rename_i hi; rw [if_neg hi]
  · simp only [scalarAccess] at hu ⊢
    split at hu
    · rename_i hi
      exact ⟨v, if_pos hi, trivial, fun j => by subst i; by_cases e : j = 0 <;> simp [e]⟩
    · cases hu

/-- `SimdArray<T, N>`. -/
theorem C88_array {C : Cfg} (hC : C.Valid) {N : Nat} (hN : 1 ≤ N) (p : List (Stmt V)) (h : Objs (SA V) V)
    (hw : ∀ o, SA.WF C N (h.obj o)) :
    (h.run (arrayAccess C V) p).map (view (arrayAccess C V)) = (view (arrayAccess C V) h).run p ∧
    (∀ h', h.run (arrayAccess C V) p = some h' → ∀ o, SA.WF C N (h'.obj o)) ∧
    ∀ o (i : Nat), (view (arrayAccess C V) h).elem o i = (h.obj o).toList[i]? := by
  have neg : ∀ (x : SA V) (i : Int), ¬ 0 ≤ i → x.get C i = none := fun x i hi => by
    rw [SA.get, if_neg hi]
  have law : Lawful (arrayAccess C V) (SA.WF C N) := by
    refine ⟨fun s i v ws hn => ?_, fun s i u v ws hu => ?_⟩
    · show s.set C i v = none
      by_cases hi : 0 ≤ i
      · obtain ⟨k, rfl⟩ := Int.eq_ofNat_of_zero_le hi
        have hk : s.get C k = none := hn
        rw [SA.get, if_pos hi] at hk
        rw [SA.set, if_pos hi]
        exact setEntryAt_none C v s _ hk
      · rw [SA.set, if_neg hi]
    · by_cases hi : 0 ≤ i
      · obtain ⟨k, rfl⟩ := Int.eq_ofNat_of_zero_le hi
        have hk : s.get C k = some u := hu
        rw [get_eq hC hN ws] at hk
        have hl : k < s.toList.length := (List.getElem?_eq_some_iff.1 hk).1
        obtain ⟨t, e, wt, et⟩ := set_eq hC v hN ws k (by rwa [WF.length hC hN ws] at hl)
        refine ⟨t, e, wt, fun j => ?_⟩
        show t.get C j = if j = (k : Int) then some v else s.get C j
        by_cases hj : 0 ≤ j
        · obtain ⟨m, rfl⟩ := Int.eq_ofNat_of_zero_le hj
          rw [get_eq hC hN wt, et, get_eq hC hN ws, list_set_get? hl]
          simp only [Int.natCast_inj]
        · rw [neg _ _ hj, neg _ _ hj, if_neg (by omega)]
      · have := neg s i hi
        rw [show s.get C i = some u from hu] at this
        cases this
  have := run_view law p hw
  exact ⟨this.1, this.2, fun o i => get_eq hC hN (hw o) i⟩

example : ∃ h : Objs (SA Nat) Nat, ∀ o, SA.WF exCfg 7 (h.obj o) := by
  obtain ⟨x, hx, _⟩ := ex7
  exact ⟨⟨fun _ => x, fun _ => 0⟩, fun _ => hx⟩

/-- `SimdMaskArray<T, N>`. -/
theorem C88_mask_array {C : Cfg} (hC : C.Valid) {N : Nat} (hN : 1 ≤ N) (p : List (Stmt Bool))
    (h : Objs (SA Bool) Bool) (hw : ∀ o, SA.WF C N (h.obj o)) :
    (h.run (maskArrayAccess N) p).map (view (maskArrayAccess N)) = (view (maskArrayAccess N) h).run p ∧
    (∀ h', h.run (maskArrayAccess N) p = some h' → ∀ o, SA.WF C N (h'.obj o)) ∧
    ∀ o (i : Nat), (view (maskArrayAccess N) h).elem o i = (h.obj o).toList[i]? := by
  have nat : ∀ (x : SA Bool) (k : Nat), SA.WF C N x → (maskArrayAccess N).get x k = x.toList[k]? :=
    fun x k wx => by
      show (if (0 : Int) ≤ (k : Int) then _ else none) = _
      rw [if_pos (by omega)]
      exact maskGet_eq hC N hN x wx k
  have neg : ∀ (x : SA Bool) (i : Int), ¬ 0 ≤ i → (maskArrayAccess N).get x i = none := fun x i hi => by
    show (if 0 ≤ i then _ else none) = _
    rw [if_neg hi]
  have law : Lawful (maskArrayAccess N) (SA.WF C N) := by
    refine ⟨fun s i v ws hn => ?_, fun s i u v ws hu => ?_⟩
    · show (if 0 ≤ i then s.maskSet N i.toNat v else none) = none
      by_cases hi : 0 ≤ i
      · obtain ⟨k, rfl⟩ := Int.eq_ofNat_of_zero_le hi
        have hk : (if (0 : Int) ≤ (k : Int) then s.maskGet N (k : Int).toNat else none) = none := hn
        rw [if_pos hi] at hk
        rw [if_pos hi]
        exact maskSet_none v s N _ hk
      · rw [if_neg hi]
    · by_cases hi : 0 ≤ i
      · obtain ⟨k, rfl⟩ := Int.eq_ofNat_of_zero_le hi
        rw [nat _ _ ws] at hu
        have hl : k < s.toList.length := (List.getElem?_eq_some_iff.1 hu).1
        obtain ⟨t, e, wt, et⟩ := maskSet_eq hC v N hN s ws k (by rwa [WF.length hC hN ws] at hl)
        refine ⟨t, ?_, wt, fun j => ?_⟩
        · show (if (0 : Int) ≤ (k : Int) then s.maskSet N (k : Int).toNat v else none) = _
          rw [if_pos (by omega)]
          exact e
        by_cases hj : 0 ≤ j
        · obtain ⟨m, rfl⟩ := Int.eq_ofNat_of_zero_le hj
          rw [nat _ _ wt, et, nat _ _ ws, list_set_get? hl]
          simp only [Int.natCast_inj]
        · rw [neg _ _ hj, neg _ _ hj, if_neg (by omega)]
      · rw [neg s i hi] at hu
        cases hu
  have := run_view law p hw
  exact ⟨this.1, this.2, fun o i => nat _ i (hw o)⟩

example : ∃ h : Objs (SA Bool) Bool, ∀ o, SA.WF exCfg 7 (h.obj o) := by
  obtain ⟨x, hx, _⟩ := exMask7
  exact ⟨⟨fun _ => x, fun _ => false⟩, fun _ => hx⟩

/-- A program: `++v[0]; x = v[0]++; swap(v[0], v[3]); v[3] += v[3];` and an access out of bounds. -/
example (s : Store Nat) (h0 : s.get ⟨0, 0⟩ = some 5) (h3 : s.get ⟨0, 3⟩ = some 9)
    (h4 : s.get ⟨0, 4⟩ = none) :
    ((s.run [.pre (fun a => some (a + 1)) ⟨0, 0⟩, .post (fun a => some (a + 1)) 2 ⟨0, 0⟩,
      .swap ⟨0, 0⟩ ⟨0, 3⟩, .opAssign (fun a b => some (a + b)) ⟨0, 3⟩ (.elem ⟨0, 3⟩)]).bind
      fun t => t.get ⟨0, 3⟩) = some 14 ∧
    s.run [.assign ⟨0, 4⟩ (.const 1)] = none := by
  unfold Store.get at h0 h3 h4
  simp only at h0 h3 h4
  simp [Store.run, Store.step, Store.get, Store.put, Store.putVar, Store.operand, h0, h3, h4]

end Vc.Prop
