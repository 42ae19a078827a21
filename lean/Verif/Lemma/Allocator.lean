import Verif.Model.Allocator
import Verif.Lemma.Store

/-!
The invariant of the executions of `Verif.Model.Allocator`.
-/

namespace Vc.Lemma

open Vc.Model Vc.Spec

/-- All alignments are powers of two, and a pointer fits into `NaturalAlignment` bytes. -/
structure PlatformOK (P : AllocPlatform) : Prop where
  simd : ∃ k, P.simd = 2 ^ k
  natural : ∃ k, P.natural = 2 ^ k
  ptr : 8 ≤ P.natural

theorem pow_dvd_of_le {a b : Nat} (ha : ∃ k, a = 2 ^ k) (hb : ∃ k, b = 2 ^ k) (h : a ≤ b) : a ∣ b := by
  obtain ⟨k, rfl⟩ := ha
  obtain ⟨l, rfl⟩ := hb
  exact Nat.pow_dvd_pow 2 ((Nat.pow_le_pow_iff_right (by decide)).mp h)

theorem alignment_pow {P : AllocPlatform} (hP : PlatformOK P) {T : ObjTy} (hT : T.OK) :
    ∃ k, allocAlignment P T = 2 ^ k := by
  unfold allocAlignment
  split
  · exact hT.2
  · exact hP.simd

theorem alignment_dvd {P : AllocPlatform} (hP : PlatformOK P) {T : ObjTy} (hT : T.OK) :
    T.align ∣ allocAlignment P T ∧ P.simd ∣ allocAlignment P T := by
  unfold allocAlignment
  split
  · exact ⟨Nat.dvd_refl _, pow_dvd_of_le hP.simd hT.2 (by omega)⟩
  · exact ⟨pow_dvd_of_le hT.2 hP.simd (by omega), Nat.dvd_refl _⟩

/-- The adjustment of the pointer. -/
theorem adjust {A N p : Nat} (hA : ∃ k, A = 2 ^ k) (hN : N ∣ A) (hN8 : 8 ≤ N) (hlt : N < A) (hp : p % N = 0) :
    ∃ q, p + A - ((p + A) &&& (A - 1)) = q ∧ A ∣ q ∧ p + 8 ≤ q ∧ q ≤ p + A := by
  have hand : (p + A) &&& (A - 1) = (p + A) % A := by
    obtain ⟨k, rfl⟩ := hA
    rw [Nat.and_two_pow_sub_one_eq_mod]
  rw [hand]
  have hA0 : 0 < A := by omega
  refine ⟨_, rfl, ?_, ?_, Nat.sub_le _ _⟩
  · exact Nat.dvd_sub_mod _
  · rw [Nat.add_mod_right]
    have h1 : p % A % N = 0 := by rw [Nat.mod_mod_of_dvd _ hN]; exact hp
    obtain ⟨c, hc⟩ := Nat.dvd_of_mod_eq_zero h1
    obtain ⟨k, rfl⟩ := hN
    have hl := Nat.mod_lt p hA0
    have hck : c < k := by
      rw [hc] at hl
      exact Nat.lt_of_mul_lt_mul_left hl
    have : N * (c + 1) ≤ N * k := Nat.mul_le_mul_left _ hck
    rw [Nat.mul_add, Nat.mul_one] at this
    omega

/-! ### The invariant -/

/-- An array and the block it is in. -/
structure Entry where
  T : ObjTy
  n : Nat
  base : Nat
  q : Nat

def Entry.view (e : Entry) : ObjTy × Nat × Nat := (e.T, e.n, e.q)

def Entry.block (P : AllocPlatform) (e : Entry) : Nat × Nat := (e.base, e.n * e.T.size + extraBytes P e.T)

structure Entry.OK (P : AllocPlatform) (m : ByteMem) (e : Entry) : Prop where
  lo : e.base ≤ e.q
  hi : e.q ≤ e.base + extraBytes P e.T
  size : 0 < e.T.size
  al : e.T.align ∣ e.q ∧ P.simd ∣ e.q
  acc : ∀ x : Int, e.base ≤ x → x < (e.base + (e.n * e.T.size + extraBytes P e.T) : Nat) → ∃ b, m x = some b
  noextra : extraBytes P e.T = 0 → e.q = e.base
  head : 0 < extraBytes P e.T → e.base + 8 ≤ e.q ∧ loadLE m ((e.q : Int) - 8) 8 = some e.base

def Apart (P : AllocPlatform) (e f : Entry) : Prop :=
  (e.block P).1 + max (e.block P).2 1 ≤ (f.block P).1 ∨ (f.block P).1 + max (f.block P).2 1 ≤ (e.block P).1

structure AInv (P : AllocPlatform) (h : Heap) (v : View) (E : List Entry) : Prop where
  live : v.live = E.map Entry.view
  blocks : h.blocks = E.map (Entry.block P)
  apart : E.Pairwise (Apart P)
  ok : ∀ e ∈ E, e.OK P h.mem
  bytes : ∀ x b, v.bytes x = some b → h.mem x = some b ∧ ∃ r ∈ v.live, InArray r x

theorem loadLE_congr {m m' : ByteMem} : ∀ (k : Nat) (a : Int),
    (∀ j : Nat, j < k → m (a + j) = m' (a + j)) → loadLE m a k = loadLE m' a k
  | 0, _, _ => rfl
  | k + 1, a, h => by
    have h0 := h 0 (by omega)
    rw [show a + ((0 : Nat) : Int) = a by omega] at h0
    have ih := loadLE_congr (m := m) (m' := m') k (a + 1) fun j hj => by
      have := h (j + 1) (by omega)
      rw [show a + ((j + 1 : Nat) : Int) = a + 1 + j by omega] at this
      exact this
    show (m a).bind _ = (m' a).bind _
    rw [h0, ih]

/-- An entry stays as it is when the memory of its block does. -/
theorem Entry.OK.congr {P : AllocPlatform} {m m' : ByteMem} {e : Entry} (h : e.OK P m)
    (hm : ∀ x : Int, e.base ≤ x → x < (e.base + (e.n * e.T.size + extraBytes P e.T) : Nat) → m' x = m x) : e.OK P m' where
  lo := h.lo
  hi := h.hi
  size := h.size
  al := h.al
  acc x h1 h2 := by rw [hm x h1 h2]; exact h.acc x h1 h2
  noextra := h.noextra
  head h0 := by
    obtain ⟨h1, h2⟩ := h.head h0
    refine ⟨h1, ?_⟩
    rw [← h2]
    have := h.hi
    exact loadLE_congr 8 _ fun j hj => hm _ (by omega) (by omega)

/-- Two entries are the same entry, or their blocks have no byte in common. -/
theorem AInv.eq_or {P : AllocPlatform} {h : Heap} {v : View} {E : List Entry} (I : AInv P h v E) {e f : Entry}
    (he : e ∈ E) (hf : f ∈ E) : e = f ∨ Apart P e f := by
  have hsym : ∀ {e f}, Apart P e f → Apart P f e := fun h => Or.symm h
  have := I.apart
  clear I
  induction E with
  | nil => exact absurd he (by simp)
  | cons x E ih =>
    rw [List.pairwise_cons] at this
    rcases List.mem_cons.mp he with rfl | he'
    · rcases List.mem_cons.mp hf with rfl | hf'
      · exact .inl rfl
      · exact .inr (this.1 f hf')
    · rcases List.mem_cons.mp hf with rfl | hf'
      · exact .inr (hsym (this.1 e he'))
      · exact ih he' hf' this.2

theorem Apart.base_ne {P : AllocPlatform} {e f : Entry} (h : Apart P e f) : e.base ≠ f.base := by
  intro hb
  unfold Apart Entry.block at h
  simp only at h
  omega

/-- The array is part of the block. -/
theorem Entry.OK.inBlock {P : AllocPlatform} {m : ByteMem} {e : Entry} (h : e.OK P m) {x : Int}
    (hx : InArray e.view x) :
    (e.base : Int) ≤ x ∧ x < (e.base + (e.n * e.T.size + extraBytes P e.T) : Nat) ∧
      (0 < extraBytes P e.T → (e.base : Int) + 8 ≤ x) := by
  unfold InArray Entry.view at hx
  simp only at hx
  have h1 := h.lo
  have h2 := h.hi
  generalize e.n * e.T.size = s at hx ⊢
  refine ⟨by omega, by omega, fun h0 => ?_⟩
  have := (h.head h0).1
  omega

theorem Apart.not_both {P : AllocPlatform} {e f : Entry} (h : Apart P e f) {x : Int}
    (h1 : (e.base : Int) ≤ x) (h2 : x < (e.base + (e.n * e.T.size + extraBytes P e.T) : Nat))
    (h3 : (f.base : Int) ≤ x) (h4 : x < (f.base + (f.n * f.T.size + extraBytes P f.T) : Nat)) : False := by
  unfold Apart Entry.block at h
  simp only at h
  generalize e.n * e.T.size + extraBytes P e.T = s at *
  generalize f.n * f.T.size + extraBytes P f.T = t at *
  omega

/-! ### allocate -/

theorem entry_ptr {m : ByteMem} {a : Int} {p : Nat} (hp : p < 2 ^ 64) (h : EntryAt m a (BitVec.ofNat 64 p)) :
    loadLE m a 8 = some p := by
  have := loadLE_entry (c := 8) (m := m) (a := a) (v := BitVec.ofNat 64 p) h
  rw [this, BitVec.toNat_ofNat, Nat.mod_eq_of_lt hp]

/-- `allocate` returns, and the invariant holds again. -/
theorem allocate_inv {P : AllocPlatform} (hP : PlatformOK P) {h : Heap} {v : View} {E : List Entry} (I : AInv P h v E)
    {T : ObjTy} (hT : T.OK) {n p : Nat} (junk : Nat → BitVec 8) (hn : n * T.size + extraBytes P T < 2 ^ 64)
    (hnew : NewOK P h (allocRequest P T n) p) :
    ∃ h' q, allocate P T h n (some (p, junk)) = .ok (h', q) ∧ AInv P h' (v.alloc T n q) (⟨T, n, p, q⟩ :: E) := by
  have hreq : allocRequest P T n = n * T.size + extraBytes P T := by
    unfold allocRequest wrap64
    rw [Nat.mod_eq_of_lt (a := n * T.size) (by omega), Nat.mod_eq_of_lt hn]
  rw [hreq] at hnew
  obtain ⟨hp0, hpn, hpe, hdis⟩ := hnew
  have hmax : ¬ n > allocMaxSize T := by
    unfold allocMaxSize
    rw [Nat.not_lt, Nat.le_div_iff_mul_le hT.1]
    omega
  have hmem : ∀ x : Int, (p : Int) ≤ x → x < (p + (n * T.size + extraBytes P T) : Nat) →
      ∃ b, (opNew h (n * T.size + extraBytes P T) p junk).mem x = some b := fun x h1 h2 =>
    ⟨_, if_pos ⟨h1, by omega⟩⟩
  have hold : ∀ x : Int, ¬ ((p : Int) ≤ x ∧ x < (p + (n * T.size + extraBytes P T) : Nat)) →
      (opNew h (n * T.size + extraBytes P T) p junk).mem x = h.mem x := fun x hx =>
    if_neg fun h => hx ⟨h.1, by omega⟩
  have hapart : ∀ q, ∀ e ∈ E, Apart P ⟨T, n, p, q⟩ e := fun q e he => by
    have := hdis (e.block P) (by rw [I.blocks]; exact List.mem_map_of_mem he)
    exact this
  -- whatever is changed inside the block, and is as an entry has to be
  have fin : ∀ (m : ByteMem) (q : Nat), Entry.OK P m ⟨T, n, p, q⟩ →
      (∀ x : Int, ¬ ((p : Int) ≤ x ∧ x < (p + (n * T.size + extraBytes P T) : Nat)) → m x = h.mem x) →
      AInv P ⟨(p, n * T.size + extraBytes P T) :: h.blocks, m⟩ (v.alloc T n q) (⟨T, n, p, q⟩ :: E) := by
    intro m q hok hm
    have hout : ∀ e ∈ E, ∀ x : Int, e.base ≤ x → x < (e.base + (e.n * e.T.size + extraBytes P e.T) : Nat) →
        m x = h.mem x := fun e he x h1 h2 =>
      hm x fun hx => (hapart q e he).not_both hx.1 hx.2 h1 h2
    refine ⟨?_, ?_, ?_, ?_, ?_⟩
    · show (T, n, q) :: v.live = _
      rw [I.live]; rfl
    · show (p, n * T.size + extraBytes P T) :: h.blocks = _
      rw [I.blocks]; rfl
    · rw [List.pairwise_cons]; exact ⟨hapart q, I.apart⟩
    · intro e he
      rcases List.mem_cons.mp he with rfl | he
      · exact hok
      · exact (I.ok e he).congr (hout e he)
    · intro x b hb
      obtain ⟨hb1, r, hr, hx⟩ := I.bytes x b hb
      refine ⟨?_, r, List.mem_cons_of_mem _ hr, hx⟩
      rw [I.live, List.mem_map] at hr
      obtain ⟨e, he, rfl⟩ := hr
      obtain ⟨h1, h2, -⟩ := (I.ok e he).inBlock hx
      show m x = _
      rw [hout e he x h1 h2]; exact hb1
  unfold allocate
  rw [if_neg hmax]
  simp only [hreq]
  by_cases hex : extraBytes P T > 0
  · rw [if_pos hex]
    have hA : allocAlignment P T > P.natural ∧ extraBytes P T = allocAlignment P T := by
      unfold extraBytes at hex ⊢
      split at hex
      · rename_i hc; exact ⟨hc, if_pos hc⟩
      · exact absurd hex (by omega)
    obtain ⟨q, hq, hAq, h1, h2⟩ := adjust (alignment_pow hP hT)
      (pow_dvd_of_le hP.natural (alignment_pow hP hT) (by omega)) hP.ptr hA.1 hpn
    rw [← hA.2] at hq h2
    rw [show allocAlignment P T - 1 = extraBytes P T - 1 by rw [hA.2]]
    simp only [hq]
    obtain ⟨m', hs⟩ := (storeBytes_some (m := (opNew h (n * T.size + extraBytes P T) p junk).mem)
      (a := (q : Int) - 8) (k := 8) (en := fun _ => true) (b := Model.lane 8 (BitVec.ofNat 64 p))).mp
      fun j hj _ => hmem _ (by omega) (by omega)
    have hs' : storeu (opNew h (n * T.size + extraBytes P T) p junk).mem ((q : Int) - 8) (BitVec.ofNat 64 p) = some m' := hs
    rw [hs']
    refine ⟨_, q, rfl, fin m' q ?_ ?_⟩
    · have hent : EntryAt m' ((q : Int) - 8) (BitVec.ofNat 64 p) := fun j hj =>
        storeBytes_byte hs (by omega) rfl
      refine ⟨by show p ≤ q; omega, h2, hT.1, ?_, ?_, fun h0 => absurd (show extraBytes P T = 0 from h0) (by omega),
        fun _ => ⟨h1, entry_ptr (show p < 2 ^ 64 by omega) hent⟩⟩
      · exact ⟨Nat.dvd_trans (alignment_dvd hP hT).1 hAq, Nat.dvd_trans (alignment_dvd hP hT).2 hAq⟩
      · intro x h3 h4
        by_cases hx : ∃ j : Nat, j < 8 ∧ x = (q : Int) - 8 + j
        · obtain ⟨j, hj, rfl⟩ := hx
          exact ⟨_, storeBytes_byte hs hj rfl⟩
        · rw [storeBytes_other hs fun j hj _ hxj => hx ⟨j, hj, hxj⟩]
          exact hmem x h3 h4
    · intro x hx
      rw [storeBytes_other hs fun j hj _ hxj => hx ⟨by omega, by omega⟩]
      exact hold x hx
  · rw [if_neg hex]
    have h0 : extraBytes P T = 0 := by omega
    refine ⟨_, p, rfl, fin _ p ?_ hold⟩
    have hA : allocAlignment P T ∣ p := by
      refine Nat.dvd_trans (pow_dvd_of_le (alignment_pow hP hT) hP.natural ?_) (Nat.dvd_of_mod_eq_zero hpn)
      have := h0
      unfold extraBytes at this
      split at this
      · have := hP.ptr; omega
      · omega
    exact ⟨Nat.le_refl _, by show p ≤ p + _; omega, hT.1,
      ⟨Nat.dvd_trans (alignment_dvd hP hT).1 hA, Nat.dvd_trans (alignment_dvd hP hT).2 hA⟩, hmem, fun _ => rfl,
      fun h => absurd (show 0 < extraBytes P T from h) (by omega)⟩

/-! ### deallocate -/

theorem Entry.OK.base_eq {P : AllocPlatform} {m : ByteMem} {e f : Entry} (he : e.OK P m) (hf : f.OK P m)
    (h : e.view = f.view) : e.base = f.base := by
  have hT : e.T = f.T := congrArg (·.1) h
  have hq : e.q = f.q := congrArg (·.2.2) h
  by_cases h0 : 0 < extraBytes P e.T
  · have h1 := (he.head h0).2
    have h2 := (hf.head (hT ▸ h0)).2
    rw [hq, h2] at h1
    exact (Option.some.inj h1).symm
  · rw [← he.noextra (by omega), ← hf.noextra (by rw [← hT]; omega), hq]

open Classical in
/-- `deallocate` returns the block to `operator delete`, and the invariant holds again. -/
theorem deallocate_inv {P : AllocPlatform} {h : Heap} {v : View} {E : List Entry} (I : AInv P h v E) {T : ObjTy}
    {n q : Nat} (hl : (T, n, q) ∈ v.live) :
    ∃ h' E', deallocate P T h q = .ok h' ∧ AInv P h' (v.dealloc T n q) E' ∧ E'.length < E.length := by
  rw [I.live, List.mem_map] at hl
  obtain ⟨e, he, hev⟩ := hl
  obtain ⟨rfl, rfl, rfl⟩ : e.T = T ∧ e.n = n ∧ e.q = q := by
    unfold Entry.view at hev
    exact ⟨congrArg (·.1) hev, congrArg (·.2.1) hev, congrArg (·.2.2) hev⟩
  have hok := I.ok e he
  have hfind : ∃ s, h.blocks.find? (·.1 == e.base) = some (e.base, s) ∧ s = e.n * e.T.size + extraBytes P e.T := by
    have hm : e.block P ∈ h.blocks := by rw [I.blocks]; exact List.mem_map_of_mem he
    rcases hf : h.blocks.find? (·.1 == e.base) with _ | b
    · rw [List.find?_eq_none] at hf
      exact absurd (hf _ hm) (by simp [Entry.block])
    · have h1 := List.find?_some hf
      have h2 := List.mem_of_find?_eq_some hf
      rw [I.blocks, List.mem_map] at h2
      obtain ⟨f, hfE, rfl⟩ := h2
      have hb : f.base = e.base := by simpa [Entry.block] using h1
      rcases I.eq_or hfE he with rfl | ha
      · exact ⟨_, hf, rfl⟩
      · exact absurd hb ha.base_ne
  obtain ⟨s, hfind, rfl⟩ := hfind
  have hdel : deallocate P e.T h e.q = opDelete h e.base := by
    unfold deallocate
    by_cases h0 : extraBytes P e.T > 0
    · rw [if_pos h0, (hok.head h0).2]
    · rw [if_neg h0, hok.noextra (by omega)]
  have hkeep : ∀ f ∈ E, (f.base != e.base) = decide (f.view ≠ e.view) := fun f hf => by
    rw [Bool.eq_iff_iff, bne_iff_ne, decide_eq_true_iff]
    constructor
    · intro hb hv; exact hb ((I.ok f hf).base_eq hok hv)
    · intro hv hb
      rcases I.eq_or hf he with rfl | ha
      · exact hv rfl
      · exact ha.base_ne hb
  have hother : ∀ f ∈ E.filter (·.base != e.base), f ∈ E ∧ Apart P e f := fun f hf => by
    rw [List.mem_filter] at hf
    refine ⟨hf.1, ?_⟩
    rcases I.eq_or he hf.1 with rfl | ha
    · exact absurd hf.2 (by simp)
    · exact ha
  unfold opDelete at hdel
  rw [hfind] at hdel
  refine ⟨_, E.filter (·.base != e.base), hdel, ⟨?_, ?_, ?_, ?_, ?_⟩, ?_⟩
  · show v.live.filter _ = _
    rw [I.live, List.filter_map]
    refine congrArg (List.map _) (List.filter_congr fun f hf => ?_)
    rw [hkeep f hf]
    rfl
  · show h.blocks.filter _ = _
    rw [I.blocks, List.filter_map]
    rfl
  · exact I.apart.filter _
  · intro f hf
    obtain ⟨hfE, ha⟩ := hother f hf
    exact (I.ok f hfE).congr fun x h1 h2 => if_neg fun hx => ha.not_both hx.1 (by have := hx.2; push_cast at this ⊢; omega) h1 h2
  · intro x b hb
    have hb' : (if InArray (e.T, e.n, e.q) x then none else v.bytes x) = some b := hb
    by_cases hin : InArray (e.T, e.n, e.q) x
    · rw [if_pos hin] at hb'; exact absurd hb' (by simp)
    · rw [if_neg hin] at hb'
      obtain ⟨h1, r, hr, hx⟩ := I.bytes x b hb'
      have hne : r ≠ (e.T, e.n, e.q) := fun h => hin (h ▸ hx)
      have hr' := hr
      rw [I.live, List.mem_map] at hr
      obtain ⟨f, hf, rfl⟩ := hr
      obtain ⟨k1, k2, -⟩ := (I.ok f hf).inBlock hx
      refine ⟨?_, f.view, List.mem_filter.mpr ⟨hr', by simpa using hne⟩, hx⟩
      rcases I.eq_or he hf with rfl | ha
      · exact absurd rfl hne
      · show (if _ then none else h.mem x) = some b
        rw [if_neg fun hx => ha.not_both hx.1 (by have := hx.2; push_cast at this ⊢; omega) k1 k2]
        exact h1
  · have h1 : E.filter (·.base != e.base) ≠ E := fun h => by
      rw [← h, List.mem_filter] at he
      exact absurd he.2 (by simp)
    have h2 := List.length_filter_le (·.base != e.base) E
    rcases Nat.lt_or_eq_of_le h2 with h3 | h3
    · exact h3
    · exact absurd (List.filter_sublist.eq_of_length h3) h1

/-! ### Writes -/

theorem writeByte_inv {P : AllocPlatform} {h : Heap} {v : View} {E : List Entry} (I : AInv P h v E)
    {r : ObjTy × Nat × Nat} (hr : r ∈ v.live) {a : Int} (ha : InArray r a) (b : BitVec 8) :
    ∃ h', writeByte h a b = .ok h' ∧ AInv P h' (v.write a b) E := by
  have hr0 := hr
  rw [I.live, List.mem_map] at hr
  obtain ⟨e, he, rfl⟩ := hr
  obtain ⟨k1, k2, k3⟩ := (I.ok e he).inBlock ha
  have hacc := (I.ok e he).acc a k1 k2
  obtain ⟨m', hs⟩ := (storeBytes_some (m := h.mem) (a := a) (k := 1) (en := fun _ => true) (b := Model.lane 8 b)).mp
    fun j hj _ => by rw [show a + (j : Int) = a by omega]; exact hacc
  have hs' : storeu h.mem a b = some m' := hs
  have hsame : ∀ x, x ≠ a → m' x = h.mem x := fun x hx =>
    storeBytes_other hs fun j hj _ h => hx (by omega)
  have hat : m' a = some b := by
    have := storeBytes_byte hs (j := 0) (by decide) rfl
    rw [show a + ((0 : Nat) : Int) = a by omega] at this
    rw [this]
    refine congrArg some ?_
    show b.extractLsb' (8 * 0) 8 = b
    apply BitVec.eq_of_getLsbD_eq
    intro i hi
    rw [BitVec.getLsbD_extractLsb']
    simp [hi]
  unfold writeByte
  rw [hs']
  refine ⟨_, rfl, ⟨I.live, I.blocks, I.apart, fun f hf => ?_, fun x c hc => ?_⟩⟩
  · rcases I.eq_or he hf with rfl | hap
    · have ok := I.ok e he
      refine ⟨ok.lo, ok.hi, ok.size, ok.al, fun x h1 h2 => ?_, ok.noextra, fun h0 => ⟨(ok.head h0).1, ?_⟩⟩
      · by_cases hx : x = a
        · rw [hx]; exact ⟨b, hat⟩
        · show ∃ c, m' x = some c
          rw [hsame x hx]; exact ok.acc x h1 h2
      · rw [← (ok.head h0).2]
        refine loadLE_congr 8 _ fun j hj => hsame _ ?_
        unfold InArray Entry.view at ha
        simp only at ha
        omega
    · exact (I.ok f hf).congr fun x h1 h2 => hsame x fun hx => hap.not_both k1 k2 (hx ▸ h1) (hx ▸ h2)
  · have hc' : (if x = a then some b else v.bytes x) = some c := hc
    by_cases hx : x = a
    · rw [if_pos hx] at hc'
      rw [hx]
      exact ⟨hat.trans hc', _, hr0, ha⟩
    · rw [if_neg hx] at hc'
      obtain ⟨h1, h2⟩ := I.bytes x c hc'
      exact ⟨(hsame x hx).trans h1, h2⟩

/-- Every execution. -/
theorem reach_inv {P : AllocPlatform} (hP : PlatformOK P) {h : Heap} {v : View} (R : Reach P h v) :
    ∃ E, AInv P h v E := by
  induction R with
  | start => exact ⟨[], ⟨rfl, rfl, .nil, fun e he => absurd he (by simp), fun x b hb => absurd hb (by simp)⟩⟩
  | alloc _ hT hn hnew hr ih =>
    obtain ⟨E, I⟩ := ih
    obtain ⟨h', q, h1, h2⟩ := allocate_inv hP I hT _ hn hnew
    rw [h1] at hr
    injection hr with hr
    injection hr with e1 e2
    subst e1 e2
    exact ⟨_, h2⟩
  | dealloc _ hl hr ih =>
    obtain ⟨E, I⟩ := ih
    obtain ⟨h', E', h1, h2, -⟩ := deallocate_inv I hl
    rw [h1] at hr
    injection hr with hr
    subst hr
    exact ⟨_, h2⟩
  | write _ hl ha hr ih =>
    obtain ⟨E, I⟩ := ih
    obtain ⟨h', h1, h2⟩ := writeByte_inv I hl ha _
    rw [h1] at hr
    injection hr with hr
    subst hr
    exact ⟨_, h2⟩

end Vc.Lemma
