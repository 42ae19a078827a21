import Verif.Model.NewDelete
import Verif.Spec.NewDelete
import Verif.Prop.ExCfg

/-!
# C92: objects created with new
-/

namespace Vc.Prop
open Vc.Model Vc.Spec Vc.Lemma

/-- What POSIX says about `posix_memalign`: the address is a multiple of the alignment. -/
def AllocOk (alloc : AllocRequest → Option Nat) : Prop := ∀ r p, alloc r = some p → r.alignment ∣ p ∧ 0 < p

/-- Alignments are powers of two, a class is at least as aligned as it asks for, its size is a multiple of its
alignment. -/
structure ClassOk (c : ClassInfo) : Prop where
  align : IsPow2 c.align
  req : IsPow2 c.req
  le : c.req ≤ c.align
  size : c.align ∣ c.size

private theorem isPow2_eight : IsPow2 8 := ⟨3, rfl⟩

private theorem alignedMalloc_of_dvd {a n : Nat} (h : a ∣ n) : alignedMalloc a n = ⟨max 8 a, n⟩ := by
  unfold alignedMalloc nextMultipleOf
  have h0 : n % a = 0 := Nat.mod_eq_zero_of_dvd h
  have h1 : (if a < 8 then 8 else a) = max 8 a := by split <;> omega
  rw [h1, h0, if_neg (Nat.lt_irrefl 0)]

private theorem ClassOk.dvd {c : ClassInfo} (h : ClassOk c) : c.req ∣ c.align := h.req.dvd_of_le h.align h.le

private theorem ClassOk.cookie {c : ClassInfo} (h : ClassOk c) : c.align ∣ arrayCookie c :=
  h.align.dvd_of_le (isPow2_eight.max h.align) (Nat.le_max_right ..)

/-- An object or array created by `new` is inside of the memory that was allocated for it, every object is aligned
to what the class asks for, and to `alignof` if the class asks for that (or for less than `sizeof(void *)`). -/
theorem C92_new {alloc : AllocRequest → Option Nat} (ha : AllocOk alloc) {c : ClassInfo} (hc : ClassOk c) :
    (∀ p, newObject alloc c = .object p →
      ∃ base r, alloc r = some base ∧ Placed (max 8 c.req) c.size 1 p base r.bytes ∧
        (c.align ≤ max 8 c.req → Placed c.align c.size 1 p base r.bytes) ∧ deleteObject p = base) ∧
    ∀ k p, newArray alloc c k = .object p →
      ∃ base r, alloc r = some base ∧ Placed c.req c.size k p base r.bytes ∧
        (c.align ≤ max 8 c.req → Placed c.align c.size k p base r.bytes) ∧ deleteArray c p = base := by
  have hreq := hc.dvd
  have hm : IsPow2 (max 8 c.req) := isPow2_eight.max hc.req
  refine ⟨?_, ?_⟩
  · intro p hp
    unfold newObject at hp
    rw [alignedMalloc_of_dvd (Nat.dvd_trans hreq hc.size)] at hp
    cases hr : alloc ⟨max 8 c.req, c.size⟩ with
    | none => rw [hr] at hp; cases hp
    | some q =>
      rw [hr] at hp
      have hq : q = p := by injection hp
      subst hq
      have hd := (ha _ _ hr).1
      dsimp only at hd
      refine ⟨q, _, hr, ⟨fun i hi => ?_, Nat.le_refl _, by simp⟩, fun hle => ⟨fun i hi => ?_, Nat.le_refl _, by simp⟩,
        rfl⟩
      · obtain rfl : i = 0 := by omega
        simpa using hd
      · obtain rfl : i = 0 := by omega
        simpa using Nat.dvd_trans (hc.align.dvd_of_le hm hle) hd
  · intro k p hp
    unfold newArray at hp
    have hb : c.align ∣ arrayBytes c k := Nat.dvd_add hc.cookie (Nat.dvd_trans hc.size (Nat.dvd_mul_left ..))
    rw [alignedMalloc_of_dvd (Nat.dvd_trans hreq hb)] at hp
    split at hp
    · cases hp
    · cases hr : alloc ⟨max 8 c.req, arrayBytes c k⟩ with
      | none => rw [hr] at hp; cases hp
      | some q =>
        rw [hr] at hp
        have hq : q + arrayCookie c = p := by injection hp
        subst hq
        have hd := (ha _ _ hr).1
        dsimp only at hd
        have hin : q ≤ q + arrayCookie c ∧ q + arrayCookie c + k * c.size ≤ q + arrayBytes c k := by
          unfold arrayBytes; omega
        have hsz : ∀ i, c.align ∣ arrayCookie c + i * c.size := fun i =>
          Nat.dvd_add hc.cookie (Nat.dvd_trans hc.size (Nat.dvd_mul_left ..))
        refine ⟨q, _, hr, ⟨fun i _ => ?_, hin⟩, fun hle => ⟨fun i _ => ?_, hin⟩, Nat.add_sub_cancel ..⟩
        · rw [Nat.add_assoc]
          exact Nat.dvd_add (Nat.dvd_trans (hc.req.dvd_of_le hm (Nat.le_max_right ..)) hd)
            (Nat.dvd_trans hreq (hsz i))
        · rw [Nat.add_assoc]
          exact Nat.dvd_add (Nat.dvd_trans (hc.align.dvd_of_le hm hle) hd) (hsz i)

/-- An allocator that returns the lowest suitable address. -/
def exAlloc (r : AllocRequest) : Option Nat := if r.alignment = 0 then none else some r.alignment

theorem exAlloc_ok : AllocOk exAlloc := by
  intro r p h
  unfold exAlloc at h
  split at h
  · cases h
  · injection h with h
    exact ⟨h ▸ Nat.dvd_refl _, by omega⟩

example : AllocOk exAlloc ∧ ClassOk (registerClass 32) ∧ newObject exAlloc (registerClass 32) = .object 32 ∧
    newArray exAlloc (registerClass 32) 3 = .object 64 :=
  ⟨exAlloc_ok, ⟨⟨5, rfl⟩, ⟨5, rfl⟩, Nat.le_refl _, Nat.dvd_refl _⟩, by decide, by decide⟩

/-! ### The classes -/

private theorem bounded_eq {C : Cfg} (hC : C.Valid) {p : Nat} (hp : IsPow2 p) :
    boundedAlignment C.amask p = min p (C.amask + 1) := by
  obtain ⟨m, hm⟩ := hC.amask
  obtain ⟨a, rfl⟩ := hp
  unfold boundedAlignment
  rw [hm, Nat.and_two_pow_sub_one_eq_mod]
  have ha := Nat.two_pow_pos a
  have hmp := Nat.two_pow_pos m
  rw [Nat.sub_add_cancel hmp]
  rcases Nat.le_total a m with h | h
  · have : 2 ^ a ≤ 2 ^ m := Nat.pow_le_pow_right (by decide) h
    rw [Nat.mod_eq_of_lt (by omega), Nat.sub_add_cancel ha, Nat.min_eq_left this]
  · have hd : 2 ^ a = 2 ^ m * 2 ^ (a - m) := by rw [← Nat.pow_add]; congr 1; omega
    have hle : 2 ^ m ≤ 2 ^ a := Nat.pow_le_pow_right (by decide) h
    have : (2 ^ a - 1) % 2 ^ m = 2 ^ m - 1 := by
      have e : 2 ^ a - 1 = (2 ^ m - 1) + 2 ^ m * (2 ^ (a - m) - 1) := by
        rw [Nat.mul_sub, ← hd]; omega
      rw [e, Nat.add_mul_mod_self_left, Nat.mod_eq_of_lt (by omega)]
    rw [this, Nat.sub_add_cancel hmp, Nat.min_eq_right hle]

private theorem dvd_sizeOf {α : Type _} (C : Cfg) (x : SA α) : x.alignOf C ∣ x.sizeOf C := by
  cases x with
  | atom l => exact dvd_roundUp ..
  | node a b => exact dvd_roundUp ..

private theorem alignOf_atom {α : Type _} {C : Cfg} (hC : C.Valid) {n : Nat} (hn : C.atomic n = true) {l : List α}
    (hl : l.length = n) : (SA.atom l).alignOf C = n * C.sz := by
  have hp := hC.isPow2 hn
  simp only [SA.alignOf, hl, nextPow2_of_isPow2 hp]
  exact Nat.max_eq_right (boundedAlignment_pow2 hC (hp.mul hC.sz)).2

/-- The classes of Vc with these operators, except for SimdArrays that are not atomic. -/
inductive VcClass : ClassInfo → Prop where
  | register {b : Nat} (h : b = 16 ∨ b = 32) : VcClass (registerClass b)
  | writeMasked {a s : Nat} (ha : IsPow2 a) : VcClass (writeMaskedClass a s)
  | alignedBase {a s : Nat} (ha : IsPow2 a) (hs : a ∣ s) : VcClass (alignedBaseClass a a s)
  | atomicArray {α : Type} {C : Cfg} (hC : C.Valid) {n : Nat} (hn : 1 ≤ n) (hat : C.atomic n = true) {x : SA α}
      (h : SA.WF C n x) : VcClass (x.classInfo C)
  | maskArray {α : Type} {C : Cfg} (hC : C.Valid) (hs : C.sz ≤ 8) {n : Nat} (hn : 1 ≤ n) {x : SA α}
      (h : SA.WF C n x) : VcClass (x.maskClassInfo C 1)

/-- These classes satisfy the hypotheses of `C92_new`, and what `new` returns is aligned to `alignof`. -/
theorem C92_classes {c : ClassInfo} (h : VcClass c) : ClassOk c ∧ c.align ≤ max 8 c.req := by
  cases h with
  | register h =>
    rcases h with rfl | rfl
    · exact ⟨⟨⟨4, rfl⟩, ⟨4, rfl⟩, Nat.le_refl _, Nat.dvd_refl _⟩, by decide⟩
    · exact ⟨⟨⟨5, rfl⟩, ⟨5, rfl⟩, Nat.le_refl _, Nat.dvd_refl _⟩, by decide⟩
  | @writeMasked a s ha =>
    refine ⟨⟨ha.max isPow2_eight, ha, Nat.le_max_left .., dvd_roundUp ..⟩, ?_⟩
    show max a 8 ≤ max 8 a
    omega
  | @alignedBase a s ha hs => exact ⟨⟨ha, ha, Nat.le_refl _, hs⟩, Nat.le_max_right ..⟩
  | @atomicArray α C hC n hn hat x h =>
    obtain ⟨l, rfl, hl⟩ := WF.exists_atom hat h
    have he := alignOf_atom hC hat hl
    have hp : IsPow2 (n * C.sz) := (hC.isPow2 hat).mul hC.sz
    have hr : (SA.atom l).newAlign C = n * C.sz := by simp only [SA.newAlign, hl]
    refine ⟨⟨?_, ?_, ?_, dvd_sizeOf ..⟩, ?_⟩
    · show IsPow2 ((SA.atom l).alignOf C); rw [he]; exact hp
    · show IsPow2 ((SA.atom l).newAlign C); rw [hr]; exact hp
    · show (SA.atom l).newAlign C ≤ (SA.atom l).alignOf C; rw [hr, he]; exact Nat.le_refl _
    · show (SA.atom l).alignOf C ≤ max 8 ((SA.atom l).newAlign C); rw [hr, he]; exact Nat.le_max_right ..
  | @maskArray α C hC hs n hn x h =>
    have hl := (layout hC hn x h).1
    cases x with
    | node a b => exact ⟨⟨hl, hl, Nat.le_refl _, dvd_sizeOf ..⟩, Nat.le_max_right ..⟩
    | atom l =>
      obtain ⟨hln, hat⟩ := h
      have he := alignOf_atom hC hat hln
      have hr : ((SA.atom l).maskClassInfo C 1).req = if n = 1 then 1 else n * C.sz := by
        simp only [SA.maskClassInfo, hln]
      have ha : ((SA.atom l).maskClassInfo C 1).align = n * C.sz := he
      have hp : IsPow2 (n * C.sz) := (hC.isPow2 hat).mul hC.sz
      have hd : ((SA.atom l).maskClassInfo C 1).align ∣ ((SA.atom l).maskClassInfo C 1).size := dvd_sizeOf C (SA.atom l)
      have h1 : 1 ≤ n * C.sz := hp.pos
      by_cases hn1 : n = 1
      · rw [if_pos hn1] at hr
        refine ⟨⟨ha ▸ hp, by rw [hr]; exact isPow2_one, by rw [hr, ha]; exact h1, hd⟩, ?_⟩
        rw [hr, ha, hn1]; omega
      · rw [if_neg hn1] at hr
        refine ⟨⟨ha ▸ hp, hr ▸ hp, by rw [hr, ha]; exact Nat.le_refl _, hd⟩, ?_⟩
        rw [hr, ha]; exact Nat.le_max_right ..

example : VcClass (registerClass 16) ∧ VcClass (writeMaskedClass 1 1) ∧
    VcClass ((SA.node (.atom [1, 2, 3, 4]) (.atom [5]) : SA Nat).maskClassInfo exCfg 1) :=
  ⟨.register (.inl rfl), .writeMasked isPow2_one,
    .maskArray exCfg_valid (by decide) (n := 5) (by decide) (by simp [SA.WF]; decide +kernel)⟩

/-- `VectorAlignedBase` and `MemoryAlignedBase`: the largest of the alignments, hence a multiple of each. -/
theorem C92_alignedBase (a : Nat) (l : List Nat) :
    detailMax a l ∈ a :: l ∧ (∀ b ∈ a :: l, b ≤ detailMax a l) ∧
    ((∀ b ∈ a :: l, IsPow2 b) → ∀ b ∈ a :: l, b ∣ detailMax a l) := by
  have key : detailMax a l ∈ a :: l ∧ (∀ b ∈ a :: l, b ≤ detailMax a l) := by
    induction l generalizing a with
    | nil => simp [detailMax]
    | cons b rest ih =>
      unfold detailMax
      split
      · rename_i h
        obtain ⟨h1, h2⟩ := ih a
        refine ⟨?_, ?_⟩
        · rcases List.mem_cons.mp h1 with e | e
          · rw [e]; exact List.mem_cons_self ..
          · exact List.mem_cons_of_mem _ (List.mem_cons_of_mem _ e)
        · intro c hc
          rcases List.mem_cons.mp hc with rfl | hc
          · exact h2 _ (List.mem_cons_self ..)
          · rcases List.mem_cons.mp hc with rfl | hc
            · have := h2 a (List.mem_cons_self ..); omega
            · exact h2 _ (List.mem_cons_of_mem _ hc)
      · rename_i h
        obtain ⟨h1, h2⟩ := ih b
        refine ⟨List.mem_cons_of_mem _ h1, ?_⟩
        intro c hc
        rcases List.mem_cons.mp hc with rfl | hc
        · have := h2 b (List.mem_cons_self ..); omega
        · exact h2 _ hc
  exact ⟨key.1, key.2, fun hp b hb => (hp b hb).dvd_of_le (hp _ key.1) (key.2 b hb)⟩

example : (∀ b ∈ [32, 32, 16, 8, 32, 16], IsPow2 b) ∧ detailMax 32 [32, 16, 8, 32, 16] = 32 := by
  refine ⟨?_, by decide⟩
  intro b hb
  simp at hb
  rcases hb with rfl | rfl | rfl | rfl | rfl
  · exact ⟨5, rfl⟩
  · exact ⟨4, rfl⟩
  · exact ⟨3, rfl⟩
  · exact ⟨5, rfl⟩
  · exact ⟨4, rfl⟩

/-! ### SimdArrays that are not atomic -/

/-- The native vectors are not larger than the largest alignment the compiler accepts. -/
def NativeFits (C : Cfg) : Prop := ∀ w ∈ C.ws, w * C.sz ≤ C.amask + 1

private theorem alignOf_eq {α : Type _} {C : Cfg} (hC : C.Valid) (hN : NativeFits C) {n : Nat} (hn : 1 ≤ n) :
    ∀ (x : SA α), SA.WF C n x → x.alignOf C = min (nextPow2 n * C.sz) (C.amask + 1) := by
  refine template_induction hC (P := fun n => ∀ (x : SA α), SA.WF C n x →
    x.alignOf C = min (nextPow2 n * C.sz) (C.amask + 1)) ?_ ?_ n hn
  · intro n hn ha x h
    obtain ⟨l, rfl, hl⟩ := WF.exists_atom ha h
    rw [alignOf_atom hC ha hl, nextPow2_of_isPow2 (hC.isPow2 ha)]
    have : bestWidth n C.ws = n := of_decide_eq_true ha
    have := hN _ (this ▸ bestWidth_mem (n := n) hC.ne_nil)
    omega
  · intro n hn ha ih0 ih1 x h
    obtain ⟨a, b, rfl, hwa, hwb⟩ := WF.exists_node ha h
    have hL := isPow2_leftSize (n := n) (by omega)
    have hR := one_le_rightSize hn
    have hsz : (SA.node a b).size = n := WF.size hC (by omega) h
    have hNp : IsPow2 (nextPow2 n * C.sz) := (isPow2_nextPow2 (by omega)).mul hC.sz
    simp only [SA.alignOf]
    simp only [SA.size] at hsz
    rw [hsz, bounded_eq hC hNp, ih0 a hwa, ih1 b hwb, nextPow2_of_isPow2 hL]
    have h1 : nextPow2 (rightSize n) * C.sz ≤ leftSize n * C.sz :=
      Nat.mul_le_mul_right _ ((nextPow2_isLeast hR).2.2 _ hL (rightSize_le_leftSize n))
    have h2 : leftSize n * C.sz ≤ nextPow2 n * C.sz := by
      rw [nextPow2_eq_two_mul hn]; exact Nat.mul_le_mul_right _ (by omega)
    omega

/-- `new SimdArray<T, n>` is aligned to `alignof` whatever address the allocator chooses if and only if the first
half is as large as the largest alignment, or the array has at most eight bytes. -/
theorem C92_simdarray_partial {α : Type} {C : Cfg} (hC : C.Valid) (hN : NativeFits C) {n : Nat} (hn : 1 ≤ n)
    (hat : C.atomic n = false) {x : SA α} (h : SA.WF C n x) :
    (∀ alloc, AllocOk alloc → ∀ p, newObject alloc (x.classInfo C) = .object p → x.alignOf C ∣ p) ↔
      C.amask + 1 ≤ leftSize n * C.sz ∨ nextPow2 n * C.sz ≤ 8 ∨ C.amask + 1 ≤ 8 := by
  have h2 := hC.two_le hn hat
  obtain ⟨a, b, rfl, hwa, hwb⟩ := WF.exists_node hat h
  have hL := isPow2_leftSize (n := n) (by omega)
  have e : (SA.node a b).alignOf C = min (nextPow2 n * C.sz) (C.amask + 1) := alignOf_eq hC hN hn _ h
  have ea : a.alignOf C = min (leftSize n * C.sz) (C.amask + 1) := by
    rw [alignOf_eq hC hN hL.pos _ hwa, nextPow2_of_isPow2 hL]
  have hsz := hC.sz.pos
  have hpos : 0 < leftSize n * C.sz := Nat.mul_pos hL.pos hsz
  have hNn : nextPow2 n * C.sz = 2 * (leftSize n * C.sz) := by rw [nextPow2_eq_two_mul h2, Nat.mul_assoc]
  have hok : ClassOk ((SA.node a b).classInfo C) := by
    refine ⟨(layout hC hn _ h).1, (layout hC hL.pos _ hwa).1, ?_, dvd_sizeOf ..⟩
    show a.alignOf C ≤ (SA.node a b).alignOf C
    rw [e, ea]; omega
  have hreq : ((SA.node a b).classInfo C).req = a.alignOf C := rfl
  have hal : ((SA.node a b).classInfo C).align = (SA.node a b).alignOf C := rfl
  constructor
  · intro hall
    have hp : newObject exAlloc ((SA.node a b).classInfo C) = .object (max 8 (a.alignOf C)) := by
      unfold newObject
      rw [alignedMalloc_of_dvd (Nat.dvd_trans hok.dvd hok.size)]
      unfold exAlloc
      rw [hreq]
      have : max 8 (a.alignOf C) ≠ 0 := by omega
      simp only [this, if_false]
    have hd := Nat.le_of_dvd (by omega) (hall _ exAlloc_ok _ hp)
    rw [e, ea] at hd
    omega
  · intro hc alloc hall p hp
    obtain ⟨base, r, _, _, hx, _⟩ := (C92_new hall hok).1 p hp
    have hle : ((SA.node a b).classInfo C).align ≤ max 8 ((SA.node a b).classInfo C).req := by
      rw [hal, hreq, e, ea]; omega
    have := (hx hle).1 0 (by decide)
    rw [Nat.zero_mul, Nat.add_zero] at this
    exact this

/-- 64 floats with SSE satisfy the condition. -/
example : NativeFits exCfg ∧ exCfg.atomic 64 = false ∧ exCfg.amask + 1 ≤ leftSize 64 * exCfg.sz := by
  refine ⟨?_, by decide +kernel, by decide +kernel⟩
  intro w hw
  simp only [exCfg, List.mem_cons, List.not_mem_nil, or_false] at hw
  rcases hw with rfl | rfl <;> decide

/-- `new SimdArray<float, 8>` with SSE: `alignof` is 32, the object is at an address that is a multiple of 16
only. -/
theorem C92_simdarray_violated :
    ∃ (x : SA Nat) (alloc : AllocRequest → Option Nat) (p : Nat), SA.WF exCfg 8 x ∧ AllocOk alloc ∧
      newObject alloc (x.classInfo exCfg) = .object p ∧ ¬ x.alignOf exCfg ∣ p := by
  refine ⟨.node (.atom [1, 2, 3, 4]) (.atom [5, 6, 7, 8]), exAlloc, 16, ?_, exAlloc_ok, ?_, ?_⟩
  · simp [SA.WF]; decide +kernel
  · decide +kernel
  · decide +kernel

/-- If there is no memory left, `new` does not throw: undefined. -/
theorem C92_failure_violated (c : ClassInfo) :
    newObject (fun _ => none) c = .undefined ∧ newObject (fun _ => none) c ≠ .badAlloc :=
  ⟨rfl, by intro h; cases h⟩

/-! ### The native vectors in a SimdArray are aligned in any case -/

private theorem bestWidth_mono {n m : Nat} (h : n ≤ m) (hn : 1 ≤ n) :
    ∀ {ws : List Nat}, ws.getLast? = some 1 → bestWidth n ws ≤ bestWidth m ws
  | [], _ => Nat.le_refl _
  | [w], _ => Nat.le_refl _
  | w :: w' :: ws, hl => by
    have ih := bestWidth_mono h hn (ws := w' :: ws) (by simpa using hl)
    have hle := bestWidth_le (n := n) hn (ws := w' :: ws) (by simpa using hl)
    unfold bestWidth
    split
    · split
      · exact ih
      · omega
    · split
      · omega
      · exact Nat.le_refl _

private theorem bestWidth_between {n m : Nat} (h : n ≤ m) (hn : 1 ≤ n) :
    ∀ {ws : List Nat}, ws.getLast? = some 1 → bestWidth m ws ≤ n → bestWidth n ws = bestWidth m ws
  | [], _, _ => rfl
  | [w], _, _ => rfl
  | w :: w' :: ws, hl, hb => by
    unfold bestWidth at hb ⊢
    split at hb
    · rename_i h1
      rw [if_pos h1, if_pos (by omega)]
      exact bestWidth_between h hn (by simpa using hl) hb
    · rename_i h1
      rw [if_neg h1, if_neg (by omega)]

/-- The largest native vector of a SimdArray is the one that is chosen first. -/
private theorem registers_facts {α : Type _} {C : Cfg} (hC : C.Valid) {n : Nat} (hn : 1 ≤ n) :
    ∀ (x : SA α), SA.WF C n x →
      (∀ r ∈ x.registers C, IsPow2 r.2 ∧ r.2 ∣ r.1 ∧ r.2 ≤ bestWidth n C.ws * C.sz ∧ r.1 + r.2 ≤ x.sizeOf C) ∧
      bestWidth n C.ws * C.sz ≤ x.newAlign C ∧ bestWidth n C.ws * C.sz ≤ x.alignOf C ∧
      x.memoryAlignment C = bestWidth n C.ws * C.sz := by
  refine template_induction hC (P := fun n => ∀ (x : SA α), SA.WF C n x →
      (∀ r ∈ x.registers C, IsPow2 r.2 ∧ r.2 ∣ r.1 ∧ r.2 ≤ bestWidth n C.ws * C.sz ∧ r.1 + r.2 ≤ x.sizeOf C) ∧
      bestWidth n C.ws * C.sz ≤ x.newAlign C ∧ bestWidth n C.ws * C.sz ≤ x.alignOf C ∧
      x.memoryAlignment C = bestWidth n C.ws * C.sz) ?_ ?_ n hn
  · intro n hn ha x h
    obtain ⟨l, rfl, hl⟩ := WF.exists_atom ha h
    have hb : bestWidth n C.ws = n := of_decide_eq_true ha
    rw [hb, alignOf_atom hC ha hl]
    refine ⟨?_, by simp [SA.newAlign, hl], Nat.le_refl _, by simp [SA.memoryAlignment, hl]⟩
    intro r hr
    simp only [SA.registers, List.mem_singleton, hl] at hr
    subst hr
    refine ⟨(hC.isPow2 ha).mul hC.sz, Nat.dvd_zero _, Nat.le_refl _, ?_⟩
    have := (layout hC hn _ h).2.2.1
    dsimp only
    omega
  · intro n hn ha ih0 ih1 x h
    obtain ⟨a, b, rfl, hwa, hwb⟩ := WF.exists_node ha h
    obtain ⟨r0, n0, a0, m0⟩ := ih0 a hwa
    obtain ⟨r1, n1, a1, m1⟩ := ih1 b hwb
    have hL := isPow2_leftSize (n := n) (by omega)
    have hLn := leftSize_lt hn
    have hRL := rightSize_le_leftSize n
    have hR := one_le_rightSize hn
    have hbn := bestWidth_le (n := n) (by omega) hC.last
    have hne : bestWidth n C.ws ≠ n := of_decide_eq_false ha
    have hpb : IsPow2 (bestWidth n C.ws) := hC.widths _ (bestWidth_mem hC.ne_nil)
    have hbL : bestWidth (leftSize n) C.ws = bestWidth n C.ws :=
      bestWidth_between (by omega) hL.pos hC.last (le_leftSize hn hpb (by omega))
    have hbR : bestWidth (rightSize n) C.ws ≤ bestWidth n C.ws := bestWidth_mono (by omega) hR hC.last
    have hbRs := Nat.mul_le_mul_right C.sz hbR
    rw [hbL] at r0 n0 a0 m0
    obtain ⟨hsa, hoff⟩ := off1_eq hC hn hwa hwb
    have hlay := layout hC (by omega) _ h
    have hsb := (layout hC hR _ hwb)
    refine ⟨?_, ?_, ?_, ?_⟩
    · intro r hr
      simp only [SA.registers, List.mem_append, List.mem_map] at hr
      have hsize : SA.off1 C a b + b.sizeOf C ≤ (SA.node a b).sizeOf C := by
        simp only [SA.sizeOf]
        exact le_roundUp hlay.1.pos
      rcases hr with hr | ⟨r', hr', rfl⟩
      · obtain ⟨p1, p2, p3, p4⟩ := r0 r hr
        refine ⟨p1, p2, p3, ?_⟩
        rw [hoff] at hsize
        omega
      · obtain ⟨p1, p2, p3, p4⟩ := r1 r' hr'
        refine ⟨p1, ?_, by dsimp only; omega, by dsimp only; omega⟩
        dsimp only
        rw [hoff]
        refine Nat.dvd_add (p1.dvd_of_le (hL.mul hC.sz) ?_) p2
        have : bestWidth (rightSize n) C.ws ≤ leftSize n := Nat.le_trans (bestWidth_le hR hC.last) hRL
        exact Nat.le_trans p3 (Nat.mul_le_mul_right _ this)
    · show _ ≤ a.alignOf C
      exact a0
    · have : a.alignOf C ≤ (SA.node a b).alignOf C := by simp only [SA.alignOf]; omega
      omega
    · simp only [SA.memoryAlignment, m0, m1]
      split
      · rfl
      · omega

/-- In every SimdArray created with `new` or `new[]`, whatever its size, all native vectors are inside of the
object and aligned to their size, so that instructions for aligned memory can be used on them; and the object is
aligned to `MemoryAlignment`, so that its entries can be loaded with `Vc::Aligned`. -/
theorem C92_native {α : Type} {C : Cfg} (hC : C.Valid) {n : Nat} (hn : 1 ≤ n) {x : SA α} (h : SA.WF C n x)
    {alloc : AllocRequest → Option Nat} (hall : AllocOk alloc) :
    (∀ p, newObject alloc (x.classInfo C) = .object p →
      x.memoryAlignment C ∣ p ∧ ∀ r ∈ x.registers C, r.2 ∣ p + r.1 ∧ r.1 + r.2 ≤ x.sizeOf C) ∧
    ∀ k p, newArray alloc (x.classInfo C) k = .object p → ∀ i, i < k →
      x.memoryAlignment C ∣ p + i * x.sizeOf C ∧ ∀ r ∈ x.registers C, r.2 ∣ p + i * x.sizeOf C + r.1 := by
  obtain ⟨hr, hnew, hali, hmem⟩ := registers_facts hC hn x h
  have hpb : IsPow2 (bestWidth n C.ws * C.sz) := (hC.widths _ (bestWidth_mem hC.ne_nil)).mul hC.sz
  have hpreq : IsPow2 (x.newAlign C) := by
    cases x with
    | atom l => obtain ⟨hl, ha⟩ := h; simp only [SA.newAlign, hl]; exact (hC.isPow2 ha).mul hC.sz
    | node a b => exact (layout hC (one_le_leftSize hn) _ h.2.1).1
  have hle : x.newAlign C ≤ x.alignOf C := by
    cases x with
    | atom l => obtain ⟨hl, ha⟩ := h; rw [alignOf_atom hC ha hl]; simp [SA.newAlign, hl]
    | node a b => simp only [SA.newAlign, SA.alignOf]; omega
  have hok : ClassOk (x.classInfo C) := ⟨(layout hC hn x h).1, hpreq, hle, dvd_sizeOf ..⟩
  have hbr : bestWidth n C.ws * C.sz ∣ x.newAlign C := hpb.dvd_of_le hpreq hnew
  obtain ⟨ho, hA⟩ := C92_new hall hok
  have hpm : IsPow2 (max 8 (x.newAlign C)) := isPow2_eight.max hpreq
  refine ⟨?_, ?_⟩
  · intro p hp
    obtain ⟨base, r, _, hpl, _⟩ := ho p hp
    have h0 : x.newAlign C ∣ p := by
      have : max 8 (x.newAlign C) ∣ p + 0 * x.sizeOf C := hpl.1 0 (by decide)
      rw [Nat.zero_mul, Nat.add_zero] at this
      exact Nat.dvd_trans (hpreq.dvd_of_le hpm (Nat.le_max_right ..)) this
    refine ⟨hmem ▸ Nat.dvd_trans hbr h0, fun r hr' => ?_⟩
    obtain ⟨p1, p2, p3, p4⟩ := hr r hr'
    exact ⟨Nat.dvd_add (Nat.dvd_trans (p1.dvd_of_le hpb p3) (Nat.dvd_trans hbr h0)) p2, p4⟩
  · intro k p hp i hi
    obtain ⟨base, r, _, hpl, _⟩ := hA k p hp
    have h0 : x.newAlign C ∣ p + i * x.sizeOf C := hpl.1 i hi
    refine ⟨hmem ▸ Nat.dvd_trans hbr h0, fun r hr' => ?_⟩
    obtain ⟨p1, p2, p3, _⟩ := hr r hr'
    exact Nat.dvd_add (Nat.dvd_trans (p1.dvd_of_le hpb p3) (Nat.dvd_trans hbr h0)) p2

/-- Six floats with SSE: native vectors at offsets 0, 16 and 20. -/
example : (SA.node (.atom [1, 2, 3, 4]) (.node (.atom [5]) (.atom [6])) : SA Nat).registers exCfg =
      [(0, 16), (16, 4), (20, 4)] ∧
    SA.WF exCfg 6 (SA.node (.atom [1, 2, 3, 4]) (.node (.atom [5]) (.atom [6])) : SA Nat) := by
  refine ⟨by decide +kernel, ?_⟩
  simp [SA.WF]; decide +kernel

end Vc.Prop
