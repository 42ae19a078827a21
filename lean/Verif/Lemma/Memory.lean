import Verif.Model.Memory
import Verif.Spec.Util
import Verif.Lemma.Util

namespace Vc.Lemma
open Vc.Spec Vc.Model

variable {α σ : Type _}

theorem and_eq_mod {w n : Nat} (hw : IsPow2 w) : n &&& (w - 1) = n % w := by
  obtain ⟨k, rfl⟩ := hw
  exact Nat.and_two_pow_sub_one_eq_mod n k

theorem pow2_pos {w : Nat} (hw : IsPow2 w) : 0 < w := by
  obtain ⟨k, rfl⟩ := hw; exact Nat.two_pow_pos k

theorem padded_least {w n : Nat} (hw : IsPow2 w) (hf : n + w ≤ 2 ^ 64) :
    IsLeastMultiple w n (paddedEntries w n) := by
  have hg := pow2_pos hw
  have hmod := Nat.mod_lt n hg
  have hdm := Nat.div_add_mod n w
  unfold paddedEntries
  simp only [and_eq_mod hw]
  by_cases h : n % w = 0
  · rw [if_pos h]
    exact ⟨Nat.dvd_of_mod_eq_zero h, Nat.le_refl _, fun q _ hq => hq⟩
  · rw [if_neg h]
    have e0 : wrap64 (n + (w - n % w)) = n + (w - n % w) := Nat.mod_eq_of_lt (by omega)
    rw [e0]
    have e : n + (w - n % w) = w * (n / w + 1) := by rw [Nat.mul_add]; omega
    refine ⟨⟨_, e⟩, by omega, ?_⟩
    rintro q ⟨c, rfl⟩ hq
    rw [e]
    apply Nat.mul_le_mul_left
    rcases Nat.lt_or_ge (n / w) c with h' | h'
    · exact h'
    · have := Nat.mul_le_mul_left w h'
      omega

theorem padded_lt {w n : Nat} (hw : IsPow2 w) (hf : n + w ≤ 2 ^ 64) :
    paddedEntries w n < n + w ∧ paddedEntries w n / w * w = paddedEntries w n := by
  obtain ⟨h1, h2, h3⟩ := padded_least hw hf
  have hg := pow2_pos hw
  have hdm := Nat.div_add_mod n w
  have hmod := Nat.mod_lt n hg
  refine ⟨?_, Nat.div_mul_cancel h1⟩
  by_cases h : n % w = 0
  · have := h3 n (Nat.dvd_of_mod_eq_zero h) (Nat.le_refl _)
    omega
  · have h4 := h3 (w * (n / w + 1)) ⟨_, rfl⟩ (by rw [Nat.mul_add]; omega)
    rw [Nat.mul_add] at h4; omega

theorem wrap64_of_lt {x : Nat} (h : x < 2 ^ 64) : wrap64 x = x := Nat.mod_eq_of_lt h

theorem vecLoad_some {w : Nat} {mem : List α} {off : Nat} (h : off + w ≤ mem.length) :
    ∃ v, vecLoad w mem off = some v ∧ v.length = w ∧ ∀ l, l < w → v[l]? = mem[off + l]? := by
  refine ⟨_, by unfold vecLoad; rw [if_pos h], by simp; omega, fun l hl => ?_⟩
  rw [List.getElem?_take_of_lt hl, List.getElem?_drop]

theorem vecLoad_none {w : Nat} {mem : List α} {off : Nat} (h : ¬ off + w ≤ mem.length) :
    vecLoad w mem off = none := by unfold vecLoad; rw [if_neg h]

theorem vecStore_some {mem v : List α} {off : Nat} (h : off + v.length ≤ mem.length) :
    ∃ mem', vecStore mem off v = some mem' ∧ mem'.length = mem.length ∧
      ∀ e, mem'[e]? = if off ≤ e ∧ e < off + v.length then v[e - off]? else mem[e]? := by
  refine ⟨_, by unfold vecStore; rw [if_pos h], by simp; omega, fun e => ?_⟩
  have lt : (mem.take off).length = off := by simp; omega
  by_cases h1 : e < off
  · rw [if_neg (by omega), List.append_assoc, List.getElem?_append_left (by omega),
      List.getElem?_take_of_lt h1]
  · by_cases h2 : e < off + v.length
    · rw [if_pos (by omega), List.append_assoc, List.getElem?_append_right (by omega), lt,
        List.getElem?_append_left (by omega)]
    · rw [if_neg (by omega), List.getElem?_append_right (by simp; omega), List.getElem?_drop]
      congr 1
      simp only [List.length_append, lt]; omega

theorem vecStore_none {mem v : List α} {off : Nat} (h : ¬ off + v.length ≤ mem.length) :
    vecStore mem off v = none := by unfold vecStore; rw [if_neg h]

/-- Products of vector indexes below the count do not wrap. -/
theorem wrap_index {i w N : Nat} (hi : i < N) (hL : N * w ≤ 2 ^ 64) (hw : 0 < w) :
    wrap64 (i * w) = i * w ∧ i * w + w ≤ N * w := by
  have h1 : (i + 1) * w ≤ N * w := Nat.mul_le_mul_right w hi
  have h2 : (i + 1) * w = i * w + w := by rw [Nat.add_mul, Nat.one_mul]
  exact ⟨wrap64_of_lt (by omega), by omega⟩

theorem vectorRead_some {w N i : Nat} {mem : List α} (hw : 0 < w) (hi : i < N)
    (hL : N * w ≤ 2 ^ 64) (hl : N * w ≤ mem.length) :
    ∃ v, vectorRead w mem i = some v ∧ v.length = w ∧ ∀ l, l < w → v[l]? = mem[i * w + l]? := by
  obtain ⟨h1, h2⟩ := wrap_index hi hL hw
  unfold vectorRead
  rw [h1]
  exact vecLoad_some (by omega)

theorem vectorWrite_some {w N i : Nat} {mem v : List α} (hw : 0 < w) (hi : i < N)
    (hL : N * w ≤ 2 ^ 64) (hl : N * w ≤ mem.length) (hv : v.length = w) :
    ∃ mem', vectorWrite w mem i v = some mem' ∧ mem'.length = mem.length ∧
      ∀ e, mem'[e]? = if i * w ≤ e ∧ e < i * w + w then v[e - i * w]? else mem[e]? := by
  obtain ⟨h1, h2⟩ := wrap_index hi hL hw
  unfold vectorWrite
  rw [h1, ← hv]
  rw [hv]
  have := vecStore_some (mem := mem) (v := v) (off := i * w) (by omega)
  rwa [hv] at this

/-! ## Loops -/

theorem forLoop_lt (f : Nat → σ → Option σ) {lo hi : Nat} (h : lo < hi) (s : σ) :
    forLoop f lo hi s = (f lo s).bind (forLoop f (lo + 1) hi) := by rw [forLoop, if_pos h]

theorem forLoop_ge (f : Nat → σ → Option σ) {lo hi : Nat} (h : ¬ lo < hi) (s : σ) :
    forLoop f lo hi s = some s := by rw [forLoop, if_neg h]

/-- Loop rule: an invariant that the body maintains holds at the end. -/
theorem forLoop_inv (f : Nat → σ → Option σ) (I : Nat → σ → Prop) (hi : Nat)
    (step : ∀ i s, i < hi → I i s → ∃ s', f i s = some s' ∧ I (i + 1) s') :
    ∀ (d lo : Nat), hi - lo = d → lo ≤ hi → ∀ s, I lo s → ∃ s', forLoop f lo hi s = some s' ∧ I hi s'
  | 0, lo, hd, hle, s, h => by
    have : lo = hi := by omega
    subst this
    exact ⟨s, forLoop_ge f (by omega) s, h⟩
  | d + 1, lo, hd, hle, s, h => by
    have hlt : lo < hi := by omega
    obtain ⟨s', e, h'⟩ := step lo s hlt h
    obtain ⟨s'', e', h''⟩ := forLoop_inv f I hi step d (lo + 1) (by omega) (by omega) s' h'
    exact ⟨s'', by rw [forLoop_lt f hlt, e]; exact e', h''⟩

/-- Loop rule for undefined behaviour: if the body maintains the invariant up to `k` and is
undefined there, the loop is undefined. -/
theorem forLoop_none (f : Nat → σ → Option σ) (I : Nat → σ → Prop) (hi k : Nat) (hk : k < hi)
    (step : ∀ i s s', i < k → I i s → f i s = some s' → I (i + 1) s')
    (fail : ∀ s, I k s → f k s = none) :
    ∀ (d lo : Nat), k - lo = d → lo ≤ k → ∀ s, I lo s → forLoop f lo hi s = none
  | 0, lo, hd, hle, s, h => by
    have : lo = k := by omega
    subst this
    rw [forLoop_lt f hk, fail s h]; rfl
  | d + 1, lo, hd, hle, s, h => by
    rw [forLoop_lt f (by omega)]
    cases e : f lo s with
    | none => rfl
    | some s' =>
      exact forLoop_none f I hi k hk step fail d (lo + 1) (by omega) (by omega) s'
        (step lo s s' (by omega) h e)

/-- State of a storage in which the vectors below `j` have their new contents. -/
def Upto (w L j : Nat) (old new : Nat → Option α) (mem : List α) : Prop :=
  mem.length = L ∧ ∀ e, mem[e]? = if e < j * w then new e else old e

theorem upto_step {w N j : Nat} {old new : Nat → Option α} {mem v : List α} {L : Nat} (hw : 0 < w)
    (hj : j < N) (hN : N * w ≤ 2 ^ 64) (hL : N * w ≤ L) (h : Upto w L j old new mem)
    (hv : v.length = w) (hn : ∀ l, l < w → v[l]? = new (j * w + l)) :
    ∃ mem', vectorWrite w mem j v = some mem' ∧ Upto w L (j + 1) old new mem' := by
  obtain ⟨mem', e, hl, hc⟩ := vectorWrite_some (i := j) (N := N) (mem := mem) hw hj hN
    (by rw [h.1]; exact hL) hv
  refine ⟨mem', e, by rw [hl, h.1], fun x => ?_⟩
  have h2 : (j + 1) * w = j * w + w := by rw [Nat.add_mul, Nat.one_mul]
  rw [hc x, h2, h.2 x]
  by_cases c1 : x < j * w
  · rw [if_neg (by omega), if_pos c1, if_pos (by omega)]
  · by_cases c2 : x < j * w + w
    · rw [if_pos (by omega), if_pos c2, hn _ (by omega)]
      congr 1; omega
    · rw [if_neg (by omega), if_neg c1, if_neg c2]

/-- A loop over the vectors that replaces every vector by a new one that does not depend on the
vectors already replaced. -/
theorem forLoop_vectors {w N L : Nat} {old new : Nat → Option α} (hw : 0 < w) (hN : N * w ≤ 2 ^ 64)
    (hL : N * w ≤ L) (body : Nat → List α → Option (List α)) (lo : Nat) (hlo : lo ≤ N)
    (hb : ∀ j mem, j < N → Upto w L j old new mem → ∃ v, v.length = w ∧
      (∀ l, l < w → v[l]? = new (j * w + l)) ∧ body j mem = vectorWrite w mem j v)
    (mem : List α) (h : Upto w L lo old new mem) :
    ∃ mem', forLoop body lo N mem = some mem' ∧ Upto w L N old new mem' := by
  refine forLoop_inv body (fun j mem => Upto w L j old new mem) N ?_ (N - lo) lo rfl hlo mem h
  intro j mem hj hu
  obtain ⟨v, hv, hn, e⟩ := hb j mem hj hu
  rw [e]
  exact upto_step hw hj hN hL hu hv hn

/-! ## lane-wise operations -/

theorem lanesM_some {op : α → α → Option α} : ∀ {a b : List α}, a.length = b.length →
    (∀ l, l < a.length → ∀ x y, a[l]? = some x → b[l]? = some y → (op x y).isSome = true) →
    ∃ r, lanesM op a b = some r ∧ r.length = a.length ∧
      ∀ (l : Nat) x y, a[l]? = some x → b[l]? = some y → r[l]? = op x y
  | [], [], _, _ => ⟨[], rfl, rfl, fun l x y h => by simp at h⟩
  | x :: xs, y :: ys, hl, h => by
    obtain ⟨r, e, el, ev⟩ := lanesM_some (op := op) (a := xs) (b := ys) (by simpa using hl)
      (fun l hl x y hx hy => h (l + 1) (by simpa using hl) x y (by simpa using hx) (by simpa using hy))
    obtain ⟨v, hv⟩ := Option.isSome_iff_exists.mp (h 0 (by simp) x y rfl rfl)
    refine ⟨v :: r, ?_, by simp [el], fun l x' y' hx hy => ?_⟩
    · unfold lanesM at e ⊢
      simp only [List.zip_cons_cons, List.mapM_cons, hv, e]; rfl
    · cases l with
      | zero =>
        simp only [List.getElem?_cons_zero, Option.some.injEq] at hx hy ⊢
        rw [← hx, ← hy, hv]
      | succ l =>
        simp only [List.getElem?_cons_succ] at hx hy ⊢
        exact ev l x' y' hx hy
  | [], _ :: _, hl, _ => by simp at hl
  | _ :: _, [], hl, _ => by simp at hl

theorem lanesM_none {op : α → α → Option α} : ∀ {a b : List α} (l : Nat) (x y : α), a[l]? = some x →
    b[l]? = some y → op x y = none → lanesM op a b = none
  | [], b, l, x, y, hx, _, _ => by simp at hx
  | a :: as, [], l, x, y, _, hy, _ => by simp at hy
  | a :: as, b :: bs, l, x, y, hx, hy, h => by
    unfold lanesM
    simp only [List.zip_cons_cons, List.mapM_cons]
    cases l with
    | zero =>
      simp only [List.getElem?_cons_zero, Option.some.injEq] at hx hy
      rw [hx, hy, h]; rfl
    | succ l =>
      simp only [List.getElem?_cons_succ] at hx hy
      have ih := lanesM_none (op := op) l x y hx hy h
      unfold lanesM at ih
      rw [ih]
      cases op a b <;> rfl

/-! ## comparisons -/

theorem allVectors_lt (test : List α → List α → Bool) (w : Nat) (a b : List α) {i N : Nat}
    (h : i < N) : allVectors test w a b i N = (do
    let x ← vectorRead w a i
    let y ← vectorRead w b i
    if test x y then allVectors test w a b (i + 1) N else some false) := by
  rw [allVectors, if_pos h]

/-- The loop returns true exactly if all vectors pass the test. -/
theorem allVectors_spec {test : List α → List α → Bool} {T : Nat → Prop} {w N : Nat} (hw : 0 < w)
    (hN : N * w ≤ 2 ^ 64) (a b : List α) (ha : N * w ≤ a.length) (hb : N * w ≤ b.length)
    (ht : ∀ j x y, j < N → x.length = w → y.length = w →
      (∀ l, l < w → x[l]? = a[j * w + l]?) → (∀ l, l < w → y[l]? = b[j * w + l]?) →
      (test x y = true ↔ T j)) :
    ∀ (d i : Nat), N - i = d → i ≤ N →
    ∃ r, allVectors test w a b i N = some r ∧ (r = true ↔ ∀ j, i ≤ j → j < N → T j)
  | 0, i, hd, hi => by
    refine ⟨true, by rw [allVectors, if_neg (by omega)], ?_⟩
    simp only [true_iff]
    intro j h1 h2; omega
  | d + 1, i, hd, hi => by
    have hlt : i < N := by omega
    obtain ⟨x, ex, lx, vx⟩ := vectorRead_some (mem := a) hw hlt hN ha
    obtain ⟨y, ey, ly, vy⟩ := vectorRead_some (mem := b) hw hlt hN hb
    obtain ⟨r, er, hr⟩ := allVectors_spec hw hN a b ha hb ht d (i + 1) (by omega) (by omega)
    have hT := ht i x y hlt lx ly vx vy
    rw [allVectors_lt _ _ _ _ hlt, ex, ey]
    simp only [Option.bind_eq_bind, Option.bind_some]
    by_cases c : test x y = true
    · rw [if_pos c]
      refine ⟨r, er, ?_⟩
      rw [hr]
      constructor
      · intro h j h1 h2
        rcases Nat.eq_or_lt_of_le h1 with rfl | h1
        · exact hT.mp c
        · exact h j h1 h2
      · intro h j h1 h2
        exact h j (by omega) h2
    · rw [if_neg c]
      refine ⟨false, rfl, ?_⟩
      simp only [Bool.false_eq_true, false_iff]
      intro h
      exact c (hT.mpr (h i (Nat.le_refl _) hlt))

theorem cmpFull_iff {r : α → α → Bool} : ∀ {x y : List α}, x.length = y.length →
    (cmpFull r x y = true ↔ ∀ (l : Nat) u v, x[l]? = some u → y[l]? = some v → r u v = true)
  | [], [], _ => by simp [cmpFull]
  | a :: as, b :: bs, h => by
    have ih := cmpFull_iff (r := r) (x := as) (y := bs) (by simpa using h)
    unfold cmpFull at ih ⊢
    simp only [List.zipWith_cons_cons, List.all_cons, id, Bool.and_eq_true]
    rw [ih]
    constructor
    · rintro ⟨h0, h1⟩ l u v hu hv
      cases l with
      | zero => simp at hu hv; rw [← hu, ← hv]; exact h0
      | succ l => exact h1 l u v (by simpa using hu) (by simpa using hv)
    · intro h
      exact ⟨h 0 a b rfl rfl, fun l u v hu hv => h (l + 1) u v (by simpa using hu) (by simpa using hv)⟩
  | [], _ :: _, h => by simp at h
  | _ :: _, [], h => by simp at h

theorem cmpEmpty_iff {r : α → α → Bool} : ∀ {x y : List α}, x.length = y.length →
    (cmpEmpty r x y = true ↔ ∀ (l : Nat) u v, x[l]? = some u → y[l]? = some v → r u v = false)
  | [], [], _ => by simp [cmpEmpty]
  | a :: as, b :: bs, h => by
    have ih := cmpEmpty_iff (r := r) (x := as) (y := bs) (by simpa using h)
    unfold cmpEmpty at ih ⊢
    simp only [List.zipWith_cons_cons, List.any_cons, id, Bool.not_or, Bool.and_eq_true,
      Bool.not_eq_true'] at ih ⊢
    rw [ih]
    constructor
    · rintro ⟨h0, h1⟩ l u v hu hv
      cases l with
      | zero => simp at hu hv; rw [← hu, ← hv]; exact h0
      | succ l => exact h1 l u v (by simpa using hu) (by simpa using hv)
    · intro h
      exact ⟨h 0 a b rfl rfl, fun l u v hu hv => h (l + 1) u v (by simpa using hu) (by simpa using hv)⟩
  | [], _ :: _, h => by simp at h
  | _ :: _, [], h => by simp at h

/-- "For all lanes of all vectors" is "for all entries". -/
theorem forall_lanes {w N : Nat} (hw : 0 < w) (P : Nat → Prop) :
    (∀ j, j < N → ∀ l, l < w → P (j * w + l)) ↔ ∀ e, e < N * w → P e := by
  constructor
  · intro h e he
    have h1 : e / w < N := (Nat.div_lt_iff_lt_mul hw).mpr he
    have := h (e / w) h1 (e % w) (Nat.mod_lt e hw)
    rwa [Nat.div_add_mod' e w] at this
  · intro h j hj l hl
    have h1 : (j + 1) * w ≤ N * w := Nat.mul_le_mul_right w hj
    have h2 : (j + 1) * w = j * w + w := by rw [Nat.add_mul, Nat.one_mul]
    exact h _ (by omega)

/-! ## copyVectors -/

theorem copy4_step {w N L i : Nat} {old new : Nat → Option α} {src : List α → List α} (hw : 0 < w)
    (hN : N * w ≤ 2 ^ 64) (hL : N * w ≤ L)
    (hs : ∀ j mem, j ≤ N → Upto w L j old new mem →
      N * w ≤ (src mem).length ∧ ∀ e, e < N * w → (src mem)[e]? = new e)
    (hi : i < N) (h3 : 3 ≤ i) (dst : List α) (hd : Upto w L (i - 3) old new dst) :
    ∃ dst', copy4 w src i dst = some dst' ∧ Upto w L (i + 1) old new dst' := by
  obtain ⟨sl, sv⟩ := hs (i - 3) dst (by omega) hd
  have rd : ∀ j, j < N → ∃ v, vectorRead w (src dst) j = some v ∧ v.length = w ∧
      ∀ l, l < w → v[l]? = new (j * w + l) := by
    intro j hj
    obtain ⟨v, e, hl, hv⟩ := vectorRead_some (mem := src dst) hw hj hN sl
    have := wrap_index hj hN hw
    exact ⟨v, e, hl, fun l hl' => by rw [hv l hl', sv _ (by omega)]⟩
  obtain ⟨v3, e3, l3, t3⟩ := rd (i - 3) (by omega)
  obtain ⟨v2, e2, l2, t2⟩ := rd (i - 2) (by omega)
  obtain ⟨v1, e1, l1, t1⟩ := rd (i - 1) (by omega)
  obtain ⟨v0, e0, l0, t0⟩ := rd (i - 0) (by omega)
  obtain ⟨d3, f3, u3⟩ := upto_step hw (show i - 3 < N by omega) hN hL hd l3 t3
  rw [show i - 3 + 1 = i - 2 by omega] at u3
  obtain ⟨d2, f2, u2⟩ := upto_step hw (show i - 2 < N by omega) hN hL u3 l2 t2
  rw [show i - 2 + 1 = i - 1 by omega] at u2
  obtain ⟨d1, f1, u1⟩ := upto_step hw (show i - 1 < N by omega) hN hL u2 l1 t1
  rw [show i - 1 + 1 = i - 0 by omega] at u1
  obtain ⟨d0, f0, u0⟩ := upto_step hw (show i - 0 < N by omega) hN hL u1 l0 t0
  rw [show i - 0 + 1 = i + 1 by omega] at u0
  refine ⟨d0, ?_, u0⟩
  unfold copy4
  simp only [e3, e2, e1, e0, Option.bind_eq_bind, Option.bind_some, f3, f2, f1]
  exact f0

theorem copyLoop4_spec {w N L : Nat} {old new : Nat → Option α} {src : List α → List α} (hw : 0 < w)
    (hN : N * w ≤ 2 ^ 64) (hL : N * w ≤ L)
    (hs : ∀ j mem, j ≤ N → Upto w L j old new mem →
      N * w ≤ (src mem).length ∧ ∀ e, e < N * w → (src mem)[e]? = new e) :
    ∀ (d i : Nat), N - i ≤ d → 3 ≤ i → i - 3 ≤ N → ∀ dst, Upto w L (i - 3) old new dst →
    ∃ k dst', copyLoop4 w N src i dst = some (k, dst') ∧ 3 ≤ k ∧ N ≤ k ∧ k - 3 ≤ N ∧
      Upto w L (k - 3) old new dst'
  | d, i, hd, h3, hi, dst, hu => by
    by_cases c : i < N
    · obtain ⟨dst', e, u⟩ := copy4_step hw hN hL hs c h3 dst hu
      cases d with
      | zero => omega
      | succ d =>
        obtain ⟨k, dst'', e', r⟩ := copyLoop4_spec hw hN hL hs d (i + 4) (by omega) (by omega)
          (by omega) dst' (by rw [show i + 4 - 3 = i + 1 by omega]; exact u)
        exact ⟨k, dst'', by rw [copyLoop4, if_pos c, e]; exact e', r⟩
    · exact ⟨i, dst, by rw [copyLoop4, if_neg c], h3, by omega, hi, hu⟩

theorem copyVectors_spec {w N L : Nat} {old new : Nat → Option α} {src : List α → List α}
    (hw : 0 < w) (hN : N * w ≤ 2 ^ 64) (hL : N * w ≤ L)
    (hs : ∀ j mem, j ≤ N → Upto w L j old new mem →
      N * w ≤ (src mem).length ∧ ∀ e, e < N * w → (src mem)[e]? = new e)
    (dst : List α) (hd : Upto w L 0 old new dst) :
    ∃ dst', copyVectors w N src dst = some dst' ∧ Upto w L N old new dst' := by
  obtain ⟨k, d1, e, h3, hk, hk', u⟩ := copyLoop4_spec hw hN hL hs N 3 (by omega) (by omega)
    (by omega) dst (by simpa using hd)
  obtain ⟨d2, e2, u2⟩ := forLoop_vectors hw hN hL (fun i dst => do
      let v ← vectorRead w (src dst) i
      vectorWrite w dst i v) (k - 3) hk' (by
    intro j mem hj hu
    obtain ⟨sl, sv⟩ := hs j mem (by omega) hu
    obtain ⟨v, e, hl, hv⟩ := vectorRead_some (mem := src mem) hw hj hN sl
    have := wrap_index hj hN hw
    exact ⟨v, hl, fun l hl' => by rw [hv l hl', sv _ (by omega)], by rw [e]; rfl⟩) d1 u
  refine ⟨d2, ?_, u2⟩
  unfold copyVectors
  rw [e]
  exact e2

/-! ## iteration -/

theorem iterate_eq : ∀ (d a b : Nat), b - a = d → iterate a b = (List.range (b - a)).map (a + ·)
  | 0, a, b, h => by rw [iterate, if_neg (by omega), h]; rfl
  | d + 1, a, b, h => by
    rw [iterate, if_pos (by omega), iterate_eq d (a + 1) b (by omega), h,
      show b - (a + 1) = d by omega, List.range_succ_eq_map]
    simp only [List.map_cons, List.map_map, Nat.add_zero, List.cons.injEq, true_and]
    apply List.map_congr_left
    intro x _
    simp only [Function.comp]; omega

end Vc.Lemma
