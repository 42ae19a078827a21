import Verif.Lemma.Simdize
import Verif.Prop.Interleave

/-!
# C48: objects in simdized objects

`K` lists the vectorized types of the data members of a tuple-like type, `N` is the number of lanes.
`Adapter K` is `simdize<S, N>`, `Obj K` is `S`. `assignImpl`, `extractImpl` are `Vc::assign`, `Vc::extract`
(and the operators of `decorate(a)[i]`).
-/

namespace Vc.Prop
open Vc.Model Vc.Spec Vc.Lemma

variable {m : Nat} {K : Fin m → Member} {N : Nat}

/-- `assign(a, i, x)` makes object `i` equal `x` and changes no other object. -/
theorem C48_assign_extract (hK : AdValid K) (hN : 1 ≤ N) (a : Adapter K) (ha : AdWF K N a) (i : Nat)
    (hi : i < N) (x : Obj K) :
    ∃ b, assignImpl N a i x = some b ∧ AdWF K N b ∧ extractImpl N b i = some x ∧
      ∀ j, j ≠ i → extractImpl N b j = extractImpl N a j := by
  obtain ⟨b, e, w, h⟩ := assign_extract hK hN ha hi x
  exact ⟨b, e, w, by rw [h i, if_pos rfl], fun j hj => by rw [h j, if_neg hj]⟩

/-- The objects `0` to `N - 1` exist, and no others. -/
theorem C48_extract_exists (hK : AdValid K) (hN : 1 ≤ N) (hm : 1 ≤ m) (a : Adapter K) (ha : AdWF K N a)
    (i : Nat) : (extractImpl N a i).isSome ↔ i < N := by
  constructor
  · intro h
    have := pack_isSome_iff.mp h ⟨0, hm⟩
    exact (member_isSome _ (hK _) hN (ha _) i).mp this
  · exact extract_isSome hK hN ha

/-- `swap(a, i, x)` exchanges object `i` and `x`. -/
theorem C48_swap (hK : AdValid K) (hN : 1 ≤ N) (a : Adapter K) (ha : AdWF K N a) (i : Nat)
    (hi : i < N) (x : Obj K) :
    ∃ b y, swapObj N a i x = some (b, y) ∧ AdWF K N b ∧ extractImpl N a i = some y ∧
      extractImpl N b i = some x ∧ ∀ j, j ≠ i → extractImpl N b j = extractImpl N a j := by
  obtain ⟨b, e, w, h⟩ := assign_extract hK hN ha hi x
  obtain ⟨y, hy⟩ := Option.isSome_iff_exists.mp (extract_isSome hK hN ha hi)
  refine ⟨b, y, ?_, w, hy, by rw [h i, if_pos rfl], fun j hj => by rw [h j, if_neg hj]⟩
  have : swapObj N a i x = (some y).bind fun tmp => (some b).bind fun a' =>
      some (a', (List.finRange m).foldl (fun x k => put x k (tmp k)) x) := by
    rw [← hy, ← e]; rfl
  rw [this]
  simp only [Option.bind_some]
  rw [foldl_put]

/-- `swap(a, i, b, j)` exchanges object `i` of `a` and object `j` of `b` and changes no other object. `a` and
`b` may be the same simdized object, `i` and `j` the same lane. `s` is the program state, `p` and `q` are
`a` and `b`. -/
theorem C48_swap_lanes (hK : AdValid K) (hN : 1 ≤ N) (s : Adapters K) (hs : ∀ r, AdWF K N (s r))
    (p i q j : Nat) (hi : i < N) (hj : j < N) :
    ∃ s', swapLanes N s p i q j = some s' ∧ (∀ r, AdWF K N (s' r)) ∧
      extractImpl N (s' p) i = extractImpl N (s q) j ∧ extractImpl N (s' q) j = extractImpl N (s p) i ∧
      ∀ r l, ¬ (r = p ∧ l = i) → ¬ (r = q ∧ l = j) → extractImpl N (s' r) l = extractImpl N (s r) l := by
  obtain ⟨s', e, w, h⟩ := swap_spec hK hN hs hi hj
  refine ⟨s', e, w, ?_, ?_, ?_⟩
  · refine pack_congr fun k => ?_
    rw [h p k i]
    by_cases c : p = q ∧ i = j
    · rw [if_pos c, c.1, c.2]
    · rw [if_neg c, if_pos ⟨rfl, rfl⟩]
  · exact pack_congr fun k => by rw [h q k j, if_pos ⟨rfl, rfl⟩]
  · intro r l h1 h2
    exact pack_congr fun k => by rw [h r k l, if_neg h2, if_neg h1]

/-- Construction from one object: all `N` objects equal it. -/
theorem C48_broadcast (hK : AdValid K) (hN : 1 ≤ N) (x : Obj K) :
    AdWF K N (broadcastCtor N x) ∧ ∀ i, i < N → extractImpl N (broadcastCtor N x) i = some x := by
  have h := fun k => broadcast_wf (hK k) (x k) N hN
  refine ⟨fun k => (h k).1, fun i hi => pack_some fun k => ?_⟩
  show (K k).get N (SA.broadcast (K k).cfg (x k) N) i = some (x k)
  rw [member_get (K k) (hK k) hN (h k).1]
  show (SA.broadcast (K k).cfg (x k) N).toList[i]? = some (x k)
  rw [(h k).2, List.getElem?_replicate, if_pos hi]

/-- Construction with a generator: object `i` is the result of call number `i` of the generator. The calls
are `f 0 (st 0)`, `f 1 (st 1)`, ... where `st` is the state of the generator. -/
theorem C48_generator {σ : Type} (hK : AdValid K) (hN : 1 ≤ N) (a : Adapter K) (ha : AdWF K N a)
    (f : Nat → σ → Option (Obj K × σ)) (xs : Nat → Obj K) (st : Nat → σ)
    (hf : ∀ i, i < N → f i (st i) = some (xs i, st (i + 1))) :
    ∃ b, generatorCtor N a f (st 0) = some (b, st N) ∧ AdWF K N b ∧
      ∀ i, i < N → extractImpl N b i = some (xs i) := by
  obtain ⟨b, e, w, h⟩ := assignLoop hK hN f xs st N a ha (Nat.le_refl N) hf
  exact ⟨b, e, w, fun i hi => by rw [h i, if_pos hi]⟩

/-- `load_interleaved(a, mem)`: object `i` becomes `mem[i]`. The memory is read up to `mem[N - 1]`. -/
theorem C48_load (hK : AdValid K) (hN : 1 ≤ N) (a : Adapter K) (ha : AdWF K N a) (mem : List (Obj K))
    (hm : N ≤ mem.length) :
    ∃ b, loadObjects N a mem = some b ∧ AdWF K N b ∧ ∀ i, i < N → extractImpl N b i = mem[i]? := by
  have key : ∀ c, c ≤ N → ∃ b, (List.range c).foldlM (fun a i => mem[i]?.bind (assignImpl N a i)) a = some b ∧
      AdWF K N b ∧ ∀ i, i < c → extractImpl N b i = mem[i]? := by
    intro c
    induction c with
    | zero => intro _; exact ⟨a, rfl, ha, fun i hi => absurd hi (Nat.not_lt_zero i)⟩
    | succ c ih =>
      intro hc
      obtain ⟨b, e, w, h⟩ := ih (by omega)
      have hx : mem[c]? = some (mem[c]'(by omega)) := List.getElem?_eq_getElem (by omega)
      obtain ⟨b', e', w', h'⟩ := assign_extract hK hN w (i := c) (by omega) (mem[c]'(by omega))
      refine ⟨b', ?_, w', ?_⟩
      · rw [List.range_succ, List.foldlM_append, e]
        simp only [Option.bind_eq_bind, Option.bind_some, List.foldlM_cons, List.foldlM_nil, hx, e']
        rfl
      · intro i hi
        rw [h' i]
        by_cases hic : i = c
        · subst hic; rw [if_pos rfl, hx]
        · rw [if_neg hic]; exact h i (by omega)
  exact key N (Nat.le_refl N)

/-- `store_interleaved(a, mem)`: `mem[i]` becomes object `i` for `i < N`; nothing else is written. -/
theorem C48_store (hK : AdValid K) (hN : 1 ≤ N) (a : Adapter K) (ha : AdWF K N a) (mem : List (Obj K))
    (hm : N ≤ mem.length) :
    ∃ mem', storeObjects N a mem = some mem' ∧ mem'.length = mem.length ∧
      ∀ i, mem'[i]? = if i < N then extractImpl N a i else mem[i]? := by
  have key : ∀ c, c ≤ N → ∃ mem', (List.range c).foldlM
      (fun mem i => (extractImpl N a i).bind fun x => if i < mem.length then some (mem.set i x) else none)
      mem = some mem' ∧ mem'.length = mem.length ∧
      ∀ i, mem'[i]? = if i < c then extractImpl N a i else mem[i]? := by
    intro c
    induction c with
    | zero => intro _; exact ⟨mem, rfl, rfl, fun i => by simp⟩
    | succ c ih =>
      intro hc
      obtain ⟨mem', e, hl, h⟩ := ih (by omega)
      obtain ⟨x, hx⟩ := Option.isSome_iff_exists.mp (extract_isSome hK hN ha (i := c) (by omega))
      refine ⟨mem'.set c x, ?_, by rw [List.length_set, hl], ?_⟩
      · rw [List.range_succ, List.foldlM_append, e]
        simp only [Option.bind_eq_bind, Option.bind_some, List.foldlM_cons, List.foldlM_nil, hx]
        rw [if_pos (by omega)]
        rfl
      · intro i
        rw [List.getElem?_set]
        by_cases hic : c = i
        · subst hic
          rw [if_pos rfl, if_pos (by omega), if_pos (by omega), hx]
        · rw [if_neg hic, h i]
          by_cases hlt : i < c
          · rw [if_pos hlt, if_pos (by omega)]
          · rw [if_neg hlt, if_neg (by omega)]
  exact key N (Nat.le_refl N)

/-- `load_interleaved` and `store_interleaved` of structs of `k` members of the same type with native vectors
(the implementation with `InterleavedMemoryWrapper`, /repo/Vc/common/simdize.h:1166-1183): component `l` of
member `j` is `mem[l].j`. `vs` are the members of the simdized object; what is read beyond: C33. -/
theorem C48_load_homogeneous {V : ILVec} {k : Nat} {mem : ILMem V.width} {data : Int}
    {vs : List (BitVec V.bits)} (hk : 2 ≤ k ∧ k ≤ 8) (hf : V.size * k < 2 ^ 64)
    (hr : ilReadS V k k mem data 0 = some vs) :
    vs.length = k ∧ Holds mem data k (fun l => Int.ofNat l) V.size k (fun j l => Model.lane V.width (vs.getD j 0) l) := by
  have h := C32_read_successive (S := k) (first := 0) hk ?_ hr
  · have e : structsS 0 = fun l => Int.ofNat l := by funext l; simp [structsS]
    rw [e] at h
    exact h
  · intro l hl
    have : (0 + l) * k ≤ V.size * k := Nat.mul_le_mul_right k (by omega)
    simp only [BitVec.toNat_zero, BitVec.ofNat_eq_ofNat] at this ⊢
    omega

@[inherit_doc C48_load_homogeneous]
theorem C48_store_homogeneous {C : ILCfg} {V : ILVec} {mem : ILMem V.width} {data : Int}
    {vs : List (BitVec V.bits)} (hv : 2 ≤ vs.length ∧ vs.length ≤ 8) (hf : V.size * vs.length < 2 ^ 64)
    (hm : MembersExist mem data vs.length (fun l => Int.ofNat l) V.size vs.length) :
    ∃ mem', ilWriteS C V vs.length mem data 0 vs = some mem' ∧
      Holds mem' data vs.length (fun l => Int.ofNat l) V.size vs.length
        (fun j l => Model.lane V.width (vs.getD j 0) l) ∧
      SameOutside mem mem' data vs.length (fun l => Int.ofNat l) V.size vs.length := by
  have e : structsS 0 = fun l => Int.ofNat l := by funext l; simp [structsS]
  have h := C32_write_successive (C := C) (S := vs.length) (first := 0) (m := mem) (data := data) hv
    (Nat.le_refl _) ?_ (by rw [e]; exact hm)
  · rw [e] at h
    exact h
  · intro l hl
    have : (0 + l) * vs.length ≤ V.size * vs.length := Nat.mul_le_mul_right _ (by omega)
    simp only [BitVec.toNat_zero, BitVec.ofNat_eq_ofNat] at this ⊢
    omega

/-! ### shifted -/

/-- `shifted(a, s)` shifts every member like the `shifted` function of its type. -/
theorem C48_shifted_members (r a b : Adapter K) (s : Int)
    (h : ∀ k, (K k).shifted N s (a k) = some (b k)) : shiftedImpl N r a s = some b :=
  foldPut (fun k _ => (K k).shifted N s (a k)) b r h

/-- The zero of a member. -/
def zeroOf : (K : Member) → K.Entry
  | .vec _ _ z => z
  | .mask _ => false

/-- With `N` a power of two, object `i` of `shifted(a, s)` is object `i + s`, or the object whose members are
zero. -/
theorem C48_shifted (hK : AdValid K) (hN : IsPow2 N) (h31 : N ≤ 2 ^ 31) (r a : Adapter K) (ha : AdWF K N a)
    (s : Int) (hs : -2 ^ 31 ≤ s ∧ s < 2 ^ 31) :
    ∃ b, shiftedImpl N r a s = some b ∧ AdWF K N b ∧ ∀ i : Nat, i < N →
      extractImpl N b i = if 0 ≤ (i : Int) + s ∧ (i : Int) + s < N then extractImpl N a ((i : Int) + s).toNat
        else some fun k => zeroOf (K k) := by
  have key : ∀ k, ∃ y, (K k).shifted N s (a k) = some y ∧ SA.WF (K k).cfg N y ∧
      y.toList = Spec.shifted (zeroOf (K k)) s (a k).toList := by
    intro k
    have hC := hK k
    have hw := ha k
    revert hC hw
    generalize a k = x
    revert x
    cases K k with
    | vec β C z =>
      intro x hC hw
      exact C20_shifted_pow2_partial hC z N hN s x hw
    | mask C =>
      intro x hC hw
      exact C27_shifted hC N hN.pos h31 s hs x hw
  refine ⟨fun k => (key k).choose, C48_shifted_members r a _ s fun k => (key k).choose_spec.1,
    fun k => (key k).choose_spec.2.1, fun i hi => ?_⟩
  have hg : ∀ k, (K k).get N (key k).choose i = some (Spec.lane (zeroOf (K k)) (a k).toList ((i : Int) + s)) := by
    intro k
    have hl := WF.length (hK k) hN.pos (ha k)
    have hsp := (key k).choose_spec
    rw [member_get (K k) (hK k) hN.pos hsp.2.1, hsp.2.2]
    unfold Spec.shifted
    rw [List.getElem?_eq_getElem (by simp only [tab_length]; omega), tab_getElem]
  by_cases h : 0 ≤ (i : Int) + s ∧ (i : Int) + s < N
  · rw [if_pos h]
    refine pack_congr fun k => ?_
    have hl := WF.length (hK k) hN.pos (ha k)
    rw [hg k, member_get (K k) (hK k) hN.pos (ha k)]
    unfold Spec.lane
    rw [if_pos h.1, List.getElem?_eq_getElem (by omega), List.getD_eq_getElem?_getD,
      List.getElem?_eq_getElem (by omega), Option.getD_some]
  · rw [if_neg h]
    refine pack_some fun k => ?_
    have hl := WF.length (hK k) hN.pos (ha k)
    rw [hg k]
    unfold Spec.lane
    congr 1
    by_cases h0 : 0 ≤ (i : Int) + s
    · rw [if_pos h0, List.getD_eq_getElem?_getD, List.getElem?_eq_none (by omega), Option.getD_none]
    · rw [if_neg h0]

/-! ### where -/

/-- The lanes of a converted mask. -/
theorem castMask_spec {CM C : Cfg} (hM : CM.Valid) (hC : C.Valid) (hN : 1 ≤ N) (mask : SA Bool)
    (hm : SA.WF CM N mask) :
    ∃ r, castMask N CM C mask = some r ∧ SA.WF C N r ∧ ∀ i : Nat, i < N → r.get C (i : Int) = mask.get CM (i : Int) := by
  obtain ⟨r, e, w, h⟩ := C26_cast ⟨CM, C, id, false, false⟩ hM hC rfl N N hN hN [mask]
    (by intro x hx; rw [List.mem_singleton.mp hx]; exact hm) (Nat.le_refl 1) (Or.inl rfl)
  refine ⟨r, e, w, fun i hi => ?_⟩
  have hl := WF.length hM hN hm
  rw [h i hi, get_eq hM hN hm]
  simp only [List.flatMap_cons, List.flatMap_nil, List.append_nil, List.map_id]
  unfold Spec.lane
  rw [if_pos (by omega), Int.toNat_natCast, List.getD_eq_getElem?_getD, List.getElem?_eq_getElem (by omega),
    Option.getD_some]

/-- All data members are vectors (there is no masked assignment of masks). -/
def AllVec (K : Fin m → Member) : Prop := ∀ k, ∃ β C z, K k = .vec β C z

/-- `where(mask) | a = b` replaces exactly the objects whose mask bit is set. -/
theorem C48_where (hK : AdValid K) (hV : AllVec K) (hN : 1 ≤ N) {CM : Cfg} (hM : CM.Valid) (mask : SA Bool)
    (hm : SA.WF CM N mask) (a b : Adapter K) (ha : AdWF K N a) (hb : AdWF K N b) :
    ∃ r, condAssign N CM mask a b = some r ∧ AdWF K N r ∧ ∀ i : Nat, i < N →
      extractImpl N r i =
        if mask.get CM (i : Int) = some true then extractImpl N b i else extractImpl N a i := by
  have key : ∀ k, ∃ y, condAssignMember N CM mask (K k) (a k) (b k) = some y ∧ SA.WF (K k).cfg N y ∧
      ∀ i : Nat, i < N → (K k).get N y i =
        if mask.get CM (i : Int) = some true then (K k).get N (b k) i else (K k).get N (a k) i := by
    intro k
    have hC := hK k
    have h1 := ha k
    have h2 := hb k
    obtain ⟨β, C, z, e⟩ := hV k
    revert hC h1 h2
    generalize a k = x
    generalize b k = y
    revert x y
    rw [e]
    intro x y hC h1 h2
    obtain ⟨mk, em, wm, hm'⟩ := castMask_spec hM hC hN mask hm
    obtain ⟨r, er, wr, hr⟩ := C25_assign hC N hN x y mk h1 h2 wm
    refine ⟨r, ?_, wr, fun i hi => ?_⟩
    · show (castMask N CM C mask).bind (fun mk => SA.assign x y mk) = some r
      have em' : castMask N CM C mask = some mk := em
      rw [em']; exact er
    · have := hr i hi
      rw [hm' i hi] at this
      exact this
  refine ⟨fun k => (key k).choose,
    foldPut (fun k x => condAssignMember N CM mask (K k) x (b k)) _ a fun k => (key k).choose_spec.1,
    fun k => (key k).choose_spec.2.1, fun i hi => ?_⟩
  have hg := fun k => (key k).choose_spec.2.2 i hi
  by_cases h : mask.get CM (i : Int) = some true
  · rw [if_pos h]
    exact pack_congr fun k => by rw [hg k, if_pos h]
  · rw [if_neg h]
    exact pack_congr fun k => by rw [hg k, if_neg h]

/-- `where(mask) | a op= b` for operations that are defined in all lanes (see C25): the members of the
objects whose mask bit is set are replaced by the results of the operation. -/
theorem C48_where_op (hK : AdValid K) (hV : AllVec K) (hN : 1 ≤ N) {CM : Cfg} (hM : CM.Valid) (mask : SA Bool)
    (hm : SA.WF CM N mask) (f : (k : Fin m) → (K k).Entry → (K k).Entry → (K k).Entry) (a b : Adapter K)
    (ha : AdWF K N a) (hb : AdWF K N b) :
    ∃ r, condOp N CM mask (fun k x y => some (f k x y)) a b = some r ∧ AdWF K N r ∧
      ∀ (i : Nat) (x y : Obj K), i < N → extractImpl N a i = some x → extractImpl N b i = some y →
        extractImpl N r i =
          if mask.get CM (i : Int) = some true then some (fun k => f k (x k) (y k)) else some x := by
  have key : ∀ k, ∃ y, condOpMember N CM mask (K k) (fun x y => some (f k x y)) (a k) (b k) = some y ∧
      SA.WF (K k).cfg N y ∧ ∀ (i : Nat) (u v : (K k).Entry), i < N → (K k).get N (a k) i = some u →
        (K k).get N (b k) i = some v → (K k).get N y i =
        if mask.get CM (i : Int) = some true then some (f k u v) else some u := by
    intro k
    have hC := hK k
    have h1 := ha k
    have h2 := hb k
    obtain ⟨β, C, z, e⟩ := hV k
    revert hC h1 h2
    generalize a k = x
    generalize b k = y
    generalize f k = g
    revert x y g
    rw [e]
    intro x y g hC h1 h2
    obtain ⟨mk, em, wm, hm'⟩ := castMask_spec hM hC hN mask hm
    obtain ⟨r, er, wr, hr⟩ := C25_op_partial hC N hN (fun x y => some (g x y)) x y mk h1 h2 wm
      (fun _ _ _ _ _ => rfl)
    refine ⟨r, ?_, wr, fun i u v hi hu hv => ?_⟩
    · show (castMask N CM C mask).bind (fun mk => SA.maskedOp _ x y mk) = some r
      have em' : castMask N CM C mask = some mk := em
      rw [em']; exact er
    · have := hr i u v hu hv
      rw [hm' i hi] at this
      exact this
  refine ⟨fun k => (key k).choose,
    foldPut (fun k x => condOpMember N CM mask (K k) (fun x y => some (f k x y)) x (b k)) _ a
      fun k => (key k).choose_spec.1,
    fun k => (key k).choose_spec.2.1, fun i x y hi hx hy => ?_⟩
  have hg := fun k => (key k).choose_spec.2.2 i (x k) (y k) hi (extract_get.mp hx k) (extract_get.mp hy k)
  by_cases h : mask.get CM (i : Int) = some true
  · rw [if_pos h]
    exact pack_some fun k => by rw [hg k, if_pos h]
  · rw [if_neg h]
    exact pack_some fun k => by rw [hg k, if_neg h]

/-! ### A concrete type: `struct { float a; short b; bool c; }` with 8 lanes -/

/-- `simdize<tuple<float, short>, 8>` with SSE for the first and AVX2 for the second member. -/
def exMembers : Fin 2 → Member
  | 0 => .vec Int exCfg 0
  | 1 => .vec Nat exCfg' 0

/-- The same with a `bool` member at the end. -/
def exMembers' : Fin 3 → Member
  | 0 => .vec Int exCfg 0
  | 1 => .vec Nat exCfg' 0
  | 2 => .mask exCfg

theorem exMembers_valid : AdValid exMembers
  | 0 => exCfg_valid
  | 1 => exCfg'_valid

theorem exMembers'_valid : AdValid exMembers'
  | 0 => exCfg_valid
  | 1 => exCfg'_valid
  | 2 => exCfg_valid

/-- Objects. -/
def exObj : Obj exMembers'
  | 0 => (-3 : Int)
  | 1 => (7 : Nat)
  | 2 => true

example : AdValid exMembers ∧ AllVec exMembers ∧ (∃ a, AdWF exMembers 8 a) ∧ IsPow2 8 ∧
    AdValid exMembers' ∧ (∃ a, AdWF exMembers' 8 a) := by
  refine ⟨exMembers_valid, ?_, ⟨_, (C48_broadcast exMembers_valid (by decide)
    (fun k => match k with | 0 => (5 : Int) | 1 => (6 : Nat))).1⟩, ⟨3, rfl⟩, exMembers'_valid,
    ⟨_, (C48_broadcast exMembers'_valid (by decide) exObj).1⟩⟩
  intro k
  match k with
  | 0 => exact ⟨_, _, _, rfl⟩
  | 1 => exact ⟨_, _, _, rfl⟩

/-- A generator that counts its calls. -/
example : ∀ i, i < 8 → (fun (i : Nat) (s : Nat) => some (exObj, s + i)) i (i * (i - 1) / 2) =
    some (exObj, (i + 1) * (i + 1 - 1) / 2) := by
  intro i hi
  have : i = 0 ∨ i = 1 ∨ i = 2 ∨ i = 3 ∨ i = 4 ∨ i = 5 ∨ i = 6 ∨ i = 7 := by omega
  rcases this with rfl | rfl | rfl | rfl | rfl | rfl | rfl | rfl <;> rfl

end Vc.Prop
