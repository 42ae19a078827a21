import Verif.Model.CpuidLeaf2
import Verif.Spec.CpuidLeaf2
import Verif.Prop.Cpuid

/-!
# C97: the caches of Intel processors from the descriptors of CPUID leaf 2
-/

namespace Vc.Prop
open Vc.Model Vc.Spec
open Vc.Model.CpuId (Leaf2State interpret interpretBytes interpretEax leaf2Round leaf2Loop initIntel)

/-- Family 0F, model 06, as `CpuId` reports it. -/
def isXeonMP (s : CpuId) : Bool := decide (s.family = 0xf ∧ s.model = 0x6)

/-- What `CpuId` reports about the size and the line size of a cache. -/
def reported (k : CacheLevel) (s : CpuId) : Nat × Nat :=
  match k with
  | .l1i => (s.l1Instruction, s.l1InstructionLineSize)
  | .l1d => (s.l1Data, s.l1DataLineSize)
  | .l2 => (s.l2Data, s.l2DataLineSize)
  | .l3 => (s.l3Data, s.l3DataLineSize)

/-- The descriptors that `CpuId` gets wrong. -/
def Mistaken (b : Nat) : Prop := b = 0x1D ∨ b = 0x24 ∨ b = 0x30

private def setCache (c : CacheDesc) (s : CpuId) : CpuId :=
  match c.kind with
  | .l1i => { s with l1Instruction := c.bytes, l1InstructionLineSize := c.line, l1Associativity := c.ways }
  | .l1d => { s with l1Data := c.bytes, l1DataLineSize := c.line, l1Associativity := c.ways }
  | .l2 => { s with l2Data := c.bytes, l2DataLineSize := c.line, l2Associativity := c.ways }
  | .l3 => { s with l3Data := c.bytes, l3DataLineSize := c.line, l3Associativity := c.ways }

private def upd (o : Option CacheDesc) (s : CpuId) : CpuId :=
  match o with
  | some c => setCache c s
  | none => s

private theorem interpret_id (b : Nat) (s : Leaf2State) (hb : ¬ Mistaken b) :
    (interpret b s).id = upd (describes (isXeonMP s.id) b) s.id := by
  unfold interpret
  split
  case h_66 =>
    have : describes (isXeonMP s.id) b = none := by
      unfold Mistaken at hb
      simp only [not_or] at hb
      have hl : intelTable.lookup b = none := by
        rw [List.lookup_eq_none_iff]
        simp only [intelTable, List.forall_mem_cons, bne]
        simp [hb]
        repeat' apply And.intro
        all_goals assumption
      unfold describes
      rw [hl, if_neg (fun h => by simp at h; exact absurd h.2 (by assumption))]
      rfl
    rw [this]; rfl
  case h_24 =>
    unfold isXeonMP
    split
    · next h => rw [decide_eq_true h]; rfl
    · next h => rw [decide_eq_false h]; rfl
  all_goals first
    | (exact absurd (Or.inr (Or.inr rfl)) hb)
    | (generalize isXeonMP s.id = x; cases x <;> rfl)


private theorem interpret_keep (b : Nat) (s : Leaf2State) :
    (interpret b s).checkLeaf4 = (s.checkLeaf4 || b == 0xFF) ∧
      (interpret b s).prefetch = if b = 0xF0 then 64 else if b = 0xF1 then 128 else s.prefetch := by
  unfold interpret
  split
  case h_24 => split <;> simp
  case h_66 =>
    have e1 : ¬ b = 255 := by assumption
    have e2 : ¬ b = 240 := by assumption
    have e3 : ¬ b = 241 := by assumption
    simp [e1, e2, e3]
  all_goals simp

private theorem upd_family (o : Option CacheDesc) (s : CpuId) :
    (upd o s).family = s.family ∧ (upd o s).model = s.model := by
  rcases o with _ | ⟨k, a, b, c⟩
  · exact ⟨rfl, rfl⟩
  · cases k <;> exact ⟨rfl, rfl⟩

private theorem upd_xeon (o : Option CacheDesc) (s : CpuId) : isXeonMP (upd o s) = isXeonMP s := by
  unfold isXeonMP; rw [(upd_family o s).1, (upd_family o s).2]

/-- The descriptors one after the other. -/
private def all (l : List Nat) (s : Leaf2State) : Leaf2State := l.foldl (fun s b => interpret b s) s

private theorem all_append (l m : List Nat) (s : Leaf2State) : all (l ++ m) s = all m (all l s) := List.foldl_append ..

/-- A value that descriptors of some kinds set is that of the last such descriptor. -/
private theorem all_last {β : Type} (x : Bool) (K : CacheLevel → Prop) [DecidablePred K] (v : CpuId → β) (e : CacheDesc → β)
    (h1 : ∀ c s, K c.kind → v (setCache c s) = e c) (h2 : ∀ c s, ¬ K c.kind → v (setCache c s) = v s) :
    ∀ (l : List Nat) (s : Leaf2State), (∀ b ∈ l, ¬ Mistaken b) → isXeonMP s.id = x →
      (∃ c, LastOf x K l c ∧ v (all l s).id = e c) ∨
        ((∀ b ∈ l, ∀ d, describes x b = some d → ¬ K d.kind) ∧ v (all l s).id = v s.id)
  | [], s, _, _ => .inr ⟨by simp, rfl⟩
  | b :: l, s, hl, hx => by
    have hi := interpret_id b s (hl b (by simp))
    rcases all_last x K v e h1 h2 l (interpret b s) (fun y hy => hl y (by simp [hy]))
        (by rw [hi, upd_xeon, hx]) with ⟨c, ⟨a, y, t, e1, e2⟩, hv⟩ | ⟨hn, hv⟩
    · exact .inl ⟨c, ⟨b :: a, y, t, by rw [e1]; rfl, e2⟩, hv⟩
    · rw [hi, hx] at hv
      cases hd : describes x b with
      | none =>
        refine .inr ⟨?_, by rw [hd] at hv; exact hv⟩
        intro y hy d e'
        rcases List.mem_cons.mp hy with rfl | hy
        · rw [hd] at e'; cases e'
        · exact hn y hy d e'
      | some c =>
        rw [hd] at hv
        by_cases hk : K c.kind
        · exact .inl ⟨c, ⟨[], b, l, rfl, hd, hk, hn⟩, hv.trans (h1 c _ hk)⟩
        · refine .inr ⟨?_, hv.trans (h2 c _ hk)⟩
          intro y hy d e'
          rcases List.mem_cons.mp hy with rfl | hy
          · rw [hd] at e'; cases e'; exact hk
          · exact hn y hy d e'

private theorem bit31 {x : Nat} (hx : x < 2 ^ 32) : 0x80000000 &&& x = 0 ↔ x < 2 ^ 31 := by
  rw [Nat.and_comm, show 0x80000000 = 2 ^ 31 by rfl]
  constructor
  · intro h
    refine Nat.lt_of_not_le fun h' => ?_
    have t : x.testBit 31 = true := by
      rw [Nat.testBit_eq_decide_div_mod_eq]
      exact decide_eq_true (by omega)
    have := congrArg (fun y => Nat.testBit y 31) h
    simp only [Nat.testBit_and, t, Nat.testBit_two_pow, Nat.zero_testBit] at this
    simp at this
  · intro h
    refine Nat.eq_of_testBit_eq fun i => ?_
    rw [Nat.testBit_and, Nat.testBit_two_pow, Nat.zero_testBit]
    by_cases hi : 31 = i
    · rw [← hi, Nat.testBit_lt_two_pow h]; rfl
    · simp [hi]

private theorem bytes4 (x : Nat) (s : Leaf2State) :
    interpretBytes 4 x s = all [x % 256, x / 2 ^ 8 % 256, x / 2 ^ 16 % 256, x / 2 ^ 24 % 256] s := by
  have e : ∀ y : Nat, y &&& 0xff = y % 256 := fun y => Nat.and_two_pow_sub_one_eq_mod y 8
  simp only [interpretBytes, all, List.foldl, e, Nat.shiftRight_eq_div_pow, Nat.div_div_eq_div_mul]

private theorem bytes3 (x : Nat) (s : Leaf2State) :
    interpretEax 3 x s = all [x / 2 ^ 8 % 256, x / 2 ^ 16 % 256, x / 2 ^ 24 % 256] s := by
  have e : ∀ y : Nat, y &&& 0xff = y % 256 := fun y => Nat.and_two_pow_sub_one_eq_mod y 8
  simp only [interpretEax, all, List.foldl, e, Nat.shiftRight_eq_div_pow, Nat.div_div_eq_div_mul]

/-- The contents of registers. -/
def RegsOk (r : Regs) : Prop := r.eax < 2 ^ 32 ∧ r.ebx < 2 ^ 32 ∧ r.ecx < 2 ^ 32 ∧ r.edx < 2 ^ 32

private theorem reg_eq {x : Nat} (hx : x < 2 ^ 32) (s : Leaf2State) :
    (if 0x80000000 &&& x = 0 then interpretBytes 4 x s else s) = all (regDescriptors x) s := by
  unfold regDescriptors
  by_cases h : x < 2 ^ 31
  · rw [if_pos ((bit31 hx).mpr h), if_pos h, bytes4]
  · rw [if_neg (fun h' => h ((bit31 hx).mp h')), if_neg h]; rfl

private theorem round_eq {r : Regs} (hr : RegsOk r) (s : Leaf2State) :
    leaf2Round r s = all (leafDescriptors r.eax r.ebx r.ecx r.edx) s := by
  obtain ⟨h1, h2, h3, h4⟩ := hr
  unfold leaf2Round leafDescriptors
  simp only [reg_eq h2, reg_eq h3, reg_eq h4, all_append]
  congr 3
  unfold regDescriptors
  by_cases h : r.eax < 2 ^ 31
  · rw [if_pos ((bit31 h1).mpr h), if_pos h, bytes3]; rfl
  · rw [if_neg (fun h' => h ((bit31 h1).mp h')), if_neg h]; rfl

/-- The descriptors of a number of executions of CPUID. -/
def executions (c2 : Nat → Regs) (k n : Nat) : List Nat :=
  (List.range' k n).flatMap fun i => leafDescriptors (c2 i).eax (c2 i).ebx (c2 i).ecx (c2 i).edx

private theorem loop_eq {c2 : Nat → Regs} (hc : ∀ i, RegsOk (c2 i)) : ∀ (n fuel k : Nat) (s : Leaf2State), n < fuel →
    leaf2Loop c2 fuel k ((n + 1 : Nat) : Int) s = some (all (executions c2 k (n + 1)) s)
  | n, 0, _, _, h => by omega
  | n, fuel + 1, k, s, h => by
    rw [leaf2Loop]
    simp only []
    have hr : ¬ ((n + 1 : Nat) : Int) = 0 := by omega
    simp only [hr, false_and, if_false]
    rw [round_eq (hc k)]
    cases n with
    | zero =>
      rw [if_neg (by omega)]
      simp [executions]
    | succ n =>
      rw [if_pos (by omega), show ((n + 1 + 1 : Nat) : Int) - 1 = ((n + 1 : Nat) : Int) by omega,
        loop_eq hc n fuel (k + 1) _ (by omega), ← all_append]
      congr 2

/-- How often CPUID is executed: the least significant byte of EAX says so. -/
def rounds (c2 : Nat → Regs) : Nat := max 1 ((c2 0).eax % 256)

private theorem leaf2_eq {c2 : Nat → Regs} (hc : ∀ i, RegsOk (c2 i)) (s : Leaf2State)
    (h0 : ¬ ((c2 0).eax = 0 ∧ (c2 0).ebx = 0 ∧ (c2 0).ecx = 0 ∧ (c2 0).edx = 0)) :
    leaf2Loop c2 256 0 0 s = some (all (executions c2 0 (rounds c2)) s) := by
  have e : (c2 0).eax &&& 0xff = (c2 0).eax % 256 := Nat.and_two_pow_sub_one_eq_mod _ 8
  rw [leaf2Loop]
  simp only [e]
  rw [if_neg (fun h => h0 h.2), if_pos trivial, round_eq (hc 0)]
  unfold rounds
  generalize hm : (c2 0).eax % 256 = m
  have hm' : m < 256 := by omega
  match m, hm' with
  | 0, _ => rw [if_neg (by omega)]; simp [executions]
  | 1, _ => rw [if_neg (by omega)]; simp [executions]
  | n + 2, h =>
    rw [if_pos (by omega), show ((n + 2 : Nat) : Int) - 1 = ((n + 1 : Nat) : Int) by omega,
      loop_eq hc n 255 _ _ (by omega), ← all_append]
    congr 2

private theorem all_check (l : List Nat) : ∀ (s : Leaf2State),
    (all l s).checkLeaf4 = (s.checkLeaf4 || decide (0xFF ∈ l)) := by
  induction l with
  | nil => intro s; simp [all]
  | cons b l ih =>
    intro s
    have := ih (interpret b s)
    rw [(interpret_keep b s).1] at this
    simp only [all, List.foldl] at this ⊢
    rw [this, Bool.or_assoc]
    congr 1
    by_cases hb : b = 0xFF
    · simp [hb]
    · have hb' : ¬ 0xFF = b := fun h => hb h.symm
      simp [hb, hb']

/-- Leaf 2 of a processor that does not refer to leaf 4, without the descriptors 1D, 24 and 30: for every kind of cache,
size and line size are those of the last descriptor for it, or zero if there is none; likewise the associativities of the
second- and third-level caches; that of the first level is that of the last descriptor of a first-level cache, and the
prefetch size is 32, 64 with F0, 128 with F1. -/
theorem C97_descriptors_partial {c : Cpu} {c2 : Nat → Regs} {fuel : Nat} (hc : ∀ i, RegsOk (c2 i))
    (h0 : ¬ ((c2 0).eax = 0 ∧ (c2 0).ebx = 0 ∧ (c2 0).ecx = 0 ∧ (c2 0).edx = 0))
    (hF : 0xFF ∉ executions c2 0 (rounds c2)) (hm : ∀ b ∈ executions c2 0 (rounds c2), ¬ Mistaken b) :
    ∃ t, initIntel c c2 fuel (CpuId.initCommon c) = some t ∧
      let l := executions c2 0 (rounds c2)
      let x := isXeonMP (CpuId.initCommon c)
      (∀ k, (∃ d, LastOf x (· = k) l d ∧ reported k t.id = (d.bytes, d.line)) ∨
        ((∀ b ∈ l, ∀ d, describes x b = some d → d.kind ≠ k) ∧ reported k t.id = (0, 0))) ∧
      ((∃ d, LastOf x (· = .l2) l d ∧ t.id.l2Associativity = d.ways) ∨
        ((∀ b ∈ l, ∀ d, describes x b = some d → d.kind ≠ .l2) ∧ t.id.l2Associativity = 0)) ∧
      ((∃ d, LastOf x (· = .l3) l d ∧ t.id.l3Associativity = d.ways) ∨
        ((∀ b ∈ l, ∀ d, describes x b = some d → d.kind ≠ .l3) ∧ t.id.l3Associativity = 0)) ∧
      ((∃ d, LastOf x (fun k => k = .l1i ∨ k = .l1d) l d ∧ t.id.l1Associativity = d.ways) ∨
        ((∀ b ∈ l, ∀ d, describes x b = some d → ¬ (d.kind = .l1i ∨ d.kind = .l1d)) ∧ t.id.l1Associativity = 0)) ∧
      (0xF1 ∉ l → t.prefetch = if 0xF0 ∈ l then 64 else 32) ∧ (0xF0 ∉ l → 0xF1 ∈ l → t.prefetch = 128) := by
  generalize hl : executions c2 0 (rounds c2) = l at hF hm
  have he := leaf2_eq hc { id := CpuId.initCommon c } h0
  rw [hl] at he
  have hp1 : ∀ (l : List Nat) (s : Leaf2State), 0xF1 ∉ l → (all l s).prefetch = if 0xF0 ∈ l then 64 else s.prefetch := by
    intro l
    induction l with
    | nil => intro s _; simp [all]
    | cons b l ih =>
      intro s h
      have hb : ¬ b = 0xF1 := fun h' => h (by simp [h'])
      have := ih (interpret b s) (fun h' => h (by simp [h']))
      rw [(interpret_keep b s).2, if_neg hb] at this
      simp only [all, List.foldl] at this ⊢
      rw [this]
      by_cases h0 : b = 0xF0
      · simp [h0]
      · have h0' : ¬ 0xF0 = b := fun h => h0 h.symm
        simp [h0, h0']
  have hp2 : ∀ (l : List Nat) (s : Leaf2State), 0xF0 ∉ l → (all l s).prefetch = if 0xF1 ∈ l then 128 else s.prefetch := by
    intro l
    induction l with
    | nil => intro s _; simp [all]
    | cons b l ih =>
      intro s h
      have hb : ¬ b = 0xF0 := fun h' => h (by simp [h'])
      have := ih (interpret b s) (fun h' => h (by simp [h']))
      rw [(interpret_keep b s).2, if_neg hb] at this
      simp only [all, List.foldl] at this ⊢
      rw [this]
      by_cases h0 : b = 0xF1
      · simp [h0]
      · have h0' : ¬ 0xF1 = b := fun h => h0 h.symm
        simp [h0, h0']
  have hz : ∀ k, reported k (CpuId.initCommon c) = (0, 0) := by intro k; cases k <;> rfl
  refine ⟨all l { id := CpuId.initCommon c }, ?_, ?_, ?_, ?_, ?_, ?_, ?_⟩
  · unfold initIntel
    rw [he]
    have : (all l { id := CpuId.initCommon c }).checkLeaf4 = false := by rw [all_check]; simp [hF]
    simp [this]
  · intro k
    have := all_last (isXeonMP (CpuId.initCommon c)) (· = k) (reported k) (fun d => (d.bytes, d.line))
      (by rintro ⟨k', a, b, e⟩ s rfl; cases k' <;> rfl)
      (by rintro ⟨k', a, b, e⟩ s h; cases k' <;> cases k <;> first | rfl | exact absurd rfl h)
      l { id := CpuId.initCommon c } hm rfl
    rwa [hz] at this
  · exact all_last (isXeonMP (CpuId.initCommon c)) (· = .l2) (·.l2Associativity) (fun d => d.ways)
      (by rintro ⟨k', a, b, e⟩ s rfl; rfl)
      (by rintro ⟨k', a, b, e⟩ s h; cases k' <;> first | rfl | exact absurd rfl h)
      l { id := CpuId.initCommon c } hm rfl
  · exact all_last (isXeonMP (CpuId.initCommon c)) (· = .l3) (·.l3Associativity) (fun d => d.ways)
      (by rintro ⟨k', a, b, e⟩ s rfl; rfl)
      (by rintro ⟨k', a, b, e⟩ s h; cases k' <;> first | rfl | exact absurd rfl h)
      l { id := CpuId.initCommon c } hm rfl
  · exact all_last (isXeonMP (CpuId.initCommon c)) (fun k => k = .l1i ∨ k = .l1d) (·.l1Associativity) (fun d => d.ways)
      (by rintro ⟨k', a, b, e⟩ s (rfl | rfl) <;> rfl)
      (by rintro ⟨k', a, b, e⟩ s h; cases k' <;> first | rfl | exact absurd (Or.inl rfl) h | exact absurd (Or.inr rfl) h)
      l { id := CpuId.initCommon c } hm rfl
  · exact fun h => hp1 l _ h
  · intro h h'
    have := hp2 l { id := CpuId.initCommon c } h
    rwa [if_pos h'] at this

/-- A Pentium III: 03020101 00000000 00000000 0C040841. -/
private def pentium3 : Nat → Regs := fun _ => ⟨0x03020101, 0, 0, 0x0C040841⟩

example : (∀ i, RegsOk (pentium3 i)) ∧ ¬ ((pentium3 0).eax = 0 ∧ (pentium3 0).ebx = 0 ∧ (pentium3 0).ecx = 0 ∧ (pentium3 0).edx = 0) ∧
    0xFF ∉ executions pentium3 0 (rounds pentium3) ∧ (∀ b ∈ executions pentium3 0 (rounds pentium3), ¬ Mistaken b) ∧
    LastOf false (· = .l1d) (executions pentium3 0 (rounds pentium3)) ⟨.l1d, 16384, 4, 32⟩ := by
  refine ⟨fun _ => by unfold RegsOk pentium3; decide, by decide, by decide, by unfold Mistaken; decide,
    [1, 2, 3, 0, 0, 0, 0, 0, 0, 0, 0, 0x41, 0x08, 0x04], 0x0C, [], by decide, by decide, rfl, by simp⟩

/-- Without descriptors, or with the descriptor FF, the second-level cache is that of leaf 4 (C51), whatever other
descriptors there are; the prefetch size is that of leaf 1, or 64 bytes. -/
theorem C97_leaf4 {c : Cpu} {c2 : Nat → Regs} (hc : ∀ i, RegsOk (c2 i))
    (h : ((c2 0).eax = 0 ∧ (c2 0).ebx = 0 ∧ (c2 0).ecx = 0 ∧ (c2 0).edx = 0) ∨ 0xFF ∈ executions c2 0 (rounds c2)) (s : CpuId)
    (hs : ∀ i, (leaf4 (c.cpuid 4 i).eax (c.cpuid 4 i).ebx (c.cpuid 4 i).ecx).size < 2 ^ 31)
    (m : Nat) (hm : ∀ j, j < m → bits (c.cpuid 4 j).eax 0 5 ≠ 0) (h0 : bits (c.cpuid 4 m).eax 0 5 = 0)
    (k : Nat) (hk : k < m)
    (info : CacheInfo) (hi : leaf4 (c.cpuid 4 k).eax (c.cpuid 4 k).ebx (c.cpuid 4 k).ecx = info)
    (hkind : info.kind = 1 ∨ info.kind = 3) (hlevel : info.level = 2)
    (hlast : ∀ j, k < j → j < m → bits (c.cpuid 4 j).eax 5 3 ≠ 2) :
    ∃ t, initIntel c c2 (m + 1) s = some t ∧ t.id.l2Data = info.size ∧ t.id.l2DataLineSize = info.line ∧
      t.id.l2Associativity = info.ways ∧ (t.prefetch = 64 ∨ ∃ n, 0 < n ∧ t.prefetch = 8 * n) := by
  have hl : ∃ u, leaf2Loop c2 256 0 0 { id := s } = some u ∧ u.checkLeaf4 = true := by
    by_cases hz : (c2 0).eax = 0 ∧ (c2 0).ebx = 0 ∧ (c2 0).ecx = 0 ∧ (c2 0).edx = 0
    · refine ⟨{ id := s, checkLeaf4 := true }, ?_, rfl⟩
      rw [leaf2Loop]
      simp only []
      rw [if_pos ⟨trivial, hz⟩]
    · refine ⟨_, leaf2_eq hc _ hz, ?_⟩
      rw [all_check]
      simp [h.resolve_left hz]
  obtain ⟨u, hu, hc4⟩ := hl
  obtain ⟨s', e, r1, r2, r3⟩ := C51_L2 c hs m hm h0 u.id k hk info hi hkind hlevel hlast
  refine ⟨{ u with id := s', prefetch := if CpuId.cacheLineSize u.id = 0 then 64 else CpuId.cacheLineSize u.id }, ?_, r1, r2, r3,
    ?_⟩
  · unfold initIntel
    rw [hu]
    simp [hc4, e]
  · simp only []
    split
    · exact .inl rfl
    · next hne =>
      unfold CpuId.cacheLineSize at hne ⊢
      exact .inr ⟨u.id.cacheLine, by omega, by omega⟩

example : ∃ t, initIntel exCpu4 (fun _ => ⟨0x76036301, 0x00F0B5FF, 0, 0x00C30000⟩) 4 {} = some t ∧ t.id.l2Data = 256 * 1024 := by
  have hs : ∀ i, (leaf4 (exCpu4.cpuid 4 i).eax (exCpu4.cpuid 4 i).ebx (exCpu4.cpuid 4 i).ecx).size
      < 2 ^ 31 := by
    intro i; unfold exCpu4; simp only; split; · decide
    split; · decide
    split <;> decide
  obtain ⟨t, e, h, _⟩ := C97_leaf4 (c := exCpu4) (c2 := fun _ => ⟨0x76036301, 0x00F0B5FF, 0, 0x00C30000⟩)
    (fun _ => by unfold RegsOk; decide) (.inr (by decide)) {} hs 3 (by decide) (by decide) 2 (by decide)
    ⟨3, 2, 64, 8, 256 * 1024⟩ (by decide) (by decide) rfl (fun j h1 h2 => by omega)
  exact ⟨t, e, h⟩

/-- A Pentium M: 02B3B001 000000F0 00000000 2C04307D.  The descriptor 30 is a first-level instruction cache of 32 KBytes,
but the reported size of the instruction cache is zero. -/
theorem C97_instruction_violated :
    let c2 : Nat → Regs := fun _ => ⟨0x02B3B001, 0xF0, 0, 0x2C04307D⟩
    let l := executions c2 0 (rounds c2)
    LastOf false (· = .l1i) l ⟨.l1i, 32768, 8, 64⟩ ∧
      ∃ t, leaf2Loop c2 256 0 0 {} = some t ∧ reported .l1i t.id = (0, 0) := by
  refine ⟨⟨[0xB0, 0xB3, 0x02, 0xF0, 0, 0, 0, 0, 0, 0, 0, 0x7D], 0x30, [0x04, 0x2C], by decide, by decide, rfl, by decide⟩,
    _, rfl, by decide⟩

/-- The second-level caches 1D and 24 are not known. -/
theorem C97_l2_violated :
    ∀ b ∈ [0x1D, 0x24], ∀ s, (∃ d, describes false b = some d ∧ d.kind = .l2 ∧ 0 < d.bytes) ∧ interpret b s = s := by
  intro b hb s
  simp only [List.mem_cons, List.not_mem_nil, or_false] at hb
  rcases hb with rfl | rfl
  · exact ⟨⟨_, rfl, rfl, by decide⟩, rfl⟩
  · exact ⟨⟨_, rfl, rfl, by decide⟩, rfl⟩

/-- A Pentium Pro: 03020101 00000000 00000000 06040A42.  Its first-level data cache has two ways, the instruction cache
four; leaf 4 and the code for AMD report those of the data cache. -/
theorem C97_l1_associativity_violated :
    let c2 : Nat → Regs := fun _ => ⟨0x03020101, 0, 0, 0x06040A42⟩
    let l := executions c2 0 (rounds c2)
    LastOf false (· = .l1d) l ⟨.l1d, 8192, 2, 32⟩ ∧
      ∃ t, leaf2Loop c2 256 0 0 {} = some t ∧ t.id.l1Associativity = 4 := by
  refine ⟨⟨[1, 2, 3, 0, 0, 0, 0, 0, 0, 0, 0, 0x42], 0x0A, [0x04, 0x06], by decide, by decide, rfl, by decide⟩,
    _, rfl, by decide⟩

end Vc.Prop
