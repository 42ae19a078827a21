import Verif.Spec.ImplSelect

namespace Vc.Lemma

open Vc.Model Vc.Spec

theorem perm_sum {l l' : List Nat} (h : l.Perm l') : l.sum = l'.sum := by
  induction h with
  | nil => rfl
  | cons x _ ih => simp [ih]
  | swap x y l => simp; omega
  | trans _ _ h1 h2 => exact h1.trans h2

theorem implValue_perm {l l' : List ImplTok} (h : l.Perm l') : implValue l = implValue l' :=
  perm_sum (h.map _)

/-- The extra instructions as one number. -/
def extSum (a b c d e f g : Nat) : Nat :=
  a * 0x1 + b * 0x2 + c * 0x4 + d * 0x8 + e * 0x10 + f * 0x20 + g * 0x40

theorem sum_exts (l : List ImplExt) : implValue (l.map .ext) =
    extSum (l.count .xop) (l.count .fma4) (l.count .f16c) (l.count .popcnt) (l.count .sse4a) (l.count .fma)
      (l.count .bmi2) := by
  induction l with
  | nil => rfl
  | cons e l ih =>
    have h : implValue ((e :: l).map .ext) = e.code + implValue (l.map .ext) := rfl
    rw [h, ih]
    cases e <;> simp [extSum, ImplExt.code] <;> omega

def bit (b : Bool) : Nat := if b then 1 else 0

theorem count_bit {l : List ImplExt} (h : l.Nodup) (e : ImplExt) : l.count e = bit (decide (e ∈ l)) := by
  by_cases he : e ∈ l
  · simp [bit, he, h.count]
  · simp [bit, he, List.count_eq_zero_of_not_mem he]

theorem codes (base : ImplBase) : ∀ a b c d e f g : Bool,
    let v := base.code + extSum (bit a) (bit b) (bit c) (bit d) (bit e) (bit f) (bit g)
    implMasked v = base.code ∧ implHas v .xop = a ∧ implHas v .fma4 = b ∧ implHas v .f16c = c ∧
    implHas v .popcnt = d ∧ implHas v .sse4a = e ∧ implHas v .fma = f ∧ implHas v .bmi2 = g := by
  cases base <;> decide +kernel

theorem codes0 : ∀ a b c d e f g : Bool,
    let v := extSum (bit a) (bit b) (bit c) (bit d) (bit e) (bit f) (bit g)
    implMasked v = 0 ∧ implHas v .sse4a = e := by
  decide +kernel

/-- The value of a well-formed request. -/
theorem value_wf {l : List ImplTok} {b : ImplBase} {exts : List ImplExt} (h : WellFormed l b exts) :
    implMasked (implValue l) = b.code ∧ ∀ e, implHas (implValue l) e = decide (e ∈ exts) := by
  have hv : implValue l = b.code + implValue (exts.map .ext) := by rw [implValue_perm h.1]; rfl
  rw [sum_exts] at hv
  simp only [count_bit h.2] at hv
  rw [hv]
  obtain ⟨h0, h1, h2, h3, h4, h5, h6, h7⟩ := codes b (decide (.xop ∈ exts)) (decide (.fma4 ∈ exts))
    (decide (.f16c ∈ exts)) (decide (.popcnt ∈ exts)) (decide (.sse4a ∈ exts)) (decide (.fma ∈ exts))
    (decide (.bmi2 ∈ exts))
  refine ⟨h0, fun e => ?_⟩
  cases e <;> assumption

/-- The shape of the macros before `selFinish`. -/
def Shape (s : Sel) : Prop := (s.scalar = true → s.sse = false ∧ s.avx = false ∧ s.avx2 = false) ∧
  (s.avx2 = true → s.avx = true)

theorem shape_default (c : Cc) : Shape (selDefault c) := by
  unfold selDefault
  simp only
  by_cases h2 : c.avx2 = true
  · simp [Shape, h2]
  · by_cases h1 : c.avx = true
    · simp [Shape, h1, h2]
    · simp only [if_neg h1, if_neg h2]
      cases hs : (c.sse42 || c.sse41 || c.sse3 || c.ssse3 || c.sse2) <;> simp [Shape]

theorem shape_impl (c : Cc) (v : Nat) : Shape (selImpl c v) := by
  unfold selImpl Shape
  simp only
  repeat' split
  all_goals simp

theorem shape_finish {c : Cc} {s t : Sel} (h : Shape s) (ht : selFinish c s = some t) :
    (t.scalar = true → t.sse = false ∧ t.avx = false ∧ t.avx2 = false) ∧ (t.avx2 = true → t.avx = true) ∧
    (t.scalar = true ∨ (t.sse = true ∧ t.sse2 = true)) := by
  obtain ⟨h1, h2⟩ := h
  obtain ⟨scalar, sse, sse2, sse3, ssse3, sse41, sse42, avx, avx2, xop, fma4, f16c, popcnt, sse4a, fma, bmi2, vex⟩ := s
  obtain ⟨cavx2, cavx, csse42, csse41, cssse3, csse3, csse2, cfma4, cxop, cf16c, cpopcnt, csse4a, cfma, cbmi2,
    clang36, icc⟩ := c
  simp only at h1 h2
  unfold selFinish at ht
  cases scalar <;> cases sse <;> cases sse2 <;> cases avx <;> cases avx2 <;> cases clang36 <;>
    simp at h1 h2 ht <;> subst ht <;> simp

theorem shape_select {c : Cc} {r : Option (List ImplTok)} {t : Sel} (ht : select c r = some t) :
    (t.scalar = true → t.sse = false ∧ t.avx = false ∧ t.avx2 = false) ∧ (t.avx2 = true → t.avx = true) ∧
    (t.scalar = true ∨ (t.sse = true ∧ t.sse2 = true)) := by
  cases r with
  | none => exact shape_finish (shape_default c) ht
  | some l => exact shape_finish (shape_impl c _) ht

end Vc.Lemma
