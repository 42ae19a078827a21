import Verif.Model.Version

/-!
# C93: version numbers and the check at program start
-/

namespace Vc.Prop
open Vc.Model

private theorem versionCheck_eq {a b c : Nat} (hb : b < 256) (hc : c < 128) :
    versionCheck a b c = a * 65536 + b * 256 + c * 2 := by
  unfold versionCheck
  have h1 : b <<< 8 < 2 ^ 16 := by rw [Nat.shiftLeft_eq]; omega
  have h2 : c <<< 1 < 2 ^ 8 := by rw [Nat.shiftLeft_eq]; omega
  have e1 : a <<< 16 ||| b <<< 8 = a <<< 16 + b <<< 8 := (Nat.shiftLeft_add_eq_or_of_lt h1 a).symm
  have e2 : a <<< 16 + b <<< 8 = (a * 256 + b) <<< 8 := by simp only [Nat.shiftLeft_eq]; omega
  rw [e1, e2, ← Nat.shiftLeft_add_eq_or_of_lt h2]
  simp only [Nat.shiftLeft_eq]
  omega

/-- Version `a.b.c` comes before `x.y.z`. -/
def VersionLt (a b c x y z : Nat) : Prop := a < x ∨ a = x ∧ (b < y ∨ b = y ∧ c < z)

/-- Encoded version numbers are ordered like the versions; a development version comes after the release it is
named after and before all later releases. -/
theorem C93_order {a b c x y z : Nat} (hb : b < 256) (hc : c < 128) (hy : y < 256) (hz : z < 128) :
    (versionCheck a b c < versionCheck x y z ↔ VersionLt a b c x y z) ∧
    (versionCheck a b c = versionCheck x y z ↔ a = x ∧ b = y ∧ c = z) ∧
    (devNumber a b c < versionCheck x y z ↔ VersionLt a b c x y z) ∧
    (devNumber a b c < devNumber x y z ↔ VersionLt a b c x y z) := by
  unfold devNumber VersionLt
  rw [versionCheck_eq hb hc, versionCheck_eq hy hz]
  refine ⟨?_, ?_, ?_, ?_⟩ <;> omega

/-- The number of this version, 1.4.4-dev. -/
theorem C93_number : versionNumber = devNumber 1 4 4 ∧
    ∀ a b c, b < 256 → c < 128 → (versionCheck a b c ≤ versionNumber ↔ ¬ VersionLt 1 4 4 a b c) := by
  have e : versionNumber = devNumber 1 4 4 := by decide
  refine ⟨e, fun a b c hb hc => ?_⟩
  have h := (C93_order (a := 1) (b := 4) (c := 4) (x := a) (y := b) (z := c) (by decide) (by decide) hb hc).2.2.1
  rw [e, ← h]; omega

/-- Outside of these ranges versions can have the same number: 1.256.0 and 1.0.0. -/
theorem C93_range_violated : versionCheck 1 256 0 = versionCheck 1 0 0 ∧ VersionLt 1 0 0 1 256 0 := by
  refine ⟨by decide, ?_⟩
  unfold VersionLt; omega

example : (4 < 256 ∧ 4 < 128) ∧ VersionLt 1 4 4 1 4 5 ∧ ¬ VersionLt 1 4 4 1 3 9 := by
  unfold VersionLt; omega

/-- The program starts if and only if the library has the ABI of all the headers and is not older than any of them. -/
theorem C93_start_partial (lib : VersionInfo) (tus : List TransUnit) :
    (programStarts lib tus = true ↔
      ∀ t ∈ tus, t.noCheck = false → t.info.abi = lib.abi ∧ t.info.number ≤ lib.number) ∧
    ((∀ t ∈ tus, t.info = lib) → programStarts lib tus = true) := by
  have key : programStarts lib tus = true ↔
      ∀ t ∈ tus, t.noCheck = false → t.info.abi = lib.abi ∧ t.info.number ≤ lib.number := by
    induction tus with
    | nil => simp [programStarts]
    | cons t ts ih =>
      have hc : checkLibraryAbi lib t.info = true ↔ t.info.abi = lib.abi ∧ t.info.number ≤ lib.number := by
        unfold checkLibraryAbi
        simp only [Bool.not_eq_true', Bool.or_eq_false_iff, bne_eq_false_iff_eq, decide_eq_false_iff_not, Nat.not_lt]
        constructor <;> rintro ⟨h1, h2⟩ <;> exact ⟨h1.symm, h2⟩
      unfold programStarts
      rw [List.forall_mem_cons]
      cases hn : t.noCheck
      · rw [if_neg (by simp), Bool.and_eq_true, hc, ih]
        simp
      · rw [if_pos rfl, ih]; simp
  refine ⟨key, fun h => key.mpr fun t ht _ => ?_⟩
  rw [h t ht]
  exact ⟨rfl, Nat.le_refl _⟩

/-- Contrary to the documentation the versions need not be equal: a program compiled with headers of version 1.3.0
(of the same ABI) runs with the library of version 1.4.4-dev, even together with a translation unit compiled with
1.4.4. -/
theorem C93_start_violated :
    programStarts ⟨5, versionNumber⟩ [⟨⟨5, versionCheck 1 3 0⟩, false⟩, ⟨⟨5, versionCheck 1 4 4⟩, false⟩] = true ∧
      versionCheck 1 3 0 ≠ versionNumber := by decide

/-- A newer header, or another ABI, is rejected. -/
example : programStarts ⟨5, versionNumber⟩ [⟨⟨5, versionCheck 1 4 5⟩, false⟩] = false ∧
    programStarts ⟨5, versionNumber⟩ [⟨⟨4, versionNumber⟩, false⟩] = false := by decide

end Vc.Prop
