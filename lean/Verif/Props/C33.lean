/-
C33: user-defined assets never collide with the native or dummy asset.

status: proved
note: All codes and policies.
-/
import Verif.Lemmas.Basic
import Verif.Model.Toy

namespace Cap

variable [E : CapEnv]

/-- `AssetDefinition::new` rejects the native and dummy codes for every policy and accepts every other
code unchanged. -/
theorem C33_new (code : AssetCode) (policy : AssetPolicy) (d : AssetDefinition) :
    (AssetDefinition.new code policy = .ok d ↔
      (code ≠ nativeCode ∧ code ≠ dummyCode) ∧ d.code = code ∧ d.policy = policy) ∧
    (AssetDefinition.new code policy = .error .invalidParameter ↔ code = nativeCode ∨ code = dummyCode) := by
  unfold AssetDefinition.new
  obtain ⟨c, q⟩ := d
  split
  · rename_i h
    simp only [reduceCtorEq, true_iff, false_iff]
    exact ⟨fun h' => h.elim h'.1.1 h'.1.2, h⟩
  · rename_i h
    simp only [Except.ok.injEq, AssetDefinition.mk.injEq, reduceCtorEq, false_iff]
    refine ⟨?_, h⟩
    rw [not_or] at h
    exact ⟨fun ⟨h1, h2⟩ => ⟨h, h1.symm, h2.symm⟩, fun ⟨_, h1, h2⟩ => ⟨h1.symm, h2.symm⟩⟩

/-- `is_native` and `is_dummy` hold of exactly the native and the dummy definition, which have the default
policy. -/
theorem C33_is_native_dummy (d : AssetDefinition) :
    (d.isNative = true ↔ d.code = nativeCode ∧ d.policy = AssetPolicy.default) ∧
    (d.isDummy = true ↔ d.code = dummyCode ∧ d.policy = AssetPolicy.default) := by
  obtain ⟨c, q⟩ := d
  simp [AssetDefinition.isNative, AssetDefinition.isDummy, AssetDefinition.native, AssetDefinition.dummy]

/-- The native, dummy and default (zero) codes are pairwise distinct. -/
theorem C33_codes_distinct :
    nativeCode ≠ dummyCode ∧ nativeCode ≠ (0 : AssetCode) ∧ dummyCode ≠ (0 : AssetCode) := by
  refine ⟨fun h => ?_, fun h => ?_, fun h => ?_⟩
  · have := natF_inj (a := 1) (b := 2) (by norm_num) (by norm_num) (by simpa [nativeCode, dummyCode] using h)
    omega
  · have := natF_inj (a := 1) (b := 0) (by norm_num) (by norm_num) (by simp [nativeCode] at h)
    omega
  · have := natF_inj (a := 2) (b := 0) (by norm_num) (by norm_num) (by simpa [dummyCode] using h)
    omega

/-- So a definition made by `new` is neither native nor dummy. -/
theorem C33_new_not_special (code : AssetCode) (policy : AssetPolicy) (d : AssetDefinition)
    (h : AssetDefinition.new code policy = .ok d) : d.isNative = false ∧ d.isDummy = false := by
  obtain ⟨⟨h1, h2⟩, h3, -⟩ := (C33_new code policy d).1.1 h
  rw [← Bool.not_eq_true, ← Bool.not_eq_true, (C33_is_native_dummy d).1, (C33_is_native_dummy d).2, h3]
  exact ⟨fun h => h1 h.1, fun h => h2 h.1⟩

end Cap

/-! Non-vacuity -/

namespace Cap.Examples
open Toy

example : AssetDefinition.new (5 : F) AssetPolicy.default = .ok ⟨5, AssetPolicy.default⟩ := by decide +kernel
example : AssetDefinition.new (2 : F) AssetPolicy.default = .error .invalidParameter := by decide +kernel
example : (⟨1, { AssetPolicy.default with reveal_threshold := 3 }⟩ : AssetDefinition).isNative = false := by
  decide +kernel

end Cap.Examples
