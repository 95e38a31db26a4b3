/-
Model of the choice of a tree depth by the builder of transfers, when the caller gives none.
-/
import Verif.Model.Builders

namespace Cap

/-- the loop of `utils/mod.rs:62-69`, from `3usize.pow(exp)` on.  `3usize.pow` panics from 3^41 on in a debug build; here
always. -/
def powerLoop (current exp : ℕ) : Res ℕ :=
  if 3 ^ exp < 2 ^ 64 then
    if 3 ^ exp < current then powerLoop current (exp + 1) else .ok (3 ^ exp)
  else .error .panic
termination_by 64 - exp
decreasing_by
  have h : exp < 64 := by
    by_contra hc
    have h1 : 2 ^ 64 ≤ 3 ^ exp :=
      le_trans (Nat.pow_le_pow_left (by omega) 64) (Nat.pow_le_pow_right (by omega) (not_lt.1 hc))
    omega
  omega

/-- `utils/mod.rs:61-70` `next_power_of_three`; `lg` stands for
`((current as f64).log10() / 3f64.log10()).floor() as u32`, which is computed with floating point numbers. -/
def nextPowerOfThree (lg : ℕ → ℕ) (current : ℕ) : Res ℕ := powerLoop current (lg current)

variable [E : CapEnv]

namespace TransferBuilder

/-- `params_builder.rs:883-896` `calculate_tree_depth`; `as u8` keeps the last eight bits.  The sum of the two numbers, which
count the elements of vectors, does not overflow. -/
def chooseTreeDepth (lg : ℕ → ℕ) (num_input num_output : ℕ) : Option (Fin 256) → Res (Fin 256)
  | some depth => calculateTreeDepth num_input num_output depth
  | none => do
    ensure (decide (num_input ≠ 0)) .panic
    ensure (decide (num_output ≠ 0)) .panic
    let power ← nextPowerOfThree lg (num_input + num_output)
    .ok (Fin.ofNat 256 power)

/-- `params_builder.rs:310-332` `new_native` (no asset), `339-364` `new_non_native`, with or without a depth -/
def newWith (lg : ℕ → ℕ) (num_input num_output : ℕ) (depth : Option (Fin 256)) (user_keypairs : List UserKeyPair)
    (asset : Option NonNativeAsset) : Res TransferBuilder := do
  ensure (decide (user_keypairs.length = num_input)) .panic
  let tree_depth ← chooseTreeDepth lg num_input num_output depth
  .ok ⟨num_input, num_output, tree_depth, asset, [], [], defaultRecord, user_keypairs, List.replicate num_input none,
    List.replicate num_input ⟨[], 0, 0⟩, 0⟩

end TransferBuilder

end Cap
