/-
C50: the parameter tool makes the keys it was asked for.

status: partial
note: True for transfers: after a successful run the proving key and the verifying key of the requested size load from the default paths (C50_transfer_partial). FALSE for the other two kinds, for every instantiation: asked for `mint` the tool stores freeze keys and asked for `freezing` it stores mint keys, so that on a fresh directory the requested keys cannot be loaded afterwards (C50_mint_false, C50_freezing_false), while those of the other kind can (C50_swapped).
-/
import Verif.Props.C49

namespace Cap

open Spec

variable [E : CapEnv] [S : CapExt] [K : KeyCodec]

theorem genProverSrs_ok {dir : FilePath} {disk disk1 : Disk} {n m : ℕ} {d : Fin 256} {c : Circuit}
    {dest : Option FilePath} (h : genProverSrs dir disk n m d c dest = .ok disk1) :
    (match c with
      | .transfer => storeTransferProvingKey dir disk n m d dest
      | .freezing => storeMintProvingKey dir disk d dest
      | .mint => storeFreezeProvingKey dir disk n d dest) = .ok disk1 := by
  unfold genProverSrs at h
  dsimp only at h
  split at h
  · cases h; assumption
  · cases h

/-- what the other kind's store call does not touch -/
theorem storeMint_spares {dir : FilePath} {disk disk1 : Disk} {d : Fin 256}
    (h : storeMintProvingKey dir disk d none = .ok disk1) {q : FilePath}
    (h1 : q ≠ defaultMintProvingKeyPath dir d) (h2 : q ≠ defaultMintVerifyingKeyPath dir d) :
    disk1.content q = disk.content q := by
  obtain ⟨k, e, h⟩ := bind_ok_iff.1 h
  obtain ⟨disk', w1, w2⟩ := bind_ok_iff.1 h
  rw [(storeBytes_ok w2).2 q h2, (storeBytes_ok w1).2 q h1]

theorem storeFreeze_spares {dir : FilePath} {disk disk1 : Disk} {n : ℕ} {d : Fin 256}
    (h : storeFreezeProvingKey dir disk n d none = .ok disk1) {q : FilePath}
    (h1 : q ≠ defaultFreezeProvingKeyPath dir n d) (h2 : q ≠ defaultFreezeVerifyingKeyPath dir n d) :
    disk1.content q = disk.content q := by
  obtain ⟨k, e, h⟩ := bind_ok_iff.1 h
  obtain ⟨disk', w1, w2⟩ := bind_ok_iff.1 h
  rw [(storeBytes_ok w2).2 q h2, (storeBytes_ok w1).2 q h1]

/-- **Transfer**: after `gen-parameters prover-srs n m d transfer` the keys of this size load. -/
theorem C50_transfer_partial {dir : FilePath} {disk disk1 : Disk} {n m : ℕ} {d : Fin 256} (hn : n < 2 ^ 64)
    (hm : m < 2 ^ 64) (ran : genProverSrs dir disk n m d .transfer none = .ok disk1) :
    ∃ pk vk, transferPreprocess n m d = .ok (pk, vk) ∧ loadTransferProvingKey dir disk1 n m d none = .ok pk ∧
      loadTransferVerifyingKey dir disk1 n m d none = .ok vk :=
  C49_transfer_partial (after := []) hn hm (genProverSrs_ok ran) rfl ⟨nofun, nofun⟩

/-- **Asked for mint keys, the tool makes no mint keys**: on a directory without mint keys of this depth, none can be
loaded after a successful run, whatever the number of inputs and outputs given. -/
theorem C50_mint_false {dir : FilePath} {disk disk1 : Disk} {n m : ℕ} {d : Fin 256}
    (fresh : disk.content (defaultMintProvingKeyPath dir d) = none ∧
      disk.content (defaultMintVerifyingKeyPath dir d) = none)
    (ran : genProverSrs dir disk n m d .mint none = .ok disk1) :
    loadMintProvingKey dir disk1 d none = .error .ioError ∧
    loadMintVerifyingKey dir disk1 d none = .error .ioError := by
  have h := genProverSrs_ok ran
  have paths := fun t ht s hs f hf =>
    (C49_paths (dir := dir) (n := 0) (m := 0) (n' := 0) (m' := 0) (k := n) (k' := n) (d := d) (d' := d)).2.2.2.2.2.2.2.2.2
      t ht s hs f hf
  constructor
  · refine load_missing ?_
    rw [Option.getD_none, storeFreeze_spares h, fresh.1]
    · exact (paths (defaultTransferProvingKeyPath dir 0 0 d) (by simp) _ (by simp) _ (by simp)).2.2
    · exact (paths (defaultTransferProvingKeyPath dir 0 0 d) (by simp) _ (by simp) _ (by simp)).2.2
  · refine load_missing ?_
    rw [Option.getD_none, storeFreeze_spares h, fresh.2]
    · exact (paths (defaultTransferProvingKeyPath dir 0 0 d) (by simp) _ (by simp) _ (by simp)).2.2
    · exact (paths (defaultTransferProvingKeyPath dir 0 0 d) (by simp) _ (by simp) _ (by simp)).2.2

/-- **Asked for freeze keys, the tool makes no freeze keys.** -/
theorem C50_freezing_false {dir : FilePath} {disk disk1 : Disk} {n m : ℕ} {d : Fin 256}
    (fresh : disk.content (defaultFreezeProvingKeyPath dir n d) = none ∧
      disk.content (defaultFreezeVerifyingKeyPath dir n d) = none)
    (ran : genProverSrs dir disk n m d .freezing none = .ok disk1) :
    loadFreezeProvingKey dir disk1 n d none = .error .ioError ∧
    loadFreezeVerifyingKey dir disk1 n d none = .error .ioError := by
  have h := genProverSrs_ok ran
  have paths := fun s hs f hf => Ne.symm
    ((C49_paths (dir := dir) (n := 0) (m := 0) (n' := 0) (m' := 0) (k := n) (k' := n) (d := d) (d' := d)).2.2.2.2.2.2.2.2.2
      (defaultTransferProvingKeyPath dir 0 0 d) (by simp) s hs f hf).2.2
  constructor
  · refine load_missing ?_
    rw [Option.getD_none, storeMint_spares h, fresh.1]
    · exact paths _ (by simp) _ (by simp)
    · exact paths _ (by simp) _ (by simp)
  · refine load_missing ?_
    rw [Option.getD_none, storeMint_spares h, fresh.2]
    · exact paths _ (by simp) _ (by simp)
    · exact paths _ (by simp) _ (by simp)

/-- What it does instead: the keys of the other kind are there. -/
theorem C50_swapped {dir : FilePath} {disk disk1 : Disk} {n m : ℕ} {d : Fin 256} (hn : n < 2 ^ 64) :
    (genProverSrs dir disk n m d .mint none = .ok disk1 →
      ∃ pk vk, freezePreprocess n d = .ok (pk, vk) ∧ loadFreezeProvingKey dir disk1 n d none = .ok pk ∧
        loadFreezeVerifyingKey dir disk1 n d none = .ok vk) ∧
    (genProverSrs dir disk n m d .freezing none = .ok disk1 →
      ∃ pk vk, mintPreprocess d = .ok (pk, vk) ∧ loadMintProvingKey dir disk1 d none = .ok pk ∧
        loadMintVerifyingKey dir disk1 d none = .ok vk) :=
  ⟨fun ran => C49_freeze_partial (after := []) hn (genProverSrs_ok ran) rfl ⟨nofun, nofun⟩,
   fun ran => C49_mint_partial (after := []) (genProverSrs_ok ran) rfl ⟨nofun, nofun⟩⟩

end Cap

namespace Cap.Examples
open Toy Spec

/-- the tool runs on an empty disk for each of the three kinds -/
example : (∃ disk1, genProverSrs ['.'] emptyDisk 3 3 1 .transfer none = .ok disk1) ∧
    (∃ disk1, genProverSrs ['.'] emptyDisk 3 3 1 .mint none = .ok disk1) ∧
    (∃ disk1, genProverSrs ['.'] emptyDisk 3 3 1 .freezing none = .ok disk1) ∧
    emptyDisk.content (defaultMintProvingKeyPath ['.'] 1) = none ∧
    emptyDisk.content (defaultFreezeProvingKeyPath ['.'] 3 1) = none :=
  ⟨⟨_, rfl⟩, ⟨_, rfl⟩, ⟨_, rfl⟩, rfl, rfl⟩

end Cap.Examples
