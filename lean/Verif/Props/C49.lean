/-
C49: stored keys load back.

status: partial
note: For the default paths the claim holds over every history of store calls: once the keys of a circuit have been stored, then after any sequence of further successful store calls, of any kinds and sizes, whose explicit destinations are not these files, loading gives exactly the proving key and the verifying key that preprocess makes (C49_transfer_partial, C49_mint_partial, C49_freeze_partial; C49_paths: no two keys share a default path); a verifying key stored to a path of the caller's choice loads back from it (C49_explicit_verifying_partial). FALSE for proving keys stored to a path of the caller's choice, for every instantiation: the verifying key is written over the proving key in the same file (C49_transfer_explicit_false, C49_mint_explicit_false, C49_freeze_explicit_false). External encodings of jf-plonk keys are a parameter (KeyCodec).
-/
import Verif.Lemmas.Params
import Verif.Model.ToyParams

namespace Cap

open Spec

variable [E : CapEnv] [S : CapExt] [K : KeyCodec]

/-- **Transfer keys at the default paths.**  `store_transfer_proving_key` makes both keys available, and no later store
call (of any key, with any parameters) takes them away. -/
theorem C49_transfer_partial {dir : FilePath} {disk disk1 disk2 : Disk} {n m : ℕ} {d : Fin 256} {after : List StoreCall}
    (hn : n < 2 ^ 64) (hm : m < 2 ^ 64)
    (stored : storeTransferProvingKey dir disk n m d none = .ok disk1)
    (later : runCalls dir disk1 after = .ok disk2)
    (spare : SparesPath after (defaultTransferProvingKeyPath dir n m d) ∧
      SparesPath after (defaultTransferVerifyingKeyPath dir n m d)) :
    ∃ pk vk, transferPreprocess n m d = .ok (pk, vk) ∧
      loadTransferProvingKey dir disk2 n m d none = .ok pk ∧
      loadTransferVerifyingKey dir disk2 n m d none = .ok vk := by
  obtain ⟨⟨pk, vk⟩, e, h⟩ := bind_ok_iff.1 stored
  obtain ⟨disk', h1, h2⟩ := bind_ok_iff.1 h
  have bp : (KeyId.transferPk n m d).Bytes pk.bytes := ⟨_, e, rfl⟩
  have bv : (KeyId.transferVk n m d).Bytes vk.bytes := ⟨_, e, rfl⟩
  have cp := runCalls_keeps bp (storeBytes_keeps (j := .transferVk n m d) (dest := none) bp bv (storeBytes_ok h1).1
    (by simp) h2) spare.1 later
  have cv := runCalls_keeps bv (storeBytes_ok h2).1 spare.2 later
  have sizes : pk.n_inputs = n ∧ pk.n_outputs = m ∧ vk.n_inputs = n ∧ vk.n_outputs = m := by
    unfold transferPreprocess at e
    split at e
    · cases e
    · split at e <;> cases e
      exact ⟨rfl, rfl, rfl, rfl⟩
  refine ⟨pk, vk, e, load_of_content cp (pk.parse_bytes ?_ ?_), load_of_content cv (vk.parse_bytes ?_ ?_)⟩
  · rw [sizes.1]; exact hn
  · rw [sizes.2.1]; exact hm
  · rw [sizes.2.2.1]; exact hn
  · rw [sizes.2.2.2]; exact hm

/-- **Mint keys at the default paths.** -/
theorem C49_mint_partial {dir : FilePath} {disk disk1 disk2 : Disk} {d : Fin 256} {after : List StoreCall}
    (stored : storeMintProvingKey dir disk d none = .ok disk1)
    (later : runCalls dir disk1 after = .ok disk2)
    (spare : SparesPath after (defaultMintProvingKeyPath dir d) ∧
      SparesPath after (defaultMintVerifyingKeyPath dir d)) :
    ∃ pk vk, mintPreprocess d = .ok (pk, vk) ∧
      loadMintProvingKey dir disk2 d none = .ok pk ∧
      loadMintVerifyingKey dir disk2 d none = .ok vk := by
  obtain ⟨⟨pk, vk⟩, e, h⟩ := bind_ok_iff.1 stored
  obtain ⟨disk', h1, h2⟩ := bind_ok_iff.1 h
  have bp : (KeyId.mintPk d).Bytes pk.bytes := ⟨_, e, rfl⟩
  have bv : (KeyId.mintVk d).Bytes vk.bytes := ⟨_, e, rfl⟩
  have cp := runCalls_keeps bp (storeBytes_keeps (j := .mintVk d) (dest := none) bp bv (storeBytes_ok h1).1
    (by simp) h2) spare.1 later
  have cv := runCalls_keeps bv (storeBytes_ok h2).1 spare.2 later
  exact ⟨pk, vk, e, load_of_content cp pk.parse_bytes, load_of_content cv vk.parse_bytes⟩

/-- **Freeze keys at the default paths.** -/
theorem C49_freeze_partial {dir : FilePath} {disk disk1 disk2 : Disk} {n : ℕ} {d : Fin 256} {after : List StoreCall}
    (hn : n < 2 ^ 64)
    (stored : storeFreezeProvingKey dir disk n d none = .ok disk1)
    (later : runCalls dir disk1 after = .ok disk2)
    (spare : SparesPath after (defaultFreezeProvingKeyPath dir n d) ∧
      SparesPath after (defaultFreezeVerifyingKeyPath dir n d)) :
    ∃ pk vk, freezePreprocess n d = .ok (pk, vk) ∧
      loadFreezeProvingKey dir disk2 n d none = .ok pk ∧
      loadFreezeVerifyingKey dir disk2 n d none = .ok vk := by
  obtain ⟨⟨pk, vk⟩, e, h⟩ := bind_ok_iff.1 stored
  obtain ⟨disk', h1, h2⟩ := bind_ok_iff.1 h
  have bp : (KeyId.freezePk n d).Bytes pk.bytes := ⟨_, e, rfl⟩
  have bv : (KeyId.freezeVk n d).Bytes vk.bytes := ⟨_, e, rfl⟩
  have cp := runCalls_keeps bp (storeBytes_keeps (j := .freezeVk n d) (dest := none) bp bv (storeBytes_ok h1).1
    (by simp) h2) spare.1 later
  have cv := runCalls_keeps bv (storeBytes_ok h2).1 spare.2 later
  have sizes : pk.num_input = n ∧ vk.num_input = n := by
    unfold freezePreprocess at e
    split at e
    · cases e
    · split at e
      · cases e
      · split at e <;> cases e
        exact ⟨rfl, rfl⟩
  refine ⟨pk, vk, e, load_of_content cp (pk.parse_bytes ?_), load_of_content cv (vk.parse_bytes ?_)⟩
  · rw [sizes.1]; exact hn
  · rw [sizes.2]; exact hn

omit E S K in
/-- **No two keys share a default path**: for different kinds, roles, numbers of inputs and outputs or depths the paths
differ. -/
theorem C49_paths {dir : FilePath} {n m n' m' k k' : ℕ} {d d' : Fin 256} :
    (defaultTransferProvingKeyPath dir n m d = defaultTransferProvingKeyPath dir n' m' d' → n = n' ∧ m = m' ∧ d = d') ∧
    (defaultTransferVerifyingKeyPath dir n m d = defaultTransferVerifyingKeyPath dir n' m' d' →
      n = n' ∧ m = m' ∧ d = d') ∧
    (defaultMintProvingKeyPath dir d = defaultMintProvingKeyPath dir d' → d = d') ∧
    (defaultMintVerifyingKeyPath dir d = defaultMintVerifyingKeyPath dir d' → d = d') ∧
    (defaultFreezeProvingKeyPath dir k d = defaultFreezeProvingKeyPath dir k' d' → k = k' ∧ d = d') ∧
    (defaultFreezeVerifyingKeyPath dir k d = defaultFreezeVerifyingKeyPath dir k' d' → k = k' ∧ d = d') ∧
    defaultTransferProvingKeyPath dir n m d ≠ defaultTransferVerifyingKeyPath dir n' m' d' ∧
    defaultMintProvingKeyPath dir d ≠ defaultMintVerifyingKeyPath dir d' ∧
    defaultFreezeProvingKeyPath dir k d ≠ defaultFreezeVerifyingKeyPath dir k' d' ∧
    (∀ t ∈ [defaultTransferProvingKeyPath dir n m d, defaultTransferVerifyingKeyPath dir n m d],
      ∀ s ∈ [defaultMintProvingKeyPath dir d', defaultMintVerifyingKeyPath dir d'],
      ∀ f ∈ [defaultFreezeProvingKeyPath dir k d, defaultFreezeVerifyingKeyPath dir k d], t ≠ s ∧ t ≠ f ∧ s ≠ f) := by
  refine ⟨?_, ?_, ?_, ?_, ?_, ?_, ?_, ?_, ?_, ?_⟩
  · intro h; cases KeyId.path_inj (a := .transferPk n m d) (b := .transferPk n' m' d') h; exact ⟨rfl, rfl, rfl⟩
  · intro h; cases KeyId.path_inj (a := .transferVk n m d) (b := .transferVk n' m' d') h; exact ⟨rfl, rfl, rfl⟩
  · intro h; cases KeyId.path_inj (a := .mintPk d) (b := .mintPk d') h; rfl
  · intro h; cases KeyId.path_inj (a := .mintVk d) (b := .mintVk d') h; rfl
  · intro h; cases KeyId.path_inj (a := .freezePk k d) (b := .freezePk k' d') h; exact ⟨rfl, rfl⟩
  · intro h; cases KeyId.path_inj (a := .freezeVk k d) (b := .freezeVk k' d') h; exact ⟨rfl, rfl⟩
  · intro h; cases KeyId.path_inj (a := .transferPk n m d) (b := .transferVk n' m' d') h
  · intro h; cases KeyId.path_inj (a := .mintPk d) (b := .mintVk d') h
  · intro h; cases KeyId.path_inj (a := .freezePk k d) (b := .freezeVk k' d') h
  · have far : ∀ (i j : KeyId), i ≠ j → i.path dir ≠ j.path dir := fun i j ne h => ne (KeyId.path_inj h)
    intro t ht s hs f hf
    simp only [List.mem_cons, List.not_mem_nil, or_false] at ht hs hf
    rcases ht with rfl | rfl <;> rcases hs with rfl | rfl <;> rcases hf with rfl | rfl
    · exact ⟨far (.transferPk _ _ _) (.mintPk _) nofun, far (.transferPk _ _ _) (.freezePk _ _) nofun,
        far (.mintPk _) (.freezePk _ _) nofun⟩
    · exact ⟨far (.transferPk _ _ _) (.mintPk _) nofun, far (.transferPk _ _ _) (.freezeVk _ _) nofun,
        far (.mintPk _) (.freezeVk _ _) nofun⟩
    · exact ⟨far (.transferPk _ _ _) (.mintVk _) nofun, far (.transferPk _ _ _) (.freezePk _ _) nofun,
        far (.mintVk _) (.freezePk _ _) nofun⟩
    · exact ⟨far (.transferPk _ _ _) (.mintVk _) nofun, far (.transferPk _ _ _) (.freezeVk _ _) nofun,
        far (.mintVk _) (.freezeVk _ _) nofun⟩
    · exact ⟨far (.transferVk _ _ _) (.mintPk _) nofun, far (.transferVk _ _ _) (.freezePk _ _) nofun,
        far (.mintPk _) (.freezePk _ _) nofun⟩
    · exact ⟨far (.transferVk _ _ _) (.mintPk _) nofun, far (.transferVk _ _ _) (.freezeVk _ _) nofun,
        far (.mintPk _) (.freezeVk _ _) nofun⟩
    · exact ⟨far (.transferVk _ _ _) (.mintVk _) nofun, far (.transferVk _ _ _) (.freezePk _ _) nofun,
        far (.mintVk _) (.freezePk _ _) nofun⟩
    · exact ⟨far (.transferVk _ _ _) (.mintVk _) nofun, far (.transferVk _ _ _) (.freezeVk _ _) nofun,
        far (.mintVk _) (.freezeVk _ _) nofun⟩

/-- **Verifying keys stored to a path of the caller's choice** load back from it, whichever of the two store functions
wrote them. -/
theorem C49_explicit_verifying_partial {dir : FilePath} {disk disk1 : Disk} {n m : ℕ} {d : Fin 256} {p : FilePath}
    (hn : n < 2 ^ 64) (hm : m < 2 ^ 64) :
    ((storeTransferVerifyingKey dir disk n m d (some p) = .ok disk1 ∨
      storeTransferProvingKey dir disk n m d (some p) = .ok disk1) →
      ∃ pk vk, transferPreprocess n m d = .ok (pk, vk) ∧ loadTransferVerifyingKey dir disk1 n m d (some p) = .ok vk) ∧
    ((storeMintVerifyingKey dir disk d (some p) = .ok disk1 ∨ storeMintProvingKey dir disk d (some p) = .ok disk1) →
      ∃ pk vk, mintPreprocess d = .ok (pk, vk) ∧ loadMintVerifyingKey dir disk1 d (some p) = .ok vk) ∧
    ((storeFreezeVerifyingKey dir disk n d (some p) = .ok disk1 ∨
      storeFreezeProvingKey dir disk n d (some p) = .ok disk1) →
      ∃ pk vk, freezePreprocess n d = .ok (pk, vk) ∧ loadFreezeVerifyingKey dir disk1 n d (some p) = .ok vk) := by
  refine ⟨?_, ?_, ?_⟩
  · intro h
    have key : ∃ pk vk, transferPreprocess n m d = .ok (pk, vk) ∧ disk1.content p = some vk.bytes := by
      rcases h with h | h
      · obtain ⟨⟨pk, vk⟩, e, h⟩ := bind_ok_iff.1 h
        exact ⟨pk, vk, e, (storeBytes_ok h).1⟩
      · obtain ⟨⟨pk, vk⟩, e, h⟩ := bind_ok_iff.1 h
        obtain ⟨disk', -, h2⟩ := bind_ok_iff.1 h
        exact ⟨pk, vk, e, (storeBytes_ok h2).1⟩
    obtain ⟨pk, vk, e, c⟩ := key
    have sizes : vk.n_inputs = n ∧ vk.n_outputs = m := by
      unfold transferPreprocess at e
      split at e
      · cases e
      · split at e <;> cases e
        exact ⟨rfl, rfl⟩
    exact ⟨pk, vk, e, load_of_content c (vk.parse_bytes (by rw [sizes.1]; exact hn) (by rw [sizes.2]; exact hm))⟩
  · intro h
    rcases h with h | h
    · obtain ⟨⟨pk, vk⟩, e, h⟩ := bind_ok_iff.1 h
      exact ⟨pk, vk, e, load_of_content (storeBytes_ok h).1 vk.parse_bytes⟩
    · obtain ⟨⟨pk, vk⟩, e, h⟩ := bind_ok_iff.1 h
      obtain ⟨disk', -, h2⟩ := bind_ok_iff.1 h
      exact ⟨pk, vk, e, load_of_content (storeBytes_ok h2).1 vk.parse_bytes⟩
  · intro h
    have key : ∃ pk vk, freezePreprocess n d = .ok (pk, vk) ∧ disk1.content p = some vk.bytes := by
      rcases h with h | h
      · obtain ⟨⟨pk, vk⟩, e, h⟩ := bind_ok_iff.1 h
        exact ⟨pk, vk, e, (storeBytes_ok h).1⟩
      · obtain ⟨⟨pk, vk⟩, e, h⟩ := bind_ok_iff.1 h
        obtain ⟨disk', -, h2⟩ := bind_ok_iff.1 h
        exact ⟨pk, vk, e, (storeBytes_ok h2).1⟩
    obtain ⟨pk, vk, e, c⟩ := key
    have size : vk.num_input = n := by
      unfold freezePreprocess at e
      split at e
      · cases e
      · split at e
        · cases e
        · split at e <;> cases e
          rfl
    exact ⟨pk, vk, e, load_of_content c (vk.parse_bytes (by rw [size]; exact hn))⟩

/-- **The claim fails for a proving key stored to a path of the caller's choice**: whenever the store call succeeds, the
key cannot be loaded from there, since the verifying key has been written over it. -/
theorem C49_transfer_explicit_false {dir : FilePath} {disk disk1 : Disk} {n m : ℕ} {d : Fin 256} {p : FilePath}
    {pk : TransferProvingKey} {vk : TransferVerifyingKey} (keys : transferPreprocess n m d = .ok (pk, vk))
    (stored : storeTransferProvingKey dir disk n m d (some p) = .ok disk1) :
    loadTransferProvingKey dir disk1 n m d (some p) ≠ .ok pk := by
  intro load
  obtain ⟨k, e, h⟩ := bind_ok_iff.1 stored
  obtain ⟨disk', -, h2⟩ := bind_ok_iff.1 h
  cases ok_unique keys e
  have l := TransferProvingKey.parse_length (load_ok (storeBytes_ok h2).1 load)
  unfold transferPreprocess at keys
  split at keys
  · cases keys
  · split at keys <;> cases keys
    rename_i pre
    have := K.vk_lt_pk _ _ _ pre
    simp only [TransferVerifyingKey.bytes, List.length_append, usizeBytes_length, u8Bytes, List.length_cons,
      List.length_nil] at l
    omega

/-- The same for mint keys. -/
theorem C49_mint_explicit_false {dir : FilePath} {disk disk1 : Disk} {d : Fin 256} {p : FilePath}
    {pk : MintProvingKey} {vk : MintVerifyingKey} (keys : mintPreprocess d = .ok (pk, vk))
    (stored : storeMintProvingKey dir disk d (some p) = .ok disk1) :
    loadMintProvingKey dir disk1 d (some p) ≠ .ok pk := by
  intro load
  obtain ⟨k, e, h⟩ := bind_ok_iff.1 stored
  obtain ⟨disk', -, h2⟩ := bind_ok_iff.1 h
  cases ok_unique keys e
  have l := MintProvingKey.parse_length (load_ok (storeBytes_ok h2).1 load)
  unfold mintPreprocess at keys
  split at keys <;> cases keys
  rename_i pre
  have := K.vk_lt_pk _ _ _ pre
  simp only [MintVerifyingKey.bytes, List.length_append, u8Bytes, List.length_cons, List.length_nil] at l
  omega

/-- The same for freeze keys. -/
theorem C49_freeze_explicit_false {dir : FilePath} {disk disk1 : Disk} {n : ℕ} {d : Fin 256} {p : FilePath}
    {pk : FreezeProvingKey} {vk : FreezeVerifyingKey} (keys : freezePreprocess n d = .ok (pk, vk))
    (stored : storeFreezeProvingKey dir disk n d (some p) = .ok disk1) :
    loadFreezeProvingKey dir disk1 n d (some p) ≠ .ok pk := by
  intro load
  obtain ⟨k, e, h⟩ := bind_ok_iff.1 stored
  obtain ⟨disk', -, h2⟩ := bind_ok_iff.1 h
  cases ok_unique keys e
  have l := FreezeProvingKey.parse_length (load_ok (storeBytes_ok h2).1 load)
  unfold freezePreprocess at keys
  split at keys
  · cases keys
  · split at keys
    · cases keys
    · split at keys <;> cases keys
      rename_i pre
      have := K.vk_lt_pk _ _ _ pre
      simp only [FreezeVerifyingKey.bytes, List.length_append, usizeBytes_length, u8Bytes, List.length_cons,
        List.length_nil] at l
      omega

end Cap

namespace Cap.Examples
open Toy Spec

/-- storing transfer keys, then mint and freeze keys and transfer keys of another size: everything succeeds -/
example : ∃ disk1 disk2, storeTransferProvingKey ['.'] emptyDisk 3 3 1 none = .ok disk1 ∧
    runCalls ['.'] disk1 [.mintProvingKey 1 none, .freezeVerifyingKey 4 1 none, .transferProvingKey 13 3 1 none,
      .mintVerifyingKey 1 (some ['x'])] = .ok disk2 ∧
    SparesPath [.mintProvingKey 1 none, .freezeVerifyingKey 4 1 none, .transferProvingKey 13 3 1 none,
      .mintVerifyingKey 1 (some ['x'])] (defaultTransferProvingKeyPath ['.'] 3 3 1) := by
  refine ⟨_, _, rfl, rfl, ?_⟩
  intro c hc
  simp only [List.mem_cons, List.not_mem_nil, or_false] at hc
  rcases hc with rfl | rfl | rfl | rfl <;> simp [StoreCall.dest, defaultTransferProvingKeyPath, defaultPath]

example : ∃ disk1, storeMintProvingKey ['.'] emptyDisk 1 none = .ok disk1 ∧
    ∃ disk2, storeFreezeProvingKey ['.'] disk1 4 1 none = .ok disk2 := ⟨_, rfl, _, rfl⟩

/-- the explicit store calls succeed -/
example : (∃ disk1, storeTransferProvingKey ['.'] emptyDisk 3 3 1 (some ['x']) = .ok disk1) ∧
    (∃ disk1, storeMintProvingKey ['.'] emptyDisk 1 (some ['x']) = .ok disk1) ∧
    (∃ disk1, storeFreezeProvingKey ['.'] emptyDisk 4 1 (some ['x']) = .ok disk1) ∧
    transferPreprocess 3 3 1 = .ok (xfrPk, xfrVk) ∧ mintPreprocess 1 = .ok (mintPk, mintVk) ∧
    freezePreprocess 4 1 = .ok (frzPk, frzVk) :=
  ⟨⟨_, rfl⟩, ⟨_, rfl⟩, ⟨_, rfl⟩, xfrKeys_eq, mintKeys_eq, frzKeys_eq⟩

end Cap.Examples
