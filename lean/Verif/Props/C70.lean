/-
C70: the universal parameter that was stored is the one that is loaded.

status: partial
note: With an explicit file, and at the default place in builds for other curves than bn254, the claim holds over every history of further store calls: loading gives the parameter that was stored (C70_explicit_partial, C70_default_partial), and storing a parameter at its default place spoils no key file (C70_keys). FALSE at the default place in builds with the default feature bn254, for every instantiation: what is stored there is never read, loading (and the key tool) takes the parameter compiled into the library whatever is on the disk (C70_default_false, C70_tool_false, C70_disk_ignored). C70_size: load_srs does not use its size below the limit of 2^17. jf-plonk's parameters, their encoding and SHA-256 are a parameter (SrsEnv).
-/
import Verif.Lemmas.Params
import Verif.Model.ToyParams
import Verif.Model.Srs

namespace Cap

open Spec

variable [E : CapEnv] [S : CapExt] [K : KeyCodec] [R : SrsEnv]

/-- the files a store call writes -/
def Spec.StoreCall.files (dir : FilePath) : StoreCall → List FilePath
  | .transferProvingKey n m d dest =>
    [dest.getD (defaultTransferProvingKeyPath dir n m d), dest.getD (defaultTransferVerifyingKeyPath dir n m d)]
  | .transferVerifyingKey n m d dest => [dest.getD (defaultTransferVerifyingKeyPath dir n m d)]
  | .mintProvingKey d dest => [dest.getD (defaultMintProvingKeyPath dir d), dest.getD (defaultMintVerifyingKeyPath dir d)]
  | .mintVerifyingKey d dest => [dest.getD (defaultMintVerifyingKeyPath dir d)]
  | .freezeProvingKey n d dest =>
    [dest.getD (defaultFreezeProvingKeyPath dir n d), dest.getD (defaultFreezeVerifyingKeyPath dir n d)]
  | .freezeVerifyingKey n d dest => [dest.getD (defaultFreezeVerifyingKeyPath dir n d)]

omit R in
theorem storeCall_elsewhere {dir : FilePath} {disk disk' : Disk} {c : StoreCall} {path : FilePath}
    (spare : path ∉ c.files dir) (h : c.run dir disk = .ok disk') : disk'.content path = disk.content path := by
  cases c with
  | transferProvingKey n m d dest =>
    simp only [StoreCall.files, List.mem_cons, List.not_mem_nil, or_false, not_or] at spare
    obtain ⟨_, _, h⟩ := bind_ok_iff.1 h
    obtain ⟨_, h1, h2⟩ := bind_ok_iff.1 h
    rw [(storeBytes_ok h2).2 _ spare.2, (storeBytes_ok h1).2 _ spare.1]
  | transferVerifyingKey n m d dest =>
    simp only [StoreCall.files, List.mem_cons, List.not_mem_nil, or_false] at spare
    obtain ⟨_, _, h⟩ := bind_ok_iff.1 h
    exact (storeBytes_ok h).2 _ spare
  | mintProvingKey d dest =>
    simp only [StoreCall.files, List.mem_cons, List.not_mem_nil, or_false, not_or] at spare
    obtain ⟨_, _, h⟩ := bind_ok_iff.1 h
    obtain ⟨_, h1, h2⟩ := bind_ok_iff.1 h
    rw [(storeBytes_ok h2).2 _ spare.2, (storeBytes_ok h1).2 _ spare.1]
  | mintVerifyingKey d dest =>
    simp only [StoreCall.files, List.mem_cons, List.not_mem_nil, or_false] at spare
    obtain ⟨_, _, h⟩ := bind_ok_iff.1 h
    exact (storeBytes_ok h).2 _ spare
  | freezeProvingKey n d dest =>
    simp only [StoreCall.files, List.mem_cons, List.not_mem_nil, or_false, not_or] at spare
    obtain ⟨_, _, h⟩ := bind_ok_iff.1 h
    obtain ⟨_, h1, h2⟩ := bind_ok_iff.1 h
    rw [(storeBytes_ok h2).2 _ spare.2, (storeBytes_ok h1).2 _ spare.1]
  | freezeVerifyingKey n d dest =>
    simp only [StoreCall.files, List.mem_cons, List.not_mem_nil, or_false] at spare
    obtain ⟨_, _, h⟩ := bind_ok_iff.1 h
    exact (storeBytes_ok h).2 _ spare

omit R in
theorem runCalls_elsewhere {dir : FilePath} {path : FilePath} {calls : List StoreCall} :
    ∀ {disk disk' : Disk}, (∀ c ∈ calls, path ∉ c.files dir) → runCalls dir disk calls = .ok disk' →
      disk'.content path = disk.content path := by
  induction calls with
  | nil => intro disk disk' _ h; cases h; rfl
  | cons c cs ih =>
    intro disk disk' spare h
    obtain ⟨disk1, h1, h2⟩ := bind_ok_iff.1 h
    rw [ih (fun c hc => spare c (List.mem_cons_of_mem _ hc)) h2, storeCall_elsewhere (spare c List.mem_cons_self) h1]

omit E S K R in
/-- no key has the default file of the universal parameter -/
theorem defaultSrsPath_ne (dir : FilePath) (i : KeyId) : i.path dir ≠ defaultSrsPath dir := by
  intro h
  cases i <;>
    simp only [KeyId.path, defaultTransferProvingKeyPath, defaultTransferVerifyingKeyPath, defaultMintProvingKeyPath,
      defaultMintVerifyingKeyPath, defaultFreezeProvingKeyPath, defaultFreezeVerifyingKeyPath, keyFileName, defaultSrsPath,
      defaultPath, List.append_assoc] at h <;>
    have h := List.append_cancel_left (List.append_cancel_left h) <;>
    exact absurd (take_eq 1 h (by decide) (by decide)) (by decide)

omit E S K R in
theorem files_default {dir : FilePath} {c : StoreCall} (spare : c.dest ≠ some (defaultSrsPath dir)) :
    defaultSrsPath dir ∉ c.files dir := by
  have key : ∀ (dest : Option FilePath) (i : KeyId), dest ≠ some (defaultSrsPath dir) →
      defaultSrsPath dir ≠ dest.getD (i.path dir) := by
    intro dest i h
    cases dest with
    | none => exact fun e => defaultSrsPath_ne dir i e.symm
    | some p => exact fun e => h (by rw [e]; rfl)
  cases c with
  | transferProvingKey n m d dest =>
    simp only [StoreCall.files, List.mem_cons, List.not_mem_nil, or_false, not_or]
    exact ⟨key dest (.transferPk n m d) spare, key dest (.transferVk n m d) spare⟩
  | transferVerifyingKey n m d dest =>
    simp only [StoreCall.files, List.mem_cons, List.not_mem_nil, or_false]
    exact key dest (.transferVk n m d) spare
  | mintProvingKey d dest =>
    simp only [StoreCall.files, List.mem_cons, List.not_mem_nil, or_false, not_or]
    exact ⟨key dest (.mintPk d) spare, key dest (.mintVk d) spare⟩
  | mintVerifyingKey d dest =>
    simp only [StoreCall.files, List.mem_cons, List.not_mem_nil, or_false]
    exact key dest (.mintVk d) spare
  | freezeProvingKey n d dest =>
    simp only [StoreCall.files, List.mem_cons, List.not_mem_nil, or_false, not_or]
    exact ⟨key dest (.freezePk n d) spare, key dest (.freezeVk n d) spare⟩
  | freezeVerifyingKey n d dest =>
    simp only [StoreCall.files, List.mem_cons, List.not_mem_nil, or_false]
    exact key dest (.freezeVk n d) spare

omit E S K in
theorem storeSrs_ok {dir : FilePath} {disk disk' : Disk} {n : ℕ} {dest : Option FilePath}
    (h : storeUniversalParameterForDemo dir disk n dest = .ok disk') :
    ∃ s, R.setup testSeed n = some s ∧ disk'.content (dest.getD (defaultSrsPath dir)) = some (R.srsBytes s) ∧
      ∀ q, q ≠ dest.getD (defaultSrsPath dir) → disk'.content q = disk.content q := by
  obtain ⟨s, e, h⟩ := bind_ok_iff.1 h
  unfold universalSetup at e
  split at e
  · rename_i s' hs
    cases e
    exact ⟨s, hs, storeBytes_ok h⟩
  · cases e

omit E S K in
theorem srsParse_bytes (s : R.Srs) : srsParse (R.srsBytes s) = some s := by
  have := R.srsRead_bytes s []
  rw [List.append_nil] at this
  unfold srsParse
  rw [this]; rfl

/-- **An explicit file.**  A parameter stored to a file of the caller's choice is loaded from it, after any
further store calls that do not write that file, on every curve. -/
theorem C70_explicit_partial {curve : Curve} {dir path : FilePath} {disk disk1 disk2 : Disk} {n : ℕ}
    {after : List StoreCall}
    (stored : storeUniversalParameterForDemo dir disk n (some path) = .ok disk1)
    (later : runCalls dir disk1 after = .ok disk2) (spare : ∀ c ∈ after, path ∉ c.files dir) :
    ∃ s, R.setup testSeed n = some s ∧ loadUniversalParameter curve dir disk2 (some path) = .ok s := by
  obtain ⟨s, hs, hc, _⟩ := storeSrs_ok stored
  refine ⟨s, hs, load_of_content (b := R.srsBytes s) ?_ (srsParse_bytes s)⟩
  rw [runCalls_elsewhere spare later]
  exact hc

/-- **The default file, other curves.**  Key files never interfere unless a call names this very file. -/
theorem C70_default_partial {dir : FilePath} {disk disk1 disk2 : Disk} {n : ℕ} {after : List StoreCall}
    (stored : storeUniversalParameterForDemo dir disk n none = .ok disk1)
    (later : runCalls dir disk1 after = .ok disk2) (spare : SparesPath after (defaultSrsPath dir)) :
    ∃ s, R.setup testSeed n = some s ∧ loadUniversalParameter .other dir disk2 none = .ok s := by
  obtain ⟨s, hs, hc, _⟩ := storeSrs_ok stored
  refine ⟨s, hs, load_of_content (b := R.srsBytes s) ?_ (srsParse_bytes s)⟩
  rw [runCalls_elsewhere (fun c hc => files_default (spare c hc)) later]
  exact hc

omit E S K in
/-- **Key files stay.**  Storing a parameter at its default place changes no key file at a default place. -/
theorem C70_keys {dir : FilePath} {disk disk' : Disk} {n : ℕ}
    (stored : storeUniversalParameterForDemo dir disk n none = .ok disk') (i : KeyId) :
    disk'.content (i.path dir) = disk.content (i.path dir) := by
  obtain ⟨_, _, _, h⟩ := storeSrs_ok stored
  exact h _ (defaultSrsPath_ne dir i)

omit E S K in
/-- **bn254: the disk is not looked at.** -/
theorem C70_disk_ignored (dir dir' : FilePath) (disk disk' : Disk) :
    loadUniversalParameter .bn254 dir disk none = loadUniversalParameter .bn254 dir' disk' none := rfl

omit E S K in
/-- **The claim is false for bn254 at the default place.**  Storing the parameter of any size that differs from the one compiled
into the library succeeds, and loading afterwards gives the other one. -/
theorem C70_default_false {dir : FilePath} {disk : Disk} {n : ℕ} {s built_in : R.Srs}
    (writable : disk.writable (defaultSrsPath dir) = true) (made : R.setup testSeed n = some s)
    (digest : R.sha256 R.shipped = shippedDigest) (shipped : srsParse R.shipped = some built_in)
    (differ : s ≠ built_in) :
    ∃ disk', storeUniversalParameterForDemo dir disk n none = .ok disk' ∧
      loadUniversalParameter .bn254 dir disk' none = .ok built_in ∧
      loadUniversalParameter .bn254 dir disk' none ≠ .ok s := by
  have e : loadUniversalParameter .bn254 dir disk none = .ok built_in := by
    show loadSrs (2 ^ 17) = _
    unfold loadSrs
    rw [if_neg (by omega), if_neg (by rw [digest]; exact not_not.2 rfl), shipped]
  refine ⟨{ disk with content := fun p => if p = defaultSrsPath dir then some (R.srsBytes s) else disk.content p },
    ?_, e, fun h => differ (Except.ok.inj (h.symm.trans e))⟩
  unfold storeUniversalParameterForDemo universalSetup
  rw [made]
  show disk.storeBytes _ (defaultSrsPath dir) = _
  unfold Disk.storeBytes
  rw [if_pos writable]

omit E S K in
/-- **The key tool as well.**  `universal-srs` followed by `prover-srs`, both with their default files: the keys are not made with
the parameter just generated. -/
theorem C70_tool_false {dir : FilePath} {disk : Disk} {n : ℕ} {s built_in : R.Srs}
    (writable : disk.writable (defaultSrsPath dir) = true) (made : R.setup testSeed n = some s)
    (digest : R.sha256 R.shipped = shippedDigest) (shipped : srsParse R.shipped = some built_in)
    (differ : s ≠ built_in) :
    ∃ disk', genUniversalSrs dir disk n none = .ok disk' ∧ proverSrsParameter .bn254 dir disk' none = .ok built_in ∧
      proverSrsParameter .bn254 dir disk' none ≠ .ok s := by
  obtain ⟨disk', h1, h2, _⟩ := C70_default_false (dir := dir) writable made digest shipped differ
  have e : proverSrsParameter .bn254 dir disk' none = .ok built_in := by
    unfold proverSrsParameter; rw [h2]
  exact ⟨disk', by unfold genUniversalSrs; rw [h1], e, fun h => differ (Except.ok.inj (h.symm.trans e))⟩

omit E S K in
/-- **Sizes.**  For bn254 the requested size only decides between the built-in parameter and an error. -/
theorem C70_size (seed seed' n m : ℕ) :
    (n ≤ 2 ^ 17 → m ≤ 2 ^ 17 → universalSetupForStaging .bn254 seed n = universalSetupForStaging (R := R) .bn254 seed' m) ∧
    (2 ^ 17 < n → universalSetupForStaging (R := R) .bn254 seed n = .error .failedSnark) := by
  constructor
  · intro hn hm
    show loadSrs n = loadSrs m
    unfold loadSrs
    rw [if_neg (show ¬ n > 2 ^ 17 by omega), if_neg (show ¬ m > 2 ^ 17 by omega)]
  · intro h
    show loadSrs n = _
    unfold loadSrs
    rw [if_pos h]

end Cap

namespace Cap.Examples

open Toy Spec

/-- a toy universal parameter is its size; the built-in one has size 2^17, i.e. here 5 -/
@[reducible] def toySrs : SrsEnv where
  Srs := ℕ
  setup _ n := some n
  srsBytes := unary
  srsRead := unaryRead
  srsRead_bytes := unaryRead_unary
  sha256 _ := shippedDigest
  shipped := unary 5

/-- an empty disk where everything can be written -/
def emptyDisk : Disk := ⟨fun _ => none, fun _ => true⟩

/-- the hypotheses of the two negations are met: the parameter of size 3 is stored, the one of size 5 is loaded -/
example : ∃ disk', storeUniversalParameterForDemo (R := toySrs) ['.'] emptyDisk 3 none = .ok disk' ∧
    loadUniversalParameter (R := toySrs) .bn254 ['.'] disk' none = .ok (5 : ℕ) ∧
    loadUniversalParameter (R := toySrs) .bn254 ['.'] disk' none ≠ .ok (3 : ℕ) :=
  C70_default_false (R := toySrs) (s := (3 : ℕ)) (built_in := (5 : ℕ)) rfl rfl rfl rfl (show (3 : ℕ) ≠ 5 by decide)

/-- for the other curves the same calls give the stored parameter, also after a key has been stored -/
example : ∃ disk1 disk2, storeUniversalParameterForDemo (R := toySrs) ['.'] emptyDisk 3 none = .ok disk1 ∧
    runCalls ['.'] disk1 [.mintProvingKey 2 none] = .ok disk2 ∧
    loadUniversalParameter (R := toySrs) .other ['.'] disk2 none = .ok (3 : ℕ) := by
  refine ⟨_, _, rfl, rfl, ?_⟩
  obtain ⟨s, h, e⟩ := C70_default_partial (R := toySrs) (dir := ['.']) (disk := emptyDisk) (n := 3)
    (after := [.mintProvingKey 2 none]) rfl rfl (by intro c hc; cases List.mem_singleton.1 hc; exact (Option.some_ne_none _).symm)
  cases h
  exact e

end Cap.Examples
