/-
C38: transfer expiry is bounded by the credential time window.

status: partial
note: C38_partial: every transfer that meets the documented conditions and involves no credential policy (and no viewer) is generated for every valid_until below 2^20, and by C38_window for no other: valid_until < 2^20 is necessary for every transfer, because the fee input always carries the dummy credential of expiry 2^20 - 1. C38_exact: with credentials, each one must also expire less than 2^20 after valid_until. So the property as stated (every valid_until) is false: C38_false gives, in every environment and for every tree depth, a well-formed transfer of one coin that is generated for every smaller valid_until and for none from 2^20 on. Completeness of the SNARK is assumed for the positive part only.
-/
import Verif.Lemmas.Complete
import Verif.Props.C25

namespace Cap

open Spec

variable [E : CapEnv]

/-- **The circuit's comparison.**  A credential is accepted for the times in the last 2^20 units before it expires. -/
theorem C38_credential (c : ExpirableCredential) (t : U64) :
    c.toV.EnforceNotExpired (t.val : F) ↔ t.val ≤ c.expiry.val ∧ c.expiry.val < t.val + 2 ^ 20 := by
  show InRange (((c.expiry.val : ℕ) : F) - ((t.val : ℕ) : F)) MAX_TIMESTAMP_LEN ↔ _
  unfold InRange
  have := c.expiry.isLt
  have := t.isLt
  rw [sub_range (by omega) (by omega) (by norm_num [MAX_TIMESTAMP_LEN])]
  simp only [MAX_TIMESTAMP_LEN]
  omega

/-- where the host check says yes, the circuit may say no -/
theorem C38_host (c : ExpirableCredential) (t : U64) (h : c.verify t = .ok ()) :
    c.toV.EnforceNotExpired (t.val : F) ↔ c.expiry.val < t.val + 2 ^ 20 := by
  rw [C38_credential]
  exact and_iff_right ((C37_verify_any c t).1 h).1

variable [S : CapExt]

/-- **Necessary.**  Whatever the asset, a generated transfer has a `valid_until` below 2^20. -/
theorem C38_window {b : Build} {rng : TransferRand} {inputs : List TransferNoteInput}
    {outputs : List RecordOpening} {pk : TransferProvingKey} {valid_until : U64} {extra : List Byte}
    {n : TransferNote} {sk : Fr} (gen : TransferNote.generate b rng inputs outputs pk valid_until extra = .ok (n, sk)) :
    valid_until.val < 2 ^ 20 := by
  obtain ⟨w, pub, h⟩ := TransferNote.generate_ok.1 gen
  obtain ⟨ad, ha⟩ := transferCheckAssetDef_ok.1 h.asset
  obtain ⟨r0, rs, hr, h0⟩ := ha.fee_in
  obtain ⟨i0, is, hi, rfl, -⟩ := List.map_eq_cons_iff.1 hr
  obtain ⟨s, first, nl, hs, hok⟩ := h.inputOk (i := i0) (by rw [hi]; simp)
  obtain ⟨-, -, -, e4⟩ := inputSecretOf_ok.1 hs
  rw [if_pos (by rw [h0]; rfl)] at e4
  obtain ⟨sg, hsg⟩ := @dummyUnexpired_eq E
  rw [hsg] at e4
  have hcr : (s.cred.expiry).val = 2 ^ 20 - 1 := by
    rw [← Except.ok.inj e4]; rfl
  obtain ⟨-, -, -, -, -, -, -, hexp, -⟩ := hok
  obtain ⟨s0, ss, o0, os, hf⟩ := fromWitness_ok.1 h.pub_eq
  have : s.cred.toV.EnforceNotExpired (pub.valid_until.val : F) := hexp
  rw [hf.valid, C38_credential, hcr] at this
  omega

/-- **Necessary, with credentials.** -/
theorem C38_fresh {b : Build} {rng : TransferRand} {inputs : List TransferNoteInput}
    {outputs : List RecordOpening} {pk : TransferProvingKey} {valid_until : U64} {extra : List Byte}
    {n : TransferNote} {sk : Fr} (gen : TransferNote.generate b rng inputs outputs pk valid_until extra = .ok (n, sk))
    {i : TransferNoteInput} (mem : i ∈ inputs) (policy : i.ro.asset_def.policy.cred_pk ≠ 0) {c : ExpirableCredential}
    (cred : i.cred = some c) : valid_until.val ≤ c.expiry.val ∧ c.expiry.val < valid_until.val + 2 ^ 20 := by
  obtain ⟨w, pub, h⟩ := TransferNote.generate_ok.1 gen
  obtain ⟨s, first, nl, hs, hok⟩ := h.inputOk mem
  obtain ⟨-, -, -, e4⟩ := inputSecretOf_ok.1 hs
  rw [if_neg policy, cred] at e4
  obtain rfl := Option.some.inj e4
  obtain ⟨-, -, -, -, -, -, -, hexp, -⟩ := hok
  obtain ⟨s0, ss, o0, os, hf⟩ := fromWitness_ok.1 h.pub_eq
  have : s.cred.toV.EnforceNotExpired (pub.valid_until.val : F) := hexp
  rw [hf.valid, C38_credential] at this
  exact this

section
variable {ni no : ℕ} {d : Fin 256} {valid_until : U64} {inputs : List TransferNoteInput} {outputs : List RecordOpening}
  {ad : AssetDefinition} {fee : Amount} {root : F} {pk : TransferProvingKey} {vk : TransferVerifyingKey}

/-- **Without credential policies.**  (`no_viewer` keeps the conditions on memos out of this statement: see C16.) -/
theorem C38_partial (complete : SnarkComplete) (keys : transferPreprocess ni no d = .ok (pk, vk))
    (wf : WellFormed ni no d.val valid_until inputs outputs ad fee root)
    (no_cred : ∀ i ∈ inputs, i.ro.asset_def.policy.cred_pk = 0) (no_viewer : ad.policy.viewer_pk = 0)
    (b : Build) (rng : TransferRand) (extra : List Byte) :
    (∃ n sk, TransferNote.generate b rng inputs outputs pk valid_until extra = .ok (n, sk)) ↔ valid_until.val < 2 ^ 20 := by
  constructor
  · rintro ⟨n, sk, gen⟩
    exact C38_window gen
  · intro hw
    obtain ⟨n, sk, w, pub, h, -⟩ := wf.generates
      ⟨hw, fun i hi hc => absurd (no_cred i hi) hc, Or.inl no_viewer⟩ complete keys b rng extra
    exact ⟨n, sk, TransferNote.generate_ok.2 ⟨w, pub, h⟩⟩

/-- **With credential policies.** -/
theorem C38_exact (complete : SnarkComplete) (keys : transferPreprocess ni no d = .ok (pk, vk))
    (wf : WellFormed ni no d.val valid_until inputs outputs ad fee root) (no_viewer : ad.policy.viewer_pk = 0)
    (b : Build) (rng : TransferRand) (extra : List Byte) :
    (∃ n sk, TransferNote.generate b rng inputs outputs pk valid_until extra = .ok (n, sk)) ↔
      valid_until.val < 2 ^ 20 ∧ ∀ i ∈ inputs, i.ro.asset_def.policy.cred_pk ≠ 0 → ∀ c, i.cred = some c →
        c.expiry.val < valid_until.val + 2 ^ 20 := by
  constructor
  · rintro ⟨n, sk, gen⟩
    exact ⟨C38_window gen, fun i hi hc c he => (C38_fresh gen hi hc he).2⟩
  · rintro ⟨hw, hf⟩
    obtain ⟨n, sk, w, pub, h, -⟩ := wf.generates ⟨hw, hf, Or.inl no_viewer⟩ complete keys b rng extra
    exact ⟨n, sk, TransferNote.generate_ok.2 ⟨w, pub, h⟩⟩

end

/-! ### A transfer of one coin -/

/-- a coin of five units at place 0 of a tree of depth `d` -/
def onlyCoin (k : UserKeyPair) (d : ℕ) : TransferNoteInput :=
  ⟨coin k.pubKey 5, ⟨List.replicate d ⟨0, 0, .left⟩,
    merkleRoot 0 (coin k.pubKey 5).commitment (List.replicate d ⟨0, 0, .left⟩), 0⟩, k, none⟩

omit S in
/-- it is a well-formed transfer, for every time -/
theorem onlyCoin_wellFormed (k : UserKeyPair) (d : ℕ) (valid_until : U64) :
    WellFormed 1 1 d valid_until [onlyCoin k d] [coin k.pubKey 3] AssetDefinition.native 2 (onlyCoin k d).acc.root where
  num_in := rfl
  num_out := rfl
  depth := by
    intro i hi
    obtain rfl := List.mem_singleton.1 hi
    exact List.length_replicate
  fee_in := ⟨_, _, rfl, rfl⟩
  fee_out := ⟨_, _, rfl, rfl⟩
  asset_in := by simp
  asset_out := by simp
  only_dummies := fun _ => rfl
  code_dummy := native_ne_dummy
  code_native := fun _ => rfl
  freezer_has_viewer := fun h => absurd rfl h
  owned := by
    intro i hi
    obtain rfl := List.mem_singleton.1 hi
    rfl
  unfrozen_in := by
    intro i hi
    obtain rfl := List.mem_singleton.1 hi
    rfl
  unfrozen_out := by
    intro i hi
    obtain rfl := List.mem_singleton.1 hi
    rfl
  member := by
    intro i hi _
    obtain rfl := List.mem_singleton.1 hi
    refine ⟨rfl, ?_⟩
    show merkleRoot (((0 : ℕ) : F)) _ _ = merkleRoot 0 _ _
    rw [Nat.cast_zero]
    rfl
  dummies := by
    intro i hi h
    obtain rfl := List.mem_singleton.1 hi
    exact absurd h nativeDef_ne_dummyDef
  once := by simp
  balanced := (coins_balanced k.pubKey (a := 5) (as := []) (bs := [3]) (fee := 2)).2 (by decide)
  small := by
    rw [show [onlyCoin k d].map (·.ro) = [(5 : Amount)].map (coin k.pubKey) from rfl, coins_real]
    show ([5] : List ℕ).sum < 2 ^ 127
    norm_num
  creds := by
    intro i hi h
    obtain rfl := List.mem_singleton.1 hi
    exact absurd rfl h

/-- **The property fails.**  In every environment and for every depth, the transfer of one coin is generated for the
times below 2^20, and for no time from 2^20 on, although it meets the documented conditions for every time. -/
theorem C38_false (complete : SnarkComplete) (k : UserKeyPair) {d : Fin 256} {pk : TransferProvingKey}
    {vk : TransferVerifyingKey} (keys : transferPreprocess 1 1 d = .ok (pk, vk)) (b : Build) (rng : TransferRand)
    (extra : List Byte) (valid_until : U64) :
    WellFormed 1 1 d.val valid_until [onlyCoin k d.val] [coin k.pubKey 3] AssetDefinition.native 2
      (onlyCoin k d.val).acc.root ∧
    ((∃ n sk, TransferNote.generate b rng [onlyCoin k d.val] [coin k.pubKey 3] pk valid_until extra = .ok (n, sk)) ↔
      valid_until.val < 2 ^ 20) := by
  have hw := onlyCoin_wellFormed k d.val valid_until
  refine ⟨hw, C38_partial complete keys hw ?_ rfl b rng extra⟩
  intro i hi
  obtain rfl := List.mem_singleton.1 hi
  rfl

end Cap

namespace Cap.Examples
open Toy Spec

/-- there are keys for one input and one output, and `SnarkComplete` holds of the example -/
example : SnarkComplete ∧ isOk (transferPreprocess 1 1 1) = true := ⟨Toy.complete, by decide +kernel⟩

/-- Alice's credential expires at 1000: the circuit accepts it up to then -/
example : cred.toV.EnforceNotExpired ((1000 : U64).val : ZMod p) ∧ ¬ cred.toV.EnforceNotExpired ((1001 : U64).val : ZMod p) := by
  rw [C38_credential, C38_credential]; decide

/-- the example transfer has a time in the window, and its credential is fresh -/
example : (900 : U64).val < 2 ^ 20 ∧ cred.expiry.val < (900 : U64).val + 2 ^ 20 := by decide

/-- a host-valid credential that the circuit refuses: it is valid for too long -/
example : ({ cred with expiry := 2000000 } : ExpirableCredential).toV.EnforceNotExpired ((900 : U64).val : ZMod p) ↔ False := by
  rw [C38_credential]; decide

end Cap.Examples
