/-
C84: keys keep their promises: signing, encrypting, storing freezer keys.

status: partial
note: Proved: what is encrypted to a user is read by that user under the same label; a signature is accepted under the signer's public key, and accepted for two messages only with a named collision of hash_to_field or of the signature scheme; a freezer key pair survives its byte format, whatever follows, and equal encodings are equal pairs under eq. FALSE (C84_pair_false): bytes whose two halves do not belong together are accepted as a freezer key pair, for every secret and every other public point. C84_generate_partial: a freeze note of a record whose freezer is the public half of the key pair given is generated only if the halves belong together, and C84_locked: records issued under the public half of such a stored pair are never frozen with it.
-/
import Verif.Model.KeyBytes
import Verif.Props.C07
import Verif.Lemmas.Wire
import Verif.Model.ToyWire

namespace Cap

open Spec

section
variable [E : CapEnv]

/-- **Encryption.**  The owner of the key reads what was encrypted to it, under the label it was encrypted with. -/
theorem C84_encrypt (k : UserKeyPair) (rand : ℕ) (message label : List Byte) :
    (∃ c, k.pubKey.encrypt rand message label = .ok c ∧ E.aeadDec k.encSk c label = some message) ∨
    k.pubKey.encrypt rand message label = .error .failedPrimitives := by
  unfold UserPubKey.encrypt
  cases h : E.aeadEnc k.pubKey.enc_key rand message label with
  | none => exact .inr rfl
  | some c => exact .inl ⟨c, rfl, E.aead_correct _ _ _ _ _ h⟩

/-- **Signatures** are accepted under the public key of the signer, for the message signed. -/
theorem C84_sign (k : UserKeyPair) (message : List Byte) :
    k.pubKey.verifySig message (k.sign message) = .ok () := by
  unfold UserPubKey.verifySig UserKeyPair.sign
  rw [if_pos]
  exact E.schnorr_correct k.sk _

/-- One signature is accepted for two messages only if `hash_to_field` collides on them or the signature scheme accepts it
for two different field elements. -/
theorem C84_binds {pk : UserPubKey} {m₁ m₂ : List Byte} {sig : E.Sig} (h₁ : pk.verifySig m₁ sig = .ok ())
    (h₂ : pk.verifySig m₂ sig = .ok ()) :
    m₁ = m₂ ∨ Collides E.hashToField m₁ m₂ ∨
      (E.hashToField m₁ ≠ E.hashToField m₂ ∧ E.schnorrVerify (E.xy pk.address) [E.hashToField m₁] sig = true ∧
        E.schnorrVerify (E.xy pk.address) [E.hashToField m₂] sig = true) := by
  unfold UserPubKey.verifySig at h₁ h₂
  split at h₁
  · split at h₂
    · rename_i a b
      by_cases e : m₁ = m₂
      · exact .inl e
      · by_cases e' : E.hashToField m₁ = E.hashToField m₂
        · exact .inr (.inl ⟨e, e'⟩)
        · exact .inr (.inr ⟨e', a, b⟩)
    · cases h₂
  · cases h₁

theorem C84_eq (a b : FreezerKeyPair) : a.eq b = true ↔ a = b := by
  cases a; cases b
  simp [FreezerKeyPair.eq]

/-- the decision about the 32 bytes of a scalar -/
def frOf (b : List Byte) : Except SerErr Fr := if ofLe b < E.r then .ok (ofLe b : Fr) else .error .invalidData

theorem fr_de (bs : List Byte) :
    frFormat.de bs = (do let (b, rest) ← readExact 32 bs; let x ← frOf b; .ok (x, rest)) := by
  unfold frFormat frOf
  dsimp only
  cases readExact 32 bs with
  | error e => rfl
  | ok y =>
    simp only [bind, Except.bind]
    by_cases h : ofLe y.1 < E.r
    · rw [if_pos h, if_pos h]
    · rw [if_neg h, if_neg h]

theorem fr_good : frFormat.Good (fun _ => True) :=
  Format.Good.fixed (n := 32) (g := frOf) fr_de (fun x => by
    refine ⟨leBytes_length _ _, ?_⟩
    have hx : x.val < E.r := x.val_lt
    have : ofLe (leBytes 32 x.val) = x.val :=
      ofLe_leBytes _ _ (lt_trans (lt_trans hx E.r_lt) (lt_of_lt_of_le E.p_lt (by norm_num)))
    show frOf (leBytes 32 x.val) = _
    unfold frOf
    rw [this, if_pos hx, ZMod.natCast_zmod_val])

theorem fr_exact : frFormat.Exact :=
  Format.Exact.fixed (n := 32) (g := frOf) fr_de (fun b x hb h => by
    unfold frOf at h
    by_cases hlt : ofLe b < E.r
    · rw [if_pos hlt] at h
      cases h
      show b = leBytes 32 ((ofLe b : ℕ) : Fr).val
      rw [ZMod.val_natCast_of_lt hlt, ← hb, leBytes_ofLe]
    · rw [if_neg hlt] at h
      cases h)

/-- The public half is the one of the secret half. -/
def Spec.IsPair (k : FreezerKeyPair) : Prop := k.pub_key = smulFr k.sec_key E.gen

/-- What `generate` returns is a pair. -/
theorem C84_generated (s : Fr) : IsPair (FreezerKeyPair.generate s) := rfl

end

variable [E : CapEnv] [S : CapExt]

/-- **A stored freezer key that can be used is a pair.**  If the freezer of the policy is the public half of the key pair
given, then a freeze note is generated only if the two halves belong together. -/
theorem C84_generate_partial {rng : FreezeRand} {inputs : List FreezeNoteInput} {fee : TxnFeeInfo}
    {pk : FreezeProvingKey} {n : FreezeNote} {sk : Fr} {outs : List RecordOpening}
    (gen : FreezeNote.generate rng inputs fee pk = .ok (n, sk, outs)) {i : FreezeNoteInput} (hi : i ∈ inputs)
    (real : i.ro.asset_def ≠ AssetDefinition.dummy) :
    i.ro.asset_def.policy.freezer_pk = i.keypair.pub_key ↔ IsPair i.keypair := by
  have := (C07_generated gen i hi real).2
  unfold IsPair
  rw [this]
  exact eq_comm

variable [W : WireEnv]

theorem freezerKey_good : freezerKeyFormat.Good (fun _ => True) :=
  ((fr_good.pair pt_good).as (fun _ => rfl) (fun _ => rfl)).mono (fun m => by simp)

/-- **Freezer key pairs survive the byte format,** whatever follows in the stream. -/
theorem C84_stored (k : FreezerKeyPair) (rest : List Byte) :
    freezerKeyFormat.de (freezerKeyFormat.ser k ++ rest) = .ok (k, rest) := freezerKey_good.round k rest trivial

/-- Two key pairs are equal under `eq` exactly if they are written with the same bytes. -/
theorem C84_bytes (a b : FreezerKeyPair) : freezerKeyFormat.ser a = freezerKeyFormat.ser b ↔ a.eq b = true := by
  rw [C84_eq]
  refine ⟨fun h => ?_, fun h => by rw [h]⟩
  have h1 := C84_stored a []
  rw [h, C84_stored b []] at h1
  cases h1
  rfl

/-- Nothing is read from bytes that end too early. -/
theorem C84_truncated (k : FreezerKeyPair) {bs t : List Byte} (e : bs ++ t = freezerKeyFormat.ser k) (ht : t ≠ []) :
    ∃ err, freezerKeyFormat.de bs = .error err := by
  cases h : freezerKeyFormat.de bs with
  | error err => exact ⟨err, rfl⟩
  | ok y => exact absurd (freezerKey_good.truncated (x := k) (y := y.1) (rest := y.2) trivial e h) ht

/-- **Only encodings are read,** if this holds of points: a secret of r or more is refused. -/
theorem C84_only_encodings (points : PtExact) {bs : List Byte} {k : FreezerKeyPair} {rest : List Byte}
    (h : freezerKeyFormat.de bs = .ok (k, rest)) : bs = freezerKeyFormat.ser k ++ rest :=
  ((fr_exact.pair (pt_exact points)).as (fun _ => rfl)) _ _ _ h

/-- **It is not checked that what is read is a pair**: for every secret and every point there are bytes that are read as
the two, the point being wrong for the secret in all cases but one. -/
theorem C84_pair_false (s : Fr) (P : Pt) (wrong : P ≠ smulFr s E.gen) (rest : List Byte) :
    ∃ bs k, freezerKeyFormat.de bs = .ok (k, rest) ∧ k.sec_key = s ∧ k.pub_key = P ∧ ¬ IsPair k :=
  ⟨_, ⟨s, P⟩, C84_stored ⟨s, P⟩ rest, rfl, rfl, wrong⟩

/-- **Such a key locks its holder out**: whoever reads a key pair that is no pair, and issues assets with its public half
as freezer, is never able to freeze or release a record of these assets with it. -/
theorem C84_locked {bs rest : List Byte} {k : FreezerKeyPair} (_read : freezerKeyFormat.de bs = .ok (k, rest))
    (wrong : ¬ IsPair k) {rng : FreezeRand} {inputs : List FreezeNoteInput} {fee : TxnFeeInfo}
    {pk : FreezeProvingKey} {i : FreezeNoteInput} (hi : i ∈ inputs) (hk : i.keypair = k)
    (real : i.ro.asset_def ≠ AssetDefinition.dummy) (hp : i.ro.asset_def.policy.freezer_pk = k.pub_key) :
    ∃ e, FreezeNote.generate rng inputs fee pk = .error e := by
  cases h : FreezeNote.generate rng inputs fee pk with
  | error e => exact ⟨e, rfl⟩
  | ok y =>
    obtain ⟨n, sk, outs⟩ := y
    subst hk
    exact absurd ((C84_generate_partial h hi real).1 hp) wrong

end Cap

namespace Cap.Examples

open Toy Spec

/-- Bob reads what is encrypted to them -/
example : (bob.pubKey.encrypt 3 [10, 20] [1]).toOption.map (fun c => E.aeadDec bob.encSk c [1]) = some (some [10, 20]) := by
  decide +kernel

/-- a signature of Alice, accepted for the message and for no other one here -/
example : isOk (alice.pubKey.verifySig [1, 2] (alice.sign [1, 2])) = true ∧
    isOk (alice.pubKey.verifySig [1, 3] (alice.sign [1, 2])) = false := by decide +kernel

/-- the toy hash collides on these two messages, and one signature is accepted for both -/
example : Collides E.hashToField ([1] : List Byte) [1, 0] ∧ isOk (alice.pubKey.verifySig [1] (alice.sign [1])) = true ∧
    isOk (alice.pubKey.verifySig [1, 0] (alice.sign [1])) = true :=
  ⟨⟨by decide, by decide +kernel⟩, by decide +kernel, by decide +kernel⟩

/-- the freezer of the toy records holds a pair, with which a freeze note of a real record is generated -/
example : IsPair freezer ∧ assetRec.asset_def.policy.freezer_pk = freezer.pub_key :=
  have h := C84_generate_partial frzNote_eq (i := ⟨assetRec, acc1, freezer⟩) (by simp [frzInputs]) (by decide +kernel)
  ⟨rfl, h.2 rfl⟩

/-- its bytes: the secret, then the point -/
example : freezerKeyFormat.ser freezer = leBytes 32 7 ++ leBytes 32 7 := by decide +kernel

/-- a key pair that is no pair, its bytes, and a freeze note that cannot be made with it -/
def mixed84 : FreezerKeyPair := ⟨(7 : ZMod r), (9 : ZMod r)⟩
def rec84 : RecordOpening :=
  { assetRec with asset_def := { assetRec.asset_def with policy := assetRec.asset_def.policy.setFreezerPubKey (9 : ZMod r) } }

example : freezerKeyFormat.de (leBytes 32 7 ++ leBytes 32 9 ++ [1]) = .ok (mixed84, [1]) := C84_stored mixed84 [1]

example : ∃ e, FreezeNote.generate frzRng [⟨rec84, acc1, mixed84⟩] feeInfo frzPk = .error e :=
  C84_locked (C84_stored mixed84 []) (k := mixed84) (by unfold IsPair; decide +kernel) List.mem_cons_self rfl
    (by decide +kernel) (by decide +kernel)

example : ∃ bs k, freezerKeyFormat.de bs = .ok (k, []) ∧ k.sec_key = (7 : ZMod r) ∧ k.pub_key = (9 : ZMod r) ∧ ¬ IsPair k :=
  C84_pair_false _ _ (by decide +kernel) []

/-- r is refused as a secret, r - 1 is read -/
example : (frFormat.de (leBytes 32 Toy.r)).toOption = none ∧
    (frFormat.de (leBytes 32 (Toy.r - 1))).toOption = some ((-1 : ZMod Toy.r), []) := by decide +kernel

example : ∃ e, freezerKeyFormat.de ((freezerKeyFormat.ser freezer).take 63) = .error e :=
  C84_truncated freezer (List.take_append_drop 63 _) (by decide +kernel)

example : leBytes 32 7 ++ leBytes 32 9 ++ [1] = freezerKeyFormat.ser mixed84 ++ [1] :=
  C84_only_encodings pt_exact_toy (C84_stored mixed84 [1])

end Cap.Examples
