/-
Helper lemmas: what a successful `generate` tells us.
-/
import Verif.Lemmas.HostCircuit

namespace Cap

variable [E : CapEnv]

/-- the credential `new_unchecked` puts into the witness for an input -/
theorem inputSecretOf_ok {i : TransferNoteInput} {s : InputSecret} :
    inputSecretOf i = .ok s ↔ s.owner_keypair = i.owner_keypair ∧ s.ro = i.ro ∧ s.acc = i.acc ∧
      (if i.ro.asset_def.policy.cred_pk = 0 then ExpirableCredential.dummyUnexpired = .ok s.cred
       else i.cred = some s.cred) := by
  unfold inputSecretOf
  rw [bind_ok_iff]
  constructor
  · rintro ⟨c, hc, hs⟩
    cases hs
    refine ⟨rfl, rfl, rfl, ?_⟩
    unfold inputCred at hc
    split at hc
    · rename_i h
      rw [if_pos h]; exact hc
    · rename_i h
      rw [if_neg h]
      split at hc
      · rename_i c' hc'; cases hc; exact hc'
      · cases hc
  · rintro ⟨h1, h2, h3, h4⟩
    refine ⟨s.cred, ?_, by cases s; simp_all⟩
    unfold inputCred
    split
    · rename_i h
      rw [if_pos h] at h4; exact h4
    · rename_i h
      rw [if_neg h] at h4
      rw [h4]

omit E in
theorem forall₂_map_eq {α β γ : Type} {R : α → β → Prop} {f : α → γ} {g : β → γ}
    (hfg : ∀ a b, R a b → f a = g b) {l : List α} {l' : List β} (h : List.Forall₂ R l l') :
    l.map f = l'.map g := by
  induction h with
  | nil => rfl
  | cons h1 _ ih => simp [hfg _ _ h1, ih]

section
variable {inputs : List TransferNoteInput} {secrets : List InputSecret}

theorem secrets_ro (h : List.Forall₂ (fun a b => inputSecretOf a = .ok b) inputs secrets) :
    secrets.map (·.ro) = inputs.map (·.ro) :=
  (forall₂_map_eq (f := fun x : TransferNoteInput => x.ro) (g := fun x : InputSecret => x.ro)
    (fun _ _ hr => (inputSecretOf_ok.1 hr).2.1.symm) h).symm

theorem secrets_length (h : List.Forall₂ (fun a b => inputSecretOf a = .ok b) inputs secrets) :
    secrets.length = inputs.length := h.length_eq.symm

end

variable [S : CapExt]

/-- Everything a successful `TransferNote::generate` went through. -/
structure TransferGen (b : Build) (rng : TransferRand) (inputs : List TransferNoteInput)
    (outputs : List RecordOpening) (pk : TransferProvingKey) (valid_until : U64) (extra : List Byte)
    (n : TransferNote) (sk : Fr) (w : TransferWitness) (pub : TransferPublicInput) : Prop where
  inputs_ne : inputs ≠ []
  outputs_ne : outputs ≠ []
  key : transferCheckProvingKey pk.n_inputs pk.n_outputs pk.tree_depth inputs outputs.length = .ok ()
  pub_keys : transferCheckInputPubKeys inputs = .ok ()
  dummies : checkDummyInputs (inputs.map (·.ro)) = .ok ()
  balance : checkBalance b (inputs.map (·.ro)) outputs = .ok n.aux_info.fee
  asset : transferCheckAssetDef (inputs.map (·.ro)) outputs = .ok ()
  unfrozen : checkUnfrozen (inputs.map (·.ro)) outputs = .ok ()
  root : transferCheckAndGetRoots inputs = .ok n.aux_info.merkle_root
  creds : transferCheckCreds valid_until inputs = .ok ()
  witness : TransferWitness.newUnchecked rng.enc_rand inputs outputs = .ok w
  pub_eq : TransferPublicInput.fromWitness w valid_until = .ok pub
  distinct : checkDistinctInputNullifiers pub.input_nullifiers = .ok ()
  prove : transferProve pk w pub (smulFr rng.sign_sk E.gen) extra rng.seed = .ok n.proof
  nullifiers : n.inputs_nullifiers = pub.input_nullifiers
  commitments : n.output_commitments = pub.output_commitments
  memo : n.viewing_memo = pub.viewing_memo
  note_valid : n.aux_info.valid_until = valid_until
  ver_key : n.aux_info.txn_memo_ver_key = smulFr rng.sign_sk E.gen
  extra_eq : n.aux_info.extra_proof_bound_data = extra
  sign_key : sk = rng.sign_sk

theorem TransferNote.generate_ok {b : Build} {rng : TransferRand} {inputs : List TransferNoteInput}
    {outputs : List RecordOpening} {pk : TransferProvingKey} {valid_until : U64} {extra : List Byte}
    {n : TransferNote} {sk : Fr} :
    TransferNote.generate b rng inputs outputs pk valid_until extra = .ok (n, sk) ↔
      ∃ w pub, TransferGen b rng inputs outputs pk valid_until extra n sk w pub := by
  unfold TransferNote.generate
  simp only [bind_ok_iff]
  constructor
  · rintro ⟨_, h1, _, h2, _, h3, _, h4, fee, h5, _, h6, _, h7, root, h8, _, h9, w, h10, pub, h11, _, h12, π, h13, h14⟩
    cases h14
    rw [ensure_ok_iff] at h1
    simp only [Bool.not_eq_true', Bool.or_eq_false_iff, List.isEmpty_eq_false_iff] at h1
    exact ⟨w, pub, h1.1, h1.2, h2, h3, h4, h5, h6, h7, h8, h9, h10, h11, h12, h13, rfl, rfl, rfl, rfl, rfl, rfl, rfl⟩
  · rintro ⟨w, pub, h⟩
    refine ⟨(), ?_, (), h.key, (), h.pub_keys, (), h.dummies, _, h.balance, (), h.asset, (), h.unfrozen, _, h.root,
      (), h.creds, w, h.witness, pub, h.pub_eq, (), h.distinct, _, h.prove, ?_⟩
    · rw [ensure_ok_iff]
      simp [h.inputs_ne, h.outputs_ne]
    · have h1 := h.nullifiers
      have h2 := h.commitments
      have h3 := h.memo
      have h4 := h.note_valid
      have h5 := h.ver_key
      have h6 := h.extra_eq
      have h7 := h.sign_key
      rcases n with ⟨a, b, c, d, ⟨e1, e2, e3, e4, e5⟩⟩
      simp only at h1 h2 h3 h4 h5 h6 h7
      subst h1 h2 h3 h4 h5 h6 h7
      rfl

end Cap
