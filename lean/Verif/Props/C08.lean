/-
C08: only the owner can spend.

status: proved
note: For every satisfying assignment of the three circuits and every record spent by a user (all inputs of a transfer, the fee input of a mint or freeze): the assignment contains a scalar whose public key is the owner address of the opening, and the opening's commitment is under the note's root unless the opening's code is the dummy code (never for fee inputs). *_records speaks of the record openings with the same committed values; C08_transfer_accepted, C08_mint_accepted, C08_freeze_accepted are end to end; C08_transfer_generated: generation succeeds only with the owner's key pair.
-/
import Verif.Lemmas.Opened
import Verif.Props.C17
import Verif.Props.C18
import Verif.Props.C19

namespace Cap

open Spec

variable [E : CapEnv] [S : CapExt]

omit S in
/-- `sk` opens the record `ro` (as the owner) at the position `acc` under `root` -/
structure OwnerSpends (ro : RecordV) (sk : F) (acc : AccV) (root : F) (may_be_dummy : Prop) : Prop where
  owner : ro.owner_addr = E.xy (sk.val • E.gen)
  member : merkleRoot acc.uid (E.commit ro.scalars ro.blind) acc.path = root ∨
    (may_be_dummy ∧ ro.asset_code = dummyCode)

/-- **Transfers.**  All inputs; only inputs after the first may be dummies. -/
theorem C08_transfer {a b d : ℕ} {n : TransferNote} {w : TransferWit} (h : OpensTransfer a b d n w) :
    ∃ i0 is, w.inputs = i0 :: is ∧ OwnerSpends i0.ro i0.addr_secret i0.acc n.aux_info.merkle_root False ∧
      ∀ i ∈ is, OwnerSpends i.ro i.addr_secret i.acc n.aux_info.merkle_root True := by
  obtain ⟨i0, is, o0, os, nl, nls, c, cs, P⟩ := h.sat.parts h.shape
  refine ⟨i0, is, P.inputs, ⟨P.in0.2.2.2.1.2.symm, ?_⟩, fun i hi => ?_⟩
  · rcases P.in0.2.2.2.2.2.1 with hd | hr
    · exfalso
      have h1 := P.in0.2.2.1
      simp only [InputPosOk, if_true] at h1
      have h2 : i0.ro.asset_code = dummyCode := by simpa [RecordV.isDummy] using hd
      exact native_ne_dummy (h1.1.symm.trans h2)
    · exact Or.inl hr
  · obtain ⟨x, -, hx⟩ := P.mem_in hi
    refine ⟨hx.2.2.2.1.2.symm, ?_⟩
    rcases hx.2.2.2.2.2.1 with hd | hr
    · exact Or.inr ⟨trivial, by simpa [RecordV.isDummy] using hd⟩
    · exact Or.inl hr

/-- **Mints.**  The fee input. -/
theorem C08_mint {d : ℕ} {n : MintNote} {w : MintWit} (h : OpensMint d n w) :
    OwnerSpends w.fee_ro w.creator_sk w.acc n.aux_info.merkle_root False :=
  ⟨h.sat.spend.2.symm, Or.inl h.sat.root⟩

/-- **Freezes.**  The fee input. -/
theorem C08_freeze {m d : ℕ} {n : FreezeNote} {w : FreezeWit} (h : OpensFreeze m d n w) :
    OwnerSpends w.fee_ro w.fee_sk w.fee_acc n.aux_info.merkle_root False := by
  obtain ⟨v, hv, -, hs⟩ := h
  have hr : v.root = n.aux_info.merkle_root := by
    simp only [FreezePublicInput.toV, FreezeNote.pub] at hv
    split at hv
    · cases hv; rfl
    · cases hv
  exact ⟨hs.spend.2.symm, Or.inl (hr ▸ hs.root)⟩

omit S in
/-- **Records.**  The owner of the record opening with these committed values is the key of the scalar, the only one
with this public key; the record's commitment is under the root. -/
theorem C08_records {v : RecordV} {sk root : F} {acc : AccV} {P : Prop} (h : OwnerSpends v sk acc root P)
    {ro : RecordOpening} (hr : Reads ro v) :
    ro.pub_key.address = smulFr (sk.val : Fr) E.gen ∧
      (∀ s : Fr, ro.pub_key.address = smulFr s E.gen → s = (sk.val : Fr)) ∧
      (merkleRoot acc.uid ro.commitment acc.path = root ∨ (P ∧ ro.asset_def.code = dummyCode)) := by
  obtain ⟨-, h2, h3, -⟩ := reads_iff.1 hr
  have e : ro.pub_key.address = smulFr (sk.val : Fr) E.gen := by
    rw [smulFr_natCast]; exact xy_inj (h3.trans h.owner)
  refine ⟨e, fun s hs => smulFr_gen_inj (hs.symm.trans e), ?_⟩
  have := h.member
  rw [← hr.1, ← hr.2, ← h2] at this
  exact this

omit S in
/-- what an end-to-end theorem says of one spent record: if `ro` is the record whose commitment is consumed, either its
owner's secret key is known or the commitment function collides on these two openings -/
def OwnerOrCollision (v : RecordV) (sk : F) : Prop :=
  ∀ ro : RecordOpening, ro.commitment = v.commitment →
    ro.pub_key.address = smulFr (sk.val : Fr) E.gen ∨ Collides commitOf (ro.scalars, ro.blind) (v.scalars, v.blind)

omit S in
theorem OwnerSpends.orCollision {v : RecordV} {sk root : F} {acc : AccV} {P : Prop} (h : OwnerSpends v sk acc root P) :
    OwnerOrCollision v sk := by
  intro ro he
  rcases reads_or_collides he with hr | hc
  · exact Or.inl (C08_records h hr).1
  · exact Or.inr hc

/-- **End to end, transfers.** -/
theorem C08_transfer_accepted (sound : SnarkSound) {a b : ℕ} {d : Fin 256} {pk : TransferProvingKey}
    {vk : TransferVerifyingKey} (keys : transferPreprocess a b d = .ok (pk, vk)) {n : TransferNote} {root : F}
    {t : U64} (ok : n.verify vk root t = .ok ()) (hn : n.inputs_nullifiers.length = a)
    (hc : n.output_commitments.length = b) :
    ∃ w, OpensTransfer a b d.val n w ∧ ∀ i ∈ w.inputs, OwnerSpends i.ro i.addr_secret i.acc root True ∧
      OwnerOrCollision i.ro i.addr_secret := by
  obtain ⟨w, h⟩ := transfer_opened sound keys ok hn hc
  obtain ⟨i0, is, hi, h0, hs⟩ := C08_transfer h
  have hr : n.aux_info.merkle_root = root := (TransferNote.verify_ok.1 ok).1.symm
  refine ⟨w, h, fun i him => ?_⟩
  rw [hi] at him
  rw [hr] at h0 hs
  rcases List.mem_cons.1 him with rfl | him
  · exact ⟨⟨h0.owner, h0.member.imp id fun x => x.1.elim⟩, h0.orCollision⟩
  · exact ⟨hs i him, (hs i him).orCollision⟩

/-- **End to end, mints.** -/
theorem C08_mint_accepted (sound : SnarkSound) {d : Fin 256} {pk : MintProvingKey} {vk : MintVerifyingKey}
    (keys : mintPreprocess d = .ok (pk, vk)) {n : MintNote} {root : F} (ok : n.verify vk root = .ok ()) :
    ∃ w, OpensMint d.val n w ∧ OwnerSpends w.fee_ro w.creator_sk w.acc root False ∧
      OwnerOrCollision w.fee_ro w.creator_sk := by
  obtain ⟨w, h⟩ := mint_opened sound keys ok
  have hr : n.aux_info.merkle_root = root := (MintNote.verify_ok.1 ok).1.symm
  have := C08_mint h
  rw [hr] at this
  exact ⟨w, h, this, this.orCollision⟩

/-- **End to end, freezes.** -/
theorem C08_freeze_accepted (sound : SnarkSound) {m : ℕ} {d : Fin 256} {pk : FreezeProvingKey}
    {vk : FreezeVerifyingKey} (keys : freezePreprocess m d = .ok (pk, vk)) {n : FreezeNote} {root : F}
    (ok : n.verify vk root = .ok ()) (hn : n.input_nullifiers.length = m) :
    ∃ w, OpensFreeze m d.val n w ∧ OwnerSpends w.fee_ro w.fee_sk w.fee_acc root False ∧
      OwnerOrCollision w.fee_ro w.fee_sk := by
  obtain ⟨w, h⟩ := freeze_opened sound keys ok hn
  have hr : n.aux_info.merkle_root = root := (FreezeNote.verify_ok.1 ok).1.symm
  have := C08_freeze h
  rw [hr] at this
  exact ⟨w, h, this, this.orCollision⟩

/-- **Generation** of a transfer succeeds only with the key pairs of the owners, for dummies as well, and only if the
records that are not dummies are under the root the note publishes. -/
theorem C08_transfer_generated {b : Build} {rng : TransferRand} {inputs : List TransferNoteInput}
    {outputs : List RecordOpening} {pk : TransferProvingKey} {valid_until : U64} {extra : List Byte}
    {n : TransferNote} {sk : Fr} (gen : TransferNote.generate b rng inputs outputs pk valid_until extra = .ok (n, sk)) :
    ∀ i ∈ inputs, i.ro.pub_key.address = i.owner_keypair.address ∧
      (merkleRoot (i.acc.uid.val : F) i.ro.commitment i.acc.path = n.aux_info.merkle_root ∨
        i.ro.asset_def.code = dummyCode) := by
  intro i hi
  obtain ⟨w, pub, h⟩ := TransferNote.generate_ok.1 gen
  obtain ⟨h1, h2, h3, h4⟩ := newUnchecked_ok.1 h.witness
  obtain ⟨s, hs, hsi⟩ := forall₂_mem_right (List.Forall₂.flip (R := fun b a => inputSecretOf a = .ok b) h4) i hi
  obtain ⟨e1, e2, e3, -⟩ := inputSecretOf_ok.1 hsi
  have ho : OpensTransfer pk.n_inputs pk.n_outputs pk.tree_depth.val n w.toV :=
    ⟨by rw [h.pub_note]; exact h.shape h.sat, by rw [h.pub_note]; exact h.sat⟩
  obtain ⟨i0, is, hw, H0, H⟩ := C08_transfer ho
  have hm : s.toV ∈ w.toV.inputs := List.mem_map_of_mem hs
  rw [hw] at hm
  have hO : OwnerSpends s.ro.toV (frToFq s.owner_keypair.sk) s.acc.toV n.aux_info.merkle_root True := by
    rcases List.mem_cons.1 hm with hm | hm
    · rw [← hm] at H0
      exact ⟨H0.owner, H0.member.imp id fun x => x.1.elim⟩
    · exact H _ hm
  have := C08_records hO (Reads.toV _)
  rw [frToFq_val, ZMod.natCast_val, ZMod.cast_id, e1, e2, e3] at this
  exact ⟨this.1, this.2.2.imp id And.right⟩

end Cap

namespace Cap.Examples
open Toy Spec

example : ∃ w, OpensTransfer 3 3 1 xfrNote w ∧ ∀ i ∈ w.inputs, OwnerSpends i.ro i.addr_secret i.acc
    xfrNote.aux_info.merkle_root True ∧ OwnerOrCollision i.ro i.addr_secret :=
  C08_transfer_accepted Toy.sound xfrKeys_eq (xfrNote_verify 0 (by decide)) rfl rfl

/-- the first input of the example transfer reads as Alice's native record -/
example : ∃ w, OpensTransfer 3 3 1 xfrNote w ∧ ∃ i ∈ w.inputs, Reads feeRec i.ro := by
  obtain ⟨w, h, hi, -⟩ := xfr_opens
  have : feeRec.toV ∈ w.toV.inputs.map (·.ro) := by rw [hi]; simp
  obtain ⟨i, h1, h2⟩ := List.mem_map.1 this
  exact ⟨_, h, i, h1, h2 ▸ Reads.toV _⟩

example : ∀ i ∈ xfrInputs, i.ro.pub_key.address = i.owner_keypair.address :=
  fun i hi => (C08_transfer_generated xfrNote_eq i hi).1

example : ∃ w, OpensMint 1 mintNote w ∧ OwnerSpends w.fee_ro w.creator_sk w.acc mintNote.aux_info.merkle_root False ∧
    OwnerOrCollision w.fee_ro w.creator_sk := C08_mint_accepted Toy.sound mintKeys_eq mintNote_verify

example : ∃ w, OpensFreeze 4 1 frzNote w ∧ OwnerSpends w.fee_ro w.fee_sk w.fee_acc frzNote.aux_info.merkle_root False ∧
    OwnerOrCollision w.fee_ro w.fee_sk := C08_freeze_accepted Toy.sound frzKeys_eq frzNote_verify rfl

end Cap.Examples
