/-
C54: every well-formed freeze can be generated.

status: partial
note: C54_partial: the freezer of some records of the tree can freeze or release all of them at once (together with dummies), with any native record of the tree that covers the fee, for every randomness; the note is accepted, and it commits to the change and to the same records with the flag flipped. The owners' addresses must not be the neutral point. FALSE without this restriction: C54_false: a request with a record owned by the neutral address is refused, unless the PRF gives the same value under the freezer's secret key and under hash(0,1,0). C54_exact: that the circuit's and the library's nullifiers coincide is exactly what is needed. Completeness of the SNARK is assumed.
-/
import Verif.Lemmas.CompleteMintFreeze
import Verif.Props.C09

namespace Cap

open Spec

variable [E : CapEnv] [S : CapExt]

section
variable {num : ℕ} {d : Fin 256} {root : F} {inputs : List FreezeNoteInput} {fi : FeeInput} {fee : Amount}
  {pk : FreezeProvingKey} {vk : FreezeVerifyingKey}

/-- **Freezing requests are generated and accepted.** -/
theorem C54_partial (complete : SnarkComplete) (keys : freezePreprocess num d = .ok (pk, vk))
    (wf : WellFormedFreeze num d.val root inputs fi fee) (owners : ∀ i ∈ inputs, i.ro.pub_key.address ≠ 0)
    (blind : F) (rng : FreezeRand) :
    ∃ info chg n sk outs, TxnFeeInfo.new blind fi fee = .ok (info, chg) ∧
      FreezeNote.generate rng inputs info pk = .ok (n, sk, outs) ∧ n.verify vk root = .ok () ∧
      n.input_nullifiers = nullifierOf fi.toTransferInput :: inputs.map freezerNullifierOf ∧
      n.output_commitments = (chg :: outs).map RecordOpening.commitment ∧
      outs = inputs.mapIdx (fun k i => { i.ro with freeze_flag := i.ro.freeze_flag.flip, blind := rng.blinds k }) ∧
      n.aux_info.fee = fee ∧ chg.amount.val + fee.val = fi.ro.amount.val := by
  obtain ⟨info, chg, new⟩ := wf.pays.info blind
  obtain ⟨n, sk, outs, gen, hpub, houts⟩ := freeze_generates complete keys wf
    (fun i hi => spendNullifier_freezer _ _ _ (owners i hi)) new rng
  obtain ⟨h1, h2, h3, h4, -, rfl, rfl, rfl⟩ := C23_change _ _ _ _ _ new
  have hv := C19_generate keys complete gen wf.pays.depth (fun i hi => by
    rcases wf.inputs_ok _ hi with ⟨a1, a2, a3, a4, a5⟩ | ⟨a1, a2, a3⟩ <;> exact a3)
  have hroot : n.aux_info.merkle_root = info.fee_input.acc.root := congrArg FreezePublicInput.merkle_root hpub
  refine ⟨info, info.fee_chg_ro, n, sk, outs, new, gen, ?_, ?_, ?_, houts, congrArg FreezePublicInput.fee hpub, h1⟩
  · rw [← wf.pays.member.1, ← hroot]
    exact hv
  · refine (congrArg FreezePublicInput.input_nullifiers hpub).trans ?_
    unfold nullifierOf FeeInput.toTransferInput
    simp only [wf.pays.native]
    rfl
  · rw [houts]
    exact congrArg FreezePublicInput.output_commitments hpub

/-- **What is missing, exactly**: the library publishes the PRF under `hash(0,1,0)` for records of the neutral address,
while the circuit wants the PRF under the freezer's secret key. -/
theorem C54_exact (complete : SnarkComplete) (keys : freezePreprocess num d = .ok (pk, vk))
    (wf : WellFormedFreeze num d.val root inputs fi fee) {blind : F} {info : TxnFeeInfo} {chg : RecordOpening}
    (new : TxnFeeInfo.new blind fi fee = .ok (info, chg)) (rng : FreezeRand) :
    (∃ n sk outs, FreezeNote.generate rng inputs info pk = .ok (n, sk, outs)) ↔
      ∀ i ∈ inputs, i.ro.pub_key.address = 0 →
        E.prf (frToFq i.keypair.sec_key) [(i.acc.uid.val : F), i.ro.commitment] =
          E.prf (E.hash3 0 1 0) [(i.acc.uid.val : F), i.ro.commitment] := by
  have key : ∀ i : FreezeNoteInput, i.ro.pub_key.address = 0 →
      (circuitNullifierOf i = freezerNullifierOf i ↔
        E.prf (frToFq i.keypair.sec_key) [(i.acc.uid.val : F), i.ro.commitment] =
          E.prf (E.hash3 0 1 0) [(i.acc.uid.val : F), i.ro.commitment]) := by
    intro i h0
    have h1 : circuitNullifierOf i = E.prf (frToFq i.keypair.sec_key) [(i.acc.uid.val : F), i.ro.commitment] := by
      unfold circuitNullifierOf spendNullifier nullifyV
      rw [RecordOpening.toV_commitment,
        show spendOtherPk i.ro.toV .freezer = E.xy i.ro.pub_key.address from rfl, deriveNullifierKeyV_host, if_pos h0]
      rfl
    rw [h1, show freezerNullifierOf i = _ from (C09_library_circuit i.ro i.acc i.keypair).2 h0]
  constructor
  · rintro ⟨n, sk, outs, gen⟩ i hi h0
    have h := FreezeNote.generate_ok.1 gen
    have hsp := h.sat.1.spends
    obtain ⟨k, hk, rfl⟩ := List.mem_iff_getElem.1 hi
    rw [← key _ h0]
    have hlen := freezeGetOutputRos_length rng.blinds inputs
    have hb : k < ((freezeWitV rng.blinds inputs info).inputs.zip (freezePubV rng.blinds inputs info).nullifiers).length := by
      simp only [freezeWitV, freezePubV, freezeInputsV_zipWith, List.length_zip, List.length_zipWith, List.length_map]
      omega
    have hx := hsp _ (List.getElem_mem hb)
    simp only [freezeWitV, freezePubV, freezeInputsV_zipWith, List.getElem_zip, List.getElem_zipWith,
      List.getElem_map] at hx
    exact hx.2.2.2
  · intro h
    obtain ⟨n, sk, outs, gen, -⟩ := freeze_generates complete keys wf (fun i hi => by
      by_cases h0 : i.ro.pub_key.address = 0
      · exact (key i h0).2 (h i hi h0)
      · exact spendNullifier_freezer _ _ _ h0) new rng
    exact ⟨n, sk, outs, gen⟩

/-- **The property as stated is false**: with a record owned by the neutral address no note is generated, or the PRF
takes the same value under two named keys. -/
theorem C54_false (complete : SnarkComplete) (keys : freezePreprocess num d = .ok (pk, vk))
    (wf : WellFormedFreeze num d.val root inputs fi fee) {i : FreezeNoteInput} (mem : i ∈ inputs)
    (unowned : i.ro.pub_key.address = 0) (differ : frToFq i.keypair.sec_key ≠ E.hash3 0 1 0)
    {blind : F} {info : TxnFeeInfo} {chg : RecordOpening}
    (new : TxnFeeInfo.new blind fi fee = .ok (info, chg)) (rng : FreezeRand) :
    (∀ res, FreezeNote.generate rng inputs info pk ≠ .ok res) ∨
      Collides (fun k => E.prf k [(i.acc.uid.val : F), i.ro.commitment]) (frToFq i.keypair.sec_key) (E.hash3 0 1 0) := by
  by_cases h : E.prf (frToFq i.keypair.sec_key) [(i.acc.uid.val : F), i.ro.commitment] =
          E.prf (E.hash3 0 1 0) [(i.acc.uid.val : F), i.ro.commitment]
  · exact Or.inr ⟨differ, h⟩
  · refine Or.inl ?_
    rintro ⟨n, sk, outs⟩ gen
    exact h ((C54_exact complete keys wf new rng).1 ⟨n, sk, outs, gen⟩ i mem unowned)

end

end Cap

namespace Cap.Examples
open Toy Spec

/-- releasing Bob's record, freezing Alice's, with a dummy in the third place -/
theorem frz_wellFormed : WellFormedFreeze 4 1 root frzInputs ⟨feeRec, acc0, alice⟩ 7 where
  some_input := by simp [frzInputs]
  num_in := rfl
  pays := ⟨rfl, rfl, rfl, rfl, by decide +kernel, by decide +kernel⟩
  inputs_ok := by
    intro i hi
    simp only [frzInputs, List.mem_cons, List.not_mem_nil, or_false] at hi
    rcases hi with rfl | rfl | rfl
    · exact .real (by decide +kernel) (by decide +kernel) rfl rfl (by decide +kernel)
    · exact .real (by decide +kernel) (by decide +kernel) rfl rfl (by decide +kernel)
    · exact .dummy rfl rfl rfl
  once := by decide +kernel

example : SnarkComplete ∧ freezePreprocess 4 (1 : Fin 256) = .ok (frzPk, frzVk) ∧
    (∀ i ∈ frzInputs, i.ro.pub_key.address ≠ 0) := ⟨complete, frzKeys_eq, by decide +kernel⟩

/-- a record of the asset that belongs to the neutral address -/
def strayRec : RecordOpening := ⟨40, asset, ⟨0, bob.pubKey.enc_key⟩, .frozen, 33⟩
/-- the root of a tree with Alice's native record and the stray one -/
def strayRoot : ZMod p := E.nodeHash leaf0 leaf1 (E.leafHash 2 strayRec.commitment)

/-- the freezer cannot release it, although the request is well-formed -/
example : WellFormedFreeze 2 1 strayRoot [⟨strayRec, ⟨[⟨leaf0, leaf1, .right⟩], strayRoot, 2⟩, freezer⟩]
      ⟨feeRec, ⟨[⟨leaf1, E.leafHash 2 strayRec.commitment, .left⟩], strayRoot, 0⟩, alice⟩ 7 ∧
    strayRec.pub_key.address = 0 ∧ frToFq freezer.sec_key ≠ E.hash3 0 1 0 ∧
    ¬ Collides (fun k => E.prf k [((2 : U64).val : F), strayRec.commitment]) (frToFq freezer.sec_key) (E.hash3 0 1 0) := by
  refine ⟨⟨by simp, rfl, ⟨rfl, rfl, rfl, rfl, ⟨rfl, by decide +kernel⟩, by decide +kernel⟩, ?_, by decide +kernel⟩, rfl,
    by decide +kernel, fun h => absurd h.2 (by decide +kernel)⟩
  intro i hi
  simp only [List.mem_singleton] at hi
  subst hi
  exact .real (by decide +kernel) (by decide +kernel) rfl rfl (by decide +kernel)

end Cap.Examples
