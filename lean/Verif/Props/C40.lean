/-
C40: generate refuses bad transfers before proving.

status: proved
note: Every condition in the statement, for every build and every choice of randomness, whatever the proof system (no assumption on the SNARK). Balance is exact over the natural numbers, not modulo 2^128. The code compares whole asset definitions where the circuit compares codes: a record with the dummy code and another policy is not a dummy for the library; for such a record only the stated ownership and stored root are guaranteed, and its amount must be zero (C40_odd_dummy).
-/
import Verif.Lemmas.BalanceExact
import Verif.Model.ToyNotes

namespace Cap

open Spec

variable [E : CapEnv] [S : CapExt]

/-- the circuit conditions hold of every input given to a successful `generate` -/
theorem TransferGen.inputOk {b rng inputs outputs pk valid_until extra n sk w pub}
    (h : TransferGen b rng inputs outputs pk valid_until extra n sk w pub) {i : TransferNoteInput} (hi : i ∈ inputs) :
    ∃ s first nl, inputSecretOf i = .ok s ∧ InputOk w.toV pub.toV first s.toV nl := by
  obtain ⟨h1, h2, h3, h4⟩ := newUnchecked_ok.1 h.witness
  obtain ⟨s0, ss, o0, os, hf⟩ := fromWitness_ok.1 h.pub_eq
  have hnl : pub.toV.nullifiers.length = w.toV.inputs.length := by
    simp [TransferPublicInput.toV, TransferWitness.toV, hf.nullifiers]
  have hall : ∀ x ∈ w.toV.inputs, ∃ first nl, InputOk w.toV pub.toV first x nl :=
    AllPos.forall_left (fun b x y hx => ⟨b, y, hx⟩) hnl.symm h.sat.inputs
  obtain ⟨s, hs, his⟩ := forall₂_mem_right (List.Forall₂.flip (R := fun a b => inputSecretOf b = .ok a) h4) i hi
  obtain ⟨first, nl, hok⟩ := hall s.toV (List.mem_map_of_mem (f := InputSecret.toV) hs)
  exact ⟨s, first, nl, his, hok⟩

/-- **What a successful `generate` has checked.** -/
theorem C40_generate {b : Build} {rng : TransferRand} {inputs : List TransferNoteInput}
    {outputs : List RecordOpening} {pk : TransferProvingKey} {valid_until : U64} {extra : List Byte}
    {n : TransferNote} {sk : Fr} (gen : TransferNote.generate b rng inputs outputs pk valid_until extra = .ok (n, sk)) :
    -- both sides non-empty and fitting the key
    inputs ≠ [] ∧ outputs ≠ [] ∧
    inputs.length = pk.n_inputs ∧ outputs.length = pk.n_outputs ∧
    (∀ i ∈ inputs, i.acc.path.length = pk.tree_depth.val) ∧
    -- non-dummy inputs are owned by the key given with them, and claim the published root
    (∀ i ∈ inputs, i.ro.asset_def ≠ AssetDefinition.dummy →
      i.ro.pub_key = i.owner_keypair.pubKey ∧ i.acc.root = n.aux_info.merkle_root) ∧
    -- and are in the tree with that root
    (∀ i ∈ inputs, i.ro.asset_def.code ≠ dummyCode →
      merkleRoot (i.acc.uid.val : F) i.ro.commitment i.acc.path = n.aux_info.merkle_root) ∧
    -- dummies have amount zero and are not first
    (∀ i ∈ inputs, i.ro.asset_def = AssetDefinition.dummy → i.ro.amount = 0) ∧
    (∀ i ∈ inputs.head?, i.ro.asset_def ≠ AssetDefinition.dummy) ∧
    -- nothing is frozen
    (∀ i ∈ inputs, i.ro.freeze_flag = .unfrozen) ∧ (∀ o ∈ outputs, o.freeze_flag = .unfrozen) ∧
    -- amounts balance per asset
    Balanced (inputs.map (·.ro)) outputs n.aux_info.fee ∧
    -- the fee side is native, the other records share one definition
    (∀ i ∈ inputs.head?, i.ro.asset_def = AssetDefinition.native) ∧
    (∀ o ∈ outputs.head?, o.asset_def = AssetDefinition.native) ∧
    ∃ ad, ad ≠ AssetDefinition.dummy ∧
      (∀ i ∈ inputs.tail, i.ro.asset_def = AssetDefinition.dummy ∨ i.ro.asset_def = ad) ∧
      (∀ o ∈ outputs.tail, o.asset_def = ad) := by
  obtain ⟨w, pub, h⟩ := TransferNote.generate_ok.1 gen
  have hk := h.key
  simp only [transferCheckProvingKey, bind_ok_iff, ensure_ok_iff, decide_eq_true_eq, List.all_eq_true] at hk
  obtain ⟨-, hk1, -, hk2, hk3⟩ := hk
  have hp := h.pub_keys
  simp only [transferCheckInputPubKeys, ensure_ok_iff, List.all_eq_true, decide_eq_true_eq, List.mem_filter,
    Bool.not_eq_true', and_imp] at hp
  have hd : ∀ i ∈ inputs, i.ro.asset_def ≠ AssetDefinition.dummy → i.ro.asset_def.isDummy = false := by
    intro i _ hne
    rw [← Bool.not_eq_true, AssetDefinition.isDummy_iff]
    exact hne
  have hroot : ∀ i ∈ inputs, i.ro.asset_def ≠ AssetDefinition.dummy → i.acc.root = n.aux_info.merkle_root := by
    intro i hi hne
    have hr := h.root
    unfold transferCheckAndGetRoots at hr
    split at hr
    · cases hr
    · rename_i i0 is
      split at hr
      · cases hr
      · rename_i hany
        simp only [Bool.not_eq_true, List.any_eq_false, List.mem_filter, Bool.not_eq_true', decide_eq_true_eq, not_not,
          and_imp] at hany
        rw [hany i hi (hd i hi hne)]
        exact Except.ok.inj hr
  have hu := h.unfrozen
  simp only [checkUnfrozen, ensure_ok_iff, Bool.not_eq_true', List.any_eq_false, decide_eq_true_eq, List.mem_append,
    List.mem_map] at hu
  have hflag : ∀ f : FreezeFlag, f ≠ .frozen → f = .unfrozen := by
    intro f hf
    cases f
    · rfl
    · exact absurd rfl hf
  obtain ⟨ad, ha⟩ := transferCheckAssetDef_ok.1 h.asset
  obtain ⟨r0, rs, hr, h0⟩ := ha.fee_in
  obtain ⟨i0, is, rfl, rfl, his⟩ := List.map_eq_cons_iff.1 hr
  obtain ⟨o0, os, rfl, ho0⟩ := ha.fee_out
  refine ⟨h.inputs_ne, h.outputs_ne, hk1.symm, hk2.symm, hk3, fun i hi hne => ⟨hp i hi (hd i hi hne), hroot i hi hne⟩,
    ?_, ?_, ?_, ?_, ?_, ?_, ?_, ?_, ad, ha.not_dummy, ?_, ha.outs⟩
  · intro i hi hne
    obtain ⟨s, first, nl, hs, hok⟩ := h.inputOk hi
    obtain ⟨-, s1, s2, -⟩ := inputSecretOf_ok.1 hs
    obtain ⟨-, -, -, -, -, hm, -⟩ := hok
    have hnd : ¬ s.toV.ro.isDummy = true := by
      show ¬ s.ro.toV.isDummy = true
      rw [RecordOpening.toV_isDummy, s1]
      exact hne
    have := hm.resolve_left hnd
    rw [show s.toV.ro = s.ro.toV from rfl, show s.toV.acc = s.acc.toV from rfl, spendRoot_host, s1, s2] at this
    rw [this, ← h.pub_note]
    rfl
  · intro i hi hdum
    have hdu := h.dummies
    simp only [checkDummyInputs, List.map_cons, bind_ok_iff, ensure_ok_iff, Bool.not_eq_true', List.any_eq_false,
      decide_eq_true_eq, not_and, not_not, List.mem_map, forall_exists_index, and_imp, forall_apply_eq_imp_iff₂] at hdu
    obtain ⟨-, hdu0, hdu⟩ := hdu
    rcases List.mem_cons.1 hi with rfl | hi
    · exact absurd (h0 ▸ hdum) nativeDef_ne_dummyDef
    · exact hdu i hi (AssetDefinition.isDummy_iff.2 hdum)
  · intro i hi
    simp only [List.head?_cons, Option.mem_def, Option.some.injEq] at hi
    subst hi
    rw [h0]
    exact nativeDef_ne_dummyDef
  · intro i hi
    exact hflag _ (hu i.ro (Or.inl ⟨i, hi, rfl⟩))
  · intro o ho
    exact hflag _ (hu o (Or.inr ho))
  · obtain ⟨s0, ss, o0', os', hf⟩ := fromWitness_ok.1 h.pub_eq
    obtain ⟨-, k2, -, k4⟩ := newUnchecked_ok.1 h.witness
    have hb := hf.balance
    have hlt := hf.bound
    rw [secrets_ro k4] at hb hlt
    rw [k2] at hb
    have hfee := fee_agree h.balance hb
    rw [← hfee] at hb
    exact checkBalance_total hb hlt h.balance
  · intro i hi
    simp only [List.head?_cons, Option.mem_def, Option.some.injEq] at hi
    rw [← hi]; exact h0
  · intro o ho
    simp only [List.head?_cons, Option.mem_def, Option.some.injEq] at ho
    rw [← ho]; exact ho0
  · intro i hi
    exact ha.ins i.ro (List.mem_map_of_mem (f := (·.ro)) hi)

/-- **Dummies by code.**  A record with the code of the dummy, whatever its policy, carries no value. -/
theorem C40_odd_dummy {b : Build} {rng : TransferRand} {inputs : List TransferNoteInput}
    {outputs : List RecordOpening} {pk : TransferProvingKey} {valid_until : U64} {extra : List Byte}
    {n : TransferNote} {sk : Fr} (gen : TransferNote.generate b rng inputs outputs pk valid_until extra = .ok (n, sk))
    {i : TransferNoteInput} (mem : i ∈ inputs) (code : i.ro.asset_def.code = dummyCode) : i.ro.amount = 0 := by
  obtain ⟨w, pub, h⟩ := TransferNote.generate_ok.1 gen
  obtain ⟨s, first, nl, hs, hok⟩ := h.inputOk mem
  obtain ⟨-, s1, s2, -⟩ := inputSecretOf_ok.1 hs
  obtain ⟨-, hz, -⟩ := hok
  have hd : s.toV.ro.isDummy = true := by
    show s.ro.toV.isDummy = true
    rw [RecordOpening.toV_isDummy, s1]
    exact code
  have := hz.resolve_left (by rw [hd]; decide)
  rw [← s1]
  exact Amount.toF_inj (this.trans Amount.toF_zero.symm)

/-- **Every input, dummies too, is owned by its key** (the circuit checks the address). -/
theorem C40_owned {b : Build} {rng : TransferRand} {inputs : List TransferNoteInput}
    {outputs : List RecordOpening} {pk : TransferProvingKey} {valid_until : U64} {extra : List Byte}
    {n : TransferNote} {sk : Fr} (gen : TransferNote.generate b rng inputs outputs pk valid_until extra = .ok (n, sk))
    {i : TransferNoteInput} (mem : i ∈ inputs) : i.ro.pub_key.address = i.owner_keypair.address := by
  obtain ⟨w, pub, h⟩ := TransferNote.generate_ok.1 gen
  obtain ⟨s, first, nl, hs, hok⟩ := h.inputOk mem
  obtain ⟨s0, s1, s2, -⟩ := inputSecretOf_ok.1 hs
  obtain ⟨-, -, -, hso, -⟩ := hok
  rw [← s0, ← s1]
  exact (SpendOk_user_host s.ro s.owner_keypair).1 hso

end Cap

namespace Cap.Examples

open Toy Spec

/-- a generated transfer -/
example : TransferNote.generate .release rng xfrInputs xfrOutputs xfrPk 900 [1, 2, 3] = .ok (xfrNote, xfrSk) := xfrNote_eq

/-- the same transfer with one thing wrong is refused -/
noncomputable def gen40 (inputs : List TransferNoteInput) (outputs : List RecordOpening) : Bool :=
  (TransferNote.generate .release rng inputs outputs xfrPk 900 [1, 2, 3]).isOk

/-- the toy inputs with the record of input `k` changed -/
def with40 (k : ℕ) (f : TransferNoteInput → TransferNoteInput) : List TransferNoteInput := xfrInputs.modify k f

example : gen40 xfrInputs xfrOutputs = true := by decide +kernel
-- an output more than the key has
example : gen40 xfrInputs (xfrOutputs ++ [outBob]) = false := by decide +kernel
-- the wrong key pair
example : gen40 (with40 1 (fun i => { i with owner_keypair := bob })) xfrOutputs = false := by decide +kernel
-- the wrong position in the tree
example : gen40 (with40 1 (fun i => { i with acc := { i.acc with uid := i.acc.uid + 1 } })) xfrOutputs = false := by
  decide +kernel
-- a frozen input, a frozen output
example : gen40 (with40 1 (fun i => { i with ro := { i.ro with freeze_flag := .frozen } })) xfrOutputs = false := by
  decide +kernel
example : gen40 xfrInputs [chgRec, outBob, { outAlice with freeze_flag := .frozen }] = false := by decide +kernel
-- one unit too much
example : gen40 xfrInputs [chgRec, { outBob with amount := 21 }, outAlice] = false := by decide +kernel
-- an output of another asset
example : gen40 xfrInputs [chgRec, { outBob with asset_def := { outBob.asset_def with code := 77 } }, outAlice] = false := by
  decide +kernel

end Cap.Examples
