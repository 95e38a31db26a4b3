/-
Concrete records, keys and notes of the toy environment, used in the non-vacuity examples only.

One user owns a native record and a record of an asset whose policy names a viewer, a credential issuer and a
freezer; both are leaves of a Merkle tree of depth 1, next to a frozen record of the same asset.
-/
import Verif.Model.Toy

namespace Cap.Toy

/-- the owner of the records -/
def alice : UserKeyPair := ⟨(5 : ZMod r), (9 : UInt8)⟩
/-- the receiver -/
def bob : UserKeyPair := ⟨(6 : ZMod r), (10 : UInt8)⟩
/-- the viewer named in the policy -/
def viewer : ViewerKeyPair := ⟨(8 : ZMod r)⟩
/-- the freezer named in the policy -/
def freezer : FreezerKeyPair := FreezerKeyPair.generate (7 : ZMod r)
/-- the secret key of the credential issuer named in the policy -/
def issuer : ZMod r := 11

/-- viewer, issuer and freezer set; address, amount, blinding factor and attribute 1 revealed above 10 -/
def policy : AssetPolicy :=
  { viewer_pk := viewer.pubKey, cred_pk := smulFr issuer E.gen, freezer_pk := freezer.pub_key,
    reveal_map := #v[true, true, true, true, false, true, false, false, false, false, false, false],
    reveal_threshold := 10 }

/-- the seed of the asset code -/
def seed : ZMod p := 21
/-- the description of the asset -/
def desc : List Byte := [1, 2, 3]
/-- the asset -/
def asset : AssetDefinition := ⟨newDomestic seed desc, policy⟩

/-- Alice's credential -/
def cred : ExpirableCredential :=
  { user_addr := alice.address, attrs := [1, 2, 3, 4, 5, 6, 7, 8], expiry := 1000,
    cred := E.schnorrSign issuer (ExpirableCredential.msg 1000 alice.address [1, 2, 3, 4, 5, 6, 7, 8]),
    creator_pk := smulFr issuer E.gen }

/-- Alice's native record -/
def feeRec : RecordOpening := ⟨100, AssetDefinition.native, alice.pubKey, .unfrozen, 31⟩
/-- Alice's record of the asset -/
def assetRec : RecordOpening := ⟨50, asset, alice.pubKey, .unfrozen, 32⟩
/-- Bob's frozen record of the asset -/
def frozenRec : RecordOpening := ⟨40, asset, bob.pubKey, .frozen, 33⟩
/-- a dummy record -/
def dummyRec : RecordOpening := ⟨0, AssetDefinition.dummy, bob.pubKey, .unfrozen, 34⟩

/-- leaf 0 -/
def leaf0 : ZMod p := E.leafHash 0 feeRec.commitment
/-- leaf 1 -/
def leaf1 : ZMod p := E.leafHash 1 assetRec.commitment
/-- leaf 2 -/
def leaf2 : ZMod p := E.leafHash 2 frozenRec.commitment
/-- the root of the tree -/
def root : ZMod p := E.nodeHash leaf0 leaf1 leaf2

/-- witness for leaf 0 -/
def acc0 : AccMemberWitness := ⟨[⟨leaf1, leaf2, .left⟩], root, 0⟩
/-- witness for leaf 1 -/
def acc1 : AccMemberWitness := ⟨[⟨leaf0, leaf2, .middle⟩], root, 1⟩
/-- witness for leaf 2 -/
def acc2 : AccMemberWitness := ⟨[⟨leaf0, leaf1, .right⟩], root, 2⟩
/-- made-up witness for a dummy record -/
def accDummy : AccMemberWitness := ⟨[⟨0, 0, .left⟩], 77, 5⟩

/-- fee change of the transfer -/
def chgRec : RecordOpening := ⟨93, AssetDefinition.native, alice.pubKey, .unfrozen, 41⟩
/-- what Bob receives -/
def outBob : RecordOpening := ⟨20, asset, bob.pubKey, .unfrozen, 42⟩
/-- what Alice keeps -/
def outAlice : RecordOpening := ⟨30, asset, alice.pubKey, .unfrozen, 43⟩

/-- inputs of the transfer: fee record, asset record, dummy record -/
def xfrInputs : List TransferNoteInput :=
  [⟨feeRec, acc0, alice, none⟩, ⟨assetRec, acc1, alice, some cred⟩, ⟨dummyRec, accDummy, bob, none⟩]
/-- outputs of the transfer -/
def xfrOutputs : List RecordOpening := [chgRec, outBob, outAlice]
/-- randomness -/
def rng : TransferRand := ⟨(51 : ZMod r), (52 : ZMod r), 0⟩

/-- key pair for three inputs and three outputs -/
noncomputable def xfrKeys : Res (TransferProvingKey × TransferVerifyingKey) := transferPreprocess 3 3 1
/-- proving key -/
noncomputable def xfrPk : TransferProvingKey := ⟨.transfer 3 3 1, 3, 3, 1⟩
/-- verifying key -/
noncomputable def xfrVk : TransferVerifyingKey := ⟨.transfer 3 3 1, 3, 3, 1⟩

theorem xfrKeys_eq : transferPreprocess 3 3 1 = .ok (xfrPk, xfrVk) := rfl

/-- did it succeed? -/
def isOk {α : Type} : Res α → Bool
  | .ok _ => true
  | .error _ => false

/-- the value of a successful result -/
def okVal {α : Type} : (x : Res α) → isOk x = true → α
  | .ok a, _ => a
  | .error _, h => nomatch h

theorem okVal_eq {α : Type} : ∀ (x : Res α) (h : isOk x = true), x = .ok (okVal x h)
  | .ok _, _ => rfl
  | .error _, h => nomatch h

theorem okVal_eq2 {α β : Type} : ∀ (x : Res (α × β)) (h : isOk x = true), x = .ok ((okVal x h).1, (okVal x h).2)
  | .ok _, _ => rfl
  | .error _, h => nomatch h

theorem okVal_eq3 {α β γ : Type} : ∀ (x : Res (α × β × γ)) (h : isOk x = true),
    x = .ok ((okVal x h).1, (okVal x h).2.1, (okVal x h).2.2)
  | .ok _, _ => rfl
  | .error _, h => nomatch h

theorem xfr_isOk : isOk (TransferNote.generate .release rng xfrInputs xfrOutputs xfrPk 900 [1, 2, 3]) = true := by
  decide +kernel

/-- the transfer note -/
noncomputable def xfrNote : TransferNote :=
  (okVal (TransferNote.generate .release rng xfrInputs xfrOutputs xfrPk 900 [1, 2, 3]) xfr_isOk).1

/-- the key that signs its receiver memos -/
noncomputable def xfrSk : Fr :=
  (okVal (TransferNote.generate .release rng xfrInputs xfrOutputs xfrPk 900 [1, 2, 3]) xfr_isOk).2

theorem xfrNote_eq :
    TransferNote.generate .release rng xfrInputs xfrOutputs xfrPk 900 [1, 2, 3] = .ok (xfrNote, xfrSk) :=
  okVal_eq _ xfr_isOk

/-! A mint note: Alice pays a fee of 7 and mints 1000 of the asset for Bob. -/

/-- the minted record -/
def mintRec : RecordOpening := ⟨1000, asset, bob.pubKey, .unfrozen, 44⟩
/-- fee input and change -/
def feeInfo : TxnFeeInfo := ⟨⟨feeRec, acc0, alice⟩, 7, chgRec⟩
/-- proving key -/
noncomputable def mintPk : MintProvingKey := ⟨.mint 1, 1⟩
/-- verifying key -/
noncomputable def mintVk : MintVerifyingKey := ⟨.mint 1, 1⟩

theorem mintKeys_eq : mintPreprocess 1 = .ok (mintPk, mintVk) := rfl

theorem mint_isOk : isOk (MintNote.generate rng mintRec seed desc feeInfo mintPk) = true := by
  decide +kernel

/-- the mint note -/
noncomputable def mintNote : MintNote := (okVal (MintNote.generate rng mintRec seed desc feeInfo mintPk) mint_isOk).1
/-- the key that signs its receiver memos -/
noncomputable def mintSk : Fr := (okVal (MintNote.generate rng mintRec seed desc feeInfo mintPk) mint_isOk).2

theorem mintNote_eq : MintNote.generate rng mintRec seed desc feeInfo mintPk = .ok (mintNote, mintSk) :=
  okVal_eq _ mint_isOk

/-! A freeze note: the freezer releases Bob's record and freezes Alice's; a dummy record fills the third place. -/

/-- the inputs of the freeze note -/
def frzInputs : List FreezeNoteInput :=
  [⟨frozenRec, acc2, freezer⟩, ⟨assetRec, acc1, freezer⟩, ⟨dummyRec, accDummy, FreezerKeyPair.generate (0 : ZMod r)⟩]
/-- blinding factors of the outputs -/
def frzRng : FreezeRand := ⟨fun i => (i : ZMod p) + 60, (53 : ZMod r), 0⟩
/-- proving key -/
noncomputable def frzPk : FreezeProvingKey := ⟨.freeze 4 1, 1, 4⟩
/-- verifying key -/
noncomputable def frzVk : FreezeVerifyingKey := ⟨.freeze 4 1, 1, 4⟩

theorem frzKeys_eq : freezePreprocess 4 1 = .ok (frzPk, frzVk) := rfl

theorem frz_isOk : isOk (FreezeNote.generate frzRng frzInputs feeInfo frzPk) = true := by decide +kernel

/-- the freeze note -/
noncomputable def frzNote : FreezeNote := (okVal (FreezeNote.generate frzRng frzInputs feeInfo frzPk) frz_isOk).1
/-- the key that signs its receiver memos -/
noncomputable def frzSk : Fr := (okVal (FreezeNote.generate frzRng frzInputs feeInfo frzPk) frz_isOk).2.1
/-- the records it creates -/
noncomputable def frzOuts : List RecordOpening :=
  (okVal (FreezeNote.generate frzRng frzInputs feeInfo frzPk) frz_isOk).2.2

theorem frzNote_eq : FreezeNote.generate frzRng frzInputs feeInfo frzPk = .ok (frzNote, frzSk, frzOuts) :=
  okVal_eq _ frz_isOk

/-! A native transfer: Alice pays 60 to Bob with a fee of 3; the second input is a dummy. -/

/-- inputs -/
def natInputs : List TransferNoteInput := [⟨feeRec, acc0, alice, none⟩, ⟨dummyRec, accDummy, bob, none⟩]
/-- requested outputs -/
def natOutputs : List RecordOpening := [⟨60, AssetDefinition.native, bob.pubKey, .unfrozen, 45⟩]
/-- proving key -/
noncomputable def natPk : TransferProvingKey := ⟨.transfer 2 2 1, 2, 2, 1⟩
/-- verifying key -/
noncomputable def natVk : TransferVerifyingKey := ⟨.transfer 2 2 1, 2, 2, 1⟩

theorem natKeys_eq : transferPreprocess 2 2 1 = .ok (natPk, natVk) := rfl

/-- the call -/
noncomputable def natGen : Res (TransferNote × Fr × RecordOpening) :=
  TransferNote.generateNative .debug 46 rng natInputs natOutputs 3 800 natPk

theorem nat_isOk : isOk natGen = true := by
  decide +kernel

/-- the native transfer note -/
noncomputable def natNote : TransferNote := (okVal natGen nat_isOk).1
/-- the key that signs its receiver memos -/
noncomputable def natSk : Fr := (okVal natGen nat_isOk).2.1
/-- its change record -/
noncomputable def natChg : RecordOpening := (okVal natGen nat_isOk).2.2

theorem natNote_eq : natGen = .ok (natNote, natSk, natChg) := okVal_eq3 natGen nat_isOk

end Cap.Toy
