/-
Mint and freeze notes made from assignments an adversary can choose.  Used to show that a property fails.
-/
import Verif.Lemmas.Forge

namespace Cap

open Spec

variable [E : CapEnv] [S : CapExt]

omit S in
/-- the change that makes the field equation of the fee true: `amount - fee` in the field -/
def wrappedChange (fee_ro : RecordOpening) (fee : Amount) : RecordV :=
  { fee_ro.toV with amount := Amount.toF fee_ro.amount - Amount.toF fee }

omit S in
theorem native_toV {r : RecordOpening} (h : r.asset_def = AssetDefinition.native) :
    r.toV.asset_code = nativeCode ∧ r.toV.policy = AssetPolicy.default.toV := by
  simp only [RecordOpening.toV, h]
  exact ⟨rfl, rfl⟩

/-! ### Mint -/

omit S in
/-- the assignment -/
def mintForgeWit (fee_ro mint_ro : RecordOpening) (k : UserKeyPair) (fee : Amount) (acc : AccV) (seed digest : F) :
    MintWit :=
  ⟨mint_ro.toV, frToFq k.sk, fee_ro.toV, acc, wrappedChange fee_ro fee, seed, digest, 0⟩

/-- the note -/
def mintForgeNote (fee_ro mint_ro : RecordOpening) (k : UserKeyPair) (fee : Amount) (acc : AccV) (seed digest : F)
    (π : S.Proof) : MintNote :=
  ⟨spendNullifier fee_ro.toV acc (frToFq k.sk) .user, (wrappedChange fee_ro fee).commitment, mint_ro.toV.commitment,
    mint_ro.amount, mint_ro.asset_def, internalCode seed digest, π, ⟨0, [0, 0, 0]⟩,
    ⟨spendRoot fee_ro.toV acc, fee, 0⟩⟩

/-- Any fee can be paid from any native record: the change wraps around in the field. -/
theorem mint_forge (complete : SnarkComplete) {d : Fin 256} {pk : MintProvingKey} {vk : MintVerifyingKey}
    (keys : mintPreprocess d = .ok (pk, vk)) {fee_ro mint_ro : RecordOpening} {k : UserKeyPair} {fee : Amount}
    {acc : AccV} {seed digest : F} (fee_asset : fee_ro.asset_def = AssetDefinition.native)
    (fee_unfrozen : fee_ro.freeze_flag = .unfrozen) (fee_owner : fee_ro.pub_key.address = k.address)
    (path : acc.path.length = d.val) (mint_unfrozen : mint_ro.freeze_flag = .unfrozen)
    (mint_small : mint_ro.amount.val < 2 ^ 127) (no_viewer : mint_ro.asset_def.policy.viewer_pk = 0) :
    ∃ π, OpensMint d.val (mintForgeNote fee_ro mint_ro k fee acc seed digest π)
        (mintForgeWit fee_ro mint_ro k fee acc seed digest) ∧
      (mint_ro.asset_def.code = domesticFromInternal (internalCode seed digest) →
        (mintForgeNote fee_ro mint_ro k fee acc seed digest π).verify vk (spendRoot fee_ro.toV acc) = .ok ()) ∧
      S.verify vk.key (mintForgeNote fee_ro mint_ro k fee acc seed digest π).pub.toScalars π
        (E.verKeyBytes 0) = true := by
  obtain ⟨x, hk⟩ := mintPreprocess_key keys
  have sat : MintSat (mintForgeWit fee_ro mint_ro k fee acc seed digest)
      ⟨spendRoot fee_ro.toV acc, nativeCode, spendNullifier fee_ro.toV acc (frToFq k.sk) .user, Amount.toF fee,
        mint_ro.toV.commitment, (wrappedChange fee_ro fee).commitment, Amount.toF mint_ro.amount,
        mint_ro.asset_def.code, internalCode seed digest, mint_ro.asset_def.policy.toV, ⟨E.xy 0, [0, 0, 0]⟩⟩ :=
    { memo_len := rfl, mint_rc := rfl, chg_rc := rfl, internal := rfl
      balance := by
        show Amount.toF fee + (Amount.toF fee_ro.amount - Amount.toF fee) = Amount.toF fee_ro.amount
        ring
      spend := (SpendOk_user_host _ _).2 fee_owner
      root := rfl, nullifier := rfl
      mint_unfrozen := FreezeFlag.toBool_eq_false.2 mint_unfrozen
      fee_unfrozen := FreezeFlag.toBool_eq_false.2 fee_unfrozen
      chg_unfrozen := FreezeFlag.toBool_eq_false.2 fee_unfrozen
      mint_range := by
        show (Amount.toF mint_ro.amount).val < 2 ^ 127
        rw [Amount.toF_val]; exact mint_small
      mint_amount := rfl, mint_code := rfl
      mint_policy := PolicyV.enforceEqual_iff.2 rfl
      chg_code := (native_toV fee_asset).1, fee_code := (native_toV fee_asset).1
      chg_policy := PolicyV.enforceDummy_iff.2 (native_toV fee_asset).2
      fee_policy := PolicyV.enforceDummy_iff.2 (native_toV fee_asset).2
      same_owner := rfl
      rand_ok := Forgery.zero_ok
      memo := Or.inl ((isDummyViewingPk_host _).2 no_viewer) }
  obtain ⟨π, -, hv⟩ := complete _ _ _ hk (.mint _ _) ⟨path, rfl⟩ sat (E.verKeyBytes 0) 0
  exact ⟨π, ⟨⟨path, rfl⟩, sat⟩, fun hd => MintNote.verify_ok.2 ⟨rfl, hd, hv⟩, hv⟩

/-! ### Freeze -/

/-- the note -/
def freezeForgeNote (fee_ro : RecordOpening) (k : UserKeyPair) (fee : Amount) (acc : AccV)
    (inputs : List FreezeInputV) (π : S.Proof) : FreezeNote :=
  ⟨spendNullifier fee_ro.toV acc (frToFq k.sk) .user :: inputs.map (fun i => spendNullifier i.ro i.acc i.sk .freezer),
    (wrappedChange fee_ro fee).commitment :: inputs.map (·.out.commitment), π, ⟨spendRoot fee_ro.toV acc, fee, 0⟩⟩

omit S in
/-- the assignment -/
def freezeForgeWit (fee_ro : RecordOpening) (k : UserKeyPair) (fee : Amount) (acc : AccV)
    (inputs : List FreezeInputV) : FreezeWit :=
  ⟨fee_ro.toV, acc, frToFq k.sk, wrappedChange fee_ro fee, inputs⟩

omit S in
/-- the gates of one freezing input, for a given root -/
structure FreezeForgeOk (root : F) (d : ℕ) (i : FreezeInputV) : Prop where
  pair : FreezePairOk i
  freezer : i.ro.policy.isDummyFreezerPk = false ∨ i.ro.isDummy = true
  spend : SpendOk i.ro i.sk .freezer
  root_ok : spendRoot i.ro i.acc = root ∨ i.ro.isDummy = true
  path : i.acc.path.length = d

omit S in
theorem mem_zip_map {α β : Type} {f : α → β} {l : List α} {x : α × β} (h : x ∈ l.zip (l.map f)) :
    x.1 ∈ l ∧ x.2 = f x.1 := by
  rw [List.zip_map_right] at h
  obtain ⟨y, hy, rfl⟩ := List.mem_map.1 h
  have : ∀ {l : List α} {y : α × α}, y ∈ l.zip l → y.1 ∈ l ∧ y.1 = y.2 := by
    intro l
    induction l with
    | nil => simp
    | cons a as ih =>
      intro y hy
      simp only [List.zip_cons_cons, List.mem_cons] at hy
      rcases hy with rfl | hy
      · simp
      · exact ⟨List.mem_cons_of_mem _ (ih hy).1, (ih hy).2⟩
  obtain ⟨h1, h2⟩ := this hy
  exact ⟨h1, by simp [Prod.map, h2]⟩

/-- Any fee can be paid from any native record, beside any freezing inputs that satisfy their gates. -/
theorem freeze_forge (complete : SnarkComplete) {d : Fin 256} {pk : FreezeProvingKey} {vk : FreezeVerifyingKey}
    {inputs : List FreezeInputV} (keys : freezePreprocess (inputs.length + 1) d = .ok (pk, vk))
    {fee_ro : RecordOpening} {k : UserKeyPair} {fee : Amount}
    {acc : AccV} (fee_asset : fee_ro.asset_def = AssetDefinition.native)
    (fee_unfrozen : fee_ro.freeze_flag = .unfrozen) (fee_owner : fee_ro.pub_key.address = k.address)
    (path : acc.path.length = d.val) (ok : ∀ i ∈ inputs, FreezeForgeOk (spendRoot fee_ro.toV acc) d.val i) :
    ∃ π, OpensFreeze (inputs.length + 1) d.val (freezeForgeNote fee_ro k fee acc inputs π)
        (freezeForgeWit fee_ro k fee acc inputs) ∧
      (freezeForgeNote fee_ro k fee acc inputs π).verify vk (spendRoot fee_ro.toV acc) = .ok () := by
  obtain ⟨-, x, hk⟩ := freezePreprocess_key keys
  have shape : FreezeShape (inputs.length + 1) d.val (freezeForgeWit fee_ro k fee acc inputs)
      ⟨spendRoot fee_ro.toV acc, nativeCode, Amount.toF fee, spendNullifier fee_ro.toV acc (frToFq k.sk) .user,
        inputs.map (fun i => spendNullifier i.ro i.acc i.sk .freezer), (wrappedChange fee_ro fee).commitment,
        inputs.map (·.out.commitment)⟩ :=
    ⟨rfl, by simp, by simp, path, fun i hi => (ok i hi).path⟩
  have sat : FreezeSat (freezeForgeWit fee_ro k fee acc inputs)
      ⟨spendRoot fee_ro.toV acc, nativeCode, Amount.toF fee, spendNullifier fee_ro.toV acc (frToFq k.sk) .user,
        inputs.map (fun i => spendNullifier i.ro i.acc i.sk .freezer), (wrappedChange fee_ro fee).commitment,
        inputs.map (·.out.commitment)⟩ :=
    { fee_code := (native_toV fee_asset).1
      fee_policy := PolicyV.enforceDummy_iff.2 (native_toV fee_asset).2
      chg_code := (native_toV fee_asset).1
      chg_policy := PolicyV.enforceDummy_iff.2 (native_toV fee_asset).2
      fee_unfrozen := FreezeFlag.toBool_eq_false.2 fee_unfrozen
      chg_unfrozen := FreezeFlag.toBool_eq_false.2 fee_unfrozen
      balance := by
        show (Amount.toF fee_ro.amount - Amount.toF fee) + Amount.toF fee = Amount.toF fee_ro.amount
        ring
      spend := (SpendOk_user_host _ _).2 fee_owner
      root := rfl, nullifier := rfl
      pairs := fun i hi => (ok i hi).pair
      chg_commitment := rfl
      out_commitments := fun x hx => (mem_zip_map hx).2.symm
      spends := fun x hx => by
        obtain ⟨h1, h2⟩ := mem_zip_map hx
        have := ok _ h1
        exact ⟨this.freezer, this.spend, this.root_ok, h2.symm⟩ }
  obtain ⟨π, -, hv⟩ := complete _ _ _ hk (.freeze _ _) shape sat (E.verKeyBytes 0) 0
  exact ⟨π, ⟨_, rfl, shape, sat⟩, FreezeNote.verify_ok.2 ⟨rfl, hv⟩⟩

omit S in
/-- a freezing input that is a dummy -/
def dummyFreezeInput (d : ℕ) : FreezeInputV :=
  let v : RecordV := ⟨0, dummyCode, neutral, ⟨neutral, neutral, E.xy E.gen, 0, 0⟩, false, 0⟩
  ⟨v, ⟨0, edge d⟩, frToFq 1, { v with freeze_flag := true }⟩

omit S in
theorem dummyFreezeInput_ok (root : F) (d : ℕ) : FreezeForgeOk root d (dummyFreezeInput d) where
  pair := by
    refine ⟨?_, rfl, rfl, rfl, PolicyV.enforceEqual_iff.2 rfl⟩
    simp [dummyFreezeInput, boolF]
  freezer := Or.inr (by simp [dummyFreezeInput, RecordV.isDummy])
  spend := by
    refine ⟨one_ok, ?_⟩
    show deriveUserAddressV (frToFq 1) = E.xy E.gen
    rw [deriveUserAddressV_frToFq, smulFr_one]
  root_ok := Or.inr (by simp [dummyFreezeInput, RecordV.isDummy])
  path := Forgery.edge_length d

end Cap
