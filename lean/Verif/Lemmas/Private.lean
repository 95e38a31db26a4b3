/-
Helper lemmas for C86: two requests with the same nullifiers, commitments and disclosed message have the same notes.
-/
import Verif.SpecPrivate
import Verif.Lemmas.CompleteMintFreeze
import Verif.Props.C48
import Verif.Props.C54

namespace Cap

open Spec

variable [E : CapEnv] [S : CapExt]

omit S in
theorem masks_of_hiding (h : CommitHiding) : ∃ σ, Masks σ := by
  have hl : ∀ r r' : RecordOpening, r.scalars.length = r'.scalars.length := fun _ _ => rfl
  refine ⟨fun r r' => if r.scalars = r'.scalars then Equiv.refl _ else
    Classical.choose (h r.scalars r'.scalars (hl r r')), fun r r' b => ?_, fun r r' b b' => rfl, fun r b => ?_⟩
  · by_cases hs : r.scalars = r'.scalars
    · simp only [if_pos hs]
      show E.commit r'.scalars b = E.commit r.scalars b
      rw [hs]
    · simp only [if_neg hs]
      exact Classical.choose_spec (h r.scalars r'.scalars (hl r r')) b
  · simp

omit S in
theorem Spec.Masks.commitment {σ} (m : Masks σ) (r r' : RecordOpening) :
    (disguise σ r r').commitment = r.commitment := m.same r r' r.blind

omit S in
theorem forall₂_zipWith_map {α β γ δ : Type*} {R : α → β → Prop} {f : α → β → γ} {g : γ → δ} {h : α → δ}
    (key : ∀ a b, R a b → g (f a b) = h a) {l : List α} {l' : List β} (hr : List.Forall₂ R l l') :
    (List.zipWith f l l').map g = l.map h := by
  induction hr with
  | nil => rfl
  | cons h1 _ ih => simp [key _ _ h1, ih]

theorem same_transfer {ni no : ℕ} {d : Fin 256} {valid_until : U64} {inputs inputs' : List TransferNoteInput}
    {outputs outputs' : List RecordOpening} {ad ad' : AssetDefinition} {fee : Amount} {root : F}
    {pk : TransferProvingKey} {vk : TransferVerifyingKey} (zk : ZeroKnowledge) (complete : SnarkComplete)
    (keys : transferPreprocess ni no d = .ok (pk, vk))
    (wf : WellFormed ni no d.val valid_until inputs outputs ad fee root) (lim : Limits valid_until inputs ad)
    (wf' : WellFormed ni no d.val valid_until inputs' outputs' ad' fee root) (lim' : Limits valid_until inputs' ad')
    (nul : inputs'.map nullifierOf = inputs.map nullifierOf)
    (comm : outputs'.map RecordOpening.commitment = outputs.map RecordOpening.commitment)
    (dis : disclosed ad' inputs' outputs' = disclosed ad inputs outputs) (b b' : Build) (sign enc : Fr)
    (extra : List Byte) :
    ∃ τ : ℕ ≃ ℕ, ∀ seed, ∃ n sk,
      TransferNote.generate b ⟨sign, enc, seed⟩ inputs outputs pk valid_until extra = .ok (n, sk) ∧
      TransferNote.generate b' ⟨sign, enc, τ seed⟩ inputs' outputs' pk valid_until extra = .ok (n, sk) := by
  obtain ⟨hk, hk1, hk2, hk3⟩ := transferPreprocess_ok keys
  -- what generation gives for each seed
  have gen : ∀ {inputs outputs ad} (wf : WellFormed ni no d.val valid_until inputs outputs ad fee root)
      (_ : Limits valid_until inputs ad) (b : Build), ∃ w pub, w.asset_def = ad ∧
      ∀ seed, ∃ n sk, TransferGen b ⟨sign, enc, seed⟩ inputs outputs pk valid_until extra n sk w pub ∧
        n.inputs_nullifiers = inputs.map nullifierOf ∧
        n.output_commitments = outputs.map RecordOpening.commitment ∧ n.aux_info.fee = fee ∧
        n.aux_info.merkle_root = root := by
    intro inputs outputs ad wf lim b
    obtain ⟨w, pub, hw, hp, -, had, -⟩ := wf.witness lim enc
    refine ⟨w, pub, had, fun seed => ?_⟩
    obtain ⟨n, sk, w', pub', h, hfee, hroot⟩ := wf.generates lim complete keys b ⟨sign, enc, seed⟩ extra
    have e1 := h.witness.symm.trans hw
    cases e1
    have e2 := h.pub_eq.symm.trans hp
    cases e2
    obtain ⟨n', sk', gen', -, -, -, q1, q2, -⟩ := C48_partial complete keys wf lim b ⟨sign, enc, seed⟩ extra
    have := (TransferNote.generate_ok.2 ⟨w, pub, h⟩).symm.trans gen'
    cases this
    exact ⟨n, sk, h, q1, q2, hfee, hroot⟩
  obtain ⟨w, pub, had, g⟩ := gen wf lim b
  obtain ⟨w', pub', had', g'⟩ := gen wf' lim' b'
  -- the memo
  have memo : ∀ {inputs outputs ad} (_ : WellFormed ni no d.val valid_until inputs outputs ad fee root) {w b seed n sk pub},
      w.asset_def = ad → TransferGen b ⟨sign, enc, seed⟩ inputs outputs pk valid_until extra n sk w pub →
      n.viewing_memo = match disclosed ad inputs outputs with
        | some x => viewerEncrypt x.1 enc x.2
        | none => emptyMemo enc ni no := by
    intro inputs outputs ad wf w b seed n sk pub had h
    obtain ⟨ad2, -, e, -, hm⟩ := h.memo_eq
    rw [had] at e
    subst e
    unfold disclosed
    split at hm
    · rename_i hc; rw [if_pos hc]; exact hm.2
    · rename_i hc; rw [if_neg hc]; rw [← wf.num_in, ← wf.num_out]; exact hm
  have fields : ∀ seed seed' n n' sk sk',
      TransferGen b ⟨sign, enc, seed⟩ inputs outputs pk valid_until extra n sk w pub →
      TransferGen b' ⟨sign, enc, seed'⟩ inputs' outputs' pk valid_until extra n' sk' w' pub' →
      n.inputs_nullifiers = n'.inputs_nullifiers → n.output_commitments = n'.output_commitments →
      n.aux_info.fee = n'.aux_info.fee → n.aux_info.merkle_root = n'.aux_info.merkle_root →
      sk = sk' ∧ ∀ π, { n with proof := π } = { n' with proof := π } := by
    intro seed seed' n n' sk sk' h h' e1 e2 e3 e4
    have e5 : n.viewing_memo = n'.viewing_memo := by rw [memo wf had h, memo wf' had' h', dis]
    have e6 := h.note_valid.trans h'.note_valid.symm
    have e7 := h.ver_key.trans h'.ver_key.symm
    have e8 := h.extra_eq.trans h'.extra_eq.symm
    refine ⟨h.sign_key.trans h'.sign_key.symm, fun π => ?_⟩
    obtain ⟨a1, a2, a3, a4, ⟨b1, b2, b3, b4, b5⟩⟩ := n
    obtain ⟨c1, c2, c3, c4, ⟨d1, d2, d3, d4, d5⟩⟩ := n'
    simp only at e1 e2 e3 e4 e5 e6 e7 e8
    subst e1 e2 e3 e4 e5 e6 e7 e8
    rfl
  have hpub : pub = pub' := by
    obtain ⟨n, sk, h, q1, q2, q3, q4⟩ := g 0
    obtain ⟨n', sk', h', q1', q2', q3', q4'⟩ := g' 0
    have := (fields 0 0 n n' sk sk' h h' (by rw [q1, q1', nul]) (by rw [q2, q2', comm]) (by rw [q3, q3']) (by rw [q4, q4'])).2
      n.proof
    rw [← h.pub_note, ← h'.pub_note]
    have h2 := congrArg TransferNote.pub this
    exact h2
  subst hpub
  have hs : TransferSat w.toV pub.toV ∧ TransferShape ni no d.val w.toV pub.toV := by
    obtain ⟨n, sk, h, -⟩ := g 0
    have := h.shape h.sat
    rw [hk1, hk2, hk3] at this
    exact ⟨h.sat, this⟩
  have hs' : TransferSat w'.toV pub.toV ∧ TransferShape ni no d.val w'.toV pub.toV := by
    obtain ⟨n, sk, h, -⟩ := g' 0
    have := h.shape h.sat
    rw [hk1, hk2, hk3] at this
    exact ⟨h.sat, this⟩
  obtain ⟨τ, hτ⟩ := zk _ _ _ hk (.transfer w.toV pub.toV) (.transfer w'.toV pub.toV) hs.2 hs.1 hs'.2 hs'.1 rfl
    (E.verKeyBytes (smulFr sign E.gen) ++ extra)
  refine ⟨τ, fun seed => ?_⟩
  obtain ⟨n, sk, h, q1, q2, q3, q4⟩ := g seed
  obtain ⟨n', sk', h', q1', q2', q3', q4'⟩ := g' (τ seed)
  obtain ⟨e, hn⟩ := fields seed (τ seed) n n' sk sk' h h' (by rw [q1, q1', nul]) (by rw [q2, q2', comm])
    (by rw [q3, q3']) (by rw [q4, q4'])
  have hp := h.prove
  have hp' := h'.prove
  unfold transferProve at hp hp'
  rw [if_pos ⟨hs.1, rfl⟩, orFailedSnark_ok] at hp
  rw [if_pos ⟨hs'.1, rfl⟩, orFailedSnark_ok] at hp'
  have hπ : n'.proof = n.proof := by
    have := hp'.symm.trans ((hτ seed).trans hp)
    exact Option.some.inj this
  have hnn : n = n' := by
    have := hn n.proof
    rw [← hπ] at this
    have e2 : { n with proof := n'.proof } = n := by rw [hπ]
    rw [e2] at this
    exact this
  refine ⟨n, sk, TransferNote.generate_ok.2 ⟨_, _, h⟩, ?_⟩
  rw [hnn, e]
  exact TransferNote.generate_ok.2 ⟨_, _, h'⟩

theorem mint_made {d : Fin 256} {pk : MintProvingKey} {vk : MintVerifyingKey}
    (keys : mintPreprocess d = .ok (pk, vk)) {root : F} {fi : FeeInput} {fee : Amount}
    (pays : PaysFee d.val root fi fee) {seed : F} {desc : List Byte} {ro : RecordOpening}
    (mintable : Mintable seed desc ro) {blind : F} {info : TxnFeeInfo} {chg : RecordOpening}
    (new : TxnFeeInfo.new blind fi fee = .ok (info, chg)) (rng : TransferRand) {π : S.Proof}
    (hp : S.prove pk.key (.mint (mintWitnessOf rng.enc_rand ro seed desc info).toV
      (mintPubOf rng.enc_rand ro seed desc info).toV) (E.verKeyBytes (smulFr rng.sign_sk E.gen)) rng.seed = some π) :
    MintNote.generate rng ro seed desc info pk = .ok (⟨nullifierOf fi.toTransferInput,
      chg.commitment, ro.commitment, ro.amount, ro.asset_def, internalCodeOfDesc seed desc, π,
      ViewableMemo.newForMintNote ro rng.enc_rand, ⟨root, fee, smulFr rng.sign_sk E.gen⟩⟩, rng.sign_sk) := by
  obtain ⟨hk, hd⟩ := mintPreprocess_ok keys
  have hch := mintable.checks pays new
  have gen : MintNote.generate rng ro seed desc info pk = .ok (⟨
      (mintPubOf rng.enc_rand ro seed desc info).input_nullifier,
      info.fee_chg_ro.commitment, ro.commitment, ro.amount, ro.asset_def,
      internalCodeOfDesc seed desc, π, ViewableMemo.newForMintNote ro rng.enc_rand,
      ⟨info.fee_input.acc.root, info.fee_amount, smulFr rng.sign_sk E.gen⟩⟩, rng.sign_sk) := by
    refine MintNote.generate_ok.2 ⟨by rw [hd]; exact hch, hp, ?_, rfl, rfl, rfl⟩
    unfold MintNote.pub mintPubOf
    simp only [mintable.code]
  obtain ⟨h1, h2, h3, h4, -, rfl, rfl, rfl⟩ := C23_change _ _ _ _ _ new
  rw [← pays.member.1]
  exact gen

theorem same_mint {d : Fin 256} {pk : MintProvingKey} {vk : MintVerifyingKey} (zk : ZeroKnowledge)
    (complete : SnarkComplete) (keys : mintPreprocess d = .ok (pk, vk)) {root : F} {fi fi' : FeeInput} {fee : Amount}
    (pays : PaysFee d.val root fi fee) (pays' : PaysFee d.val root fi' fee) {seed seed' : F} {desc desc' : List Byte}
    {ro ro' : RecordOpening} (mintable : Mintable seed desc ro) (mintable' : Mintable seed' desc' ro')
    (small : ro.amount.val < 2 ^ 127) {blind blind' : F} {info info' : TxnFeeInfo} {chg chg' : RecordOpening}
    (new : TxnFeeInfo.new blind fi fee = .ok (info, chg)) (new' : TxnFeeInfo.new blind' fi' fee = .ok (info', chg'))
    (nul : nullifierOf fi'.toTransferInput = nullifierOf fi.toTransferInput) (comm : ro'.commitment = ro.commitment)
    (chgs : chg'.commitment = chg.commitment) (amount : ro'.amount = ro.amount) (asset : ro'.asset_def = ro.asset_def)
    (code : internalCodeOfDesc seed' desc' = internalCodeOfDesc seed desc) (sign enc : Fr)
    (memo : ViewableMemo.newForMintNote ro' enc = ViewableMemo.newForMintNote ro enc) :
    ∃ τ : ℕ ≃ ℕ, ∀ s, ∃ n sk, MintNote.generate ⟨sign, enc, s⟩ ro seed desc info pk = .ok (n, sk) ∧
      MintNote.generate ⟨sign, enc, τ s⟩ ro' seed' desc' info' pk = .ok (n, sk) := by
  obtain ⟨hk, hd⟩ := mintPreprocess_ok keys
  have hch := mintable.checks pays new
  have hch' := mintable'.checks pays' new'
  have small' : ro'.amount.val < 2 ^ 127 := by rw [amount]; exact small
  have hpub : mintPubOf enc ro' seed' desc' info' = mintPubOf enc ro seed desc info := by
    have e1 := C23_change _ _ _ _ _ new
    have e2 := C23_change _ _ _ _ _ new'
    unfold nullifierOf FeeInput.toTransferInput at nul
    unfold mintPubOf
    rw [e1.2.2.2.2.2.2.1, e2.2.2.2.2.2.2.1, e1.2.2.2.2.2.1, e2.2.2.2.2.2.1, e1.2.2.2.2.2.2.2, e2.2.2.2.2.2.2.2,
      pays.member.1, pays'.member.1, comm, chgs, amount, asset, code, memo, ← mintable.code, ← mintable'.code, asset]
    simp only at nul
    rw [nul]
  obtain ⟨τ, hτ⟩ := zk _ _ _ hk (.mint (mintWitnessOf enc ro seed desc info).toV (mintPubOf enc ro seed desc info).toV)
    (.mint (mintWitnessOf enc ro' seed' desc' info').toV (mintPubOf enc ro' seed' desc' info').toV)
    (mint_shape hch) (mint_sat hch small) (mint_shape hch') (mint_sat hch' small') (by rw [hpub]; rfl)
    (E.verKeyBytes (smulFr sign E.gen))
  refine ⟨τ, fun s => ?_⟩
  obtain ⟨π, hp, -⟩ := complete _ _ _ hk (.mint _ _) (mint_shape hch) (mint_sat hch small)
    (E.verKeyBytes (smulFr sign E.gen)) s
  have hp' := (hτ s).trans hp
  refine ⟨_, _, mint_made keys pays mintable new ⟨sign, enc, s⟩ hp, ?_⟩
  rw [mint_made keys pays' mintable' new' ⟨sign, enc, τ s⟩ hp', nul, comm, chgs, amount, asset, code, memo]

theorem same_freeze {num : ℕ} {d : Fin 256} {root : F} {inputs inputs' : List FreezeNoteInput} {fi fi' : FeeInput}
    {fee : Amount} {pk : FreezeProvingKey} {vk : FreezeVerifyingKey} (zk : ZeroKnowledge) (complete : SnarkComplete)
    (keys : freezePreprocess num d = .ok (pk, vk)) (h : WellFormedFreeze num d.val root inputs fi fee)
    (h' : WellFormedFreeze num d.val root inputs' fi' fee) (owners : ∀ i ∈ inputs, i.ro.pub_key.address ≠ 0)
    (owners' : ∀ i ∈ inputs', i.ro.pub_key.address ≠ 0) {blind blind' : F}
    {info info' : TxnFeeInfo} {chg chg' : RecordOpening} (new : TxnFeeInfo.new blind fi fee = .ok (info, chg))
    (new' : TxnFeeInfo.new blind' fi' fee = .ok (info', chg'))
    (nul : nullifierOf fi'.toTransferInput = nullifierOf fi.toTransferInput)
    (nuls : inputs'.map freezerNullifierOf = inputs.map freezerNullifierOf)
    (chgs : chg'.commitment = chg.commitment) {blinds blinds' : ℕ → F}
    (comm : (freezeGetOutputRos blinds' inputs').map RecordOpening.commitment =
      (freezeGetOutputRos blinds inputs).map RecordOpening.commitment) (sign : Fr) :
    ∃ τ : ℕ ≃ ℕ, ∀ seed, ∃ n sk outs outs', FreezeNote.generate ⟨blinds, sign, seed⟩ inputs info pk = .ok (n, sk, outs) ∧
      FreezeNote.generate ⟨blinds', sign, τ seed⟩ inputs' info' pk = .ok (n, sk, outs') := by
  obtain ⟨hk, -⟩ := freezePreprocess_ok keys
  have same : ∀ i ∈ inputs, circuitNullifierOf i = freezerNullifierOf i :=
    fun i hi => spendNullifier_freezer _ _ _ (owners i hi)
  have same' : ∀ i ∈ inputs', circuitNullifierOf i = freezerNullifierOf i :=
    fun i hi => spendNullifier_freezer _ _ _ (owners' i hi)
  have hpub : freezePubOf blinds' inputs' info' = freezePubOf blinds inputs info := by
    have e1 := C23_change _ _ _ _ _ new
    have e2 := C23_change _ _ _ _ _ new'
    unfold nullifierOf FeeInput.toTransferInput at nul
    simp only [h.pays.native, h'.pays.native] at nul
    unfold freezePubOf
    rw [e1.2.2.2.2.2.2.1, e2.2.2.2.2.2.2.1, e1.2.2.2.2.2.1, e2.2.2.2.2.2.1, e1.2.2.2.2.2.2.2, e2.2.2.2.2.2.2.2,
      h.pays.member.1, h'.pays.member.1, chgs, comm]
    have n1 : inputs'.map (fun i => freezeNullifier i.keypair i.ro i.acc) =
      inputs.map (fun i => freezeNullifier i.keypair i.ro i.acc) := nuls
    rw [n1]
    have n2 : fi'.owner_keypair.nullify 0 fi'.acc.uid fi'.ro.commitment =
      fi.owner_keypair.nullify 0 fi.acc.uid fi.ro.commitment := nul
    rw [n2]
  have hv : (freezePubV blinds inputs info).toScalars = (freezePubV blinds' inputs' info').toScalars := by
    have e1 : (freezePubV blinds inputs info).toScalars = (freezePubOf blinds inputs info).toScalars := rfl
    have e2 : (freezePubV blinds' inputs' info').toScalars = (freezePubOf blinds' inputs' info').toScalars := rfl
    rw [e1, e2, hpub]
  obtain ⟨τ, hτ⟩ := zk _ _ _ hk (.freeze (freezeWitV blinds inputs info) (freezePubV blinds inputs info))
    (.freeze (freezeWitV blinds' inputs' info') (freezePubV blinds' inputs' info'))
    (freeze_shape h new blinds) (freeze_sat h same new blinds) (freeze_shape h' new' blinds')
    (freeze_sat h' same' new' blinds') hv (E.verKeyBytes (smulFr sign E.gen))
  refine ⟨τ, fun seed => ?_⟩
  obtain ⟨π, hp, -⟩ := complete _ _ _ hk (.freeze _ _) (freeze_shape h new blinds) (freeze_sat h same new blinds)
    (E.verKeyBytes (smulFr sign E.gen)) seed
  have hp' := (hτ seed).trans hp
  refine ⟨_, _, _, freezeGetOutputRos blinds' inputs', freeze_made keys h same new ⟨blinds, sign, seed⟩ hp, ?_⟩
  rw [freeze_made keys h' same' new' ⟨blinds', sign, τ seed⟩ hp']
  simp only [hpub]

/-! ### The other story, told about the same records of the tree -/

omit S in
theorem retell_nullifier {σ} (m : Masks σ) {i i' : TransferNoteInput} (h : SameSpender i i') :
    nullifierOf (retell σ i i') = nullifierOf i := by
  unfold nullifierOf UserKeyPair.nullify
  have e : (retell σ i i').ro.commitment = i.ro.commitment := m.commitment _ _
  rw [e]
  show nullifyWithKey (i'.owner_keypair.deriveNullifierKey i'.ro.asset_def.policy.freezer_pk) _ _ = _
  rw [h.key]
  rfl

omit S in
theorem retellFreeze_nullifier {σ} (m : Masks σ) {i i' : FreezeNoteInput} (h : SameFreezer i i') :
    freezerNullifierOf (retellFreeze σ i i') = freezerNullifierOf i := by
  unfold freezerNullifierOf FreezerKeyPair.nullify
  have e : (retellFreeze σ i i').ro.commitment = i.ro.commitment := m.commitment _ _
  rw [e]
  show nullifyWithKey (i'.keypair.deriveNullifierKey i'.ro.pub_key.address) _ _ = _
  rw [h.key]
  rfl

omit S in
theorem retellFee_pays {σ} (m : Masks σ) {d : ℕ} {root : F} {fi fi' : FeeInput} {fee : Amount}
    (h : PaysFee d root fi fee) (h' : FeeStory fi' fee) : PaysFee d root (retellFee σ fi fi') fee where
  depth := h.depth
  native := h'.native
  unfrozen := h'.unfrozen
  owned := h'.owned
  member := by
    have e : (retellFee σ fi fi').ro.commitment = fi.ro.commitment := m.commitment _ _
    rw [e]
    exact h.member
  covers := h'.covers

omit E S in
/-- facts about a list that only depend on what the other story says, not on where it is told -/
theorem zipWith_map_right {α β γ δ : Type*} {f : α → β → γ} {g : γ → δ} {h : β → δ}
    (key : ∀ a b, g (f a b) = h b) : ∀ {l : List α} {l' : List β}, l.length = l'.length →
    (List.zipWith f l l').map g = l'.map h
  | [], [], _ => rfl
  | a :: l, b :: l', hl => by
    simp [key, zipWith_map_right key (l := l) (l' := l') (by simpa using hl)]

omit E S in
theorem mem_zipWith {α β γ : Type*} {f : α → β → γ} : ∀ {l : List α} {l' : List β} {x : γ},
    x ∈ List.zipWith f l l' → ∃ a ∈ l, ∃ b ∈ l', x = f a b
  | [], _, _, h => by simp at h
  | _ :: _, [], _, h => by simp at h
  | a :: l, b :: l', x, h => by
    rcases List.mem_cons.1 (by simpa using h) with rfl | h
    · exact ⟨a, by simp, b, by simp, rfl⟩
    · obtain ⟨a', ha, b', hb, e⟩ := mem_zipWith h
      exact ⟨a', by simp [ha], b', by simp [hb], e⟩

omit E S in
theorem mem_zipWith₂ {α β γ : Type*} {f : α → β → γ} {R : α → β → Prop} {l : List α} {l' : List β}
    (hr : List.Forall₂ R l l') {x : γ} (hx : x ∈ List.zipWith f l l') : ∃ a ∈ l, ∃ b ∈ l', R a b ∧ x = f a b := by
  induction hr with
  | nil => simp at hx
  | @cons a b l l' h1 _ ih =>
    rcases List.mem_cons.1 (by simpa using hx) with rfl | h
    · exact ⟨a, by simp, b, by simp, h1, rfl⟩
    · obtain ⟨a', ha, b', hb, e⟩ := ih h
      exact ⟨a', by simp [ha], b', by simp [hb], e⟩

section
variable {ni no : ℕ} {d : Fin 256} {valid_until : U64} {inputs inputs' : List TransferNoteInput}
  {outputs outputs' : List RecordOpening} {ad ad' : AssetDefinition} {fee : Amount} {root : F}
  {σ : RecordOpening → RecordOpening → F ≃ F}

omit S in
theorem retell_total : ∀ (l l' : List TransferNoteInput), l.length = l'.length →
    total (real ((List.zipWith (retell σ) l l').map (·.ro))) = total (real (l'.map (·.ro))) := by
  intro l
  induction l with
  | nil => intro l' h; cases l' with
    | nil => rfl
    | cons => simp at h
  | cons a l ih => intro l' h; cases l' with
    | nil => simp at h
    | cons b l' =>
      have := ih l' (by simpa using h)
      unfold total real at this ⊢
      simp only [List.zipWith_cons_cons, List.map_cons, List.filter_cons]
      have h1' : (retell σ a b).ro.asset_def = b.ro.asset_def := rfl
      have h3 : (retell σ a b).ro.amount = b.ro.amount := rfl
      by_cases h1 : b.ro.asset_def = AssetDefinition.dummy
      · simpa [h1, h1'] using this
      · simpa [h1, h1', h3] using this

omit S in
theorem tail_zipWith' {α β γ : Type*} (f : α → β → γ) : ∀ (l : List α) (l' : List β),
    (List.zipWith f l l').tail = List.zipWith f l.tail l'.tail
  | [], _ => by simp
  | _ :: _, [] => by simp
  | _ :: _, _ :: _ => rfl

omit S in
theorem retell_moved {l l' : List TransferNoteInput} (h : l.length = l'.length) :
    moved (List.zipWith (retell σ) l l') = moved l' := by
  unfold moved
  rw [tail_zipWith']
  exact retell_total _ _ (by simp [h])

omit S in
theorem retell_limits {l l' : List TransferNoteInput} (h : l.length = l'.length) (lim : Limits valid_until l' ad') :
    Limits valid_until (List.zipWith (retell σ) l l') ad' where
  window := lim.window
  fresh := by
    intro i hi hc c hcr
    obtain ⟨a, ha, b, hb, rfl⟩ := mem_zipWith hi
    exact lim.fresh b hb hc c hcr
  memo := by
    rw [retell_moved h, tail_zipWith']
    rcases lim.memo with h1 | h1 | ⟨h1, h2⟩
    · exact .inl h1
    · exact .inr (.inl h1)
    · refine .inr (.inr ⟨h1, h2.imp id (fun h2 i hi ha => ?_)⟩)
      obtain ⟨a, -, b, hb, rfl⟩ := mem_zipWith hi
      exact h2 b hb ha

omit S in
/-- the message to the viewer of the retold story, if blinding factors are not revealed -/
theorem retell_message {l l' : List TransferNoteInput} {o o' : List RecordOpening} (h : l.length = l'.length)
    (ho : o.length = o'.length) (hm : ad'.policy.reveal_map[3] = false) :
    plainMessage ad' (List.zipWith (retell σ) l l') (List.zipWith (disguise σ) o o') = plainMessage ad' l' o' := by
  unfold plainMessage
  rw [tail_zipWith', tail_zipWith']
  simp only [List.flatMap_def]
  have e1 : ∀ a b : TransferNoteInput, plainInput ad'.policy.reveal_map (retell σ a b).ro (attrsOf (retell σ a b)) =
      plainInput ad'.policy.reveal_map b.ro (attrsOf b) := by
    intro a b
    have e3 : attrsOf (retell σ a b) = attrsOf b := rfl
    rw [e3]
    unfold plainInput
    simp only [hm, shown]
    rfl
  have e2 : ∀ a b : RecordOpening, plainOutput ad'.policy.reveal_map (disguise σ a b) =
      plainOutput ad'.policy.reveal_map b := by
    intro a b
    unfold plainOutput
    simp only [hm, shown]
    rfl
  rw [zipWith_map_right (g := fun i : TransferNoteInput => plainInput ad'.policy.reveal_map i.ro (attrsOf i))
      (h := fun i : TransferNoteInput => plainInput ad'.policy.reveal_map i.ro (attrsOf i)) e1 (by simp [h]),
    zipWith_map_right (g := plainOutput ad'.policy.reveal_map) (h := plainOutput ad'.policy.reveal_map) e2 (by simp [ho])]

omit S in
theorem retell_wellFormed (m : Masks σ)
    (wf : WellFormed ni no d.val valid_until inputs outputs ad fee root)
    (story : TransferStory ni no valid_until inputs' outputs' ad' fee) (alike : List.Forall₂ SameSpender inputs inputs') :
    WellFormed ni no d.val valid_until (List.zipWith (retell σ) inputs inputs')
      (List.zipWith (disguise σ) outputs outputs') ad' fee root := by
  have hl := alike.length_eq
  have hlo : outputs.length = outputs'.length := wf.num_out.trans story.num_out.symm
  obtain ⟨i0, is, hi, hi0⟩ := story.fee_in
  obtain ⟨o0, os, ho, ho0⟩ := story.fee_out
  obtain ⟨j0, js, hj, -⟩ := wf.fee_in
  obtain ⟨p0, ps, hp, -⟩ := wf.fee_out
  have tailI : (List.zipWith (retell σ) inputs inputs').tail = List.zipWith (retell σ) inputs.tail inputs'.tail := by
    rw [hi, hj]; rfl
  have tailO : (List.zipWith (disguise σ) outputs outputs').tail = List.zipWith (disguise σ) outputs.tail outputs'.tail := by
    rw [ho, hp]; rfl
  have hlt : inputs.tail.length = inputs'.tail.length := by simp [hl]
  refine {
    num_in := by simp [← hl, wf.num_in]
    num_out := by simp [← hlo, wf.num_out]
    depth := ?_, fee_in := ?_, fee_out := ?_, asset_in := ?_, asset_out := ?_, only_dummies := ?_
    code_dummy := story.code_dummy, code_native := story.code_native
    freezer_has_viewer := story.freezer_has_viewer
    owned := ?_, unfrozen_in := ?_, unfrozen_out := ?_, member := ?_, dummies := ?_, once := ?_, balanced := ?_
    small := ?_, creds := ?_ }
  · intro i hi
    obtain ⟨a, ha, b, hb, rfl⟩ := mem_zipWith hi
    exact wf.depth a ha
  · exact ⟨retell σ j0 i0, List.zipWith (retell σ) js is, by rw [hi, hj]; rfl, hi0⟩
  · exact ⟨disguise σ p0 o0, List.zipWith (disguise σ) ps os, by rw [ho, hp]; rfl, ho0⟩
  · intro i hi
    rw [tailI] at hi
    obtain ⟨a, ha, b, hb, rfl⟩ := mem_zipWith hi
    exact story.asset_in b hb
  · intro o ho
    rw [tailO] at ho
    obtain ⟨a, ha, b, hb, rfl⟩ := mem_zipWith ho
    exact story.asset_out b hb
  · intro hd
    refine story.only_dummies (fun b hb => ?_)
    have : b.ro.asset_def ∈ (List.zipWith (retell σ) inputs.tail inputs'.tail).map (fun i => i.ro.asset_def) := by
      rw [zipWith_map_right (f := retell σ) (g := fun i : TransferNoteInput => i.ro.asset_def)
        (h := fun i : TransferNoteInput => i.ro.asset_def) (fun _ _ => rfl) hlt]
      exact List.mem_map.2 ⟨b, hb, rfl⟩
    obtain ⟨x, hx, hxe⟩ := List.mem_map.1 this
    rw [← hxe]
    exact hd x (by rw [tailI]; exact hx)
  · intro i hi
    obtain ⟨a, ha, b, hb, rfl⟩ := mem_zipWith hi
    exact story.owned b hb
  · intro i hi
    obtain ⟨a, ha, b, hb, rfl⟩ := mem_zipWith hi
    exact story.unfrozen_in b hb
  · intro o ho
    obtain ⟨a, ha, b, hb, rfl⟩ := mem_zipWith ho
    exact story.unfrozen_out b hb
  · intro i hi hd
    obtain ⟨a, ha, b, hb, hab, rfl⟩ := mem_zipWith₂ alike hi
    have e : (retell σ a b).ro.commitment = a.ro.commitment := m.commitment _ _
    rw [e]
    exact wf.member a ha (hab.real hd)
  · intro i hi hd
    obtain ⟨a, ha, b, hb, rfl⟩ := mem_zipWith hi
    exact story.dummies b hb hd
  · rw [forall₂_zipWith_map (h := nullifierOf) (fun a b h => retell_nullifier m h) alike]
    exact wf.once
  · obtain ⟨x0, xs, hx, hbal⟩ := story.balanced
    have hros : ∀ c, totalOf c (real ((List.zipWith (retell σ) inputs inputs').map (·.ro))) =
        totalOf c (real (inputs'.map (·.ro))) := by
      intro c
      clear hbal hx
      have : ∀ (l l' : List TransferNoteInput), l.length = l'.length →
          totalOf c (real ((List.zipWith (retell σ) l l').map (·.ro))) = totalOf c (real (l'.map (·.ro))) := by
        intro l
        induction l with
        | nil => intro l' h; cases l' with
          | nil => rfl
          | cons => simp at h
        | cons a l ih => intro l' h; cases l' with
          | nil => simp at h
          | cons b l' =>
            have := ih l' (by simpa using h)
            unfold totalOf real at this ⊢
            simp only [List.zipWith_cons_cons, List.map_cons, List.filter_cons]
            by_cases h1 : b.ro.asset_def = AssetDefinition.dummy
            · have h1' : (retell σ a b).ro.asset_def = AssetDefinition.dummy := h1
              simpa [h1, h1'] using this
            · have h1' : (retell σ a b).ro.asset_def = b.ro.asset_def := rfl
              by_cases h2 : b.ro.asset_def.code = c
              · have h3 : (retell σ a b).ro.amount = b.ro.amount := rfl
                simpa [h1, h1', h2, List.filter_cons, h3] using this
              · simpa [h1, h1', h2, List.filter_cons] using this
      exact this _ _ hl
    have houts : ∀ c, totalOf c (List.zipWith (disguise σ) outputs outputs') = totalOf c outputs' := by
      intro c
      have : ∀ (l l' : List RecordOpening), l.length = l'.length →
          totalOf c (List.zipWith (disguise σ) l l') = totalOf c l' := by
        intro l
        induction l with
        | nil => intro l' h; cases l' with
          | nil => rfl
          | cons => simp at h
        | cons a l ih => intro l' h; cases l' with
          | nil => simp at h
          | cons b l' =>
            have := ih l' (by simpa using h)
            unfold totalOf at this ⊢
            simp only [List.zipWith_cons_cons, List.filter_cons]
            have h1' : (disguise σ a b).asset_def = b.asset_def := rfl
            have h3 : (disguise σ a b).amount = b.amount := rfl
            by_cases h2 : b.asset_def.code = c
            · simpa [h1', h2, h3] using this
            · simpa [h1', h2] using this
      exact this _ _ hlo
    refine ⟨(retell σ j0 i0).ro, (List.zipWith (retell σ) js is).map (·.ro), by rw [hi, hj]; rfl, fun c => ?_⟩
    rw [hros, houts, hbal c]
    rw [hi] at hx
    cases hx
    rfl
  · refine lt_of_eq_of_lt ?_ story.small
    exact retell_total _ _ hl
  · intro i hi hc
    obtain ⟨a, ha, b, hb, rfl⟩ := mem_zipWith hi
    exact story.creds b hb hc

end

omit S in
theorem retellFee_nullifier {σ} (m : Masks σ) {d : ℕ} {root : F} {fi fi' : FeeInput} {fee : Amount}
    (h : PaysFee d root fi fee) (h' : FeeStory fi' fee)
    (payer : fi'.owner_keypair.deriveNullifierKey 0 = fi.owner_keypair.deriveNullifierKey 0) :
    nullifierOf (retellFee σ fi fi').toTransferInput = nullifierOf fi.toTransferInput := by
  refine retell_nullifier (i := fi.toTransferInput) (i' := fi'.toTransferInput) m ⟨?_, fun _ => ?_⟩
  · show fi'.owner_keypair.deriveNullifierKey fi'.ro.asset_def.policy.freezer_pk =
      fi.owner_keypair.deriveNullifierKey fi.ro.asset_def.policy.freezer_pk
    rw [h.native, h'.native]
    exact payer
  · show fi.ro.asset_def ≠ _
    rw [h.native]
    exact nativeDef_ne_dummyDef

omit S in
/-- the blinding factor of the change, renamed -/
theorem change_mask {σ} (m : Masks σ) {d : ℕ} {root : F} {fi fi' : FeeInput} {fee : Amount}
    (h : PaysFee d root fi fee) (h' : PaysFee d root fi' fee) :
    ∃ κ : F ≃ F, ∀ blind, ∃ info chg info' chg', TxnFeeInfo.new blind fi fee = .ok (info, chg) ∧
      TxnFeeInfo.new (κ blind) fi' fee = .ok (info', chg') ∧ chg'.commitment = chg.commitment := by
  have e : ∀ {fi : FeeInput} {blind info chg}, TxnFeeInfo.new blind fi fee = .ok (info, chg) →
      chg = reblind ⟨fi.ro.amount - fee, AssetDefinition.native, fi.ro.pub_key, .unfrozen, 0⟩ blind := by
    intro fi blind info chg h
    unfold TxnFeeInfo.new at h
    split at h
    · cases h
    · cases h
      rfl
  refine ⟨σ ⟨fi.ro.amount - fee, AssetDefinition.native, fi.ro.pub_key, .unfrozen, 0⟩
    ⟨fi'.ro.amount - fee, AssetDefinition.native, fi'.ro.pub_key, .unfrozen, 0⟩, fun blind => ?_⟩
  obtain ⟨info, chg, new⟩ := h.info blind
  obtain ⟨info', chg', new'⟩ := h'.info (σ ⟨fi.ro.amount - fee, AssetDefinition.native, fi.ro.pub_key, .unfrozen, 0⟩
    ⟨fi'.ro.amount - fee, AssetDefinition.native, fi'.ro.pub_key, .unfrozen, 0⟩ blind)
  refine ⟨info, chg, info', chg', new, new', ?_⟩
  rw [e new, e new']
  exact m.same _ _ _

omit S in
/-- the blinding factors of the records a freeze creates, renamed -/
theorem outputs_mask {σ} (m : Masks σ) (inputs inputs' : List FreezeNoteInput) (hl : inputs.length = inputs'.length) :
    ∃ ρ : ℕ → F ≃ F, ∀ blinds, (freezeGetOutputRos (fun k => ρ k (blinds k)) inputs').map RecordOpening.commitment =
      (freezeGetOutputRos blinds inputs).map RecordOpening.commitment := by
  refine ⟨fun k => if h : k < inputs.length then
    σ { inputs[k].ro with freeze_flag := inputs[k].ro.freeze_flag.flip }
      { inputs'[k].ro with freeze_flag := inputs'[k].ro.freeze_flag.flip } else Equiv.refl _, fun blinds => ?_⟩
  refine List.ext_getElem (by simp [freezeGetOutputRos, hl]) (fun k h1 h2 => ?_)
  have hk : k < inputs.length := by simpa [freezeGetOutputRos] using h2
  simp only [freezeGetOutputRos, List.getElem_map, List.getElem_mapIdx, dif_pos hk]
  exact m.same { inputs[k].ro with freeze_flag := inputs[k].ro.freeze_flag.flip }
    { inputs'[k].ro with freeze_flag := inputs'[k].ro.freeze_flag.flip } (blinds k)

end Cap
