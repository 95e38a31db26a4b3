/-
Helper lemmas: from an accepted note to an assignment of the circuit and back; what the committed values of a
host record determine.
-/
import Verif.Lemmas.GenerateTransfer
import Verif.Lemmas.GenerateMintFreeze

namespace Cap

open Spec

variable [E : CapEnv] [S : CapExt]

/-! ### Verified proofs and assignments -/

theorem transferPreprocess_key {a b : ℕ} {d : Fin 256} {pk : TransferProvingKey} {vk : TransferVerifyingKey}
    (h : transferPreprocess a b d = .ok (pk, vk)) :
    0 < a ∧ 0 < b ∧ ∃ k, S.preprocess (.transfer a b d.val) = some (k, vk.key) := by
  unfold transferPreprocess at h
  split at h
  · cases h
  · rename_i hab
    split at h
    · cases h
    · rename_i k v hk
      cases h
      exact ⟨by omega, by omega, k, hk⟩

theorem mintPreprocess_key {d : Fin 256} {pk : MintProvingKey} {vk : MintVerifyingKey}
    (h : mintPreprocess d = .ok (pk, vk)) : ∃ k, S.preprocess (.mint d.val) = some (k, vk.key) := by
  unfold mintPreprocess at h
  split at h
  · cases h
  · rename_i k v hk
    cases h
    exact ⟨k, hk⟩

theorem freezePreprocess_key {k : ℕ} {d : Fin 256} {pk : FreezeProvingKey} {vk : FreezeVerifyingKey}
    (h : freezePreprocess k d = .ok (pk, vk)) :
    2 ≤ k ∧ ∃ x, S.preprocess (.freeze k d.val) = some (x, vk.key) := by
  unfold freezePreprocess at h
  split at h
  · cases h
  · split at h
    · cases h
    · split at h
      · cases h
      · rename_i x v hk
        cases h
        exact ⟨by omega, x, hk⟩

omit S in
theorem TransferPub.toScalars_inj {p q : TransferPub} (hn : p.nullifiers.length = q.nullifiers.length)
    (hc : p.commitments.length = q.commitments.length) (h : p.toScalars = q.toScalars) : p = q := by
  obtain ⟨a, b, c, d, ns, cs, ⟨⟨e1, e2⟩, m⟩⟩ := p
  obtain ⟨a', b', c', d', ns', cs', ⟨⟨e1', e2'⟩, m'⟩⟩ := q
  simp only [TransferPub.toScalars, MemoV.toScalars, List.cons_append, List.nil_append, List.cons.injEq,
    List.append_assoc] at h hn hc
  obtain ⟨rfl, rfl, rfl, rfl, h⟩ := h
  obtain ⟨rfl, h2⟩ := List.append_inj h hn
  obtain ⟨rfl, h3⟩ := List.append_inj h2 hc
  simp only [List.cons.injEq] at h3
  obtain ⟨rfl, rfl, rfl⟩ := h3
  rfl

omit S in
theorem MintPub.toScalars_inj {p q : MintPub} (h : p.toScalars = q.toScalars) : p = q := by
  obtain ⟨a1, a2, a3, a4, a5, a6, a7, a8, a9, ⟨⟨v1, v2⟩, ⟨c1, c2⟩, ⟨f1, f2⟩, m, t⟩, ⟨⟨e1, e2⟩, l⟩⟩ := p
  obtain ⟨a1', a2', a3', a4', a5', a6', a7', a8', a9', ⟨⟨v1', v2'⟩, ⟨c1', c2'⟩, ⟨f1', f2'⟩, m', t'⟩,
    ⟨⟨e1', e2'⟩, l'⟩⟩ := q
  simp only [MintPub.toScalars, PolicyV.toScalars, MemoV.toScalars, List.cons_append, List.nil_append,
    List.cons.injEq] at h
  obtain ⟨rfl, rfl, rfl, rfl, rfl, rfl, rfl, rfl, rfl, rfl, rfl, rfl, rfl, rfl, rfl, rfl, rfl, rfl, rfl, rfl⟩ := h
  rfl

omit S in
theorem FreezePub.toScalars_inj {p q : FreezePub} (hn : p.nullifiers.length = q.nullifiers.length)
    (h : p.toScalars = q.toScalars) : p = q := by
  obtain ⟨a, b, c, n, ns, o, os⟩ := p
  obtain ⟨a', b', c', n', ns', o', os'⟩ := q
  simp only [FreezePub.toScalars, List.cons_append, List.nil_append, List.cons.injEq] at h hn
  obtain ⟨rfl, rfl, rfl, rfl, h⟩ := h
  obtain ⟨rfl, h2⟩ := List.append_inj h hn
  simp only [List.cons.injEq] at h2
  obtain ⟨rfl, rfl⟩ := h2
  rfl

/-- A transfer note accepted under a key made for its number of nullifiers and commitments is opened by some
assignment. -/
theorem transfer_opened (sound : SnarkSound) {a b : ℕ} {d : Fin 256} {pk : TransferProvingKey}
    {vk : TransferVerifyingKey} (keys : transferPreprocess a b d = .ok (pk, vk)) {n : TransferNote} {root : F}
    {t : U64} (ok : n.verify vk root t = .ok ()) (hn : n.inputs_nullifiers.length = a)
    (hc : n.output_commitments.length = b) : ∃ w, OpensTransfer a b d.val n w := by
  obtain ⟨-, -, k, hk⟩ := transferPreprocess_key keys
  obtain ⟨-, -, hv⟩ := TransferNote.verify_ok.1 ok
  obtain ⟨inst, hs, hsat, hp⟩ := sound _ _ _ hk _ _ _ hv
  cases inst with
  | transfer w p =>
    have hs' : TransferShape a b d.val w p := hs
    have hpe : p = n.pub.toV := TransferPub.toScalars_inj (hs'.nullifiers_len.trans hn.symm)
      (hs'.commitments_len.trans hc.symm) (hp.trans (TransferPublicInput.toV_toScalars _).symm)
    subst hpe
    exact ⟨w, hs', hsat⟩
  | mint w p => exact hs.elim
  | freeze w p => exact hs.elim

/-- A mint note with a verified proof is opened by some assignment. -/
theorem mint_proof_opened (sound : SnarkSound) {d : Fin 256} {pk : MintProvingKey} {vk : MintVerifyingKey}
    (keys : mintPreprocess d = .ok (pk, vk)) {n : MintNote} {π : S.Proof} {ext : List Byte}
    (hv : S.verify vk.key n.pub.toScalars π ext = true) : ∃ w, OpensMint d.val n w := by
  obtain ⟨k, hk⟩ := mintPreprocess_key keys
  obtain ⟨inst, hs, hsat, hp⟩ := sound _ _ _ hk _ _ _ hv
  cases inst with
  | mint w p =>
    have hpe : p = n.pub.toV := MintPub.toScalars_inj (hp.trans (MintPublicInput.toV_toScalars _).symm)
    subst hpe
    exact ⟨w, hs, hsat⟩
  | transfer w p => exact hs.elim
  | freeze w p => exact hs.elim

/-- An accepted mint note is opened by some assignment. -/
theorem mint_opened (sound : SnarkSound) {d : Fin 256} {pk : MintProvingKey} {vk : MintVerifyingKey}
    (keys : mintPreprocess d = .ok (pk, vk)) {n : MintNote} {root : F} (ok : n.verify vk root = .ok ()) :
    ∃ w, OpensMint d.val n w :=
  mint_proof_opened sound keys (MintNote.verify_ok.1 ok).2.2

/-- A freeze note accepted under a key made for its number of nullifiers is opened by some assignment. -/
theorem freeze_opened (sound : SnarkSound) {k : ℕ} {d : Fin 256} {pk : FreezeProvingKey}
    {vk : FreezeVerifyingKey} (keys : freezePreprocess k d = .ok (pk, vk)) {n : FreezeNote} {root : F}
    (ok : n.verify vk root = .ok ()) (hn : n.input_nullifiers.length = k) : ∃ w, OpensFreeze k d.val n w := by
  obtain ⟨hk2, x, hk⟩ := freezePreprocess_key keys
  obtain ⟨-, hv⟩ := FreezeNote.verify_ok.1 ok
  obtain ⟨inst, hs, hsat, hp⟩ := sound _ _ _ hk _ _ _ hv
  cases inst with
  | freeze w p =>
    have hs' : FreezeShape k d.val w p := hs
    have hp' : p.toScalars = n.pub.toScalars := hp
    have hlen := congrArg List.length hp'
    have h1 := hs'.nullifiers_len
    have h2 := hs'.commitments_len
    simp only [FreezePub.toScalars, FreezePublicInput.toScalars, FreezeNote.pub, List.length_append,
      List.length_cons, List.length_nil] at hlen
    obtain ⟨n0, ns, hns⟩ : ∃ n0 ns, n.input_nullifiers = n0 :: ns := by
      cases h : n.input_nullifiers with
      | nil => rw [h] at hn; simp at hn; omega
      | cons x xs => exact ⟨x, xs, rfl⟩
    obtain ⟨c0, cs, hcs⟩ : ∃ c0 cs, n.output_commitments = c0 :: cs := by
      cases h : n.output_commitments with
      | nil => rw [h] at hlen; simp at hlen; omega
      | cons x xs => exact ⟨x, xs, rfl⟩
    have hv' : n.pub.toV = some ⟨n.pub.merkle_root, n.pub.native_asset_code, Amount.toF n.pub.fee, n0, ns, c0, cs⟩ := by
      simp only [FreezePublicInput.toV, FreezeNote.pub, hns, hcs]
    refine ⟨w, _, hv', ?_⟩
    have hpe : p = ⟨n.pub.merkle_root, n.pub.native_asset_code, Amount.toF n.pub.fee, n0, ns, c0, cs⟩ := by
      refine FreezePub.toScalars_inj ?_ (hp'.trans (FreezePublicInput.toV_toScalars _ _ hv').symm)
      rw [hns] at hn
      simp only [List.length_cons] at hn ⊢
      omega
    subst hpe
    exact ⟨hs', hsat⟩
  | transfer w p => exact hs.elim
  | mint w p => exact hs.elim

/-- Whoever knows an assignment can make an accepted transfer note (of the same statement). -/
theorem transfer_forged (complete : SnarkComplete) {a b : ℕ} {d : Fin 256} {pk : TransferProvingKey}
    {vk : TransferVerifyingKey} (keys : transferPreprocess a b d = .ok (pk, vk)) {n : TransferNote}
    {w : TransferWit} (h : OpensTransfer a b d.val n w) :
    ∃ π, ∀ t ≤ n.aux_info.valid_until, { n with proof := π }.verify vk n.aux_info.merkle_root t = .ok () := by
  obtain ⟨-, -, k, hk⟩ := transferPreprocess_key keys
  obtain ⟨π, -, hv⟩ := complete _ _ _ hk (.transfer w n.pub.toV) h.shape h.sat
    (E.verKeyBytes n.aux_info.txn_memo_ver_key ++ n.aux_info.extra_proof_bound_data) 0
  exact ⟨π, fun t ht => TransferNote.verify_ok.2 ⟨rfl, ht, hv⟩⟩

/-- Whoever knows an assignment can make an accepted mint note (of the same statement). -/
theorem mint_forged (complete : SnarkComplete) {d : Fin 256} {pk : MintProvingKey} {vk : MintVerifyingKey}
    (keys : mintPreprocess d = .ok (pk, vk)) {n : MintNote} {w : MintWit} (h : OpensMint d.val n w)
    (hd : n.mint_asset_def.code = domesticFromInternal n.mint_internal_asset_code) :
    ∃ π, { n with proof := π }.verify vk n.aux_info.merkle_root = .ok () := by
  obtain ⟨k, hk⟩ := mintPreprocess_key keys
  obtain ⟨π, -, hv⟩ := complete _ _ _ hk (.mint w n.pub.toV) h.shape h.sat
    (E.verKeyBytes n.aux_info.txn_memo_ver_key) 0
  exact ⟨π, MintNote.verify_ok.2 ⟨rfl, hd, hv⟩⟩

/-- Whoever knows an assignment can make an accepted freeze note (of the same statement). -/
theorem freeze_forged (complete : SnarkComplete) {k : ℕ} {d : Fin 256} {pk : FreezeProvingKey}
    {vk : FreezeVerifyingKey} (keys : freezePreprocess k d = .ok (pk, vk)) {n : FreezeNote} {w : FreezeWit}
    (h : OpensFreeze k d.val n w) : ∃ π, { n with proof := π }.verify vk n.aux_info.merkle_root = .ok () := by
  obtain ⟨-, x, hk⟩ := freezePreprocess_key keys
  obtain ⟨v, hv, hs, hsat⟩ := h
  obtain ⟨π, -, hπ⟩ := complete _ _ _ hk (.freeze w v) hs hsat (E.verKeyBytes n.aux_info.txn_memo_ver_key) 0
  refine ⟨π, FreezeNote.verify_ok.2 ⟨rfl, ?_⟩⟩
  have : CircuitInst.pub (.freeze w v) = n.pub.toScalars := FreezePublicInput.toV_toScalars _ _ hv
  rw [this] at hπ
  exact hπ

/-! ### Committed values -/

omit S

/-- the host's assignment reads back the record -/
theorem Reads.toV (ro : RecordOpening) : Reads ro ro.toV := ⟨(RecordOpening.toV_scalars ro).symm, rfl⟩

/-- Same commitment: same committed values, or these two inputs collide. -/
theorem reads_or_collides {ro : RecordOpening} {v : RecordV} (h : ro.commitment = v.commitment) :
    Reads ro v ∨ Collides commitOf (ro.scalars, ro.blind) (v.scalars, v.blind) := by
  by_cases he : (ro.scalars, ro.blind) = (v.scalars, v.blind)
  · rw [Prod.mk.injEq] at he
    exact Or.inl he
  · exact Or.inr ⟨he, h⟩

/-- what the committed values say, field by field -/
theorem reads_iff {ro : RecordOpening} {v : RecordV} :
    Reads ro v ↔ Amount.toF ro.amount = v.amount ∧ ro.asset_def.code = v.asset_code ∧
      E.xy ro.pub_key.address = v.owner_addr ∧ E.xy ro.asset_def.policy.viewer_pk = v.policy.viewer_pk ∧
      E.xy ro.asset_def.policy.cred_pk = v.policy.cred_pk ∧
      E.xy ro.asset_def.policy.freezer_pk = v.policy.freezer_pk ∧
      2 * ro.asset_def.policy.reveal_map.toScalar + (ro.freeze_flag.toNat : F) =
        2 * v.policy.reveal_map + boolF v.freeze_flag ∧
      Amount.toF ro.asset_def.policy.reveal_threshold = v.policy.reveal_threshold ∧ ro.blind = v.blind := by
  unfold Reads RecordOpening.scalars RecordV.scalars ptX ptY
  simp only [List.cons.injEq, and_true, Prod.ext_iff]
  tauto

/-- If the circuit's reveal map fits in 12 bits, the committed values determine map and flag, so that the circuit's
record is the host's. -/
theorem reads_small {ro : RecordOpening} {v : RecordV} (h : Reads ro v)
    (hm : v.policy.reveal_map.val < 2 ^ 12) : v = ro.toV := by
  obtain ⟨h1, h2, h3, h4, h5, h6, h7, h8, h9⟩ := reads_iff.1 h
  have hf : ro.freeze_flag.toNat ≤ 1 := by cases ro.freeze_flag <;> simp [FreezeFlag.toNat]
  have hb : ∀ b : Bool, boolF (E := E) b = ((b.toNat : ℕ) : F) := by intro b; cases b <;> simp [boolF]
  have hbl : v.freeze_flag.toNat ≤ 1 := Bool.toNat_le _
  have hr := RevealMap.toNat_lt ro.asset_def.policy.reveal_map
  have hn : ((2 * ro.asset_def.policy.reveal_map.toNat + ro.freeze_flag.toNat : ℕ) : F) =
      ((2 * v.policy.reveal_map.val + v.freeze_flag.toNat : ℕ) : F) := by
    push_cast
    rw [f_cast_val, ← hb]
    exact h7
  have he := natF_inj (by have : (2:ℕ) ^ 13 + 2 < 2 ^ 252 := by norm_num
                          omega) (by have : (2:ℕ) ^ 13 + 2 < 2 ^ 252 := by norm_num
                                     omega) hn
  have hmap : ro.asset_def.policy.reveal_map.toNat = v.policy.reveal_map.val := by omega
  have hflag : ro.freeze_flag.toNat = v.freeze_flag.toNat := by omega
  obtain ⟨va, vc, vo, ⟨vv, vcr, vf, vm, vt⟩, vfl, vb⟩ := v
  simp only at h1 h2 h3 h4 h5 h6 h8 h9 hmap hflag
  have hm' : vm = ro.asset_def.policy.reveal_map.toScalar := by
    unfold RevealMap.toScalar
    rw [hmap, f_cast_val]
  have hfl : vfl = ro.freeze_flag.toBool := by
    revert hflag
    cases vfl <;> cases ro.freeze_flag <;> simp [FreezeFlag.toNat, FreezeFlag.toBool]
  subst h1 h2 h3 h4 h5 h6 h8 h9 hm' hfl
  rfl

/-- the amount that is read is the circuit's amount -/
theorem reads_amount {ro : RecordOpening} {v : RecordV} (h : Reads ro v) : v.amount.val = ro.amount.val := by
  rw [← (reads_iff.1 h).1, Amount.toF_val]

/-! ### The parts of a satisfying assignment of the transfer circuit -/

omit E in
theorem AllPos.forall₂ {α β : Type} {P : Bool → α → β → Prop} : ∀ {l : List α} {m : List β},
    l.length = m.length → (AllPos P false l m ↔ List.Forall₂ (P false) l m)
  | [], [], _ => by simp [AllPos]
  | [], _ :: _, h => by simp at h
  | _ :: _, [], h => by simp at h
  | a :: as, c :: cs, h => by
    simp only [AllPos, List.forall₂_cons]
    rw [AllPos.forall₂ (by simpa using h)]

/-- the first input and output, the others, and the gates that hold of them -/
structure TransferParts (w : TransferWit) (p : TransferPub) (i0 : InputV) (is : List InputV) (o0 : RecordV)
    (os : List RecordV) (nl : F) (nls : List F) (c : F) (cs : List F) : Prop where
  inputs : w.inputs = i0 :: is
  outputs : w.outputs = o0 :: os
  nullifiers : p.nullifiers = nl :: nls
  commitments : p.commitments = c :: cs
  in0 : InputOk w p true i0 nl
  ins : List.Forall₂ (InputOk w p false) is nls
  out0 : OutputOk w p true o0 c
  outs : List.Forall₂ (OutputOk w p false) os cs
  balance : PreserveBalance p.native_asset_code w.asset_code p.fee i0.ro.amount o0.amount
    (w.inputs.map (·.ro.amount)) (w.outputs.map (·.amount))

theorem TransferSat.parts {a b d : ℕ} {w : TransferWit} {p : TransferPub} (hs : TransferShape a b d w p)
    (h : TransferSat w p) : ∃ i0 is o0 os nl nls c cs, TransferParts w p i0 is o0 os nl nls c cs := by
  have hb := h.balance
  unfold BalanceOk at hb
  split at hb
  · rename_i i0 is o0 os hi ho
    have h1 := hs.inputs_len.trans hs.nullifiers_len.symm
    have h2 := hs.outputs_len.trans hs.commitments_len.symm
    rw [hi] at h1
    rw [ho] at h2
    obtain ⟨nl, nls, hn⟩ := List.exists_cons_of_length_eq_add_one h1.symm
    obtain ⟨c, cs, hc⟩ := List.exists_cons_of_length_eq_add_one h2.symm
    have hin := h.inputs
    have hout := h.outputs
    rw [hi, hn] at hin
    rw [ho, hc] at hout
    rw [hn] at h1
    rw [hc] at h2
    exact ⟨i0, is, o0, os, nl, nls, c, cs, hi, ho, hn, hc, hin.1,
      (AllPos.forall₂ (by simpa using h1)).1 hin.2, hout.1, (AllPos.forall₂ (by simpa using h2)).1 hout.2, hb⟩
  · exact hb.elim

theorem TransferParts.mem_in {w : TransferWit} {p : TransferPub} {i0 : InputV} {is : List InputV} {o0 : RecordV}
    {os : List RecordV} {nl c : F} {nls cs : List F} (h : TransferParts w p i0 is o0 os nl nls c cs)
    {i : InputV} (hi : i ∈ is) : ∃ x ∈ nls, InputOk w p false i x := by
  obtain ⟨x, hx, hr⟩ := forall₂_mem_right (List.Forall₂.flip (R := fun a b => InputOk w p false b a) h.ins) i hi
  exact ⟨x, hx, hr⟩

theorem TransferParts.mem_out {w : TransferWit} {p : TransferPub} {i0 : InputV} {is : List InputV} {o0 : RecordV}
    {os : List RecordV} {nl c : F} {nls cs : List F} (h : TransferParts w p i0 is o0 os nl nls c cs)
    {o : RecordV} (ho : o ∈ os) : ∃ x ∈ cs, OutputOk w p false o x := by
  obtain ⟨x, hx, hr⟩ := forall₂_mem_right (List.Forall₂.flip (R := fun a b => OutputOk w p false b a) h.outs) o ho
  exact ⟨x, hx, hr⟩

/-- the reveal map of every input that is not a dummy, and of every output, has 12 bits -/
theorem TransferParts.map_in {w : TransferWit} {p : TransferPub} (hsat : TransferSat w p) {i0 : InputV}
    {is : List InputV} {o0 : RecordV} {os : List RecordV} {nl c : F} {nls cs : List F}
    (h : TransferParts w p i0 is o0 os nl nls c cs) :
    i0.ro.policy = AssetPolicy.default.toV ∧ o0.policy = AssetPolicy.default.toV ∧
      (∀ i ∈ is, i.ro.isDummy = false → i.ro.policy = w.policy) ∧ (∀ o ∈ os, o.policy = w.policy) := by
  refine ⟨?_, ?_, ?_, ?_⟩
  · have := h.in0.2.2.1
    simp only [InputPosOk, if_true] at this
    exact PolicyV.enforceDummy_iff.1 this.2
  · have := h.out0.2.1
    simp only [if_true] at this
    exact PolicyV.enforceDummy_iff.1 this.2
  · intro i hi hd
    obtain ⟨x, -, hx⟩ := h.mem_in hi
    have := hx.2.2.1
    simp only [InputPosOk, Bool.false_eq_true, if_false] at this
    rcases this.2 with h' | h'
    · rw [hd] at h'; cases h'
    · exact PolicyV.checkEqual_iff.1 h'
  · intro o ho
    obtain ⟨x, -, hx⟩ := h.mem_out ho
    have := hx.2.1
    simp only [Bool.false_eq_true, if_false] at this
    exact PolicyV.enforceEqual_iff.1 this.2

theorem default_map_small : (AssetPolicy.default.toV : PolicyV).reveal_map.val < 2 ^ 12 := by
  rw [default_toV]; simp

end Cap
