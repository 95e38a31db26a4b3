/-
Helper lemmas: a generated transfer note is the note its witness proves.
-/
import Verif.Lemmas.Balance

namespace Cap

variable [E : CapEnv]

/-- everything a successful `from_witness` computed -/
structure FromWitness (w : TransferWitness) (valid_until : U64) (pub : TransferPublicInput) (s0 : InputSecret)
    (ss : List InputSecret) (o0 : RecordOpening) (os : List RecordOpening) : Prop where
  secrets : w.input_secrets = s0 :: ss
  outputs : w.output_ros = o0 :: os
  balance : Spec.total (Spec.real (w.input_secrets.map (·.ro))) = Spec.total w.output_ros + pub.fee.val
  bound : Spec.total (Spec.real (w.input_secrets.map (·.ro))) < 2 ^ 128
  memo : ViewableMemo.newForTransferNote (w.input_secrets.map (·.ro)) w.output_ros (w.input_secrets.map (·.cred))
    w.enc_rand = .ok pub.viewing_memo
  root : pub.merkle_root = s0.acc.root
  native : pub.native_asset_code = o0.asset_def.code
  valid : pub.valid_until = valid_until
  nullifiers : pub.input_nullifiers = w.input_secrets.map InputSecret.nullifier
  commitments : pub.output_commitments = w.output_ros.map RecordOpening.commitment

theorem filter_secrets (l : List InputSecret) :
    (l.filter (fun s => !s.ro.asset_def.isDummy)).map (·.ro.amount) =
      (Spec.real (l.map (·.ro))).map (·.amount) := by
  rw [real_eq, List.filter_map, List.map_map]
  rfl

theorem map_amount_val (l : List RecordOpening) : ((l.map (·.amount)).map Fin.val).sum = Spec.total l := by
  unfold Spec.total
  rw [List.map_map]
  rfl

theorem fromWitness_ok {w : TransferWitness} {v : U64} {pub : TransferPublicInput} :
    TransferPublicInput.fromWitness w v = .ok pub ↔ ∃ s0 ss o0 os, FromWitness w v pub s0 ss o0 os := by
  unfold TransferPublicInput.fromWitness
  constructor
  · intro h
    split at h
    · cases h
    · rename_i s0 ss hs
      split at h
      · cases h
      · rename_i o0 os ho
        simp only [bind_ok_iff, safeSumOr_ok, checkedSub_ok] at h
        obtain ⟨a, ha, b, hb, fee, hf, memo, hm, h⟩ := h
        cases h
        rw [filter_secrets, map_amount_val] at ha
        rw [map_amount_val] at hb
        exact ⟨s0, ss, o0, os, hs, ho, by rw [ha, hb]; exact hf, by rw [ha]; exact a.isLt, hm, rfl, rfl, rfl, rfl, rfl⟩
  · rintro ⟨s0, ss, o0, os, h⟩
    have h1 := h.root
    have h2 := h.native
    have h3 := h.valid
    have h4 := h.nullifiers
    have h5 := h.commitments
    have hb := h.balance
    have hlt := h.bound
    have hs := h.secrets
    have ho := h.outputs
    have hm := h.memo
    split
    · rename_i hn; rw [hs] at hn; cases hn
    · rename_i s0' ss' hs'
      rw [hs] at hs'; cases hs'
      split
      · rename_i hn; rw [ho] at hn; cases hn
      · rename_i o0' os' ho'
        rw [ho] at ho'; cases ho'
        simp only [bind_ok_iff, safeSumOr_ok, checkedSub_ok]
        refine ⟨⟨_, hlt⟩, by rw [filter_secrets, map_amount_val], ⟨Spec.total w.output_ros, by omega⟩,
          by rw [map_amount_val], pub.fee, hb, pub.viewing_memo, hm, ?_⟩
        rw [← h1, ← h2, ← h3, ← h4, ← h5]

theorem newUnchecked_ok {rand : Fr} {inputs : List TransferNoteInput} {outputs : List RecordOpening}
    {w : TransferWitness} : TransferWitness.newUnchecked rand inputs outputs = .ok w ↔
      w.asset_def = witnessAssetDef inputs ∧ w.output_ros = outputs ∧ w.enc_rand = rand ∧
      List.Forall₂ (fun a b => inputSecretOf a = .ok b) inputs w.input_secrets := by
  unfold TransferWitness.newUnchecked
  simp only [bind_ok_iff, mapM_ok_forall₂]
  constructor
  · rintro ⟨l, hl, h⟩
    cases h
    exact ⟨rfl, rfl, rfl, hl⟩
  · rintro ⟨h1, h2, h3, h4⟩
    refine ⟨_, h4, ?_⟩
    cases w
    simp_all

theorem Spec.total_eq_sum_codes (l : List RecordOpening) : ∀ (cs : List AssetCode), cs.Nodup →
    (∀ r ∈ l, r.asset_def.code ∈ cs) → Spec.total l = (cs.map (fun c => Spec.totalOf c l)).sum := by
  induction l with
  | nil => intro cs _ _; simp [Spec.total, Spec.totalOf]
  | cons r l ih =>
    intro cs hn hm
    have h1 := ih cs hn (fun x hx => hm x (by simp [hx]))
    have h2 : ∀ c, Spec.totalOf c (r :: l) = (if r.asset_def.code = c then r.amount.val else 0) + Spec.totalOf c l := by
      intro c
      unfold Spec.totalOf
      by_cases h : r.asset_def.code = c <;> simp [h]
    have h3 : Spec.total (r :: l) = r.amount.val + Spec.total l := by simp [Spec.total]
    have h4 : ∀ (cs : List AssetCode), cs.Nodup → r.asset_def.code ∈ cs →
        (cs.map (fun c => if r.asset_def.code = c then r.amount.val else 0)).sum = r.amount.val := by
      intro cs
      induction cs with
      | nil => intro _ h; cases h
      | cons c cs ihc =>
        intro hnd hmem
        rw [List.nodup_cons] at hnd
        rw [List.map_cons, List.sum_cons]
        by_cases hc : r.asset_def.code = c
        · rw [if_pos hc]
          have : (cs.map (fun c => if r.asset_def.code = c then r.amount.val else 0)).sum = 0 := by
            apply List.sum_eq_zero
            intro x hx
            obtain ⟨d, hd, rfl⟩ := List.mem_map.1 hx
            rw [if_neg]
            intro h
            exact hnd.1 (by rw [← hc, h]; exact hd)
          omega
        · rw [if_neg hc, zero_add]
          refine ihc hnd.2 ?_
          rcases List.mem_cons.1 hmem with h | h
          · exact absurd h hc
          · exact h
    rw [h3, h1]
    simp only [h2]
    rw [List.sum_map_add, h4 cs hn (hm r (by simp))]

theorem Spec.totalOf_le_total (c : AssetCode) (l : List RecordOpening) : Spec.totalOf c l ≤ Spec.total l := by
  unfold Spec.totalOf Spec.total
  induction l with
  | nil => simp
  | cons r l ih =>
    by_cases h : r.asset_def.code = c <;> simp [h] <;> omega

theorem real_length_le (l : List RecordOpening) : (Spec.real l).length ≤ l.length := by
  unfold Spec.real; exact List.length_filter_le _ _

/-- The two computations of the fee agree: `check_balance` works with wrapping signed integers, `from_witness`
with checked sums. -/
theorem fee_agree {b : Build} {inputs outputs : List RecordOpening} {fee fee' : Amount}
    (h : checkBalance b inputs outputs = .ok fee)
    (hb : Spec.total (Spec.real inputs) = Spec.total outputs + fee'.val) : fee = fee' := by
  obtain ⟨i0, is, hi, h⟩ := checkBalance_modEq h
  let cs : List AssetCode := (i0.asset_def.code ::
    ((Spec.real inputs).map (·.asset_def.code) ++ outputs.map (·.asset_def.code))).dedup
  have hnd : cs.Nodup := List.nodup_dedup _
  have hin : ∀ r ∈ Spec.real inputs, r.asset_def.code ∈ cs := fun r hr => by
    simp only [cs, List.mem_dedup, List.mem_cons, List.mem_append, List.mem_map]
    exact Or.inr (Or.inl ⟨r, hr, rfl⟩)
  have hout : ∀ r ∈ outputs, r.asset_def.code ∈ cs := fun r hr => by
    simp only [cs, List.mem_dedup, List.mem_cons, List.mem_append, List.mem_map]
    exact Or.inr (Or.inr ⟨r, hr, rfl⟩)
  have h0 : i0.asset_def.code ∈ cs := by simp [cs]
  have hs1 := Spec.total_eq_sum_codes _ cs hnd hin
  have hs2 := Spec.total_eq_sum_codes _ cs hnd hout
  have key : ∀ (cs : List AssetCode), cs.Nodup →
      ((cs.map (fun c => Spec.totalOf c (Spec.real inputs))).sum : ℤ) ≡
        ((cs.map (fun c => Spec.totalOf c outputs)).sum : ℤ) + (if i0.asset_def.code ∈ cs then (fee.val : ℤ) else 0)
        [ZMOD 2 ^ 128] := by
    intro cs
    induction cs with
    | nil => intro _; simp
    | cons c cs ih =>
      intro hn
      rw [List.nodup_cons] at hn
      have h1 := (h c).add (ih hn.2)
      simp only [List.map_cons, List.sum_cons, Nat.cast_add]
      refine h1.trans ?_
      by_cases hc : c = i0.asset_def.code
      · have : i0.asset_def.code ∉ cs := hc ▸ hn.1
        simp only [hc, if_true, this, if_false, add_zero, List.mem_cons, true_or]
        ring_nf; rfl
      · simp only [hc, if_false, add_zero, List.mem_cons, show ¬ i0.asset_def.code = c from fun h => hc h.symm, false_or]
        ring_nf; rfl
  have hk := key cs hnd
  rw [← hs1, ← hs2, if_pos h0, hb, Nat.cast_add] at hk
  exact (amount_eq_of_modEq (Int.ModEq.add_left_cancel' _ hk)).symm

/-! ### lengths -/

theorem hadamardV_length (a b : List F) : (hadamardV a b).length = min a.length b.length := by
  simp [hadamardV]

theorem inputMsgV_length {map : F} {i : InputV} (h : i.cred.attrs.length = ATTRS_LEN) :
    (inputMsgV map i).length = 12 := by
  unfold inputMsgV
  rw [hadamardV_length]
  simp [h, ATTRS_LEN]

theorem outputMsgV_length (map : F) (o : RecordV) : (outputMsgV map o).length = 4 := by
  unfold outputMsgV
  rw [hadamardV_length]
  simp [ASSET_TRACING_MAP_LEN]

theorem flatMap_length_const {α β : Type} {f : α → List β} {k : ℕ} : ∀ {l : List α},
    (∀ a ∈ l, (f a).length = k) → (l.flatMap f).length = l.length * k
  | [], _ => by simp
  | a :: l, h => by
    rw [List.flatMap_cons, List.length_append, h a (by simp), flatMap_length_const (fun x hx => h x (by simp [hx])),
      List.length_cons]
    ring

theorem transferMsgV_length {w : TransferWit} (h : ∀ i ∈ w.inputs, i.cred.attrs.length = ATTRS_LEN) :
    (transferMsgV w).length = 1 + (w.inputs.length - 1) * 12 + (w.outputs.length - 1) * 4 := by
  unfold transferMsgV
  rw [List.length_append, List.length_append,
    flatMap_length_const (fun i hi => inputMsgV_length (h i (List.mem_of_mem_tail hi))),
    flatMap_length_const (fun o _ => outputMsgV_length _ o)]
  simp

theorem AllPos.forall_left {α β : Type} {P : Bool → α → β → Prop} {Q : α → Prop}
    (hPQ : ∀ b x y, P b x y → Q x) : ∀ {b : Bool} {l : List α} {m : List β}, l.length = m.length →
      AllPos P b l m → ∀ x ∈ l, Q x
  | _, [], _, _, _ => by simp
  | _, _ :: _, [], hl, _ => by simp at hl
  | b, a :: as, c :: cs, hl, h => by
    intro x hx
    rcases List.mem_cons.1 hx with rfl | hx
    · exact hPQ _ _ _ h.1
    · exact AllPos.forall_left hPQ (by simpa using hl) h.2 x hx

theorem forall₂_mem_right {α β : Type} {R : α → β → Prop} {l : List α} {m : List β} (h : List.Forall₂ R l m) :
    ∀ y ∈ m, ∃ x ∈ l, R x y := by
  induction h with
  | nil => simp
  | cons hab _ ih =>
    intro y hy
    rcases List.mem_cons.1 hy with rfl | hy
    · exact ⟨_, by simp, hab⟩
    · obtain ⟨x, hx, hxs⟩ := ih y hy
      exact ⟨x, by simp [hx], hxs⟩

variable [S : CapExt]

/-- the circuit assignment of a generated note has the shape of the key -/
theorem TransferGen.shape {b rng inputs outputs pk valid_until extra n sk w pub}
    (h : TransferGen b rng inputs outputs pk valid_until extra n sk w pub)
    (hsat : TransferSat w.toV pub.toV) :
    TransferShape pk.n_inputs pk.n_outputs pk.tree_depth.val w.toV pub.toV := by
  obtain ⟨h1, h2, h3, h4⟩ := newUnchecked_ok.1 h.witness
  obtain ⟨s0, ss, o0, os, hf⟩ := fromWitness_ok.1 h.pub_eq
  have hk := h.key
  simp only [transferCheckProvingKey, bind_ok_iff, ensure_ok_iff, decide_eq_true_eq, List.all_eq_true] at hk
  obtain ⟨-, hk1, -, hk2, hk3⟩ := hk
  have hlen : w.input_secrets.length = inputs.length := secrets_length h4
  have hnl : pub.toV.nullifiers.length = w.toV.inputs.length := by
    simp [TransferPublicInput.toV, TransferWitness.toV, hf.nullifiers]
  have hattr : ∀ i ∈ w.toV.inputs, i.cred.attrs.length = ATTRS_LEN :=
    AllPos.forall_left (fun b x y hx => hx.2.2.2.2.2.2.1) hnl.symm hsat.inputs
  have hin : w.toV.inputs.length = pk.n_inputs := by simp [TransferWitness.toV, hlen, hk1]
  have hout : w.toV.outputs.length = pk.n_outputs := by simp [TransferWitness.toV, h2, hk2]
  refine ⟨hin, hout, by rw [hnl, hin], ?_, ?_, ?_⟩
  · simp [TransferPublicInput.toV, hf.commitments, h2, hk2]
  · intro i hi
    simp only [TransferWitness.toV, List.mem_map] at hi
    obtain ⟨s, hs, rfl⟩ := hi
    obtain ⟨x, hx, hxs⟩ := forall₂_mem_right h4 s hs
    have hacc := (inputSecretOf_ok.1 hxs).2.2.1
    have := hk3 x hx
    simp only [InputSecret.toV, AccMemberWitness.toV, hacc]
    exact this
  · rw [hsat.memo_len, transferMsgV_length hattr, hin, hout]
    simp only [VIEWABLE_DATA_LEN, REVEAL_MAP_LEN, ATTRS_LEN]
    ring

/-- the public input the verifier uses for a generated note is the one that was proved -/
theorem TransferGen.pub_note {b rng inputs outputs pk valid_until extra n sk w pub}
    (h : TransferGen b rng inputs outputs pk valid_until extra n sk w pub) : n.pub = pub := by
  obtain ⟨h1, h2, h3, h4⟩ := newUnchecked_ok.1 h.witness
  obtain ⟨s0, ss, o0, os, hf⟩ := fromWitness_ok.1 h.pub_eq
  have hsro := secrets_ro h4
  have hroot : n.aux_info.merkle_root = pub.merkle_root := by
    have hr := h.root
    rw [hf.root]
    rw [hf.secrets] at h4
    obtain ⟨x, xs, hab, hrest, rfl⟩ := List.forall₂_cons_right_iff.1 h4
    unfold transferCheckAndGetRoots at hr
    simp only at hr
    split at hr
    · cases hr
    · rw [(inputSecretOf_ok.1 hab).2.2.1]
      exact (Except.ok.inj hr).symm
  have hnat : pub.native_asset_code = nativeCode := by
    have ha := h.asset
    have ho : outputs = o0 :: os := by rw [← h2, hf.outputs]
    rw [hf.native]
    unfold transferCheckAssetDef at ha
    rw [ho] at ha
    split at ha
    · rename_i heq
      cases heq
      simp only [bind_ok_iff, ensure_ok_iff, decide_eq_true_eq] at ha
      obtain ⟨-, -, -, ha, -⟩ := ha
      rw [ha]; rfl
    · cases ha
  have hfee : n.aux_info.fee = pub.fee := by
    have hb := hf.balance
    rw [hsro, h2] at hb
    exact fee_agree h.balance hb
  obtain ⟨a1, a2, a3, a4, a5, a6, a7⟩ := pub
  unfold TransferNote.pub
  simp only [TransferPublicInput.mk.injEq]
  exact ⟨hroot, hnat.symm, h.note_valid.trans hf.valid.symm, hfee, h.nullifiers, h.commitments, h.memo⟩

theorem TransferGen.sat {b rng inputs outputs pk valid_until extra n sk w pub}
    (h : TransferGen b rng inputs outputs pk valid_until extra n sk w pub) : TransferSat w.toV pub.toV := by
  have hp := h.prove
  unfold transferProve at hp
  split at hp
  · rename_i hs; exact hs.1
  · cases hp

omit E S in
theorem orFailedSnark_ok {α : Type} {o : Option α} {a : α} : orFailedSnark o = .ok a ↔ o = some a := by
  cases o <;> simp [orFailedSnark]

/-- a generated note is accepted -/
theorem TransferGen.verifies {b rng inputs outputs pk valid_until extra n sk w pub}
    (h : TransferGen b rng inputs outputs pk valid_until extra n sk w pub) (hc : SnarkComplete)
    {vk : S.Vk} (hk : S.preprocess (.transfer pk.n_inputs pk.n_outputs pk.tree_depth.val) = some (pk.key, vk)) :
    S.verify vk n.pub.toScalars n.proof
      (E.verKeyBytes n.aux_info.txn_memo_ver_key ++ n.aux_info.extra_proof_bound_data) = true := by
  have hsat := h.sat
  have hp := h.prove
  unfold transferProve at hp
  rw [if_pos ⟨hsat, rfl⟩, orFailedSnark_ok] at hp
  obtain ⟨π, h1, h2⟩ := hc _ _ _ hk (.transfer w.toV pub.toV) (h.shape hsat) hsat
    (E.verKeyBytes (smulFr rng.sign_sk E.gen) ++ extra) rng.seed
  rw [hp] at h1
  cases h1
  rw [h.pub_note, h.ver_key, h.extra_eq]
  exact h2

end Cap
