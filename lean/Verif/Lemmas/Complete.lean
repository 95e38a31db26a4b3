/-
Helper lemmas: a well-formed transfer satisfies the circuit and is generated.
-/
import Verif.Lemmas.BalanceExact
import Verif.Lemmas.MemoGenerated
import Verif.Props.C17
import Verif.Props.C37
import Verif.Props.C40

namespace Cap

open Spec

variable [E : CapEnv]

omit E in
theorem distinctLoop_of_nodup {α : Type} [DecidableEq α] : ∀ {l seen : List α}, l.Nodup → (∀ x ∈ l, x ∉ seen) →
    distinctLoop seen l = true
  | [], _, _, _ => rfl
  | x :: xs, seen, h, hs => by
    rw [List.nodup_cons] at h
    unfold distinctLoop
    rw [if_neg (hs x (by simp))]
    refine distinctLoop_of_nodup h.2 (fun y hy => ?_)
    rw [List.mem_cons, not_or]
    exact ⟨fun h' => h.1 (h' ▸ hy), hs y (List.mem_cons_of_mem _ hy)⟩

omit E in
theorem nodup_of_distinctLoop {α : Type} [DecidableEq α] : ∀ {l seen : List α}, distinctLoop seen l = true →
    l.Nodup ∧ ∀ x ∈ l, x ∉ seen
  | [], _, _ => ⟨List.nodup_nil, by simp⟩
  | x :: xs, seen, h => by
    unfold distinctLoop at h
    split at h
    · cases h
    · rename_i hx
      obtain ⟨h1, h2⟩ := nodup_of_distinctLoop h
      refine ⟨List.nodup_cons.2 ⟨fun hm => h2 x hm (by simp), h1⟩, ?_⟩
      intro y hy
      rcases List.mem_cons.1 hy with rfl | hy
      · exact hx
      · exact fun hs => h2 y hy (List.mem_cons_of_mem _ hs)

theorem checkDistinct_ok {l : List F} : checkDistinctInputNullifiers l = .ok () ↔ l.Nodup := by
  unfold checkDistinctInputNullifiers
  constructor
  · intro h
    split at h
    · rename_i hd
      exact (nodup_of_distinctLoop hd).1
    · cases h
  · intro h
    rw [if_pos (distinctLoop_of_nodup h (by simp))]

/-- a balanced transfer balances in total -/
theorem Balanced.total {inputs outputs : List RecordOpening} {fee : Amount} (h : Balanced inputs outputs fee) :
    Spec.total (real inputs) = Spec.total outputs + fee.val := by
  obtain ⟨i0, is, -, h⟩ := h
  let cs : List AssetCode := (i0.asset_def.code ::
    ((real inputs).map (·.asset_def.code) ++ outputs.map (·.asset_def.code))).dedup
  have hnd : cs.Nodup := List.nodup_dedup _
  have hin : ∀ r ∈ real inputs, r.asset_def.code ∈ cs := fun r hr => by
    simp only [cs, List.mem_dedup, List.mem_cons, List.mem_append, List.mem_map]
    exact Or.inr (Or.inl ⟨r, hr, rfl⟩)
  have hout : ∀ r ∈ outputs, r.asset_def.code ∈ cs := fun r hr => by
    simp only [cs, List.mem_dedup, List.mem_cons, List.mem_append, List.mem_map]
    exact Or.inr (Or.inr ⟨r, hr, rfl⟩)
  have h0 : i0.asset_def.code ∈ cs := by simp [cs]
  have key : ∀ (cs : List AssetCode), cs.Nodup →
      (cs.map (fun c => totalOf c (real inputs))).sum =
        (cs.map (fun c => totalOf c outputs)).sum + (if i0.asset_def.code ∈ cs then fee.val else 0) := by
    intro cs
    induction cs with
    | nil => intro _; simp
    | cons c cs ih =>
      intro hn
      rw [List.nodup_cons] at hn
      have h1 := ih hn.2
      have h2 := h c
      simp only [List.map_cons, List.sum_cons, List.mem_cons]
      by_cases hc : c = i0.asset_def.code
      · have : i0.asset_def.code ∉ cs := hc ▸ hn.1
        rw [if_neg this] at h1
        rw [if_pos hc] at h2
        rw [if_pos (Or.inl hc.symm)]
        omega
      · rw [if_neg hc] at h2
        simp only [show ¬ i0.asset_def.code = c from fun h => hc h.symm, false_or]
        omega
  rw [Spec.total_eq_sum_codes _ cs hnd hin, Spec.total_eq_sum_codes _ cs hnd hout, key cs hnd, if_pos h0]

section
variable {ni no d : ℕ} {valid_until : U64} {inputs : List TransferNoteInput} {outputs : List RecordOpening}
  {ad : AssetDefinition} {fee : Amount} {root : F}

theorem Spec.Transferable.agree (h : Transferable ni no d valid_until inputs outputs ad fee root) :
    AssetsAgree ad (inputs.map (·.ro)) outputs := by
  obtain ⟨i0, is, hi, hi0⟩ := h.fee_in
  obtain ⟨o0, os, ho, ho0⟩ := h.fee_out
  refine ⟨⟨i0.ro, is.map (·.ro), by rw [hi]; rfl, hi0⟩, ⟨o0, os, ho, ho0⟩, ?_, h.asset_out, ?_, ?_⟩
  · intro r hr
    rw [← List.map_tail, List.mem_map] at hr
    obtain ⟨i, hi, rfl⟩ := hr
    exact h.asset_in i hi
  · intro hall
    refine h.only_dummies (fun i hi => hall i.ro ?_)
    rw [← List.map_tail]
    exact List.mem_map_of_mem (f := (·.ro)) hi
  · exact fun hc => h.code_dummy (by rw [hc]; rfl)

theorem Spec.WellFormed.assets (h : WellFormed ni no d valid_until inputs outputs ad fee root) :
    AssetsOk ad (inputs.map (·.ro)) outputs := by
  obtain ⟨i0, is, hi, hi0⟩ := h.fee_in
  obtain ⟨o0, os, ho, ho0⟩ := h.fee_out
  have hn : AssetDefinition.native.policy.freezer_pk = 0 := rfl
  have hd : AssetDefinition.dummy.policy.freezer_pk = 0 := rfl
  refine ⟨h.agree, ?_⟩
  intro r hr hf
  rcases List.mem_append.1 hr with hr | hr
  · obtain ⟨i, hi', rfl⟩ := List.mem_map.1 hr
    rw [hi, List.mem_cons] at hi'
    rcases hi' with rfl | hi'
    · rw [hi0] at hf; exact absurd hn hf
    · rcases h.asset_in i (by rw [hi]; exact hi') with hc | hc
      · rw [hc] at hf; exact absurd hd hf
      · rw [hc] at hf ⊢; exact h.freezer_has_viewer hf
  · rw [ho, List.mem_cons] at hr
    rcases hr with rfl | hr
    · rw [ho0] at hf; exact absurd hn hf
    · have hc := h.asset_out r (by rw [ho]; exact hr)
      rw [hc] at hf ⊢; exact h.freezer_has_viewer hf

/-- every input gets a usable credential -/
theorem Spec.Transferable.secret (h : Transferable ni no d valid_until inputs outputs ad fee root)
    (hl : Limits valid_until inputs ad)
    {i : TransferNoteInput} (hi : i ∈ inputs) :
    ∃ s, inputSecretOf i = .ok s ∧ s.cred.attrs.length = 8 ∧ valid_until.val ≤ s.cred.expiry.val ∧
      s.cred.expiry.val < valid_until.val + 2 ^ 20 ∧
      (i.ro.asset_def.policy.cred_pk ≠ 0 → s.cred.toV.sigValid = true) := by
  by_cases hc : i.ro.asset_def.policy.cred_pk = 0
  · obtain ⟨sg, hs⟩ := @dummyUnexpired_eq E
    refine ⟨⟨i.owner_keypair, i.ro, i.acc, ⟨0, List.replicate 8 0, Fin.ofNat (2 ^ 64) (2 ^ 20 - 1), sg, smulFr 0 E.gen⟩⟩,
      inputSecretOf_ok.2 ⟨rfl, rfl, rfl, ?_⟩, ?_, ?_, ?_, fun hn => absurd hc hn⟩
    · rw [if_pos hc]; exact hs
    · rfl
    · have := hl.window
      show valid_until.val ≤ 2 ^ 20 - 1
      omega
    · show 2 ^ 20 - 1 < valid_until.val + 2 ^ 20
      omega
  · obtain ⟨c, h1, h2, h3⟩ := h.creds i hi hc
    have h4 := hl.fresh i hi hc c h1
    obtain ⟨h5, h6⟩ := (C37_verify_any c valid_until).1 h2
    exact ⟨⟨i.owner_keypair, i.ro, i.acc, c⟩, inputSecretOf_ok.2 ⟨rfl, rfl, rfl, by rw [if_neg hc]; exact h1⟩, h3, h5, h4,
      fun _ => h6⟩

omit E in
theorem exists_forall₂ {α β : Type} {R : α → β → Prop} : ∀ {l : List α}, (∀ a ∈ l, ∃ b, R a b) →
    ∃ m, List.Forall₂ R l m
  | [], _ => ⟨[], .nil⟩
  | a :: l, h => by
    obtain ⟨b, hb⟩ := h a (by simp)
    obtain ⟨m, hm⟩ := exists_forall₂ (fun x hx => h x (List.mem_cons_of_mem _ hx))
    exact ⟨b :: m, .cons hb hm⟩

omit E in
theorem AllPos.of_map {α β γ : Type} {P : Bool → α → β → Prop} {f : γ → α} {g : γ → β} : ∀ {b : Bool} {l : List γ},
    (∀ x ∈ l.head?, P b (f x) (g x)) → (∀ x ∈ l.tail, P false (f x) (g x)) → AllPos P b (l.map f) (l.map g)
  | _, [], _, _ => trivial
  | b, x :: xs, h1, h2 => by
    refine ⟨h1 x rfl, AllPos.of_map (fun y hy => ?_) (fun y hy => h2 y (List.mem_of_mem_tail hy))⟩
    exact h2 y (List.mem_of_mem_head? hy)

theorem castAmounts (l : List RecordOpening) : ((total l : ℕ) : F) = (l.map (fun r => Amount.toF r.amount)).sum := by
  induction l with
  | nil => simp [total]
  | cons r l ih =>
    rw [total_cons, List.map_cons, List.sum_cons, ← ih]
    push_cast
    rfl

/-- the witness and the public input of a well-formed transfer -/
theorem Spec.Transferable.witness (h : Transferable ni no d valid_until inputs outputs ad fee root)
    (hl : Limits valid_until inputs ad) (rand : Fr) :
    ∃ w pub, TransferWitness.newUnchecked rand inputs outputs = .ok w ∧
      TransferPublicInput.fromWitness w valid_until = .ok pub ∧ pub.fee = fee ∧ w.asset_def = ad ∧
      List.Forall₂ (fun i s => inputSecretOf i = .ok s ∧ s.cred.attrs.length = 8 ∧
        valid_until.val ≤ s.cred.expiry.val ∧ s.cred.expiry.val < valid_until.val + 2 ^ 20 ∧
        (i.ro.asset_def.policy.cred_pk ≠ 0 → s.cred.toV.sigValid = true)) inputs w.input_secrets := by
  obtain ⟨ss, hss⟩ := exists_forall₂ (fun i hi => h.secret hl hi)
  have hs' : List.Forall₂ (fun a b => inputSecretOf a = .ok b) inputs ss := hss.imp (fun _ _ hx => hx.1)
  obtain ⟨i0, is, hi, hi0⟩ := h.fee_in
  obtain ⟨o0, os, ho, ho0⟩ := h.fee_out
  have hro := secrets_ro hs'
  obtain ⟨s0, ss', hse⟩ : ∃ s0 ss', ss = s0 :: ss' := by
    rw [hi] at hs'
    cases hs' with
    | cons a b => exact ⟨_, _, rfl⟩
  have hmoved : moved inputs ≤ total (real (inputs.map (·.ro))) := by
    unfold moved
    rw [hi, List.map_cons, real_cons_of_ne (by rw [hi0]; exact nativeDef_ne_dummyDef), total_cons, List.tail_cons]
    omega
  have hattr : ∀ i ∈ inputs.tail, (attrsOf i).length = 8 := by
    intro i hi
    obtain ⟨s, hs, his⟩ := forall₂_mem_right (List.Forall₂.flip (R := fun s i => inputSecretOf i = .ok s ∧
      s.cred.attrs.length = 8 ∧ valid_until.val ≤ s.cred.expiry.val ∧ s.cred.expiry.val < valid_until.val + 2 ^ 20 ∧
        (i.ro.asset_def.policy.cred_pk ≠ 0 → s.cred.toV.sigValid = true)) hss) i (List.mem_of_mem_tail hi)
    rw [attrsOf_secret his.1]; exact his.2.1
  have hsm := h.small
  obtain ⟨memo, hm⟩ : ∃ memo, ViewableMemo.newForTransferNote (ss.map (·.ro)) outputs (ss.map (·.cred)) rand = .ok memo := by
    simp only [newForTransferNote_ok h.agree hs']
    by_cases hc : ad.policy.viewer_pk ≠ 0 ∧ ad.policy.reveal_threshold.val < moved inputs
    · refine ⟨viewerEncrypt ad.policy.viewer_pk rand (plainMessage ad inputs outputs), by omega, ?_⟩
      rw [if_pos hc]
      exact ⟨hattr, rfl⟩
    · refine ⟨viewerEncrypt (E.randViewerPk rand) rand
        (List.replicate ((inputs.length - 1) * 12 + (outputs.length - 1) * 4 + 1) 0), by omega, ?_⟩
      rw [if_neg hc]
  have hb := Balanced.total h.balanced
  refine ⟨⟨witnessAssetDef inputs, ss, outputs, rand⟩,
    ⟨s0.acc.root, o0.asset_def.code, valid_until, fee, ss.map InputSecret.nullifier,
      outputs.map RecordOpening.commitment, memo⟩, newUnchecked_ok.2 ⟨rfl, rfl, rfl, hs'⟩,
      fromWitness_ok.2 ⟨s0, ss', o0, os, hse, ho, ?_, ?_, hm, rfl, rfl, rfl, rfl, rfl⟩, rfl,
      witnessAssetDef_eq h.agree, hss⟩
  · show total (real (ss.map (·.ro))) = total outputs + fee.val
    rw [hro]; exact hb
  · show total (real (ss.map (·.ro))) < 2 ^ 128
    rw [hro]; omega

theorem Spec.Transferable.small_out (h : Transferable ni no d valid_until inputs outputs ad fee root)
    {o : RecordOpening} (ho : o ∈ outputs) : o.amount.val < 2 ^ 127 := by
  have h1 := Balanced.total h.balanced
  have h2 := amount_le_totalOf ho
  have h3 := totalOf_le_total o.asset_def.code outputs
  have h4 := h.small
  omega

theorem Spec.Transferable.dummy_iff (h : Transferable ni no d valid_until inputs outputs ad fee root)
    {i : TransferNoteInput} (hi : i ∈ inputs) : i.ro.asset_def.code = dummyCode ↔ i.ro.asset_def = AssetDefinition.dummy := by
  obtain ⟨i0, is, he, hi0⟩ := h.fee_in
  constructor
  · intro hc
    rw [he, List.mem_cons] at hi
    rcases hi with rfl | hi
    · rw [hi0] at hc; exact absurd hc native_ne_dummy
    · rcases h.asset_in i (by rw [he]; exact hi) with hd | hd
      · exact hd
      · rw [hd] at hc; exact absurd hc h.code_dummy
  · intro hd; rw [hd]; rfl

/-- the amounts of a well-formed transfer, as the circuit sees them -/
theorem Spec.Transferable.amounts (h : Transferable ni no d valid_until inputs outputs ad fee root) {i0 : TransferNoteInput}
    {is : List TransferNoteInput} {o0 : RecordOpening} {os : List RecordOpening} (hi : inputs = i0 :: is)
    (ho : outputs = o0 :: os) :
    i0.ro.amount.val + total (is.map (·.ro)) = o0.amount.val + total os + fee.val ∧
    (ad.code ≠ nativeCode → i0.ro.amount.val = o0.amount.val + fee.val ∧ total (is.map (·.ro)) = total os) := by
  have hdum : ∀ r ∈ inputs.map (·.ro), r.asset_def = AssetDefinition.dummy → r.amount = 0 := by
    intro r hr hd
    obtain ⟨i, hi, rfl⟩ := List.mem_map.1 hr
    exact h.dummies i hi hd
  have hb := Balanced.total h.balanced
  rw [total_real hdum, hi, ho, List.map_cons, total_cons, total_cons] at hb
  refine ⟨hb, fun hne => ?_⟩
  obtain ⟨i0', is', he, hi0⟩ := h.fee_in
  obtain ⟨rfl, rfl⟩ : i0 = i0' ∧ is = is' := by rw [hi] at he; simpa using he
  obtain ⟨r0, rs, hr, hbal⟩ := h.balanced
  rw [hi, List.map_cons] at hr
  obtain ⟨rfl, rfl⟩ := List.cons.inj hr
  have h1 := hbal ad.code
  rw [if_neg (by rw [hi0]; exact hne), hi, ho, List.map_cons,
    real_cons_of_ne (by rw [hi0]; exact nativeDef_ne_dummyDef), totalOf_cons, totalOf_cons] at h1
  obtain ⟨o0', os', he', ho0⟩ := h.fee_out
  obtain ⟨rfl, rfl⟩ : o0 = o0' ∧ os = os' := by rw [ho] at he'; simpa using he'
  rw [if_neg (by rw [hi0]; exact fun h => hne h.symm), if_neg (by rw [ho0]; exact fun h => hne h.symm),
    totalOf_eq_total (l := os), totalOf_eq_total (l := real _), total_real] at h1
  · omega
  · intro r hr
    exact hdum r (by rw [hi, List.map_cons]; exact List.mem_cons_of_mem _ hr)
  · intro r hr
    unfold real at hr
    rw [List.mem_filter] at hr
    obtain ⟨hr, hd⟩ := hr
    obtain ⟨i, him, rfl⟩ := List.mem_map.1 hr
    rcases h.asset_in i (by rw [hi]; exact him) with hx | hx
    · rw [hx] at hd; simp at hd
    · rw [hx]
  · intro r hr
    rw [h.asset_out r (by rw [ho]; exact hr)]

theorem plainMessage_length (ad : AssetDefinition) {inputs : List TransferNoteInput} (outputs : List RecordOpening)
    (h : ∀ i ∈ inputs.tail, (attrsOf i).length = 8) :
    (plainMessage ad inputs outputs).length = 1 + (inputs.length - 1) * 12 + (outputs.length - 1) * 4 := by
  unfold plainMessage
  rw [List.length_cons, List.length_append, flatMap_length_const (k := 12), flatMap_length_const (k := 4),
    List.length_tail, List.length_tail]
  · ring
  · intro o _; rfl
  · intro i hi
    unfold plainInput
    rw [List.length_append, List.length_append, List.length_zipWith, h i hi]
    split <;> simp

/-- a well-formed transfer satisfies the circuit -/
theorem Spec.Transferable.sat (h : Transferable ni no d valid_until inputs outputs ad fee root)
    (hl : Limits valid_until inputs ad) {rand : Fr}
    {w : TransferWitness} {pub : TransferPublicInput}
    (hw : TransferWitness.newUnchecked rand inputs outputs = .ok w)
    (hp : TransferPublicInput.fromWitness w valid_until = .ok pub) (hfee : pub.fee = fee)
    (hss : List.Forall₂ (fun i s => inputSecretOf i = .ok s ∧ s.cred.attrs.length = 8 ∧
        valid_until.val ≤ s.cred.expiry.val ∧ s.cred.expiry.val < valid_until.val + 2 ^ 20 ∧
        (i.ro.asset_def.policy.cred_pk ≠ 0 → s.cred.toV.sigValid = true)) inputs w.input_secrets) :
    TransferSat w.toV pub.toV := by
  obtain ⟨h1, h2, h3, h4⟩ := newUnchecked_ok.1 hw
  obtain ⟨s0, ss, o0, os, hf⟩ := fromWitness_ok.1 hp
  have had : w.asset_def = ad := h1.trans (witnessAssetDef_eq h.agree)
  obtain ⟨i0, is, hi, hi0⟩ := h.fee_in
  obtain ⟨o0', os', ho, ho0⟩ := h.fee_out
  obtain ⟨rfl, rfl⟩ : o0 = o0' ∧ os = os' := by
    have := hf.outputs; rw [h2, ho] at this; simpa using this.symm
  have hroot : pub.merkle_root = root := by
    rw [hf.root]
    have hx := h4
    rw [hi, hf.secrets] at hx
    cases hx with
    | cons a b =>
      rw [(inputSecretOf_ok.1 a).2.2.1]
      exact (h.member i0 (by rw [hi]; simp) (by rw [hi0]; exact nativeDef_ne_dummyDef)).1
  have hsec : ∀ s ∈ w.input_secrets, ∃ i ∈ inputs, inputSecretOf i = .ok s ∧ s.cred.attrs.length = 8 ∧
        valid_until.val ≤ s.cred.expiry.val ∧ s.cred.expiry.val < valid_until.val + 2 ^ 20 ∧
        (i.ro.asset_def.policy.cred_pk ≠ 0 → s.cred.toV.sigValid = true) := forall₂_mem_right hss
  have hin : ∀ s ∈ w.input_secrets, ∀ first, InputPosOk w.toV pub.toV first s.toV →
      InputOk w.toV pub.toV first s.toV s.nullifier := by
    intro s hs first hpos
    obtain ⟨i, him, his, k1, k2, k3, k4⟩ := hsec s hs
    obtain ⟨e1, e2, e3, -⟩ := inputSecretOf_ok.1 his
    have hdi : s.toV.ro.isDummy = true ↔ i.ro.asset_def = AssetDefinition.dummy := by
      rw [← h.dummy_iff him, ← e2]
      exact RecordOpening.toV_isDummy s.ro
    refine ⟨?_, ?_, hpos, ?_, spendNullifier_user _ _ _, ?_, k1, ?_, ?_⟩
    · show s.ro.freeze_flag.toBool = false
      rw [e2, h.unfrozen_in i him]; rfl
    · by_cases hd : i.ro.asset_def = AssetDefinition.dummy
      · right
        show Amount.toF s.ro.amount = 0
        rw [e2, h.dummies i him hd, Amount.toF_zero]
      · left
        rw [← Bool.not_eq_true, hdi]; exact hd
    · refine (SpendOk_user_host s.ro s.owner_keypair).2 ?_
      rw [e1, e2, h.owned i him]; rfl
    · by_cases hd : i.ro.asset_def = AssetDefinition.dummy
      · exact Or.inl (hdi.2 hd)
      · right
        refine (spendRoot_host s.ro s.acc).trans ?_
        rw [e2, e3]
        exact (h.member i him hd).2.trans hroot.symm
    · show InRange (((s.cred.expiry.val : ℕ) : F) - ((pub.valid_until.val : ℕ) : F)) MAX_TIMESTAMP_LEN
      unfold InRange
      have := s.cred.expiry.isLt
      have := valid_until.isLt
      rw [hf.valid, sub_range (by omega) (by omega) (by norm_num [MAX_TIMESTAMP_LEN])]
      simp only [MAX_TIMESTAMP_LEN]
      omega
    · by_cases hc : i.ro.asset_def.policy.cred_pk = 0
      · left
        refine (isDummyCredPk_host s.ro.asset_def.policy).2 ?_
        rw [e2]; exact hc
      · exact Or.inr (k4 hc)
  have hatt : ∀ i ∈ w.toV.inputs, i.cred.attrs.length = ATTRS_LEN := by
    intro x hx
    obtain ⟨s, hs, rfl⟩ := List.mem_map.1 hx
    obtain ⟨i, -, -, k1, -⟩ := hsec s hs
    exact k1
  have hlen : w.input_secrets.length = inputs.length := secrets_length h4
  obtain ⟨t0, ts, hts, hit0, hits⟩ : ∃ t0 ts, w.input_secrets = t0 :: ts ∧ inputSecretOf i0 = .ok t0 ∧
      List.Forall₂ (fun a b => inputSecretOf a = .ok b) is ts := by
    have hx := h4
    rw [hi] at hx
    obtain ⟨t0, ts, hab, hrest, he⟩ := List.forall₂_cons_left_iff.1 hx
    exact ⟨t0, ts, he, hab, hrest⟩
  have hnat : pub.native_asset_code = nativeCode := by rw [hf.native, ho0]; rfl
  have hsum : sumTail (w.toV.inputs.map (·.ro.amount)) = ((total (is.map (·.ro)) : ℕ) : F) := by
    rw [castAmounts, ← secrets_ro hits]
    simp only [TransferWitness.toV, hts, List.map_cons, sumTail, List.tail_cons, List.map_map]
    rfl
  have hmv : moved inputs = total (is.map (·.ro)) := by
    unfold moved
    rw [hi, List.tail_cons, total_real]
    intro r hr
    obtain ⟨i, him, rfl⟩ := List.mem_map.1 hr
    exact h.dummies i (by rw [hi]; exact List.mem_cons_of_mem _ him)
  have hm := hf.memo
  rw [h2, newForTransferNote_ok h.agree h4] at hm
  obtain ⟨hm0, hm⟩ := hm
  refine ⟨?_, ?_, ?_, ?_, frToFq_ok _, ?_, ?_⟩
  · show AllPos _ true (w.input_secrets.map InputSecret.toV) pub.input_nullifiers
    rw [hf.nullifiers]
    refine AllPos.of_map (fun s hs => ?_) (fun s hs => ?_)
    · rw [hts] at hs
      simp only [List.head?_cons, Option.mem_def, Option.some.injEq] at hs
      subst hs
      refine hin _ (by rw [hts]; simp) _ ?_
      have e2 := (inputSecretOf_ok.1 hit0).2.1
      refine ⟨?_, AssetPolicy.enforceDummy_host.2 ?_⟩
      · show t0.ro.asset_def.code = pub.native_asset_code
        rw [e2, hi0, hnat]; rfl
      · rw [e2, hi0]; rfl
    · have hs' := List.mem_of_mem_tail hs
      refine hin _ hs' _ ?_
      rw [hts, List.tail_cons] at hs
      obtain ⟨i, him, his⟩ := forall₂_mem_right hits s hs
      have e2 := (inputSecretOf_ok.1 his).2.1
      have hdi : s.toV.ro.isDummy = true ↔ i.ro.asset_def = AssetDefinition.dummy := by
        rw [← h.dummy_iff (by rw [hi]; exact List.mem_cons_of_mem _ him), ← e2]
        exact RecordOpening.toV_isDummy s.ro
      rcases h.asset_in i (by rw [hi]; exact him) with hx | hx
      · refine ⟨Or.inr ((isDummyPolicy_host s.ro.asset_def.policy).2 ?_), Or.inl (hdi.2 hx)⟩
        rw [e2, hx]; rfl
      · refine ⟨Or.inl ?_, Or.inr ((AssetPolicy.checkEqual_host (p := s.ro.asset_def.policy) (q := w.asset_def.policy)).2 ?_)⟩
        · rw [← Bool.not_eq_true, hdi, hx]
          exact h.agree.not_dummy
        · rw [e2, hx, had]
  · show AllPos _ true (w.output_ros.map RecordOpening.toV) pub.output_commitments
    rw [hf.commitments, h2]
    have hout : ∀ o ∈ outputs, o.toV.freeze_flag = false ∧ o.toV.commitment = o.commitment ∧
        InRange o.toV.amount AMOUNT_LEN := by
      intro o hom
      refine ⟨?_, o.toV_commitment, ?_⟩
      · show o.freeze_flag.toBool = false
        rw [h.unfrozen_out o hom]; rfl
      · have := h.small_out hom
        show (Amount.toF o.amount).val < 2 ^ 127
        unfold Amount.toF
        rw [natF_val (by omega)]
        exact this
    refine AllPos.of_map (fun o hom => ?_) (fun o hom => ?_)
    · rw [ho] at hom
      simp only [List.head?_cons, Option.mem_def, Option.some.injEq] at hom
      subst hom
      obtain ⟨a1, a2, a3⟩ := hout o0 (by rw [ho]; simp)
      refine ⟨a1, ⟨?_, AssetPolicy.enforceDummy_host.2 ?_⟩, a2, a3⟩
      · show o0.asset_def.code = pub.native_asset_code
        rw [ho0, hnat]; rfl
      · rw [ho0]; rfl
    · obtain ⟨a1, a2, a3⟩ := hout o (List.mem_of_mem_tail hom)
      have hx := h.asset_out o hom
      refine ⟨a1, ⟨?_, (AssetPolicy.enforceEqual_host (p := o.asset_def.policy) (q := w.asset_def.policy)).2 ?_⟩, a2, a3⟩
      · show o.asset_def.code = w.asset_def.code
        rw [hx, had]
      · rw [hx, had]
  · obtain ⟨b1, b2⟩ := h.amounts hi ho
    have hso : sumTail (w.toV.outputs.map (·.amount)) = ((total os : ℕ) : F) := by
      rw [castAmounts]
      simp only [TransferWitness.toV, h2, ho, List.map_cons, sumTail, List.tail_cons, List.map_map]
      rfl
    have e2 := (inputSecretOf_ok.1 hit0).2.1
    unfold BalanceOk
    rw [show w.toV.inputs = t0.toV :: ts.map InputSecret.toV by simp [TransferWitness.toV, hts],
      show w.toV.outputs = o0.toV :: os.map RecordOpening.toV by simp [TransferWitness.toV, h2, ho]] at *
    simp only
    rw [preserveBalance_iff, hsum, hso]
    show (pub.native_asset_code ≠ w.asset_def.code → Amount.toF t0.ro.amount = Amount.toF o0.amount + Amount.toF pub.fee ∧ _) ∧
      (pub.native_asset_code = w.asset_def.code → Amount.toF t0.ro.amount + _ = Amount.toF o0.amount + _ + Amount.toF pub.fee)
    rw [e2, hnat, had, hfee]
    unfold Amount.toF
    constructor
    · intro hne
      obtain ⟨c1, c2⟩ := b2 (fun h => hne h.symm)
      rw [c1, c2]
      push_cast
      exact ⟨rfl, rfl⟩
    · intro _
      have := congrArg (fun n : ℕ => (n : F)) b1
      simpa using this
  · show (w.asset_def.policy.reveal_map.toScalar).val < 2 ^ 12
    rw [RevealMap.toScalar_val]
    exact RevealMap.toNat_lt _
  · rw [transferMsgV_length hatt]
    show pub.viewing_memo.data.length = _
    have l1 : w.toV.inputs.length = inputs.length := by simp [TransferWitness.toV, hlen]
    have l2 : w.toV.outputs.length = outputs.length := by simp [TransferWitness.toV, h2]
    rw [l1, l2]
    split at hm
    · rw [hm.2, viewerEncrypt_length, plainMessage_length _ _ hm.1]
    · rw [hm, viewerEncrypt_length, List.length_replicate]
      ring
  · by_cases hv : ad.policy.viewer_pk = 0
    · left; right
      exact (isDummyViewingPk_host w.asset_def.policy).2 (by rw [had]; exact hv)
    · rcases hl.memo with hx | ⟨hx, hx'⟩ | ⟨hx, hx'⟩
      · exact absurd hx hv
      · left; left
        have ht := ad.policy.reveal_threshold.isLt
        rw [underLimit_iff (t := ad.policy.reveal_threshold.val) (s := moved inputs) (by omega) (by omega)
          (by show Amount.toF w.asset_def.policy.reveal_threshold = _; rw [had]; rfl) (by rw [hsum, hmv])]
        exact ⟨hx, hx'⟩
      · right
        rw [if_pos ⟨hv, hx⟩] at hm
        unfold correctMemoV
        rw [decide_eq_true_eq, transferMsgV_plain h4 had h2 (hx'.imp id ?_) hm.1
          (fun i hi hc => (h.dummy_iff (List.mem_of_mem_tail hi)).1 hc)]
        show pub.viewing_memo.toV = _
        rw [hm.2, viewerEncrypt_toV]
        · show _ = MemoV.derive (E.xy w.asset_def.policy.viewer_pk) _ _
          rw [had]
          rfl
        · intro hz i hi hne
          exact hz i hi ((h.asset_in i hi).resolve_left hne)

/-- the nullifiers of a transfer -/
theorem Spec.Transferable.nullifiers (_h : Transferable ni no d valid_until inputs outputs ad fee root) {rand : Fr}
    {w : TransferWitness} {pub : TransferPublicInput} (hw : TransferWitness.newUnchecked rand inputs outputs = .ok w)
    (hp : TransferPublicInput.fromWitness w valid_until = .ok pub) :
    pub.input_nullifiers = inputs.map nullifierOf := by
  obtain ⟨-, -, -, h4⟩ := newUnchecked_ok.1 hw
  obtain ⟨s0, ss, o0, os, hf⟩ := fromWitness_ok.1 hp
  rw [hf.nullifiers]
  refine (forall₂_map_eq (fun i s his => ?_) h4).symm
  obtain ⟨e1, e2, e3, -⟩ := inputSecretOf_ok.1 his
  unfold nullifierOf InputSecret.nullifier
  rw [e1, e2, e3]

/-- the size of the circuit of a transfer -/
theorem Spec.Transferable.shape (h : Transferable ni no d valid_until inputs outputs ad fee root) {rand : Fr}
    {w : TransferWitness} {pub : TransferPublicInput} (hw : TransferWitness.newUnchecked rand inputs outputs = .ok w)
    (hp : TransferPublicInput.fromWitness w valid_until = .ok pub)
    (hss : List.Forall₂ (fun i s => inputSecretOf i = .ok s ∧ s.cred.attrs.length = 8 ∧
        valid_until.val ≤ s.cred.expiry.val ∧ s.cred.expiry.val < valid_until.val + 2 ^ 20 ∧
        (i.ro.asset_def.policy.cred_pk ≠ 0 → s.cred.toV.sigValid = true)) inputs w.input_secrets)
    (hsat : TransferSat w.toV pub.toV) : TransferShape ni no d w.toV pub.toV := by
  have hnul := h.nullifiers hw hp
  obtain ⟨h1, h2, h3, h4⟩ := newUnchecked_ok.1 hw
  obtain ⟨s0, ss, o0, os, hf⟩ := fromWitness_ok.1 hp
  have l1 : w.toV.inputs.length = ni := by
    rw [← h.num_in, ← secrets_length h4]; simp [TransferWitness.toV]
  have l2 : w.toV.outputs.length = no := by rw [← h.num_out, ← h2]; simp [TransferWitness.toV]
  have hatt : ∀ i ∈ w.toV.inputs, i.cred.attrs.length = ATTRS_LEN := by
    intro x hx
    obtain ⟨s, hs, rfl⟩ := List.mem_map.1 hx
    obtain ⟨i, -, -, k1, -⟩ := forall₂_mem_right hss s hs
    exact k1
  refine ⟨l1, l2, ?_, ?_, ?_, ?_⟩
  · show pub.input_nullifiers.length = ni
    rw [hnul, List.length_map, h.num_in]
  · show pub.output_commitments.length = no
    rw [hf.commitments, h2, List.length_map, h.num_out]
  · intro i hi
    simp only [TransferWitness.toV, List.mem_map] at hi
    obtain ⟨s, hs, rfl⟩ := hi
    obtain ⟨x, hx, hxs⟩ := forall₂_mem_right h4 s hs
    show s.acc.path.length = d
    rw [(inputSecretOf_ok.1 hxs).2.2.1]
    exact h.depth x hx
  · rw [hsat.memo_len, transferMsgV_length hatt, l1, l2]
    simp only [VIEWABLE_DATA_LEN, REVEAL_MAP_LEN, ATTRS_LEN]
    ring

variable [S : CapExt]

/-- a well-formed transfer is generated -/
theorem Spec.WellFormed.generates {d : Fin 256} (h : WellFormed ni no d.val valid_until inputs outputs ad fee root)
    (hl : Limits valid_until inputs ad) (complete : SnarkComplete) {pk : TransferProvingKey} {vk : TransferVerifyingKey}
    (keys : transferPreprocess ni no d = .ok (pk, vk)) (b : Build) (rng : TransferRand) (extra : List Byte) :
    ∃ n sk w pub, TransferGen b rng inputs outputs pk valid_until extra n sk w pub ∧ n.aux_info.fee = fee ∧
      n.aux_info.merkle_root = root := by
  obtain ⟨hk, hk1, hk2, hk3⟩ := transferPreprocess_ok keys
  obtain ⟨w, pub, hw, hp, hfee, had, hss⟩ := h.witness hl rng.enc_rand
  have hsat := h.sat hl hw hp hfee hss
  obtain ⟨h1, h2, h3, h4⟩ := newUnchecked_ok.1 hw
  obtain ⟨s0, ss, o0, os, hf⟩ := fromWitness_ok.1 hp
  obtain ⟨i0, is, hi, hi0⟩ := h.fee_in
  obtain ⟨o0', os', ho, ho0⟩ := h.fee_out
  have hda : ∀ {r : RecordOpening}, r.asset_def.isDummy = false → r.asset_def ≠ AssetDefinition.dummy := by
    intro r hr hd
    rw [AssetDefinition.isDummy_iff.2 hd] at hr
    cases hr
  have hdum : ∀ r ∈ inputs.map (·.ro), r.asset_def = AssetDefinition.dummy → r.amount = 0 := by
    intro r hr hd
    obtain ⟨i, hi, rfl⟩ := List.mem_map.1 hr
    exact h.dummies i hi hd
  have hroot0 := (h.member i0 (by rw [hi]; simp) (by rw [hi0]; exact nativeDef_ne_dummyDef)).1
  have hnul := h.nullifiers hw hp
  have hshape := h.shape hw hp hss hsat
  obtain ⟨π, hπ, -⟩ := complete _ _ _ hk (.transfer w.toV pub.toV) hshape hsat
    (E.verKeyBytes (smulFr rng.sign_sk E.gen) ++ extra) rng.seed
  refine ⟨⟨pub.input_nullifiers, pub.output_commitments, π, pub.viewing_memo,
    ⟨root, fee, valid_until, smulFr rng.sign_sk E.gen, extra⟩⟩, rng.sign_sk, w, pub, ?_, rfl, rfl⟩
  refine ⟨by rw [hi]; simp, by rw [ho]; simp, ?_, ?_, ?_, ?_, transferCheckAssetDef_ok.2 ⟨ad, h.assets⟩, ?_, ?_, ?_, hw, hp,
    ?_, ?_, rfl, rfl, rfl, rfl, rfl, rfl, rfl⟩
  · simp only [transferCheckProvingKey, bind_ok_iff, ensure_ok_iff, decide_eq_true_eq, List.all_eq_true]
    rw [hk1, hk2, hk3]
    exact ⟨(), h.num_in.symm, (), h.num_out.symm, h.depth⟩
  · simp only [transferCheckInputPubKeys, ensure_ok_iff, List.all_eq_true, decide_eq_true_eq, List.mem_filter]
    exact fun i hi => h.owned i hi.1
  · rw [hi, List.map_cons]
    simp only [checkDummyInputs, bind_ok_iff, ensure_ok_iff, Bool.not_eq_true', List.any_eq_false,
      decide_eq_true_eq, not_and, not_not]
    refine ⟨(), ?_, fun r hr hd => ?_⟩
    · rw [← Bool.not_eq_true, RecordOpening.isDummy_iff, hi0]; exact nativeDef_ne_dummyDef
    · exact hdum r (by rw [hi, List.map_cons]; exact List.mem_cons_of_mem _ hr) (AssetDefinition.isDummy_iff.1 hd)
  · refine checkBalance_complete b h.assets ?_ hdum h.balanced h.small
    by_cases hc : ad.code = nativeCode
    · exact Or.inl (h.code_native hc)
    · exact Or.inr hc
  · refine checkUnfrozen_ok.2 ⟨fun r hr => ?_, h.unfrozen_out⟩
    obtain ⟨i, hi, rfl⟩ := List.mem_map.1 hr
    exact h.unfrozen_in i hi
  · unfold transferCheckAndGetRoots
    rw [hi]
    dsimp only
    rw [if_neg, hroot0]
    simp only [Bool.not_eq_true, List.any_eq_false, List.mem_filter, Bool.not_eq_true', decide_eq_true_eq, not_not,
      and_imp]
    intro i him hd
    rw [hroot0]
    exact (h.member i (by rw [hi]; exact him) (hda hd)).1
  · have : ∀ l : List TransferNoteInput, (∀ i ∈ l, i ∈ inputs) → transferCheckCreds valid_until l = .ok () := by
      intro l
      induction l with
      | nil => intro _; rfl
      | cons i l ih =>
        intro hl
        unfold transferCheckCreds
        rw [bind_ok_iff]
        refine ⟨(), ?_, ih (fun x hx => hl x (List.mem_cons_of_mem _ hx))⟩
        unfold transferCheckCred
        by_cases hc : i.ro.asset_def.policy.cred_pk = 0
        · rw [if_neg (by simpa using hc)]
        · rw [if_pos hc]
          obtain ⟨c, e1, e2, -⟩ := h.creds i (hl i (by simp)) hc
          rw [e1]
          exact e2
    exact this inputs (fun _ h => h)
  · rw [hnul]
    exact checkDistinct_ok.2 h.once
  · unfold transferProve
    rw [if_pos ⟨hsat, rfl⟩, orFailedSnark_ok]
    exact hπ

end

end Cap
