/-
C14: viewing memos round-trip and hide what the policy hides.

status: proved
note: For every generated transfer over the threshold of a policy with a viewer. C14_plaintext: the viewer decrypts exactly plainMessage (Spec.lean): asset code, then per input and output each field if its bit is set and zero otherwise, dummies as the neutral address. C14_seen: the viewer's opening function returns exactly the revealed fields of the records that were given to generate (if the two address bits of the map agree, and no spent record is owned by the neutral element when addresses are revealed; see C13 for what happens otherwise). C14_hides: two transfers whose records have the same revealed fields get the same memo for the same randomness, whatever the hidden values.
-/
import Verif.Lemmas.MemoGenerated
import Verif.Props.C13

namespace Cap

open Spec

variable [E : CapEnv] [S : CapExt]

/-- **The memo.**  Over the threshold the memo is the encryption of the plaintext of `Spec.plainMessage`, and decrypts to
it. -/
theorem C14_plaintext {b : Build} {rng : TransferRand} {inputs : List TransferNoteInput}
    {outputs : List RecordOpening} {pk : TransferProvingKey} {valid_until : U64} {extra : List Byte}
    {n : TransferNote} {sk : Fr} (gen : TransferNote.generate b rng inputs outputs pk valid_until extra = .ok (n, sk))
    {ad : AssetDefinition} (moves : Moves ad inputs) (over : ad.policy.reveal_threshold.val < moved inputs)
    {k : ViewerKeyPair} (viewer : k.pubKey = ad.policy.viewer_pk) (named : ad.policy.viewer_pk ≠ 0) :
    k.decrypt n.viewing_memo = plainMessage ad inputs outputs ∧
      n.viewing_memo = viewerEncrypt k.pubKey rng.enc_rand (plainMessage ad inputs outputs) := by
  obtain ⟨w, pub, h⟩ := TransferNote.generate_ok.1 gen
  obtain ⟨ad', ha, -, -, hm⟩ := h.memo_eq
  obtain rfl := ha.moves moves
  rw [if_pos ⟨named, over⟩] at hm
  rw [hm.2, viewer]
  refine ⟨?_, rfl⟩
  rw [← viewer, decrypt_encrypt]

/-- a transfer that moves something does not move an asset with the dummy code -/
theorem moved_code_ne {b : Build} {rng : TransferRand} {inputs : List TransferNoteInput}
    {outputs : List RecordOpening} {pk : TransferProvingKey} {valid_until : U64} {extra : List Byte}
    {n : TransferNote} {sk : Fr} (gen : TransferNote.generate b rng inputs outputs pk valid_until extra = .ok (n, sk))
    {ad : AssetDefinition} (ha : AssetsOk ad (inputs.map (·.ro)) outputs) (hpos : 0 < moved inputs) :
    ad.code ≠ dummyCode := by
  obtain ⟨w, hw, h1, -⟩ := transfer_generated gen
  obtain ⟨i0, is, o0, os, nl, nls, cm, cs, hp⟩ := hw.sat.parts hw.shape
  intro hc
  have hz : ∀ r ∈ real (inputs.tail.map (·.ro)), r.amount.val = 0 := by
    intro r hr
    rw [real, List.mem_filter] at hr
    obtain ⟨hr, hd⟩ := hr
    simp only [decide_eq_true_eq] at hd
    have had : r.asset_def = ad := (ha.ins r (by rw [← List.map_tail]; exact hr)).resolve_left hd
    have hmem : r.toV ∈ is.map (·.ro) := by
      rw [hp.inputs] at h1
      cases inputs with
      | nil => simp at hr
      | cons x xs =>
        simp only [List.map_cons, List.cons.injEq] at h1
        rw [h1.2]
        simp only [List.tail_cons, List.mem_map] at hr ⊢
        obtain ⟨y, hy, rfl⟩ := hr
        exact ⟨y, hy, rfl⟩
    obtain ⟨i, hi, hir⟩ := List.mem_map.1 hmem
    obtain ⟨x, -, hx⟩ := hp.mem_in hi
    have hdum : i.ro.isDummy = true := by
      rw [hir, RecordOpening.toV_isDummy, had]; exact hc
    have h0 : i.ro.amount = 0 := by
      rcases hx.2.1 with h | h
      · rw [hdum] at h; cases h
      · exact h
    rw [hir] at h0
    have : (Amount.toF r.amount : F).val = 0 := by
      rw [show (Amount.toF r.amount : F) = 0 from h0, ZMod.val_zero]
    rwa [Amount.toF_val] at this
  have : moved inputs = 0 := by
    unfold moved total
    apply List.sum_eq_zero
    intro x hx
    obtain ⟨r, hr, rfl⟩ := List.mem_map.1 hx
    exact hz r hr
  omega

/-- the inputs that are not dummies, in the witness and in the arguments of `generate` -/
theorem secrets_filter {inputs : List TransferNoteInput} {ss : List InputSecret}
    (h : List.Forall₂ (fun a b => inputSecretOf a = .ok b) inputs ss)
    (hd : ∀ i ∈ inputs, i.ro.asset_def.code = dummyCode → i.ro.asset_def = AssetDefinition.dummy) :
    ((ss.map InputSecret.toV).filter (fun i => !i.ro.isDummy)).map (·.ro) =
      (inputs.filter (fun i => i.ro.asset_def ≠ AssetDefinition.dummy)).map (·.ro.toV) ∧
    ((ss.map InputSecret.toV).filter (fun i => !i.ro.isDummy)).map (·.cred.attrs) =
      (inputs.filter (fun i => i.ro.asset_def ≠ AssetDefinition.dummy)).map attrsOf := by
  induction h with
  | nil => exact ⟨rfl, rfl⟩
  | @cons i s is ss h1 _ ih =>
    obtain ⟨ih1, ih2⟩ := ih (fun j hj => hd j (List.mem_cons_of_mem _ hj))
    have hr := (inputSecretOf_ok.1 h1).2.1
    rw [List.map_cons]
    by_cases hdm : i.ro.asset_def = AssetDefinition.dummy
    · have h2 : s.toV.ro.isDummy = true := by
        show s.ro.toV.isDummy = true
        rw [RecordOpening.toV_isDummy, hr, hdm]; rfl
      rw [List.filter_cons_of_neg (by simp [h2]), List.filter_cons_of_neg (by simp [hdm])]
      exact ⟨ih1, ih2⟩
    · have h2 : s.toV.ro.isDummy = false := by
        rw [← Bool.not_eq_true]
        show ¬ s.ro.toV.isDummy = true
        rw [RecordOpening.toV_isDummy, hr]
        exact fun hc => hdm (hd i (by simp) hc)
      rw [List.filter_cons_of_pos (by simp [h2]), List.filter_cons_of_pos (by simp [hdm]), List.map_cons, List.map_cons,
        List.map_cons, List.map_cons, ih1, ih2, attrsOf_secret h1, ← hr]
      exact ⟨rfl, rfl⟩

/-- **What the viewer gets.**  For each spent record that is not a dummy (without the fee record) and each created one
(without the fee change), exactly the revealed fields. -/
theorem C14_seen {b b' : Build} {rng : TransferRand} {inputs : List TransferNoteInput}
    {outputs : List RecordOpening} {pk : TransferProvingKey} {valid_until : U64} {extra : List Byte}
    {n : TransferNote} {sk : Fr} (gen : TransferNote.generate b rng inputs outputs pk valid_until extra = .ok (n, sk))
    (hi : inputs.length < 2 ^ 64) (ho : outputs.length < 2 ^ 64) {ad : AssetDefinition} (moves : Moves ad inputs)
    (some_out : outputs.tail ≠ []) (over : ad.policy.reveal_threshold.val < moved inputs)
    (agree : ad.policy.reveal_map[0] = ad.policy.reveal_map[1])
    (owned : ad.policy.reveal_map[0] = true → ∀ i ∈ inputs.tail, i.ro.asset_def ≠ AssetDefinition.dummy →
      i.ro.pub_key.address ≠ 0)
    {k : ViewerKeyPair} (viewer : k.pubKey = ad.policy.viewer_pk) (named : ad.policy.viewer_pk ≠ 0) :
    k.openTransferViewingMemo b' ad n = .ok
      ((inputs.tail.filter (fun i => i.ro.asset_def ≠ AssetDefinition.dummy)).map
          (fun i => viewInput ad i.ro (attrsOf i)),
        outputs.tail.map (viewOutput ad)) := by
  obtain ⟨w, pub, h⟩ := TransferNote.generate_ok.1 gen
  obtain ⟨ad', ha, -, -, -⟩ := h.memo_eq
  obtain rfl : ad = ad' := ha.moves moves
  obtain ⟨h1, h2, h3, h4⟩ := newUnchecked_ok.1 h.witness
  have hopens : OpensTransfer pk.n_inputs pk.n_outputs pk.tree_depth.val n w.toV := by
    constructor
    · rw [h.pub_note]; exact h.shape h.sat
    · rw [h.pub_note]; exact h.sat
  have hk := h.key
  simp only [transferCheckProvingKey, bind_ok_iff, ensure_ok_iff, decide_eq_true_eq, List.all_eq_true] at hk
  obtain ⟨-, hk1, -, hk2, -⟩ := hk
  have hcode := moved_code_ne gen ha (by omega)
  have hd : ∀ i ∈ inputs.tail, i.ro.asset_def.code = dummyCode → i.ro.asset_def = AssetDefinition.dummy := by
    intro i him hc
    refine (ha.ins i.ro (by rw [← List.map_tail]; exact List.mem_map_of_mem (f := (·.ro)) him)).resolve_right ?_
    intro he
    rw [he] at hc
    exact hcode hc
  obtain ⟨f1, f2⟩ := secrets_filter (forall₂_tail h4) hd
  have hwt : w.toV.inputs.tail = w.input_secrets.tail.map InputSecret.toV := by
    simp only [TransferWitness.toV, ← List.map_tail]
  have key := C13_partial b' hopens (by rw [hk1]; exact hi) (by rw [hk2]; exact ho) (ad := ad)
    (ins := (inputs.tail.filter (fun i => i.ro.asset_def ≠ AssetDefinition.dummy)).map (·.ro)) (outs := outputs.tail)
    (by
      rw [hwt, f1, List.forall₂_map_left_iff, List.forall₂_map_right_iff]
      exact List.forall₂_same.2 (fun i _ => ⟨(RecordOpening.toV_scalars _).symm, rfl⟩))
    (by
      simp only [TransferWitness.toV, h2, ← List.map_tail]
      rw [List.forall₂_map_right_iff]
      exact List.forall₂_same.2 (fun i _ => ⟨(RecordOpening.toV_scalars _).symm, rfl⟩))
    (by
      obtain ⟨o, os, hoe⟩ := List.exists_cons_of_ne_nil some_out
      exact ⟨o, by simp [hoe], ha.outs o (by simp [hoe])⟩)
    agree
    (by
      intro hb r hr
      obtain ⟨i, him, rfl⟩ := List.mem_map.1 hr
      rw [List.mem_filter, decide_eq_true_eq] at him
      exact owned hb i him.1 him.2)
    (by
      have : moved inputs =
          total ((inputs.tail.filter (fun i => i.ro.asset_def ≠ AssetDefinition.dummy)).map (·.ro)) := by
        unfold moved real
        rw [List.filter_map]
        rfl
      rw [← this]
      exact over)
    viewer named
  rw [key, hwt, f2]
  congr 2
  rw [List.zipWith_map]
  exact List.zipWith_self

omit E S in
theorem masked_inj {α : Type} {b : Bool} {x y : α} (h : (if b then some x else none) = if b then some y else none) :
    b = true → x = y := by
  rintro rfl
  simpa using h

omit S in
theorem shown_congr {b : Bool} {x y : F} (h : b = true → x = y) : shown b x = shown b y := by
  unfold shown
  split
  · rename_i hb; exact h hb
  · rfl

omit E S in
theorem zipWith_length_eq {α : Type} : ∀ {bs : List Bool} {l m : List α},
    List.zipWith (fun (b : Bool) a => if b then some a else none) bs l =
      List.zipWith (fun (b : Bool) a => if b then some a else none) bs m → ∀ (f : Bool → α → α) (z : α),
      (∀ a, f true a = a) → (∀ a, f false a = z) → List.zipWith f bs l = List.zipWith f bs m
  | [], _, _, _, _, _, _, _ => by simp
  | _ :: _, [], [], _, _, _, _, _ => rfl
  | _ :: _, [], _ :: _, h, _, _, _, _ => by simp at h
  | _ :: _, _ :: _, [], h, _, _, _, _ => by simp at h
  | b :: bs, a :: l, c :: m, h, f, z, h1, h2 => by
    simp only [List.zipWith_cons_cons, List.cons.injEq] at h ⊢
    refine ⟨?_, zipWith_length_eq h.2 f z h1 h2⟩
    cases b with
    | false => rw [h2, h2]
    | true => rw [h1, h1]; simpa using h.1

omit S in
/-- inputs that look the same are encoded in the same way -/
theorem Spec.LooksLike.plain {ad : AssetDefinition} {i j : TransferNoteInput} (h : LooksLike ad i j)
    (agree : ad.policy.reveal_map[0] = ad.policy.reveal_map[1]) :
    plainInput ad.policy.reveal_map i.ro (attrsOf i) = plainInput ad.policy.reveal_map j.ro (attrsOf j) := by
  have rest : ∀ {x y : Option Pt}, { viewInput ad i.ro (attrsOf i) with user_address := x } =
      { viewInput ad j.ro (attrsOf j) with user_address := y } →
      [shown ad.policy.reveal_map[2] (Amount.toF i.ro.amount), shown ad.policy.reveal_map[3] i.ro.blind] ++
        List.zipWith shown (ad.policy.reveal_map.toList.drop 4) (attrsOf i) =
      [shown ad.policy.reveal_map[2] (Amount.toF j.ro.amount), shown ad.policy.reveal_map[3] j.ro.blind] ++
        List.zipWith shown (ad.policy.reveal_map.toList.drop 4) (attrsOf j) := by
    intro x y hv
    simp only [viewInput, viewOf, ViewableData.mk.injEq] at hv
    obtain ⟨-, -, h2, h3, h4⟩ := hv
    rw [shown_congr (fun hb => congrArg Amount.toF (masked_inj h2 hb)), shown_congr (masked_inj h3),
      zipWith_length_eq h4 shown 0 (fun _ => rfl) (fun _ => rfl)]
  rcases h with ⟨h1, h2, h3⟩ | ⟨h1, h2, h3⟩
  · have := rest h3
    unfold plainInput
    rw [if_pos h1, if_pos h2, List.append_assoc, List.append_assoc, this]
  · have h4 := rest (x := (viewInput ad i.ro (attrsOf i)).user_address)
      (y := (viewInput ad j.ro (attrsOf j)).user_address) h3
    simp only [viewInput, viewOf, ViewableData.mk.injEq] at h3
    unfold plainInput
    rw [if_neg h1, if_neg h2, List.append_assoc, List.append_assoc, h4, ← agree,
      shown_congr (fun hb => congrArg ptX (masked_inj h3.2.1 hb)),
      shown_congr (fun hb => congrArg ptY (masked_inj h3.2.1 hb))]

omit S in
theorem viewOutput_plain {ad : AssetDefinition} {o o' : RecordOpening} (h : viewOutput ad o = viewOutput ad o')
    (agree : ad.policy.reveal_map[0] = ad.policy.reveal_map[1]) :
    plainOutput ad.policy.reveal_map o = plainOutput ad.policy.reveal_map o' := by
  simp only [viewOutput, viewOf, ViewableData.mk.injEq] at h
  obtain ⟨-, h1, h2, h3, -⟩ := h
  unfold plainOutput
  rw [← agree, shown_congr (fun hb => congrArg ptX (masked_inj h1 hb)),
    shown_congr (fun hb => congrArg ptY (masked_inj h1 hb)),
    shown_congr (fun hb => congrArg Amount.toF (masked_inj h2 hb)), shown_congr (masked_inj h3)]

/-- **Hidden fields leave no trace.**  Two generated transfers of the same asset, both over the threshold, whose records
look the same to the viewer, have the same memo if the same randomness was drawn for it: the memo does not depend on the
hidden fields, nor on the fee records. -/
theorem C14_hides {b b' : Build} {rng rng' : TransferRand} {inputs inputs' : List TransferNoteInput}
    {outputs outputs' : List RecordOpening} {pk pk' : TransferProvingKey} {t t' : U64} {extra extra' : List Byte}
    {n n' : TransferNote} {sk sk' : Fr} (gen : TransferNote.generate b rng inputs outputs pk t extra = .ok (n, sk))
    (gen' : TransferNote.generate b' rng' inputs' outputs' pk' t' extra' = .ok (n', sk'))
    (rand : rng.enc_rand = rng'.enc_rand)
    {ad : AssetDefinition} (moves : Moves ad inputs) (moves' : Moves ad inputs')
    (over : ad.policy.reveal_threshold.val < moved inputs) (over' : ad.policy.reveal_threshold.val < moved inputs')
    (named : ad.policy.viewer_pk ≠ 0) (agree : ad.policy.reveal_map[0] = ad.policy.reveal_map[1])
    (same_in : List.Forall₂ (LooksLike ad) inputs.tail inputs'.tail)
    (same_out : List.Forall₂ (fun o o' => viewOutput ad o = viewOutput ad o') outputs.tail outputs'.tail) :
    n.viewing_memo = n'.viewing_memo := by
  have memo : ∀ {b : Build} {rng : TransferRand} {inputs : List TransferNoteInput}
      {outputs : List RecordOpening} {pk : TransferProvingKey} {t : U64} {extra : List Byte}
      {n : TransferNote} {sk : Fr}, TransferNote.generate b rng inputs outputs pk t extra = .ok (n, sk) →
      Moves ad inputs → ad.policy.reveal_threshold.val < moved inputs →
      n.viewing_memo = viewerEncrypt ad.policy.viewer_pk rng.enc_rand (plainMessage ad inputs outputs) := by
    intro b rng inputs outputs pk t extra n sk gen moves over
    obtain ⟨w, pub, h⟩ := TransferNote.generate_ok.1 gen
    obtain ⟨ad', ha, -, -, hm⟩ := h.memo_eq
    obtain rfl := ha.moves moves
    rw [if_pos ⟨named, over⟩] at hm
    exact hm.2
  have hm : plainMessage ad inputs outputs = plainMessage ad inputs' outputs' := by
    unfold plainMessage
    have h1 : ∀ {l l' : List TransferNoteInput}, List.Forall₂ (LooksLike ad) l l' →
        l.flatMap (fun i => plainInput ad.policy.reveal_map i.ro (attrsOf i)) =
          l'.flatMap (fun i => plainInput ad.policy.reveal_map i.ro (attrsOf i)) := by
      intro l l' h
      induction h with
      | nil => rfl
      | cons h1 _ ih => rw [List.flatMap_cons, List.flatMap_cons, ih, h1.plain agree]
    have h2 : ∀ {l l' : List RecordOpening}, List.Forall₂ (fun o o' => viewOutput ad o = viewOutput ad o') l l' →
        l.flatMap (plainOutput ad.policy.reveal_map) = l'.flatMap (plainOutput ad.policy.reveal_map) := by
      intro l l' h
      induction h with
      | nil => rfl
      | cons h1 _ ih => rw [List.flatMap_cons, List.flatMap_cons, ih, viewOutput_plain h1 agree]
    rw [h1 same_in, h2 same_out]
  rw [memo gen moves over, memo gen' moves' over', hm, rand]

end Cap

namespace Cap.Examples
open Toy Spec

/-- the example transfer meets the hypotheses of `C14_plaintext` and `C14_seen` -/
example : Moves asset xfrInputs ∧ asset.policy.reveal_threshold.val < moved xfrInputs ∧
    viewer.pubKey = asset.policy.viewer_pk ∧ asset.policy.viewer_pk ≠ 0 ∧ xfrOutputs.tail ≠ [] ∧
    asset.policy.reveal_map[0] = asset.policy.reveal_map[1] ∧
    ∀ i ∈ xfrInputs.tail, i.ro.asset_def ≠ AssetDefinition.dummy → i.ro.pub_key.address ≠ 0 := by
  refine ⟨⟨by decide +kernel, ⟨assetRec, acc1, alice, some cred⟩, by simp [xfrInputs], rfl⟩, by decide +kernel, rfl,
    by decide +kernel, by decide, by decide +kernel, by decide +kernel⟩

/-- the plaintext of the example: hidden attributes are zeros, the dummy is the neutral point -/
example : viewer.decrypt xfrNote.viewing_memo =
    [asset.code,
     ptX alice.address, ptY alice.address, 50, 32, 0, 2, 0, 0, 0, 0, 0, 0,
     0, 1, 0, 34, 0, 0, 0, 0, 0, 0, 0, 0,
     ptX bob.address, ptY bob.address, 20, 42,
     ptX alice.address, ptY alice.address, 30, 43] := by
  decide +kernel

/-- a credential of Alice with other hidden attributes -/
def otherCred : ExpirableCredential :=
  { user_addr := alice.address, attrs := [99, 2, 98, 97, 96, 95, 94, 93], expiry := 950,
    cred := E.schnorrSign issuer (ExpirableCredential.msg 950 alice.address [99, 2, 98, 97, 96, 95, 94, 93]),
    creator_pk := smulFr issuer E.gen }

/-- the example transfer with the other credential and another dummy owner -/
def otherInputs : List TransferNoteInput :=
  [⟨feeRec, acc0, alice, none⟩, ⟨assetRec, acc1, alice, some otherCred⟩,
   ⟨{ dummyRec with pub_key := alice.pubKey }, accDummy, alice, none⟩]

/-- it is generated too -/
theorem other_isOk : isOk (TransferNote.generate .release rng otherInputs xfrOutputs xfrPk 900 []) = true := by
  decide +kernel

/-- `C14_hides` applies to the two transfers -/
example : ∃ n sk, TransferNote.generate .release rng otherInputs xfrOutputs xfrPk 900 [] = .ok (n, sk) ∧
    xfrNote.viewing_memo = n.viewing_memo := by
  refine ⟨_, _, okVal_eq _ other_isOk, ?_⟩
  refine C14_hides (ad := asset) xfrNote_eq (okVal_eq _ other_isOk) rfl
    ⟨by decide +kernel, ⟨assetRec, acc1, alice, some cred⟩, by simp [xfrInputs], rfl⟩
    ⟨by decide +kernel, ⟨assetRec, acc1, alice, some otherCred⟩, by simp [otherInputs], rfl⟩
    (by decide +kernel) (by decide +kernel) (by decide +kernel) (by decide +kernel)
    (.cons (.inr ?_) (.cons (.inl ?_) .nil)) (.cons rfl (.cons rfl .nil))
  · exact ⟨by decide +kernel, by decide +kernel, by decide +kernel⟩
  · exact ⟨by decide +kernel, by decide +kernel, by decide +kernel⟩

end Cap.Examples
