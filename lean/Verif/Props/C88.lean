/-
C88 Values survive serde, and a text of one kind is never read as another

status: partial
note: Round trips of all 21 tagged types in binary and text form, of records, policies, credentials and notes, hold
(C88_binary, _text, _record, _policy, _credential, _note); texts of different kinds never mix (C88_kinds, _text_identifies, _tag); memos
give their owner the record with bincode as it is (C88_memo) and have one length (C88_record_length); amounts (C88_parse_amount,
_show_amount).  Reading records, credentials and notes never panics (C88_calm).  False: that malformed bytes never panic (C88_panic_false for
policies, reveal maps and verifying keys; C88_panic_partial says when), that binary forms tell kinds apart (C88_binary_kinds_false),
and, if jf-utils tolerates bytes after a value, that a value has one binary form (C88_unique_false, C88_unique_partial).
The forms of types of other crates are parameters with a round trip.
-/
import Verif.Lemmas.Serde
import Verif.Props.C35
import Verif.Props.C71
import Verif.Props.C84
import Verif.Model.ToySerde

namespace Cap
open Spec Format

variable [E : CapEnv] [S : CapExt] [W : WireEnv] [V : SerdeEnv]

/-! ### Tagged types -/

theorem wire_memo_length (m : ViewableMemo) : (memoFormat.ser m).length = 40 + 32 * m.data.length := by
  have h : ∀ l : List F, (l.flatMap fieldFormat.ser).length = 32 * l.length := by
    intro l
    induction l with
    | nil => rfl
    | cons x l ih => rw [List.flatMap_cons, List.length_append, ih, field_length, List.length_cons]; ring
  show (ptFormat.ser m.ephemeral ++ (leBytes 8 m.data.length ++ m.data.flatMap fieldFormat.ser)).length = _
  rw [List.length_append, List.length_append, pt_length, leBytes_length, h]
  ring

theorem wire_assetDef_length (a : AssetDefinition) : (assetDefFormat.ser a).length = 164 := by
  show (fieldFormat.ser a.code ++ (ptFormat.ser a.policy.viewer_pk ++ (ptFormat.ser a.policy.cred_pk ++
    (ptFormat.ser a.policy.freezer_pk ++ (RevealMap.serialize a.policy.reveal_map ++
      Amount.serialize a.policy.reveal_threshold))))).length = _
  simp only [List.length_append, pt_length, field_length]
  simp [RevealMap.serialize, Amount.serialize, leBytes_length, VIEWABLE_DATA_LEN]

theorem viewingMemo_round (m : ViewableMemo) (h : (memoFormat.ser m).length < 2 ^ 64) :
    memoFormat.de (memoFormat.ser m) = .ok (m, []) := by
  rw [wire_memo_length] at h
  have := memo_good.round m [] (by omega)
  rwa [List.append_nil] at this

theorem userKey_round (k : UserKeyPair) : userKeyFormat.de (userKeyFormat.ser k) = .ok (k, []) := by
  refine as_de.2 ⟨(k.sk, k.encSk), pair_de.2 ⟨V.aeadKey.ser k.encSk, V.signKey.round_trip k.sk _, ?_⟩, rfl⟩
  have := V.aeadKey.round_trip k.encSk []
  rwa [List.append_nil] at this

theorem viewerKey_round (k : ViewerKeyPair) : viewerKeyFormat.de (viewerKeyFormat.ser k) = .ok (k, []) := by
  refine as_de.2 ⟨k.sk, ?_, rfl⟩
  have := V.viewKey.round_trip k.sk []
  rwa [List.append_nil] at this

theorem verifyingKey_round (k : TransactionVerifyingKey) :
    verifyingKeyFormat.de (verifyingKeyFormat.ser k) = .ok (k, []) := by
  have := tagged_round_trip V.transferVk V.mintVk V.freezeVk TransactionVerifyingKey.cases TransactionVerifyingKey.build
    (fun t => by cases t <;> rfl) k []
  rwa [List.append_nil] at this

theorem kind_round (k : Kind) (x : k.Val) (h : (k.format.ser x).length < 2 ^ 64) :
    k.format.de (k.format.ser x) = .ok (x, []) := by
  have aux : ∀ {α : Type} {f : Format α} {p : α → Prop}, f.Good p → ∀ y, p y → f.de (f.ser y) = .ok (y, []) := by
    intro α f p hf y hy
    have := hf.round y [] hy
    rwa [List.append_nil] at this
  have codec : ∀ {α : Type} (c : Codec α) (y : α), c.format.de (c.format.ser y) = .ok (y, []) := by
    intro α c y
    have := c.round_trip y []
    rwa [List.append_nil] at this
  cases k with
  | assetSeed | internalAssetCode | assetCode | blind | nullifier | commitment | idAttribute | nullifierKey =>
    exact aux field_good x trivial
  | assetDefinition => exact aux assetDef_good x trivial
  | credential => exact aux sig_good x trivial
  | viewingMemo => exact viewingMemo_round x h
  | receiverMemo => exact codec V.memo x
  | userPubKey => exact aux userPubKey_good x trivial
  | userKey => exact userKey_round x
  | credPubKey | viewerPubKey | freezerPubKey => exact aux pt_good x trivial
  | credKey => exact codec V.signKey x
  | viewerKey => exact viewerKey_round x
  | freezerKey => exact aux freezerKey_good x trivial
  | verifyingKey => exact verifyingKey_round x

theorem kind_keeps (k : Kind) : k.serde.Keeps (fun x => (k.format.ser x).length < 2 ^ 64) :=
  (blob_keeps V.strict id (kind_round k)).mono (fun _ h => ⟨h, h⟩)

/-- A value of a tagged type written in binary form is read back, whatever follows. -/
theorem C88_binary (k : Kind) (x : k.Val) (rest : List Byte) (h : (k.format.ser x).length < 2 ^ 64) :
    k.serde.de (k.serde.ser x ++ rest) = .ok (x, rest) := (kind_keeps k).round x rest h

/-- A value of a tagged type shown as text is parsed as this value. -/
theorem C88_text (k : Kind) (x : k.Val) (h : (k.format.ser x).length < 2 ^ 64) : k.parse (k.show x) = some x := by
  unfold Kind.parse Kind.show
  rw [V.untext_text]
  simp only [ne_eq, not_true_eq_false, if_false]
  rw [kind_round k x h]
  simp

omit E S W V in
theorem tags_differ {k k' : Kind} (h : k.tag = k'.tag) : k = k' := by
  revert h
  cases k <;> cases k' <;> simp [Kind.tag]

/-- A text of one kind is not parsed as another kind. -/
theorem C88_kinds (k k' : Kind) (x : k.Val) (h : k ≠ k') : k'.parse (k.show x) = none := by
  unfold Kind.parse Kind.show
  rw [V.untext_text]
  dsimp only
  rw [if_pos]
  exact fun e => h (tags_differ e)

/-- Two values with the same text are the same value of the same kind. -/
theorem C88_text_identifies (k k' : Kind) (x : k.Val) (y : k'.Val) (hx : (k.format.ser x).length < 2 ^ 64)
    (hy : (k'.format.ser y).length < 2 ^ 64) (e : k.show x = k'.show y) : k = k' ∧ HEq x y := by
  by_cases hk : k = k'
  · subst hk
    have h1 := C88_text k x hx
    rw [e, C88_text k y hy] at h1
    exact ⟨rfl, heq_of_eq (Option.some.inj h1).symm⟩
  · have h1 := C88_kinds k k' x hk
    rw [e, C88_text k' y hy] at h1
    cases h1

/-- In binary form the kinds are not told apart: the bytes of a nullifier are read as a commitment, an asset code or a blinding
factor, and those of a viewer's public key as a freezer's. -/
theorem C88_binary_kinds_false (x : F) (P : Pt) (rest : List Byte) :
    (Kind.serde .commitment).de ((Kind.serde .nullifier).ser x ++ rest) = .ok (x, rest) ∧
    (Kind.serde .assetCode).de ((Kind.serde .nullifier).ser x ++ rest) = .ok (x, rest) ∧
    (Kind.serde .blind).de ((Kind.serde .nullifier).ser x ++ rest) = .ok (x, rest) ∧
    (Kind.serde .freezerPubKey).de ((Kind.serde .viewerPubKey).ser P ++ rest) = .ok (P, rest) := by
  have hx : (fieldFormat.ser x).length < 2 ^ 64 := by rw [field_length]; norm_num
  have hP : (ptFormat.ser P).length < 2 ^ 64 := by rw [pt_length]; norm_num
  exact ⟨C88_binary .commitment x rest hx, C88_binary .assetCode x rest hx, C88_binary .blind x rest hx,
    C88_binary .freezerPubKey P rest hP⟩

/-- What is parsed as a kind carries the tag of this kind. -/
theorem C88_tag (k : Kind) (s : String) (x : k.Val) (h : k.parse s = some x) :
    ∃ bytes, V.untext s = some (k.tag, bytes) := by
  unfold Kind.parse at h
  cases hu : V.untext s with
  | none => rw [hu] at h; cases h
  | some u =>
    obtain ⟨tag, bytes⟩ := u
    rw [hu] at h
    dsimp only at h
    split at h
    · cases h
    · rename_i e
      rw [not_not] at e
      exact ⟨bytes, by rw [e]⟩

/-! ### Structs -/

theorem recordSerde_keeps : recordSerde.Keeps (fun _ => True) := by
  refine (((amount_good.keeps.pair ((kind_keeps .assetDefinition).pair ((kind_keeps .userPubKey).pair
    (freezeFlagSerde_good.keeps.pair (kind_keeps .blind))))).as (fun _ => rfl))).mono ?_
  intro ro _
  refine ⟨trivial, ?_, ?_, trivial, ?_⟩
  · show (assetDefFormat.ser ro.asset_def).length < _
    rw [wire_assetDef_length]; norm_num
  · show (ptFormat.ser ro.pub_key.address ++ W.encKey.ser ro.pub_key.enc_key).length < _
    have := V.encKey_short ro.pub_key.enc_key
    rw [List.length_append, pt_length]
    omega
  · show (fieldFormat.ser ro.blind).length < _
    rw [field_length]; norm_num

/-- A record opening written with bincode is read back, whatever follows. -/
theorem C88_record (ro : RecordOpening) (rest : List Byte) :
    recordSerde.de (recordSerde.ser ro ++ rest) = .ok (ro, rest) := recordSerde_keeps.round ro rest trivial

/-- The proof system, and for record openings bincode as it is (`structs.rs:1610`, `1636`); `bincode::deserialize` ignores what
follows the value. -/
def withBincode : CapExt where
  Proof := S.Proof
  Pk := S.Pk
  Vk := S.Vk
  proofDec := S.proofDec
  preprocess := S.preprocess
  prove := S.prove
  verify := S.verify
  batchVerify := S.batchVerify
  roBytes ro := some (recordSerde.ser ro)
  roParse b := match recordSerde.de b with
    | .ok (ro, _) => some ro
    | .error _ => none
  roParse_roBytes ro b h := by
    cases h
    have := C88_record ro []
    rw [List.append_nil] at this
    rw [this]

/-- A receiver memo made with this encoding gives its owner the record, and only an encryption that fails makes none. -/
theorem C88_memo (rand : ℕ) (ro : RecordOpening) (label : List Byte) (k : UserKeyPair) (owner : ro.pub_key = k.pubKey) :
    (∃ c, ReceiverMemo.fromRo (S := withBincode) rand ro label = .ok c ∧
      ReceiverMemo.decrypt (S := withBincode) c k ro.commitment label = .ok ro) ∨
    (E.aeadEnc ro.pub_key.enc_key rand (recordSerde.ser ro) label = none ∧
      ReceiverMemo.fromRo (S := withBincode) rand ro label = .error .failedPrimitives) := by
  cases h : E.aeadEnc ro.pub_key.enc_key rand (recordSerde.ser ro) label with
  | none =>
    refine .inr ⟨rfl, ?_⟩
    unfold ReceiverMemo.fromRo withBincode
    dsimp only
    rw [h]
  | some c =>
    have hc : ReceiverMemo.fromRo (S := withBincode) rand ro label = .ok c := by
      unfold ReceiverMemo.fromRo withBincode
      dsimp only
      rw [h]
    exact .inl ⟨c, hc, C35_round_trip (S := withBincode) rand ro label k c owner hc⟩

/-- All records have encodings of one length, so that of a memo tells nothing about the record. -/
theorem C88_record_length {n : ℕ} (keys : ∀ k, (W.encKey.ser k).length = n) (ro : RecordOpening) :
    (recordSerde.ser ro).length = 272 + n := by
  have hf : (freezeFlagSerde.ser ro.freeze_flag).length = 4 := by cases ro.freeze_flag <;> rfl
  show (Amount.serialize ro.amount ++ ((leBytes 8 _ ++ assetDefFormat.ser ro.asset_def) ++
    ((leBytes 8 _ ++ (ptFormat.ser ro.pub_key.address ++ W.encKey.ser ro.pub_key.enc_key)) ++
      (freezeFlagSerde.ser ro.freeze_flag ++ (leBytes 8 _ ++ fieldFormat.ser ro.blind))))).length = _
  simp only [List.length_append, hf, wire_assetDef_length, pt_length, field_length, keys, leBytes_length, Amount.serialize]
  ring

theorem kind_field_keeps : (Kind.serde .nullifier).Keeps (fun _ => True) :=
  (kind_keeps .nullifier).mono (fun (x : F) _ => by
    show (fieldFormat.ser x).length < _
    rw [field_length]; norm_num)

theorem kind_pt_keeps : (Kind.serde .viewerPubKey).Keeps (fun _ => True) :=
  (kind_keeps .viewerPubKey).mono (fun (x : Pt) _ => by
    show (ptFormat.ser x).length < _
    rw [pt_length]; norm_num)

theorem kind_assetDef_keeps : (Kind.serde .assetDefinition).Keeps (fun _ => True) :=
  (kind_keeps .assetDefinition).mono (fun (x : AssetDefinition) _ => by
    show (assetDefFormat.ser x).length < _
    rw [wire_assetDef_length]; norm_num)

theorem kind_memo_keeps : (Kind.serde .viewingMemo).Keeps (fun m : ViewableMemo => m.data.length < 2 ^ 58) :=
  (kind_keeps .viewingMemo).mono (fun (m : ViewableMemo) hm => by
    show (memoFormat.ser m).length < _
    rw [wire_memo_length]; omega)

theorem verKey_keeps : V.verKey.Keeps (fun _ => True) := ⟨fun x rest _ => V.verKey_round_trip x rest, V.verKey_more⟩
theorem node_keeps : V.node.Keeps (fun _ => True) := ⟨fun x rest _ => V.node_round_trip x rest, V.node_more⟩
theorem serdeProof_keeps : V.proof.Keeps (fun _ => True) := ⟨fun x rest _ => V.proof_round_trip x rest, V.proof_more⟩

theorem revealMapSerde_keeps : revealMapSerde.Keeps (fun _ => True) := by
  refine (blob_keeps V.strict (fun _ => .panic) (p := fun _ => True) (fun m _ => ?_)).mono (fun m _ => ⟨trivial, ?_⟩)
  · have := C28_round_trip m []
    rwa [List.append_nil] at this
  · show (RevealMap.serialize m).length < _
    simp [RevealMap.serialize, leBytes_length, VIEWABLE_DATA_LEN]

theorem policySerde_keeps : policySerde.Keeps (fun _ => True) :=
  ((kind_pt_keeps.pair (kind_pt_keeps.pair (kind_pt_keeps.pair (revealMapSerde_keeps.pair amount_good.keeps)))).as
    (fun _ => rfl)).mono (fun _ _ => ⟨trivial, trivial, trivial, trivial, trivial⟩)

/-- A policy written with bincode is read back, whatever follows. -/
theorem C88_policy (p : AssetPolicy) (rest : List Byte) : policySerde.de (policySerde.ser p ++ rest) = .ok (p, rest) :=
  policySerde_keeps.round p rest trivial

/-- So is a credential. -/
theorem C88_credential (c : ExpirableCredential) (rest : List Byte) (hs : (W.sig.ser c.cred).length < 2 ^ 64)
    (ha : c.attrs.length < 2 ^ 64) : credentialSerde.de (credentialSerde.ser c ++ rest) = .ok (c, rest) :=
  ((verKey_keeps.pair (kind_field_keeps.list.pair (u64_good.keeps.pair ((kind_keeps .credential).pair kind_pt_keeps)))).as
    (fun _ => rfl)).round c rest ⟨trivial, ⟨ha, fun _ _ => trivial⟩, trivial, hs, trivial⟩

theorem noteAuxSerde_keeps : noteAuxSerde.Keeps (fun _ => True) :=
  ((node_keeps.pair (amount_good.keeps.pair verKey_keeps)).as (fun _ => rfl)).mono (fun _ _ => ⟨trivial, trivial, trivial⟩)

theorem transferNoteSerde_keeps : transferNoteSerde.Keeps (fun n => n.inputs_nullifiers.length < 2 ^ 64 ∧
    n.output_commitments.length < 2 ^ 64 ∧ n.viewing_memo.data.length < 2 ^ 58 ∧
    n.aux_info.extra_proof_bound_data.length < 2 ^ 64) :=
  ((kind_field_keeps.list.pair (kind_field_keeps.list.pair (serdeProof_keeps.pair (kind_memo_keeps.pair
    ((node_keeps.pair (amount_good.keeps.pair (u64_good.keeps.pair (verKey_keeps.pair byte_good.keeps.list)))).as
      (fun _ => rfl)))))).as (fun _ => rfl)).mono (fun _ h =>
    ⟨⟨h.1, fun _ _ => trivial⟩, ⟨h.2.1, fun _ _ => trivial⟩, trivial, h.2.2.1, trivial, trivial, trivial, trivial,
      h.2.2.2, fun _ _ => trivial⟩)

theorem mintNoteSerde_keeps : mintNoteSerde.Keeps (fun n => n.viewing_memo.data.length < 2 ^ 58) :=
  ((kind_field_keeps.pair (kind_field_keeps.pair (kind_field_keeps.pair (amount_good.keeps.pair (kind_assetDef_keeps.pair
    (kind_field_keeps.pair (serdeProof_keeps.pair (kind_memo_keeps.pair noteAuxSerde_keeps)))))))).as
    (fun _ => rfl)).mono (fun _ h => ⟨trivial, trivial, trivial, trivial, trivial, trivial, trivial, h, trivial⟩)

theorem freezeNoteSerde_keeps : freezeNoteSerde.Keeps (fun n => n.input_nullifiers.length < 2 ^ 64 ∧
    n.output_commitments.length < 2 ^ 64) :=
  ((kind_field_keeps.list.pair (kind_field_keeps.list.pair (serdeProof_keeps.pair noteAuxSerde_keeps))).as
    (fun _ => rfl)).mono (fun _ h => ⟨⟨h.1, fun _ _ => trivial⟩, ⟨h.2, fun _ _ => trivial⟩, trivial, trivial⟩)

/-- The vectors of the note fit into memory. -/
def Spec.SerdeFits : TransactionNote → Prop
  | .transfer n => n.inputs_nullifiers.length < 2 ^ 64 ∧ n.output_commitments.length < 2 ^ 64 ∧
      n.viewing_memo.data.length < 2 ^ 58 ∧ n.aux_info.extra_proof_bound_data.length < 2 ^ 64
  | .mint n => n.viewing_memo.data.length < 2 ^ 58
  | .freeze n => n.input_nullifiers.length < 2 ^ 64 ∧ n.output_commitments.length < 2 ^ 64

/-- what the reader of notes does after the number of the variant -/
theorem noteSerde_variant (v : ℕ) (hv : v < 3) (bs : List Byte) :
    noteSerde.de (leBytes 4 v ++ bs) =
      if v = 0 then (do let (n, bs) ← transferNoteSerde.de bs; .ok (.transfer n, bs))
      else if v = 1 then (do let (n, bs) ← mintNoteSerde.de bs; .ok (.mint n, bs))
      else (do let (n, bs) ← freezeNoteSerde.de bs; .ok (.freeze n, bs)) := by
  unfold noteSerde
  dsimp only
  rw [readExact_append (leBytes_length 4 v)]
  simp only [bind, Except.bind]
  rw [ofLe_leBytes _ _ (by omega)]
  obtain rfl | rfl | rfl : v = 0 ∨ v = 1 ∨ v = 2 := by omega
  all_goals rfl

/-- A note written with bincode is read back, whatever follows. -/
theorem C88_note (t : TransactionNote) (rest : List Byte) (h : SerdeFits t) :
    noteSerde.de (noteSerde.ser t ++ rest) = .ok (t, rest) := by
  cases t with
  | transfer n =>
    show noteSerde.de (leBytes 4 0 ++ transferNoteSerde.ser n ++ rest) = _
    rw [List.append_assoc, noteSerde_variant 0 (by norm_num), if_pos rfl, transferNoteSerde_keeps.round n rest h]
    rfl
  | mint n =>
    show noteSerde.de (leBytes 4 1 ++ mintNoteSerde.ser n ++ rest) = _
    rw [List.append_assoc, noteSerde_variant 1 (by norm_num), if_neg (by norm_num), if_pos rfl,
      mintNoteSerde_keeps.round n rest h]
    rfl
  | freeze n =>
    show noteSerde.de (leBytes 4 2 ++ freezeNoteSerde.ser n ++ rest) = _
    rw [List.append_assoc, noteSerde_variant 2 (by norm_num), if_neg (by norm_num), if_neg (by norm_num),
      freezeNoteSerde_keeps.round n rest h]
    rfl

/-! ### Bad bytes -/

/-- The readers of other crates report bad bytes as an error. -/
structure Spec.OthersCalm : Prop where
  sig : W.sig.Calm
  encKey : W.encKey.Calm
  verKey : V.verKey.Calm
  node : V.node.Calm
  proof : V.proof.Calm

theorem revealMap_calm : revealMapFormat.Calm := by
  intro bs h
  have h : RevealMap.deserialize bs = .error .panic := h
  have hb : ∀ l : List Byte, l.mapM RevealMap.byteToBool ≠ .error .panic := by
    intro l
    induction l with
    | nil => intro h; cases h
    | cons b l ih =>
      intro h
      rw [List.mapM_cons] at h
      cases hb : RevealMap.byteToBool b with
      | error e =>
        rw [hb] at h
        cases h
        unfold RevealMap.byteToBool at hb
        by_cases h0 : b = 0
        · rw [h0] at hb; cases hb
        · by_cases h1 : b = 1
          · rw [h1] at hb; cases hb
          · simp [h0, h1] at hb
      | ok x =>
        rw [hb] at h
        simp only [bind, Except.bind] at h
        cases hl : l.mapM RevealMap.byteToBool with
        | error e => rw [hl] at h; cases h; exact ih hl
        | ok y => rw [hl] at h; cases h
  unfold RevealMap.deserialize at h
  cases h1 : readExact 8 bs with
  | error e => rw [h1] at h; cases h; exact readExact_calm 8 bs h1
  | ok x =>
    rw [h1] at h
    simp only [bind, Except.bind] at h
    split at h
    · cases h
    · cases h2 : readExact VIEWABLE_DATA_LEN x.2 with
      | error e => rw [h2] at h; cases h; exact readExact_calm _ _ h2
      | ok y =>
        rw [h2] at h
        dsimp only at h
        cases h3 : y.1.mapM RevealMap.byteToBool with
        | error e => rw [h3] at h; cases h; exact hb _ h3
        | ok z =>
          rw [h3] at h
          dsimp only at h
          split at h <;> cases h

theorem policy_calm : policyFormat.Calm :=
  (pt_calm.pair (pt_calm.pair (pt_calm.pair (revealMap_calm.pair amount_calm)))).as _ _

theorem assetDef_calm : assetDefFormat.Calm := (field_calm.pair policy_calm).as _ _
theorem memo_calm : memoFormat.Calm := (pt_calm.pair field_calm.list).as _ _
theorem userPubKey_calm (h : W.encKey.Calm) : userPubKeyFormat.Calm := (pt_calm.pair h).as _ _
theorem kind_assetDef_calm : (Kind.serde .assetDefinition).Calm := assetDef_calm.blob V.strict
theorem kind_userPubKey_calm (h : W.encKey.Calm) : (Kind.serde .userPubKey).Calm := (userPubKey_calm h).blob V.strict
theorem kind_sig_calm (h : W.sig.Calm) : (Kind.serde .credential).Calm := h.blob V.strict
theorem kind_field_calm : (Kind.serde .nullifier).Calm := field_calm.blob V.strict
theorem kind_pt_calm : (Kind.serde .viewerPubKey).Calm := pt_calm.blob V.strict
theorem kind_memo_calm : (Kind.serde .viewingMemo).Calm := memo_calm.blob V.strict

/-- Whatever bytes a receiver finds in a memo, a wallet is given as a credential or a node is sent as a transaction: reading
them does not panic. -/
theorem C88_calm (others : OthersCalm) (bs : List Byte) :
    recordSerde.de bs ≠ .error .panic ∧ credentialSerde.de bs ≠ .error .panic ∧ noteSerde.de bs ≠ .error .panic := by
  have aux : noteAuxSerde.Calm := (others.node.pair (amount_calm.pair others.verKey)).as _ _
  have ht : transferNoteSerde.Calm :=
    (kind_field_calm.list.pair (kind_field_calm.list.pair (others.proof.pair (kind_memo_calm.pair
      ((others.node.pair (amount_calm.pair (u64_calm.pair (others.verKey.pair byte_calm.list)))).as _ _))))).as _ _
  have hm : mintNoteSerde.Calm :=
    (kind_field_calm.pair (kind_field_calm.pair (kind_field_calm.pair (amount_calm.pair (kind_assetDef_calm.pair
      (kind_field_calm.pair (others.proof.pair (kind_memo_calm.pair aux)))))))).as _ _
  have hf : freezeNoteSerde.Calm :=
    (kind_field_calm.list.pair (kind_field_calm.list.pair (others.proof.pair aux))).as _ _
  refine ⟨?_, ?_, ?_⟩
  · exact (amount_calm.pair (kind_assetDef_calm.pair ((kind_userPubKey_calm others.encKey).pair
      (freezeFlagSerde_calm.pair kind_field_calm)))).as _ _ bs
  · exact (others.verKey.pair (kind_field_calm.list.pair (u64_calm.pair ((kind_sig_calm others.sig).pair
      kind_pt_calm)))).as _ _ bs
  · intro h
    unfold noteSerde at h
    dsimp only at h
    cases h1 : readExact 4 bs with
    | error e => rw [h1] at h; cases h; exact readExact_calm 4 bs h1
    | ok x =>
      rw [h1] at h
      simp only [bind, Except.bind] at h
      split at h
      · cases h2 : transferNoteSerde.de x.2 with
        | error e => rw [h2] at h; cases h; exact ht _ h2
        | ok y => rw [h2] at h; cases h
      · split at h
        · cases h2 : mintNoteSerde.de x.2 with
          | error e => rw [h2] at h; cases h; exact hm _ h2
          | ok y => rw [h2] at h; cases h
        · split at h
          · cases h2 : freezeNoteSerde.de x.2 with
            | error e => rw [h2] at h; cases h; exact hf _ h2
            | ok y => rw [h2] at h; cases h
          · cases h

/-- Policies, reveal maps and verifying keys are read by a conversion that cannot report an error: bytes that are none
panic. -/
theorem C88_panic_false (p : AssetPolicy) (rest : List Byte) :
    (∀ body e, body.length < 2 ^ 64 → RevealMap.deserialize body = .error e →
      revealMapSerde.de (leBytes 8 body.length ++ body ++ rest) = .error .panic ∧
      policySerde.de ((Kind.serde .viewerPubKey).ser p.viewer_pk ++ (Kind.serde .credPubKey).ser p.cred_pk ++
        (Kind.serde .freezerPubKey).ser p.freezer_pk ++ (leBytes 8 body.length ++ body ++ rest)) = .error .panic) ∧
    (∀ body e, body.length < 2 ^ 64 → V.transferVk.de body = .error e →
      transferVkSerde.de (leBytes 8 body.length ++ body ++ rest) = .error .panic) ∧
    (∀ body e, body.length < 2 ^ 64 → V.mintVk.de body = .error e →
      mintVkSerde.de (leBytes 8 body.length ++ body ++ rest) = .error .panic) ∧
    (∀ body e, body.length < 2 ^ 64 → V.freezeVk.de body = .error e →
      freezeVkSerde.de (leBytes 8 body.length ++ body ++ rest) = .error .panic) := by
  have key : ∀ {α : Type} (a : Format α) (body : List Byte) (e : SerErr), body.length < 2 ^ 64 → a.de body = .error e →
      (a.blob V.strict (fun _ => .panic)).de (leBytes 8 body.length ++ body ++ rest) = .error .panic := by
    intro α a body e hb he
    rw [blob_body V.strict _ a body rest hb, he]
  refine ⟨fun body e hb he => ?_, fun body e hb he => key _ body e hb he, fun body e hb he => key _ body e hb he,
    fun body e hb he => key _ body e hb he⟩
  have h1 := key revealMapFormat body e hb he
  refine ⟨h1, ?_⟩
  unfold policySerde Format.as Format.pair
  dsimp only
  rw [List.append_assoc, List.append_assoc]
  have hk : ∀ (P : Pt) (t : List Byte), (Kind.serde .viewerPubKey).de ((Kind.serde .viewerPubKey).ser P ++ t) = .ok (P, t) :=
    fun P t => kind_pt_keeps.round P t trivial
  rw [hk]
  simp only [bind, Except.bind]
  have hk2 : ∀ (P : Pt) (t : List Byte), (Kind.serde .credPubKey).de ((Kind.serde .credPubKey).ser P ++ t) = .ok (P, t) := hk
  have hk3 : ∀ (P : Pt) (t : List Byte),
    (Kind.serde .freezerPubKey).de ((Kind.serde .freezerPubKey).ser P ++ t) = .ok (P, t) := hk
  rw [hk2]
  dsimp only
  rw [hk3]
  dsimp only
  have h1 : revealMapSerde.de (leBytes 8 body.length ++ body ++ rest) = .error .panic := h1
  rw [h1]

/-- Reading a reveal map panics exactly on a whole blob that is no encoding of a map (with something after it, if that is
refused). -/
theorem C88_panic_partial (bs : List Byte) : revealMapSerde.de bs = .error .panic ↔
    ∃ body rest, body.length < 2 ^ 64 ∧ bs = leBytes 8 body.length ++ body ++ rest ∧
      ((∃ e, RevealMap.deserialize body = .error e) ∨
        (V.strict = true ∧ ∃ (m : RevealMap) (left : List Byte), left ≠ [] ∧ body = m.serialize ++ left)) := by
  constructor
  · intro h
    unfold revealMapSerde Format.blob at h
    dsimp only at h
    cases h1 : readExact 8 bs with
    | error e => rw [h1] at h; cases h; exact absurd h1 (readExact_calm 8 bs)
    | ok x =>
      rw [h1] at h
      simp only [bind, Except.bind] at h
      cases h2 : readExact (ofLe x.1) x.2 with
      | error e => rw [h2] at h; cases h; exact absurd h2 (readExact_calm _ _)
      | ok y =>
        rw [h2] at h
        dsimp only at h
        obtain ⟨hl, hbs⟩ := readExact_ok h1
        obtain ⟨hl2, hx⟩ := readExact_ok h2
        have hlt := ofLe_lt x.1
        rw [hl] at hlt
        refine ⟨y.1, y.2, by rw [hl2]; exact lt_of_lt_of_le hlt (by norm_num), ?_, ?_⟩
        · rw [hl2, ← hl, leBytes_ofLe, hbs, hx, List.append_assoc]
        · cases h3 : revealMapFormat.de y.1 with
          | error e => exact .inl ⟨e, h3⟩
          | ok z =>
            rw [h3] at h
            dsimp only at h
            split at h
            · rename_i hs
              rw [Bool.and_eq_true] at hs
              refine .inr ⟨hs.1, z.1, z.2, ?_, revealMap_exact _ _ _ h3⟩
              intro e
              rw [e] at hs
              exact absurd hs.2 (by decide)
            · cases h
  · rintro ⟨body, rest, hb, rfl, ⟨e, he⟩ | ⟨hs, m, left, hl, rfl⟩⟩
    · have he : revealMapFormat.de body = .error e := he
      show (revealMapFormat.blob V.strict _).de _ = _
      rw [blob_body V.strict _ _ body rest hb, he]
    · show (revealMapFormat.blob V.strict _).de _ = _
      rw [blob_body V.strict _ _ _ rest hb]
      have : revealMapFormat.de (m.serialize ++ left) = .ok (m, left) := C28_round_trip m left
      rw [this]
      dsimp only
      rw [if_pos]
      rw [hs]
      cases left with
      | nil => exact absurd rfl hl
      | cons a l => rfl

/-! ### One value, several encodings -/

/-- If bytes after a value inside a blob are not refused, a mint note has many binary forms. -/
theorem C88_unique_false (lenient : V.strict = false) (n : MintNote) (h : SerdeFits (.mint n)) (junk : List Byte)
    (hj : junk ≠ []) (small : junk.length < 2 ^ 63) : ∃ bs, bs ≠ noteSerde.ser (.mint n) ∧
      (bs.length = (noteSerde.ser (.mint n)).length + junk.length) ∧
      ∀ rest, noteSerde.de (bs ++ rest) = .ok (.mint n, rest) := by
  obtain ⟨tail, ht⟩ : ∃ tail : List Byte, mintNoteSerde.ser n = (Kind.serde .nullifier).ser n.input_nullifier ++ tail ∧
      ∀ (bs rest : List Byte), (Kind.serde .nullifier).de bs = .ok (n.input_nullifier, tail ++ rest) →
        mintNoteSerde.de bs = .ok (n, rest) := by
    have hb := kind_field_keeps.pair (kind_field_keeps.pair (amount_good.keeps.pair (kind_assetDef_keeps.pair
      (kind_field_keeps.pair (serdeProof_keeps.pair (kind_memo_keeps.pair noteAuxSerde_keeps))))))
    refine ⟨_, rfl, fun bs rest hbs => ?_⟩
    unfold mintNoteSerde
    refine hb.first ?_ n ?_ bs rest hbs
    · exact fun _ => rfl
    · exact ⟨trivial, trivial, trivial, trivial, trivial, trivial, h, trivial⟩
  let body := fieldFormat.ser n.input_nullifier ++ junk
  have hb : body.length < 2 ^ 64 := by
    show (fieldFormat.ser n.input_nullifier ++ junk).length < _
    rw [List.length_append, field_length]
    omega
  have hpos : 0 < junk.length := List.length_pos_iff.2 hj
  have hlen : (leBytes 4 1 ++ (leBytes 8 body.length ++ body ++ tail)).length =
      (noteSerde.ser (.mint n)).length + junk.length := by
    show _ = (leBytes 4 1 ++ mintNoteSerde.ser n).length + _
    rw [ht.1]
    show _ = (leBytes 4 1 ++ (leBytes 8 _ ++ fieldFormat.ser n.input_nullifier ++ tail)).length + _
    simp only [body, List.length_append, leBytes_length]
    omega
  refine ⟨leBytes 4 1 ++ (leBytes 8 body.length ++ body ++ tail), ?_, hlen, fun rest => ?_⟩
  · intro e
    rw [e] at hlen
    omega
  · rw [List.append_assoc, noteSerde_variant 1 (by norm_num), if_neg (by norm_num), if_pos rfl, ht.2 _ rest]
    · rfl
    · show (fieldFormat.blob V.strict id).de _ = _
      rw [List.append_assoc, blob_body V.strict id fieldFormat body (tail ++ rest) hb,
        show fieldFormat.de body = .ok (n.input_nullifier, junk) from field_good.round _ _ trivial, lenient]
      rfl

/-- If they are refused, only the encoding is read (where this holds of what is inside). -/
theorem C88_unique_partial (strict : V.strict = true) (k : Kind) (inner : k.format.Exact) (bs rest : List Byte)
    (x : k.Val) (h : k.serde.de bs = .ok (x, rest)) : bs = k.serde.ser x ++ rest := by
  obtain ⟨len, mid, body, left, h1, h2, h3, h4⟩ := blob_de.1 h
  obtain ⟨hl, rfl⟩ := readExact_ok h1
  obtain ⟨hl2, rfl⟩ := readExact_ok h2
  have hb := inner _ _ _ h3
  rw [h4 strict, List.append_nil] at hb
  show _ = leBytes 8 (k.format.ser x).length ++ k.format.ser x ++ rest
  rw [← hb, hl2, ← hl, leBytes_ofLe, List.append_assoc]

/-! ### Amounts as decimal numbers -/

/-- the number that a text of digits stands for -/
def Spec.numeral (ds : List Byte) : ℕ := ds.foldl (fun n d => n * 10 + (d.toNat - 48)) 0

/-- an ASCII digit -/
def Spec.IsDigit (d : Byte) : Prop := 48 ≤ d.toNat ∧ d.toNat ≤ 57

omit E S W V in
theorem readDigits_iff (acc : ℕ) (ds : List Byte) (n : ℕ) (hacc : acc < 2 ^ 128) : readDigits acc ds = some n ↔
    (∀ d ∈ ds, IsDigit d) ∧ ds.foldl (fun n d => n * 10 + (d.toNat - 48)) acc = n ∧ n < 2 ^ 128 := by
  have mono : ∀ (l : List Byte) (a : ℕ), a ≤ l.foldl (fun n d => n * 10 + (d.toNat - 48)) a := by
    intro l
    induction l with
    | nil => intro a; exact le_rfl
    | cons d l ih => intro a; exact le_trans (by dsimp only; omega) (ih _)
  induction ds generalizing acc with
  | nil =>
    simp only [readDigits, Option.some.injEq, List.not_mem_nil, false_imp_iff, implies_true, true_and, List.foldl_nil]
    constructor
    · rintro rfl; exact ⟨rfl, hacc⟩
    · rintro ⟨rfl, -⟩; rfl
  | cons d ds ih =>
    rw [readDigits]
    by_cases hd : 48 ≤ d.toNat ∧ d.toNat ≤ 57
    · rw [if_pos hd]
      by_cases hn : acc * 10 + (d.toNat - 48) < 2 ^ 128
      · rw [if_pos hn, List.foldl_cons, List.forall_mem_cons]
        exact ⟨fun h => ⟨⟨hd, ((ih _ hn).1 h).1⟩, ((ih _ hn).1 h).2⟩, fun h => (ih _ hn).2 ⟨h.1.2, h.2⟩⟩
      · rw [if_neg hn]
        refine ⟨fun h => (by cases h), fun h => ?_⟩
        obtain ⟨-, h1, h2⟩ := h
        rw [List.foldl_cons] at h1
        have := mono ds (acc * 10 + (d.toNat - 48))
        omega
    · rw [if_neg hd]
      refine ⟨fun h => (by cases h), fun h => absurd (h.1 d List.mem_cons_self) hd⟩

omit E S W V in
/-- A text is parsed as an amount exactly if it is a row of digits, perhaps after a plus sign, and the number it stands for is
this amount: nothing wraps around. -/
theorem C88_parse_amount (bs : List Byte) (a : Amount) : Amount.parse bs = some a ↔
    ∃ ds, ds ≠ [] ∧ (bs = ds ∨ bs = 43 :: ds) ∧ (∀ d ∈ ds, IsDigit d) ∧ numeral ds = a.val := by
  have key : ∀ ds : List Byte, ds ≠ [] →
      ((readDigits 0 ds).map (Fin.ofNat (2 ^ 128)) = some a ↔ (∀ d ∈ ds, IsDigit d) ∧ numeral ds = a.val) := by
    intro ds _
    rw [Option.map_eq_some_iff]
    constructor
    · rintro ⟨n, hn, rfl⟩
      obtain ⟨h1, h2, h3⟩ := (readDigits_iff 0 ds n (by norm_num)).1 hn
      refine ⟨h1, ?_⟩
      show numeral ds = n % 2 ^ 128
      rw [Nat.mod_eq_of_lt h3]
      exact h2
    · rintro ⟨h1, h2⟩
      refine ⟨a.val, (readDigits_iff 0 ds a.val (by norm_num)).2 ⟨h1, h2, a.isLt⟩, by simp⟩
  have plus : ¬ IsDigit 43 := by unfold IsDigit; decide
  unfold Amount.parse
  dsimp only
  by_cases hp : bs.head? = some 43
  · rw [if_pos hp]
    obtain ⟨ds, rfl⟩ : ∃ ds, bs = 43 :: ds := by
      cases bs with
      | nil => cases hp
      | cons b bs => cases hp; exact ⟨bs, rfl⟩
    rw [List.tail_cons]
    by_cases he : ds = []
    · rw [if_pos he]
      refine ⟨fun h => (by cases h), ?_⟩
      rintro ⟨ds', h1, h2 | h2, h3, -⟩
      · exact absurd (h3 43 (by rw [← h2]; exact List.mem_cons_self)) plus
      · cases h2; exact absurd he h1
    · rw [if_neg he, key ds he]
      constructor
      · rintro ⟨h1, h2⟩; exact ⟨ds, he, .inr rfl, h1, h2⟩
      · rintro ⟨ds', h1, h2 | h2, h3, h4⟩
        · exact absurd (h3 43 (by rw [← h2]; exact List.mem_cons_self)) plus
        · cases h2; exact ⟨h3, h4⟩
  · rw [if_neg hp]
    by_cases he : bs = []
    · rw [if_pos he]
      refine ⟨fun h => (by cases h), ?_⟩
      rintro ⟨ds', h1, h2 | h2, -⟩
      · exact absurd (h2 ▸ he) h1
      · rw [h2] at he; cases he
    · rw [if_neg he, key bs he]
      constructor
      · rintro ⟨h1, h2⟩; exact ⟨bs, he, .inl rfl, h1, h2⟩
      · rintro ⟨ds', h1, h2 | h2, h3, h4⟩
        · rw [h2]; exact ⟨h3, h4⟩
        · rw [h2] at hp; exact absurd rfl hp

omit E S W V in
theorem amountText_spec (n : ℕ) : amountText n ≠ [] ∧ (∀ d ∈ amountText n, IsDigit d) ∧ numeral (amountText n) = n := by
  have digit : ∀ m < 10, IsDigit (UInt8.ofNat (48 + m)) ∧ (UInt8.ofNat (48 + m)).toNat - 48 = m := by
    intro m hm
    have : (UInt8.ofNat (48 + m)).toNat = 48 + m := by
      rw [UInt8.toNat_ofNat']
      omega
    unfold IsDigit
    rw [this]
    omega
  induction n using Nat.strong_induction_on with
  | _ n ih =>
    rw [amountText]
    split
    · rename_i h
      refine ⟨by simp, ?_, ?_⟩
      · intro d hd
        rw [List.mem_singleton] at hd
        rw [hd]
        exact (digit n h).1
      · show 0 * 10 + ((UInt8.ofNat (48 + n)).toNat - 48) = n
        rw [(digit n h).2]
        omega
    · rename_i h
      obtain ⟨h1, h2, h3⟩ := ih (n / 10) (by omega)
      refine ⟨by simp, ?_, ?_⟩
      · intro d hd
        rw [List.mem_append, List.mem_singleton] at hd
        rcases hd with hd | rfl
        · exact h2 d hd
        · exact (digit _ (by omega)).1
      · unfold numeral at h3 ⊢
        rw [List.foldl_append, h3, List.foldl_cons, List.foldl_nil, (digit _ (by omega)).2]
        omega

omit E S W V in
/-- An amount shown as text is parsed as this amount. -/
theorem C88_show_amount (a : Amount) : Amount.parse (amountText a.val) = some a := by
  obtain ⟨h1, h2, h3⟩ := amountText_spec a.val
  exact (C88_parse_amount _ a).2 ⟨_, h1, .inl rfl, h2, h3⟩

end Cap

namespace Cap.Examples
open Toy Spec

/-- the lenient reader of blobs -/
noncomputable local instance lenient88 : SerdeEnv := serde false

/-- a nullifier -/
def nul88 : (Kind.nullifier).Val := (5 : ZMod p)

theorem nul88_short : ((Kind.nullifier).format.ser nul88).length < 2 ^ 64 := by
  have h : ∀ x : F, (fieldFormat.ser x).length < 2 ^ 64 := fun x => by rw [field_length]; norm_num
  exact h nul88

/-- the text of a nullifier is read as a nullifier and not as a commitment -/
example : (Kind.nullifier).parse ((Kind.nullifier).show nul88) = some nul88 := C88_text .nullifier nul88 nul88_short

example : (Kind.commitment).parse ((Kind.nullifier).show nul88) = none :=
  C88_kinds .nullifier .commitment nul88 (by decide)

/-- but its binary form is read as both -/
example : (Kind.serde .nullifier).de ((Kind.serde .nullifier).ser nul88 ++ [9]) = .ok (nul88, [9]) :=
  C88_binary .nullifier nul88 [9] nul88_short

example (x : F) : (Kind.serde .commitment).de ((Kind.serde .nullifier).ser x ++ [9]) = .ok (x, [9]) :=
  (C88_binary_kinds_false x E.gen [9]).1

/-- the text of this nullifier in the toy encoding -/
example : toyText "NUL" (fieldFormat.ser nul88) =
    String.ofList (['1', 'N', '1', 'U', '1', 'L', '0', Char.ofNat 5] ++ List.replicate 31 (Char.ofNat 0)) := by
  decide +kernel

example (k : Kind) (x : k.Val) (hx : (k.format.ser x).length < 2 ^ 64) (h : k.show x = (Kind.nullifier).show nul88) :
    k = .nullifier := (C88_text_identifies k .nullifier x nul88 hx nul88_short h).1

/-- a user's key pair and a transfer verifying key -/
example : (Kind.serde .userKey).de ((Kind.serde .userKey).ser alice ++ [1, 2]) = .ok (alice, [1, 2]) :=
  C88_binary .userKey alice [1, 2] (by decide +kernel)

def vk88 : TransactionVerifyingKey := .transfer ⟨Shape.transfer 2 3 1, 2, 3, 1⟩

example : (Kind.verifyingKey).parse ((Kind.verifyingKey).show vk88) = some vk88 :=
  C88_text .verifyingKey vk88 (by decide +kernel)

example : ∃ bytes, lenient88.untext ((Kind.verifyingKey).show vk88) = some ("TXVERKEY", bytes) :=
  C88_tag .verifyingKey _ _ (C88_text .verifyingKey vk88 (by decide +kernel))

/-- a record of the toy asset, its 273 bytes, and the memo its owner opens -/
example : recordSerde.de (recordSerde.ser assetRec ++ [7]) = .ok (assetRec, [7]) := C88_record assetRec [7]

example : (recordSerde.ser assetRec).length = 273 ∧ (recordSerde.ser feeRec).length = 273 :=
  ⟨C88_record_length (n := 1) (fun _ => rfl) assetRec, C88_record_length (n := 1) (fun _ => rfl) feeRec⟩

example : ∃ c, ReceiverMemo.fromRo (S := withBincode) 3 assetRec [] = .ok c ∧
    ReceiverMemo.decrypt (S := withBincode) c alice assetRec.commitment [] = .ok assetRec := by
  rcases C88_memo 3 assetRec [] alice rfl with h | h
  · exact h
  · cases h.1

example : policySerde.de (policySerde.ser policy ++ [7]) = .ok (policy, [7]) := C88_policy policy [7]

example : credentialSerde.de (credentialSerde.ser cred ++ [7]) = .ok (cred, [7]) :=
  C88_credential cred [7] (by decide +kernel) (by decide +kernel)

theorem fits88 : SerdeFits (.transfer xfrNote) ∧ SerdeFits (.mint mintNote) ∧ SerdeFits (.freeze frzNote) := by
  refine ⟨?_, ?_, ?_⟩ <;> (unfold SerdeFits; decide +kernel)

example : noteSerde.de (noteSerde.ser (.transfer xfrNote) ++ [7]) = .ok (.transfer xfrNote, [7]) ∧
    noteSerde.de (noteSerde.ser (.mint mintNote) ++ [7]) = .ok (.mint mintNote, [7]) ∧
    noteSerde.de (noteSerde.ser (.freeze frzNote) ++ [7]) = .ok (.freeze frzNote, [7]) :=
  ⟨C88_note _ _ fits88.1, C88_note _ _ fits88.2.1, C88_note _ _ fits88.2.2⟩

/-- the toy readers report errors -/
theorem calm88 : OthersCalm := by
  have hl : ∀ bs, decList bs ≠ .error .panic := by
    intro bs
    induction bs using decList.induct <;> intro h <;> rw [decList.eq_def] at h <;> simp_all
  exact ⟨field_calm, byte_calm, pt_calm, field_calm, hl⟩

/-- nonsense read as a note -/
example : noteSerde.de [2, 0, 0, 0, 9, 9] ≠ .error .panic := (C88_calm calm88 _).2.2

/-- one byte is no reveal map -/
example : revealMapSerde.de (leBytes 8 1 ++ [0] ++ []) = .error .panic ∧
    policySerde.de ((Kind.serde .viewerPubKey).ser policy.viewer_pk ++ (Kind.serde .credPubKey).ser policy.cred_pk ++
        (Kind.serde .freezerPubKey).ser policy.freezer_pk ++ (leBytes 8 1 ++ [0] ++ [])) = .error .panic :=
  (C88_panic_false policy []).1 [0] .io (by norm_num) (by decide +kernel)

/-- an empty verifying key -/
example : mintVkSerde.de (leBytes 8 0 ++ [] ++ []) = .error .panic :=
  (C88_panic_false policy []).2.2.1 [] .invalidData (by norm_num) rfl

example : revealMapSerde.de (leBytes 8 1 ++ [0]) = .error .panic :=
  (C88_panic_partial _).2 ⟨[0], [], by norm_num, (List.append_nil _).symm, .inl ⟨.io, by decide +kernel⟩⟩

/-- three more bytes in the mint note -/
example : ∃ bs, bs ≠ noteSerde.ser (.mint mintNote) ∧
    (bs.length = (noteSerde.ser (.mint mintNote)).length + ([1, 2, 3] : List Byte).length) ∧
    ∀ rest, noteSerde.de (bs ++ rest) = .ok (.mint mintNote, rest) :=
  C88_unique_false rfl mintNote fits88.2.1 [1, 2, 3] (by decide) (by norm_num)

/-- the strict reader refuses them in a nullifier; the lenient one does not -/
example : ((Kind.serde (V := serde true) .nullifier).de (leBytes 8 33 ++ leBytes 32 5 ++ [1])).toOption.isNone = true ∧
    ((Kind.serde (V := serde false) .nullifier).de (leBytes 8 33 ++ leBytes 32 5 ++ [1])).toOption.isNone = false := by
  decide +kernel

example (bs : List Byte) (h : (Kind.serde (V := serde true) .nullifier).de bs = .ok (nul88, [1])) :
    bs = leBytes 8 32 ++ leBytes 32 5 ++ [1] := by
  rw [C88_unique_partial (V := serde true) rfl .nullifier field_exact bs [1] nul88 h]
  decide +kernel

/-- "1024", "+7", "", "+", "12a", and 2^128 -/
example : Amount.parse [49, 48, 50, 52] = some 1024 ∧ Amount.parse [43, 55] = some 7 ∧ Amount.parse [] = none ∧
    Amount.parse [43] = none ∧ Amount.parse [49, 50, 97] = none ∧
    Amount.parse (amountText (2 ^ 128)) = none := by
  refine ⟨by decide +kernel, by decide +kernel, by decide +kernel, by decide +kernel, by decide +kernel, ?_⟩
  cases e : Amount.parse (amountText (2 ^ 128)) with
  | none => rfl
  | some a =>
    obtain ⟨ds, -, h, h2, h3⟩ := (C88_parse_amount _ _).1 e
    obtain ⟨-, s2, s3⟩ := amountText_spec (2 ^ 128)
    rcases h with h | h
    · rw [← h, s3] at h3
      exact absurd a.isLt (by omega)
    · have := s2 43 (h ▸ List.mem_cons_self)
      exact absurd this (by unfold IsDigit; decide)

example : ∃ ds : List Byte, ds ≠ [] ∧ ([43, 55] = ds ∨ [43, 55] = 43 :: ds) ∧ (∀ d ∈ ds, IsDigit d) ∧ numeral ds = 7 :=
  (C88_parse_amount [43, 55] 7).1 (by decide +kernel)

example : Amount.parse (amountText (2 ^ 128 - 1)) = some ⟨2 ^ 128 - 1, by norm_num⟩ := C88_show_amount ⟨2 ^ 128 - 1, by norm_num⟩

end Cap.Examples
