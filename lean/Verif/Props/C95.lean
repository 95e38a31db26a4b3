/-
C95: a transaction that is passed on stays what its author made.

status: partial
note: False as stated: nobody in the reference ledger or wallet checks the signature on the receiver memos, so whoever passes a payment on can put other memos beside it; the block is accepted and scanned, and the recipient's wallet holds nothing new (C95_false). The note itself cannot be changed (C95_note, and C95_shift for the change that verify alone does not notice), changed memos do not pass the signature check (C95_memos_partial), and a payment whose memos pass the check arrives whoever passed it on (C95_arrives_partial). Hypotheses: a proof verifies for one statement only (key, public inputs and message are hashed into its challenges), different circuits have different keys.
-/
import Verif.Props.C27
import Verif.Props.C36
import Verif.Props.C43
import Verif.Props.C51
import Verif.Props.C61
import Verif.Props.C94

namespace Cap
open Spec

variable [E : CapEnv] [S : CapExt]

namespace Spec

/-- The proof verifies for one statement only.  (In a proof made non-interactive by hashing, the key, the public inputs and
the message are hashed into the challenges.) -/
def OneStatement (π : S.Proof) : Prop :=
  ∀ vk xs m vk' xs' m', S.verify vk xs π m = true → S.verify vk' xs' π m' = true → vk = vk' ∧ xs = xs' ∧ m = m'

/-- Different circuits have different verifying keys. -/
def KeysApart : Prop :=
  ∀ c c' pk pk' vk, S.preprocess c = some (pk, vk) → S.preprocess c' = some (pk', vk) → c = c'

/-- None of the published memos can be opened by `k` for the output it stands beside. -/
def Dark (k : UserKeyPair) (t : TransactionNote) (memos : List E.AeadCt) : Prop :=
  ∀ (j : ℕ) c rc, memos[j]? = some c → t.outputCommitments[j + 1]? = some rc →
    ∀ ro, ReceiverMemo.decrypt c k rc [] ≠ .ok ro

end Spec

/-- the circuit that the validator takes for a note -/
def circuitOf (d : Fin 256) : TransactionNote → Shape
  | .transfer n => .transfer n.inputs_nullifiers.length n.output_commitments.length d.val
  | .mint _ => .mint d.val
  | .freeze n => .freeze n.input_nullifiers.length d.val

theorem keyForNote_circuit {d : Fin 256} {t : TransactionNote} {k : TransactionVerifyingKey} (h : keyForNote d t = .ok k) :
    ∃ pk, S.preprocess (circuitOf d t) = some (pk, k.keyRef) := by
  cases t with
  | transfer n =>
    unfold keyForNote at h
    rw [bind_ok_iff] at h
    obtain ⟨x, h1, h2⟩ := h
    cases h2
    unfold unwrapRes at h1
    split at h1
    · rename_i y hy
      cases h1
      unfold transferPreprocess at hy
      split at hy
      · cases hy
      · split at hy
        · cases hy
        · rename_i pk vk hp
          cases hy
          exact ⟨pk, hp⟩
    · cases h1
  | mint n =>
    unfold keyForNote at h
    rw [bind_ok_iff] at h
    obtain ⟨x, h1, h2⟩ := h
    cases h2
    unfold unwrapRes at h1
    split at h1
    · rename_i y hy
      cases h1
      unfold mintPreprocess at hy
      split at hy
      · cases hy
      · rename_i pk vk hp
        cases hy
        exact ⟨pk, hp⟩
    · cases h1
  | freeze n =>
    unfold keyForNote at h
    rw [bind_ok_iff] at h
    obtain ⟨x, h1, h2⟩ := h
    cases h2
    unfold unwrapRes at h1
    split at h1
    · rename_i y hy
      cases h1
      unfold freezePreprocess at hy
      split at hy
      · cases hy
      · split at hy
        · cases hy
        · split at hy
          · cases hy
          · rename_i pk vk hp
            cases hy
            exact ⟨pk, hp⟩
    · cases h1

/-- two notes that are checked against the same circuit, the same public inputs and the same message are equal if their
proofs are -/
theorem note_eq {d d' : Fin 256} {t t0 : TransactionNote} {time time0 : U64} {x : List F}
    (circuit : circuitOf d t = circuitOf d' t0) (hx : t.publicScalars t.merkleRoot time = .ok x)
    (hx0 : t0.publicScalars t0.merkleRoot time0 = .ok x) (message : t.extMsg = t0.extMsg)
    (proof : t.validityProof = t0.validityProof) : t = t0 := by
  obtain ⟨hk, hm⟩ := C43_injective t t0 message
  cases t with
  | transfer n =>
    cases t0 with
    | transfer n0 =>
      simp only [circuitOf, Shape.transfer.injEq] at circuit
      simp only [TransactionNote.publicScalars, bind_ok_iff] at hx hx0
      obtain ⟨pi, h1, h2⟩ := hx
      obtain ⟨pi0, h3, h4⟩ := hx0
      obtain ⟨-, -, rfl⟩ := TransferNote.checkInstance_ok.1 h1
      obtain ⟨-, -, rfl⟩ := TransferNote.checkInstance_ok.1 h3
      cases h2
      obtain ⟨e1, e2, e3, e4, e5, e6⟩ := C27_transfer_partial n n0 circuit.1 circuit.2.1 (Except.ok.inj h4).symm
      obtain ⟨a, b, c, e, ⟨f, g, i, j, l⟩⟩ := n
      obtain ⟨a', b', c', e', ⟨f', g', i', j', l'⟩⟩ := n0
      simp only [TransactionNote.txnMemoVerKey, extraData, TransactionNote.validityProof] at hk hm proof e1 e2 e3 e4 e5 e6
      subst hk hm proof e1 e2 e3 e4 e5 e6
      rfl
    | mint n0 => cases circuit
    | freeze n0 => cases circuit
  | mint n =>
    cases t0 with
    | transfer n0 => cases circuit
    | mint n0 =>
      simp only [TransactionNote.publicScalars, bind_ok_iff] at hx hx0
      obtain ⟨pi, h1, h2⟩ := hx
      obtain ⟨pi0, h3, h4⟩ := hx0
      obtain ⟨-, rfl⟩ := MintNote.checkInstance_ok.1 h1
      obtain ⟨-, rfl⟩ := MintNote.checkInstance_ok.1 h3
      cases h2
      obtain ⟨e1, e2, e3, e4, e5, e6, e7, e8, e9⟩ := C27_mint n n0 (Except.ok.inj h4).symm
      obtain ⟨a, b, c, e, i, j, l, m, ⟨f, g, o⟩⟩ := n
      obtain ⟨a', b', c', e', i', j', l', m', ⟨f', g', o'⟩⟩ := n0
      simp only [TransactionNote.txnMemoVerKey, TransactionNote.validityProof] at hk proof e1 e2 e3 e4 e5 e6 e7 e8 e9
      subst hk proof e1 e2 e3 e4 e5 e6 e7 e8 e9
      rfl
    | freeze n0 => cases circuit
  | freeze n =>
    cases t0 with
    | transfer n0 => cases circuit
    | mint n0 => cases circuit
    | freeze n0 =>
      simp only [circuitOf, Shape.freeze.injEq] at circuit
      simp only [TransactionNote.publicScalars, bind_ok_iff] at hx hx0
      obtain ⟨pi, h1, h2⟩ := hx
      obtain ⟨pi0, h3, h4⟩ := hx0
      obtain ⟨-, rfl⟩ := FreezeNote.checkInstance_ok.1 h1
      obtain ⟨-, rfl⟩ := FreezeNote.checkInstance_ok.1 h3
      cases h2
      obtain ⟨e1, e2, e3, e4⟩ := C27_freeze_partial n n0 circuit.1 (Except.ok.inj h4).symm
      obtain ⟨a, b, c, ⟨f, g, o⟩⟩ := n
      obtain ⟨a', b', c', ⟨f', g', o'⟩⟩ := n0
      simp only [TransactionNote.txnMemoVerKey, TransactionNote.validityProof] at hk proof e1 e2 e3 e4
      subst hk proof e1 e2 e3 e4
      rfl

/-- **The note cannot be changed.**  A transaction that some validator accepts, at any time, in any block and on any
ledger, and that carries the proof of an accepted transaction, is that transaction: kind, inputs, outputs, fee, expiry,
memo for the viewer, memo key and bound data. -/
theorem C95_note (batch : SnarkBatch) (keys : KeysApart) {d d0 : Fin 256} {s s0 : LedgerState}
    {txns txns0 : List TransactionNote} {time time0 : U64} {t t0 : TransactionNote}
    (accepted0 : validateTxnsBatch d0 s0 txns0 time0 = .ok ()) (mem0 : t0 ∈ txns0)
    (accepted : validateTxnsBatch d s txns time = .ok ()) (mem : t ∈ txns)
    (one : OneStatement t0.validityProof) (proof : t.validityProof = t0.validityProof) : t = t0 := by
  obtain ⟨-, -, -, h0⟩ := (C51_any batch (List.ne_nil_of_mem mem0)).1 accepted0
  obtain ⟨-, -, -, h1⟩ := (C51_any batch (List.ne_nil_of_mem mem)).1 accepted
  obtain ⟨k0, hk0, x0, hx0, hv0⟩ := h0 t0 mem0
  obtain ⟨k, hk, x, hx, hv⟩ := h1 t mem
  rw [proof] at hv
  obtain ⟨e1, rfl, e3⟩ := one _ _ _ _ _ _ hv hv0
  obtain ⟨pk, hp⟩ := keyForNote_circuit hk
  obtain ⟨pk0, hp0⟩ := keyForNote_circuit hk0
  rw [e1] at hp
  exact note_eq (keys _ _ _ _ _ hp hp0) hx hx0 e3 proof

/-- **The change that `verify` does not notice** (C27: an output commitment moved to the nullifiers, which `verify` accepts
under the same key) is noticed by the validator, which takes the key by the numbers of inputs and outputs. -/
theorem C95_shift (batch : SnarkBatch) (keys : KeysApart) {d d0 : Fin 256} {s s0 : LedgerState}
    {txns txns0 : List TransactionNote} {time time0 : U64} {n : TransferNote} {c : F} {cs : List F}
    (accepted0 : validateTxnsBatch d0 s0 txns0 time0 = .ok ()) (mem0 : .transfer n ∈ txns0)
    (outputs : n.output_commitments = c :: cs) (one : OneStatement n.proof)
    (mem : .transfer { n with inputs_nullifiers := n.inputs_nullifiers ++ [c], output_commitments := cs } ∈ txns) :
    validateTxnsBatch d s txns time ≠ .ok () := by
  intro accepted
  have h := C95_note batch keys accepted0 mem0 accepted mem one rfl
  simp only [TransactionNote.transfer.injEq] at h
  have := congrArg (fun m : TransferNote => m.output_commitments.length) h
  simp [outputs] at this

/-- **Changed memos do not pass the check.**  If other memos pass the signature check of the note, with any signature, then
the hash collides on the two lists, or somebody has a signature of the new list under the note's own key. -/
theorem C95_memos_partial (t : TransactionNote) {memos memos' : List E.AeadCt} {sig sig' : E.Sig}
    (signed : t.verifyReceiverMemosSignature memos sig = .ok ())
    (passes : t.verifyReceiverMemosSignature memos' sig' = .ok ()) :
    memos' = memos ∨ Collides E.hashToField (memosBytes memos) (memosBytes memos') ∨
      (E.hashToField (memosBytes memos') ≠ E.hashToField (memosBytes memos) ∧
        E.schnorrVerify (E.xy t.txnMemoVerKey) [E.hashToField (memosBytes memos')] sig' = true) := by
  by_cases hne : memos' = memos
  · exact .inl hne
  right
  unfold TransactionNote.verifyReceiverMemosSignature at signed passes
  rw [bind_ok_iff] at signed passes
  obtain ⟨a, ha, -⟩ := signed
  obtain ⟨a', ha', h⟩ := passes
  rw [ensure_ok_iff] at h
  rw [digest_ok] at ha ha'
  by_cases he : E.hashToField (memosBytes memos') = E.hashToField (memosBytes memos)
  · exact .inl ⟨fun hb => hne (memosBytes_inj hb).symm, he.symm⟩
  · refine .inr ⟨he, ?_⟩
    rw [← ha'.2]
    exact h

/-- what is in a block was validated -/
theorem at_validated {d : Fin 256} {b : Build} {k : UserKeyPair} {h : List Seen} {s : LedgerState} {w : Wallet}
    (world : World d b k h s w) {t : TransactionNote} {memos : List E.AeadCt} {pos : ℕ} (there : At h t memos pos) :
    ∃ s1 txns time, validateTxnsBatch d s1 txns time = .ok () ∧ t ∈ txns := by
  obtain ⟨before, txns, blind, who, time, after, earlier, later, rfl, rfl, -⟩ := there
  have hr := world_run world
  rw [ledgerEvents_append] at hr
  obtain ⟨s1, s2, hs⟩ := run_step hr (List.mem_append_right _ List.mem_cons_self)
  unfold Event.apply at hs
  rw [bind_ok_iff] at hs
  obtain ⟨⟨⟩, h1, -⟩ := hs
  refine ⟨s1, _, time, h1, ?_⟩
  simp

/-- **A payment arrives, whoever passed it on.**  A wallet's payment was accepted somewhere; a transaction with its proof is
in a block of the recipient's ledger, beside memos that pass the signature check.  Then the recipient's wallet has the
payment, or has spent it - or the hash of the memos collides, or somebody else signed under the note's own key. -/
theorem C95_arrives_partial (batch : SnarkBatch) (keys : KeysApart) {k : UserKeyPair} {w0 : Wallet} {rng : PaymentRand}
    {recipients : List (UserPubKey × Amount)} {fee : Amount} {coins : List (RecordOpening × U64)} {chg : RecordOpening}
    {note : TransferNote} {memos : List E.AeadCt} {sig : E.Sig}
    (pay : Payment k w0 rng recipients fee coins chg note memos)
    (signed : TransactionNote.verifyReceiverMemosSignature (.transfer note) memos sig = .ok ())
    {d0 : Fin 256} {s0 : LedgerState} {time0 : U64} {txns0 : List TransactionNote}
    (accepted0 : validateTxnsBatch d0 s0 txns0 time0 = .ok ()) (mem0 : .transfer note ∈ txns0)
    (one : OneStatement note.proof)
    {d' : Fin 256} {b' : Build} {k' : UserKeyPair} {h' : List Seen} {s' : LedgerState} {w' : Wallet}
    (world : World d' b' k' h' s' w') {t : TransactionNote} {memos' : List E.AeadCt} {sig' : E.Sig} {pos j : ℕ}
    {amount : Amount} (there : At h' t memos' pos) (proof : t.validityProof = note.proof)
    (checked : t.verifyReceiverMemosSignature memos' sig' = .ok ())
    (mine : recipients[j]? = some (k'.pubKey, amount)) :
    (∃ ro uid, ro.amount = amount ∧ ro.asset_def = AssetDefinition.native ∧ ro.pub_key = k'.pubKey ∧
      (uid : U64).val = pos + 1 + j ∧ (w'.Holds (ro, uid) ∨ ownNullifier k' (ro, uid) ∈ s'.nullifiers)) ∨
    Collides E.hashToField (memosBytes memos) (memosBytes memos') ∨
    (E.hashToField (memosBytes memos') ≠ E.hashToField (memosBytes memos) ∧
      E.schnorrVerify (E.xy note.aux_info.txn_memo_ver_key) [E.hashToField (memosBytes memos')] sig' = true) := by
  obtain ⟨s1, txns, time, h1, h2⟩ := at_validated world there
  obtain rfl := C95_note batch keys accepted0 mem0 h1 h2 one proof
  rcases C95_memos_partial _ signed checked with rfl | h | h
  · exact .inl (C61_arrives pay world there mine)
  · exact .inr (.inl h)
  · exact .inr (.inr h)

/-- **The property fails.**  Nobody checks the signature.  Whoever passes an accepted block on to a wallet can put memos
beside its transactions that this wallet cannot open: the block is inserted and scanned, and the wallet holds nothing that
it was not told of before. -/
theorem C95_false {d : Fin 256} {b : Build} {k : UserKeyPair} {h : List Seen} {s s' : LedgerState} {w : Wallet}
    (world : World d b k h s w) {txns : List (TransactionNote × List E.AeadCt)} {blind : F} {who : UserPubKey} {time : U64}
    (valid : validateTxnsBatch d s (txns.map (·.1)) time = .ok ())
    (inserted : s.insertBlock d.val ⟨txns.map (·.1), blind, who⟩ = .ok s') (room : s.leaves.length < 2 ^ 64)
    (lengths : ∀ t ∈ txns, t.1.outputCommitments.length = t.2.length + 1)
    (dark : ∀ t ∈ txns, Dark k t.1 t.2)
    (no_change : ∀ chg, .expecting chg ∈ h → ∀ t ∈ txns, t.1.outputCommitments[0]? ≠ some chg.commitment) :
    ∃ w', World d b k (h ++ [.block txns blind who time]) s' w' ∧ ∀ x, w'.Holds x → Received k h x := by
  obtain ⟨w', recv, -, hw⟩ := C59_scans (uid := ⟨s.leaves.length, room⟩) world valid inserted rfl lengths
  refine ⟨w', hw, fun x hx => ?_⟩
  have hin : ∀ {t : TransactionNote} {memos : List E.AeadCt} {pos : ℕ},
      At (h ++ [.block txns blind who time]) t memos pos → At h t memos pos ∨ (t, memos) ∈ txns := by
    intro t memos pos a
    rcases a.cases with a | ⟨txns', blind', who', time', n, he, ⟨e, la, hl, -⟩, -⟩
    · exact .inl a
    · cases he
      exact .inr (by rw [hl]; simp)
  cases (C59_sound hw x hx).1 with
  | told mem =>
    rcases List.mem_append.1 mem with m | m
    · exact .told m
    · simp at m
  | memo a o m op p =>
    rcases hin a with a | a
    · exact .memo a o m op p
    · exact absurd op (dark _ a _ _ _ m o _)
  | change wt a o p =>
    have wt' := (List.mem_append.1 wt).resolve_right (by simp)
    rcases hin a with a | a
    · exact .change wt' a o p
    · exact absurd o (no_change _ wt' _ a)

/-- **Such memos are easy to make**: memos for other records of the same owner will do. -/
theorem C95_dark (k : UserKeyPair) (t : TransactionNote) {memos : List E.AeadCt} {wrong : ℕ → RecordOpening} {rand : ℕ → ℕ}
    (owner : ∀ j, (wrong j).pub_key = k.pubKey)
    (other : ∀ (j : ℕ) rc, t.outputCommitments[j + 1]? = some rc → (wrong j).commitment ≠ rc)
    (made : ∀ (j : ℕ) c, memos[j]? = some c → ReceiverMemo.fromRo (rand j) (wrong j) [] = .ok c) : Dark k t memos := by
  intro j c rc hc hrc ro h
  rw [C35_wrong_commitment (rand j) (wrong j) [] k c rc (owner j) (made j c hc) (other j rc hrc)] at h
  cases h

end Cap

namespace Cap.Examples
open Toy Spec

theorem toy_one (π : Toy.S.Proof) : OneStatement π := by
  intro vk xs m vk' xs' m' h h'
  have h1 := ((@decide_eq_true_iff _ (Classical.dec _)).1 h).1
  have h2 := ((@decide_eq_true_iff _ (Classical.dec _)).1 h').1
  exact proofOf_inj (h1.symm.trans h2)

theorem toy_keysApart : KeysApart := by
  intro c c' pk pk' vk h h'
  cases h
  cases h'
  rfl

/-- the wrong memo: 61 instead of 60 -/
def wrong95 : RecordOpening := ⟨61, AssetDefinition.native, bob.pubKey, .unfrozen, (92 : ZMod p)⟩
noncomputable def wrongMemo95 : Toy.E.AeadCt := okVal (ReceiverMemo.fromRo 0 wrong95 []) rfl
theorem wrongMemo95_eq : ReceiverMemo.fromRo 0 wrong95 [] = .ok wrongMemo95 := okVal_eq _ rfl
theorem wrong95_ne : wrong95.commitment ≠ bobs60.commitment := by decide +kernel

/-- Alice pays 60 to Bob.  The note is accepted, its memos are signed.  In a block, beside its own memos, it meets the
hypotheses of `C95_note`, `C95_memos_partial` and `C95_arrives_partial`; the shifted note those of `C95_shift`; and beside
the wrong memo, the block is scanned by Bob's wallet, which then holds nothing. -/
example : ∃ note memos sig s' wB c cs, Payment alice walletA payRng [(bob.pubKey, 60)] 3 [(feeRec, 0)] chgA note memos ∧
    TransactionNote.verifyReceiverMemosSignature (.transfer note) memos sig = .ok () ∧
    validateTxnsBatch 2 led0 [.transfer note] 5 = .ok () ∧ SnarkBatch ∧ KeysApart ∧ OneStatement note.proof ∧
    World 2 .debug bob (seen0 ++ [.block [(.transfer note, memos)] (47 : ZMod p) bob.pubKey 5]) s' wB ∧
    At (seen0 ++ [.block [(.transfer note, memos)] (47 : ZMod p) bob.pubKey 5]) (.transfer note) memos 2 ∧
    note.output_commitments = c :: cs ∧
    ∃ wD, World 2 .debug bob (seen0 ++ [.block [(.transfer note, [wrongMemo95])] (47 : ZMod p) bob.pubKey 5]) s' wD ∧
      ∀ x, ¬ wD.Holds x := by
  obtain ⟨w', note, memos, sig, h1, h1', hsig, h2⟩ := alicePays worldA
    (by simpa using coin_only (more := []) (by simp)) walletA_holds 60 (by decide)
  obtain ⟨coins, chg, pay, -, hw, -⟩ := C61_payment worldA h1
  have hc : coins = [(feeRec, 0)] := by
    have hall : ∀ x ∈ coins, x = (feeRec, 0) := fun x hx => (walletA_holds x).1 (pay.held x hx).1
    have := pay.once
    match coins, pay.some_coin with
    | [x], _ => rw [hall x List.mem_cons_self]
    | x :: y :: l, _ =>
      exfalso
      rw [hall x List.mem_cons_self, hall y (by simp), List.nodup_cons] at this
      exact this.1 List.mem_cons_self
  subst hc
  have hg : chg = chgA := by
    have hv := pay.value
    change 100 + 0 = 60 + 0 + chg.amount.val + 3 at hv
    have ha : chg.amount = 37 := Fin.ext (show chg.amount.val = 37 by omega)
    obtain ⟨c1, c2, c3, c4⟩ := pay.change
    obtain ⟨a, ad, pk, ff, bl⟩ := chg
    dsimp only at ha c1 c2 c3 c4
    subst ha c1 c2 c3 c4
    rfl
  subst hg
  have valid := h2 5 (by decide)
  obtain ⟨s', hs'⟩ := two_out pay.lengths.1
  have lens : ∀ {m : List Toy.E.AeadCt}, m.length = 1 →
      ∀ t ∈ [(TransactionNote.transfer note, m)], t.1.outputCommitments.length = t.2.length + 1 := by
    intro m hm t ht
    obtain rfl := List.mem_singleton.1 ht
    show note.output_commitments.length = m.length + 1
    rw [pay.lengths.1, hm]
    rfl
  obtain ⟨wB, -, -, hB⟩ := C59_scans (uid := 2) (start_world bob) (txns := [(.transfer note, memos)]) (time := 5) valid hs'
    rfl (lens pay.lengths.2)
  have hout : note.output_commitments[0 + 1]? = some bobs60.commitment := (pay.rest 0 bobs60 ⟨_, rfl, rfl⟩).1
  have hlen := pay.lengths.1
  have hdark : Dark bob (.transfer note) [wrongMemo95] := by
    refine C95_dark bob _ (wrong := fun _ => wrong95) (rand := fun _ => 0) (fun _ => rfl) ?_ ?_
    · intro j rc hrc
      match j with
      | 0 =>
        have : some rc = some bobs60.commitment := hrc.symm.trans hout
        exact fun he => wrong95_ne (he.trans (Option.some.inj this))
      | j + 1 =>
        exfalso
        have := (List.getElem?_eq_some_iff.1 hrc).1
        change j + 1 + 1 < note.output_commitments.length at this
        rw [hlen] at this
        simp at this
    · intro j c hcj
      match j with
      | 0 =>
        cases hcj
        exact wrongMemo95_eq
      | j + 1 => cases hcj
  obtain ⟨wD, hD, hno⟩ := C95_false (start_world bob) (txns := [(.transfer note, [wrongMemo95])]) (time := 5) valid hs'
    (by decide) (lens rfl) (fun t ht => by rw [List.mem_singleton.1 ht]; exact hdark)
    (fun chg hchg => by simp [seen0] at hchg)
  match hcs : note.output_commitments, hlen with
  | c :: cs, _ =>
    refine ⟨note, memos, sig, s', wB, c, cs, pay, hsig, valid, Toy.batch, toy_keysApart, toy_one _, hB,
      .last (n := 0) ⟨[], [], rfl, rfl⟩, hcs, wD, hD, fun x hx => ?_⟩
    have hat : ∀ {t : TransactionNote} {m : List Toy.E.AeadCt} {pos : ℕ}, ¬ At seen0 t m pos := by
      rintro t m pos ⟨before, txns, blind, who, time, after, -, -, h1, -⟩
      have : Seen.block txns blind who time ∈ seen0 := by rw [h1]; simp
      simp [seen0] at this
    cases hno x hx with
    | told mem => simp [seen0] at mem
    | memo a => exact hat a
    | change _ a => exact hat a

end Cap.Examples
