/-
What the payment function of the reference wallet for other assets does.
-/
import Verif.Props.C61

namespace Cap

open Spec

variable [E : CapEnv] [S : CapExt]

namespace Wallet

/-- the recipients together with the owner, when something is left over -/
def everyone (w : Wallet) (recipients : List (UserPubKey × Amount)) (change : Amount) : List (UserPubKey × Amount) :=
  if 0 < change then recipients ++ [(w.pubKey, change)] else recipients

/-- the time until which an asset payment is valid -/
def validUntil (w : Wallet) : U64 :=
  match w.credential with
  | none => unexpiredValidUntil
  | some c => c.expiry

omit S in
theorem findRecordForFee_ok {w : Wallet} {fee : Amount} {x : RecordOpening × U64} (h : w.findRecordForFee fee = .ok x) :
    ∃ l, mapGet nativeCode w.unspent = some l ∧ x ∈ l ∧ fee ≤ x.1.amount := by
  unfold findRecordForFee at h
  split at h
  · cases h
  · next l hl =>
    split at h
    · cases h
    · next y hy =>
      cases h
      exact ⟨l, hl, List.mem_of_find?_eq_some hy, by simpa using List.find?_some hy⟩

omit S in
theorem findRecordForFee_intro {w : Wallet} {fee : Amount} {x : RecordOpening × U64} {l : List (RecordOpening × U64)}
    (hl : mapGet nativeCode w.unspent = some l) (hx : x ∈ l) (hf : fee ≤ x.1.amount) :
    ∃ y, w.findRecordForFee fee = .ok y := by
  unfold findRecordForFee
  rw [hl]
  dsimp only
  cases hg : l.find? (fun x => decide (fee ≤ x.1.amount)) with
  | none =>
    rw [List.find?_eq_none] at hg
    exact absurd hf (by simpa using hg x hx)
  | some y => exact ⟨y, rfl⟩

omit S in
theorem lookupFromTree_ok {d : ℕ} {s : LedgerState} {uid : U64} {acc : AccMemberWitness}
    (h : lookupFromTree d s uid = .ok acc) : acc = lookup d s uid := by
  unfold lookupFromTree at h
  split at h
  · cases h
    rfl
  · cases h

/-- Everything a successful `spend_non_native` went through. -/
structure AssetSpend (b : Build) (w : Wallet) (d : Fin 256) (s : LedgerState) (rng : PaymentRand) (ad : AssetDefinition)
    (recipients : List (UserPubKey × Amount)) (fee : Amount) (w' : Wallet) (note : TransferNote) (memos : List E.AeadCt)
    (sig : E.Sig) (sk : Fr) (chg : RecordOpening) (f x : RecordOpening × U64) (pre post shelf : List (RecordOpening × U64))
    (own : Amount) (inputs : List TransferNoteInput) (info : TxnFeeInfo) (keys : TransferProvingKey × TransferVerifyingKey) :
    Prop where
  not_native : ad ≠ AssetDefinition.native
  fee_find : w.findRecordForFee fee = .ok f
  fee_shelf : mapGet nativeCode w.unspent = some shelf ∧ f ∈ shelf
  fee_ok : TxnFeeInfo.new rng.chg_blind ⟨f.1, lookup d.val s f.2, w.keypair⟩ fee = .ok (info, chg)
  shelf_eq : mapGet ad.code w.unspent = some (x :: pre ++ post)
  inputs_eq : inputs = (x :: pre ++ [(RecordOpening.newDummy rng.dummy_key rng.dummy_blind .unfrozen, 0)]).map
    (inputOf w d.val s w.credential rng.dummy_key)
  keys_ok : transferPreprocess (inputs.length + 1) ((w.everyone recipients own).length + 1) d = .ok keys
  gen : TransferNote.generateNonNative b rng.note inputs (payOutputs rng.blinds ad (w.everyone recipients own)) info
    w.validUntil keys.1 [] = .ok (note, sk)
  memos_ok : payMemos rng.memos 0 (payOutputs rng.blinds ad (w.everyone recipients own)) = .ok memos
  sig_ok : signReceiverMemos sk memos = .ok sig
  wallet : w' = { (w.markUnconfirmedSpent (w.nullify f) f.1 f.2).markAll (x :: pre) with
    changes := setInsert chg ((w.markUnconfirmedSpent (w.nullify f) f.1 f.2).markAll (x :: pre)).changes }

theorem spendNonNative_ok {b : Build} {w : Wallet} {d : Fin 256} {s : LedgerState} {rng : PaymentRand} {ad : AssetDefinition}
    {recipients : List (UserPubKey × Amount)} {fee : Amount} {w' : Wallet} {note : TransferNote} {memos : List E.AeadCt}
    {sig : E.Sig} (h : w.spendNonNative b d s rng ad recipients fee = .ok (w', note, memos, sig)) :
    ∃ sk chg f x pre post shelf own inputs info keys,
      AssetSpend b w d s rng ad recipients fee w' note memos sig sk chg f x pre post shelf own inputs info keys := by
  unfold spendNonNative at h
  simp only [bind_ok_iff, ensure_ok_iff, decide_eq_true_eq] at h
  obtain ⟨_, h0, t1, -, f, h1, acc, h2, ⟨info, chg⟩, h3, ⟨records, own⟩, h4, inputs, h5, keys, h6, ⟨n, sk⟩, h7, ms, h8, sg, h9, h10⟩ := h
  obtain ⟨shelf, hs1, hs2, -⟩ := findRecordForFee_ok h1
  obtain ⟨x, pre, post, h11, rfl⟩ := findRecords_ok h4
  cases h10
  obtain rfl := lookupFromTree_ok h2
  have hd : (RecordOpening.newDummy rng.dummy_key rng.dummy_blind .unfrozen).isDummy = true :=
    (RecordOpening.isDummy_iff _).2 rfl
  refine ⟨sk, chg, f, x, pre, post, shelf, own, inputs, info, keys, h0, h1, ⟨hs1, hs2⟩, unwrap_ok h3, h11, prepareInputs_ok h5, ?_,
    h7, h8, h9, ?_⟩
  · have := unwrap_ok h6
    rwa [payOutputs_length] at this
  · rw [markAll_append_dummy hd]

end Wallet

end Cap
