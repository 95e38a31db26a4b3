/-
From what a user holds on the reference ledger to accepted blocks.
-/
import Verif.SpecWallet
import Verif.Lemmas.LedgerAccept
import Verif.Lemmas.LedgerHistory
import Verif.Lemmas.Validator
import Verif.Props.C52
import Verif.Props.C55

namespace Cap

open Spec

variable [E : CapEnv] [S : CapExt]

/-! ### The books of the ledger, for every honest history -/

/-- What the ledger contains after an honest history. -/
structure Spec.Books (d : Fin 256) (h : List Event) (s : LedgerState) : Prop where
  leaves : s.leaves = (created h).map RecordOpening.commitment
  room : Room d.val s 0
  root : treeRoot d.val s.leaves ∈ s.roots
  nullifiers : ∀ x, x ∈ s.nullifiers ↔ ∃ e ∈ h, ∃ t ∈ e.txns, x ∈ t.note.nullifiers

theorem books_run {d : Fin 256} (h : List Event) : ∀ {s : LedgerState}, run d h = .ok s → Honest d h → Books d h s := by
  induction h using List.reverseRecOn with
  | nil =>
    intro s hr _
    cases hr
    refine ⟨rfl, ⟨by simp [LedgerState.new, LedgerState.storeRoot], by simp [LedgerState.new, LedgerState.storeRoot]⟩,
      List.mem_cons_self, fun x => ?_⟩
    simp [LedgerState.new, LedgerState.storeRoot]
  | append_singleton h e ih =>
    intro s hr ho
    obtain ⟨s1, h1, h2⟩ := runFrom_append.1 hr
    have i := ih h1 (fun e' he' => ho e' (List.mem_append_left _ he'))
    have split : ∀ x, (∃ e' ∈ h ++ [e], ∃ t ∈ e'.txns, x ∈ t.note.nullifiers) ↔
        (∃ t ∈ e.txns, x ∈ t.note.nullifiers) ∨ ∃ e' ∈ h, ∃ t ∈ e'.txns, x ∈ t.note.nullifiers := by
      intro x
      simp only [List.mem_append, List.mem_singleton, or_and_right, exists_or, exists_eq_left]
      exact or_comm
    cases e with
    | grant ro =>
      obtain ⟨e1, e2, e3, e4, e5⟩ := LedgerState.grant_ok h2
      refine ⟨?_, ⟨by simpa using e5, by simpa using e4⟩, by rw [e2]; exact List.mem_cons_self, fun x => ?_⟩
      · rw [e1, i.leaves, created_append]; simp [Event.creates]
      · rw [e3, i.nullifiers, split]; simp [Event.txns]
    | block ts blind who time =>
      have made : ∀ t ∈ ts, Made d t := ho _ (List.mem_append_right _ List.mem_cons_self)
      rw [Event.apply, bind_ok_iff] at h2
      obtain ⟨⟨⟩, hv, hb⟩ := h2
      obtain ⟨fee, hfee, e1, e2, e3, e4, e5⟩ := LedgerState.insertBlock_ok hb
      have hfee' : fee = collected ts := by
        have := (calculateFee_ok _ _).1 hfee
        rw [List.map_map] at this
        refine Fin.ext ?_
        have hlt := fee.isLt
        show fee.val = _ % 2 ^ 128
        rw [Nat.mod_eq_of_lt]
        · exact this.symm
        · exact lt_of_eq_of_lt this hlt
      refine ⟨?_, ⟨by simpa using e5, by simpa using e4⟩, by rw [e2]; exact List.mem_cons_self, fun x => ?_⟩
      · rw [e1, i.leaves, created_append, hfee']
        simp only [Event.creates, List.map_append, List.map_cons, List.map_nil, List.append_assoc]
        congr 2
        rw [List.flatMap_map, List.map_flatMap]
        exact List.flatMap_congr (fun t ht => (made t ht).commitments)
      · rw [e3, split, i.nullifiers]
        simp [Event.txns]

/-! ### Nullifiers of a history -/

/-- the key of a freezing input, dummies included -/
theorem freeze_key {rng : FreezeRand} {inputs : List FreezeNoteInput} {fee : TxnFeeInfo} {pk : FreezeProvingKey}
    {n : FreezeNote} {sk : Fr} {outs : List RecordOpening}
    (gen : FreezeNote.generate rng inputs fee pk = .ok (n, sk, outs)) :
    ∀ i ∈ inputs, i.ro.asset_def.policy.freezer_pk = smulFr i.keypair.sec_key E.gen := by
  intro i hi
  have h := FreezeNote.generate_ok.1 gen
  obtain ⟨k, hk⟩ := List.mem_iff_getElem?.1 hi
  have hs := h.sat.1.spends
  obtain ⟨o, ho⟩ : ∃ o, (freezeGetOutputRos rng.blinds inputs)[k]? = some o := by
    rw [freezeGetOutputRos, List.getElem?_mapIdx, hk]
    exact ⟨_, rfl⟩
  have hx : (freezeWitV rng.blinds inputs fee).inputs[k]? = some ⟨i.ro.toV, i.acc.toV, frToFq i.keypair.sec_key, o.toV⟩ :=
    freezeInputsV_getElem? k _ _ _ _ (by simp [hk]) (by simp [hk]) (by simp [hk]) ho
  have hn : (freezePubV rng.blinds inputs fee).nullifiers[k]? = some (freezeNullifier i.keypair i.ro i.acc) := by
    simp [freezePubV, hk]
  have := hs (_, _) (List.mem_iff_getElem?.2 ⟨k, List.getElem?_zip_eq_some.2 ⟨hx, hn⟩⟩)
  exact (SpendOk_freezer_host _ _).1 this.2.1

/-- every published nullifier is the PRF under a nullifier key of the record -/
theorem GeneratedSpend.key {n : TransactionNote} {ro : RecordOpening} {uid : U64} {nf : F}
    (h : GeneratedSpend n ro uid nf) : ∃ nk, NullifierKeyOf ro nk ∧ nf = nullifyWithKey nk uid ro.commitment := by
  cases h with
  | transfer gen hi hn =>
    rename_i b rng inputs outputs pk valid_until extra n sk k i
    refine ⟨_, .owner i.owner_keypair (C08_transfer_generated gen i (List.mem_of_getElem? hi)).1, ?_⟩
    rw [transfer_nullifiers gen, List.getElem?_map, hi] at hn
    simpa [userNullifier, UserKeyPair.nullify] using hn.symm
  | mint gen =>
    rename_i rng mint_ro ac_seed desc pk n sk fee
    refine ⟨_, .owner fee.fee_input.owner_keypair ?_, mint_nullifier gen⟩
    rw [(MintNote.generate_ok.1 gen).checks.owner]; rfl
  | freeze_fee gen hn =>
    rename_i rng inputs pk n sk outs fee
    refine ⟨_, .owner fee.fee_input.owner_keypair (freeze_fee_owner gen), ?_⟩
    rw [freeze_nullifiers gen] at hn
    simpa [userNullifier, UserKeyPair.nullify] using hn.symm
  | freeze gen hi hn =>
    rename_i rng inputs fee pk n sk outs k i
    refine ⟨_, .freezer i.keypair (freeze_key gen i (List.mem_of_getElem? hi)), ?_⟩
    rw [freeze_nullifiers gen, List.getElem?_cons_succ, List.getElem?_map, hi] at hn
    simpa [FreezerKeyPair.nullify] using hn.symm

omit S in
theorem Spec.Nullifying.point_uid {x : Nullifying} {uid : U64} {c : F} (h : ((uid.val : F), c) = x.point) :
    uid = x.uid ∧ c = x.ro.commitment := by
  obtain ⟨h1, h2⟩ := Prod.mk.inj h
  exact ⟨u64_inj h1, h2⟩

/-- **The nullifier of an unspent record is fresh.** -/
theorem fresh_of_unspent {d : Fin 256} {h : List Event} {s : LedgerState} (books : Books d h s) (honest : Honest d h)
    {new : List Nullifying} (clash : NoClash h new) {x : Nullifying} (hx : x ∈ new)
    (real : x.ro.asset_def.code ≠ dummyCode) (unspent : x.uid.val ∉ spentAt h) : x.value ∉ s.nullifiers := by
  rw [books.nullifiers]
  rintro ⟨e, he, t, ht, hm⟩
  obtain ⟨k, hk, hv⟩ := List.mem_iff_getElem.1 hm
  have hf := (honest e he t ht).nullifiers
  have hk' : k < t.spends.length := by rw [hf.length_eq]; exact hk
  have hg := (List.forall₂_iff_get.1 hf).2 k hk' hk
  simp only [List.get_eq_getElem] at hg
  rw [hv] at hg
  obtain ⟨nk, hnk, hval⟩ := hg.key
  have hmem : t.spends[k] ∈ allSpends h :=
    List.mem_flatMap.2 ⟨e, he, List.mem_flatMap.2 ⟨t, ht, List.getElem_mem hk'⟩⟩
  obtain ⟨hu, hc⟩ := Nullifying.point_uid (clash.prf _ hmem x hx nk hnk hval.symm)
  obtain ⟨-, hcode, -⟩ := (C11_exact _ _).1 (clash.commit _ hmem x hx hc)
  refine unspent (List.mem_map.2 ⟨t.spends[k], List.mem_flatMap.2 ⟨e, he, List.mem_flatMap.2 ⟨t, ht, ?_⟩⟩, by rw [hu]⟩)
  refine List.mem_filter.2 ⟨List.getElem_mem hk', ?_⟩
  rw [decide_eq_true_eq, hcode]
  exact real

theorem nodup_of_noClash {h : List Event} {α : Type} {l : List α} {f : α → Nullifying} (clash : NoClash h (l.map f))
    (nodup : (l.map (fun a => (f a).uid)).Nodup) : (l.map (fun a => (f a).value)).Nodup := by
  have hl := nodup.of_map
  rw [List.nodup_map_iff_inj_on hl] at nodup ⊢
  intro a ha b hb hv
  exact nodup a ha b hb (Nullifying.point_uid (clash.among _ (List.mem_map_of_mem ha) _ (List.mem_map_of_mem hb) hv)).1

/-! ### A block of one note -/

theorem one_block (complete : SnarkComplete) (batch : SnarkBatch) {d : Fin 256} {s : LedgerState} {t : Txn} {time : U64}
    (made : Made d t) (timely : Timely time t.note) (root : t.note.merkleRoot ∈ s.roots)
    (distinct : t.note.nullifiers.Nodup) (fresh : ∀ x ∈ t.note.nullifiers, x ∉ s.nullifiers)
    (room : Room d.val s (t.creates.length + 1)) (blind : F) (who : UserPubKey) :
    ∃ s', (Event.block [t] blind who time).apply d s = .ok s' := by
  have hv := validate_made complete batch (ts := [t]) (time := time) (by simp) (by simpa using made)
    (by simpa using timely) (by simpa using root) (by simpa using distinct) (by simpa using fresh)
  have hlen : t.note.outputLen = t.creates.length := by
    rw [← List.length_map (as := t.creates) RecordOpening.commitment, ← made.commitments]
    cases t.note <;> rfl
  have room0 : Room d.val s 0 := ⟨by have := room.1; omega, by have := room.2; omega⟩
  have hins := (C52_partial (b := ⟨[t].map (·.note), blind, who⟩) room0).1.2 ⟨by simpa [hlen] using room, by
    simp⟩
  refine ⟨(insertBlockInPlace d.val ⟨[t].map (·.note), blind, who⟩ s).1, ?_⟩
  rw [Event.apply, bind_ok_iff]
  exact ⟨(), hv, C52_same.2 (Prod.ext rfl hins)⟩

end Cap
