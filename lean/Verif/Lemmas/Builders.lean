/-
Helper lemmas for C80: what the builders of `Model/Builders.lean` make.
-/
import Verif.Model.Builders
import Verif.SpecBuilt
import Verif.SpecWallet
import Verif.Lemmas.Tree
import Verif.Lemmas.Pay
import Verif.Props.C53
import Verif.Props.C54
import Verif.Props.C55
import Verif.Props.C56
import Verif.Props.C36

namespace Cap

open Spec

variable [E : CapEnv]

/-! ### Trees -/

theorem insertRecords_intro {d : ℕ} : ∀ {l : List F} {s : LedgerState}, s.leaves.length + l.length ≤ 3 ^ d →
    s.leaves.length + l.length < 2 ^ 64 → LedgerState.insertRecords d s l = .ok { s with leaves := s.leaves ++ l }
  | [], s, _, _ => by simp [LedgerState.insertRecords]
  | x :: l, s, h1, h2 => by
    rw [LedgerState.insertRecords, bind_ok_iff]
    simp only [List.length_cons] at h1 h2
    refine ⟨_, if_pos ⟨by omega, by omega⟩, ?_⟩
    rw [insertRecords_intro (by simp; omega) (by simp; omega)]
    simp

theorem treeOf_intro {d : ℕ} {l : List F} (h1 : l.length ≤ 3 ^ d) (h2 : l.length < 2 ^ 64) :
    treeOf d l = .ok ⟨l, [], []⟩ := by
  unfold treeOf
  rw [insertRecords_intro (by simpa using h1) (by simpa using h2)]
  rfl

theorem lookupFromTree_intro {d : ℕ} {tree : LedgerState} {i : ℕ} {ro : RecordOpening} (fits : tree.leaves.length ≤ 3 ^ d)
    (small : tree.leaves.length < 2 ^ 64) (h : tree.leaves[i]? = some ro.commitment) :
    ∃ acc, Wallet.lookupFromTree d tree (Fin.ofNat (2 ^ 64) i) = .ok acc ∧ Proves d (treeRoot d tree.leaves) ro acc := by
  obtain ⟨hlt, -⟩ := List.getElem?_eq_some_iff.1 h
  have hi : (Fin.ofNat (2 ^ 64) i).val = i := Nat.mod_eq_of_lt (by omega)
  refine ⟨_, if_pos (by rw [hi]; exact hlt), treePath_length _ _ _, rfl, ?_⟩
  show merkleRoot (((Fin.ofNat (2 ^ 64) i).val : ℕ) : F) _ (treePath d tree.leaves (Fin.ofNat (2 ^ 64) i).val) = _
  rw [hi]
  exact treePath_root fits h

theorem lookupFrom_intro {d : ℕ} {tree : LedgerState} (fits : tree.leaves.length ≤ 3 ^ d) (small : tree.leaves.length < 2 ^ 64) :
    ∀ {ros : List RecordOpening} {offset : ℕ}, (∀ (j : ℕ) ro, ros[j]? = some ro → tree.leaves[offset + j]? = some ro.commitment) →
    ∃ accs, lookupFrom d tree offset ros.length = .ok accs ∧ accs.length = ros.length ∧
      ∀ (j : ℕ) ro acc, ros[j]? = some ro → accs[j]? = some acc → Proves d (treeRoot d tree.leaves) ro acc
  | [], _, _ => ⟨[], rfl, rfl, fun j ro acc h => by simp at h⟩
  | r :: ros, offset, h => by
    obtain ⟨a, h1, h2⟩ := lookupFromTree_intro fits small (h 0 r rfl)
    obtain ⟨l, h3, h4, h5⟩ := lookupFrom_intro fits small (ros := ros) (offset := offset + 1) (fun j ro hj => by
      rw [show offset + 1 + j = offset + (j + 1) by omega]
      exact h (j + 1) ro (by simpa using hj))
    refine ⟨a :: l, ?_, by simp [h4], fun j ro acc hj ha => ?_⟩
    · rw [List.length_cons, lookupFrom]
      simp only [bind_ok_iff]
      exact ⟨a, h1, l, h3, rfl⟩
    · cases j with
      | zero =>
        simp only [List.getElem?_cons_zero, Option.some.injEq] at hj ha
        subst hj ha
        exact h2
      | succ j => exact h5 j ro acc (by simpa using hj) (by simpa using ha)

/-! ### Transfers -/

namespace TransferBuilder

/-- What `make` makes, apart from the witnesses: the fee record first, then records of one asset, all unfrozen and owned
by the key at the same position. -/
structure Shaped (t : TransferBuilder) (fee_in : Amount) (ins : List Amount) (fee_chg : Amount) (outs : List Amount)
    (expiry : U64) : Prop where
  fits : 3 ^ t.tree_depth.val < 2 ^ 64
  ni : t.num_input = ins.length + 1
  no : t.num_output = outs.length + 1
  ros_len : t.input_ros.length = t.num_input
  keys_len : t.input_keypairs.length = t.num_input
  creds_len : t.input_creds.length = t.num_input
  accs_len : t.accs.length = t.num_input
  first : ∀ r, t.input_ros[0]? = some r → r.asset_def = AssetDefinition.native
  rest : ∀ (j : ℕ) r, t.input_ros[j + 1]? = some r → r.asset_def = t.assetDef
  unfrozen : ∀ r ∈ t.input_ros, r.freeze_flag = .unfrozen
  owned : ∀ (j : ℕ) r k, t.input_ros[j]? = some r → t.input_keypairs[j]? = some k → r.pub_key = k.pubKey
  creds : ∀ (j : ℕ) r k c, t.input_ros[j]? = some r → t.input_keypairs[j]? = some k → t.input_creds[j]? = some c →
    r.asset_def.policy.cred_pk ≠ 0 → ∃ a attrs, t.asset = some a ∧ attrs.length = 8 ∧
      c = some ⟨k.pubKey.address, attrs, expiry, E.schnorrSign a.minter (ExpirableCredential.msg expiry k.pubKey.address attrs),
        smulFr a.minter E.gen⟩
  amounts_in : t.input_ros.map (·.amount) = fee_in :: ins
  outs_eq : t.output_ros.map (·.amount) = outs
  outs_ok : ∀ o ∈ t.output_ros, o.asset_def = t.assetDef ∧ o.freeze_flag = .unfrozen
  chg : ∃ k blind, t.input_keypairs[0]? = some k ∧ t.fee_chg_ro = ⟨fee_chg, AssetDefinition.native, k.pubKey, .unfrozen, blind⟩

/-- The witnesses prove membership in the tree with the builder's root. -/
def Placed (t : TransferBuilder) : Prop :=
  ∀ (j : ℕ) r a, t.input_ros[j]? = some r → t.accs[j]? = some a → Proves t.tree_depth.val t.root r a

theorem update_intro {t : TransferBuilder} {tree : LedgerState} {offset : ℕ} (len : t.accs.length = t.input_ros.length)
    (fits : tree.leaves.length ≤ 3 ^ t.tree_depth.val) (small : tree.leaves.length < 2 ^ 64)
    (h : ∀ (j : ℕ) ro, t.input_ros[j]? = some ro → tree.leaves[offset + j]? = some ro.commitment) :
    ∃ accs, t.updateAccMemberWitness tree offset = .ok { t with accs, root := treeRoot t.tree_depth.val tree.leaves } ∧
      accs.length = t.input_ros.length ∧
      Placed { t with accs, root := treeRoot t.tree_depth.val tree.leaves } := by
  obtain ⟨accs, h1, h2, h3⟩ := lookupFrom_intro fits small h
  refine ⟨accs, ?_, h2, fun j r a hj ha => h3 j r a hj ha⟩
  unfold updateAccMemberWitness
  simp only [bind_ok_iff]
  refine ⟨accs, h1, (), by rw [ensure_ok_iff, decide_eq_true_eq]; omega, ?_⟩
  rw [List.drop_eq_nil_of_le (by omega), List.append_nil]

theorem Shaped.place {t : TransferBuilder} {fee_in fee_chg : Amount} {ins outs : List Amount} {expiry : U64}
    (h : t.Shaped fee_in ins fee_chg outs expiry) {accs : List AccMemberWitness} {root : F}
    (len : accs.length = t.input_ros.length) : Shaped { t with accs, root } fee_in ins fee_chg outs expiry := by
  obtain ⟨h0, h1, h2, h3, h4, h5, h6, h7, h8, h9, h10, h11, h12, h13, h14, h15⟩ := h
  exact ⟨h0, h1, h2, h3, h4, h5, len.trans h3, h7, h8, h9, h10, h11, h12, h13, h14, h15⟩

theorem refresh_intro {t : TransferBuilder} (len : t.accs.length = t.input_ros.length)
    (fits : t.input_ros.length ≤ 3 ^ t.tree_depth.val) (small : t.input_ros.length < 2 ^ 64) :
    ∃ accs root, t.refreshMerkleRoot = .ok { t with accs, root } ∧ accs.length = t.input_ros.length ∧
      Placed { t with accs, root } := by
  have hl : (t.input_ros.map RecordOpening.commitment).length = t.input_ros.length := List.length_map _
  obtain ⟨accs, h1, h2, h3⟩ := update_intro (t := t) (tree := ⟨t.input_ros.map RecordOpening.commitment, [], []⟩) (offset := 0) len
    (by rw [hl]; exact fits) (by rw [hl]; exact small) (fun j ro hj => by
      rw [Nat.zero_add, List.getElem?_map, hj]; rfl)
  refine ⟨accs, _, ?_, h2, h3⟩
  unfold refreshMerkleRoot
  rw [bind_ok_iff]
  exact ⟨_, treeOf_intro (by rw [hl]; exact fits) (by rw [hl]; exact small), h1⟩

theorem inputRecords_intro {t : TransferBuilder} {blinds : ℕ → F} : ∀ {l : List Amount} {i : ℕ},
    i + l.length < t.input_keypairs.length → ∃ ros, t.inputRecords blinds i l = .ok ros ∧ ros.map (·.amount) = l ∧
      (∀ r ∈ ros, r.asset_def = t.assetDef ∧ r.freeze_flag = .unfrozen) ∧
      ∀ (j : ℕ) r, ros[j]? = some r → ∃ k, t.input_keypairs[i + 1 + j]? = some k ∧ r.pub_key = k.pubKey
  | [], _, _ => ⟨[], rfl, rfl, fun r h => absurd h List.not_mem_nil, fun j r h => by simp at h⟩
  | a :: l, i, h => by
    simp only [List.length_cons] at h
    obtain ⟨ros, h1, h2, h3, h4⟩ := inputRecords_intro (t := t) (blinds := blinds) (l := l) (i := i + 1) (by omega)
    have hk : t.input_keypairs[i + 1]? = some (t.input_keypairs[i + 1]'(by omega)) := List.getElem?_eq_getElem _
    refine ⟨⟨a, t.assetDef, (t.input_keypairs[i + 1]'(by omega)).pubKey, .unfrozen, blinds (i + 1)⟩ :: ros, ?_, ?_, ?_, ?_⟩
    · rw [inputRecords]
      simp only [bind_ok_iff]
      refine ⟨_, ?_, ros, h1, rfl⟩
      unfold inputUpkAt
      rw [hk]
    · rw [List.map_cons, h2]
    · intro r hr
      rcases List.mem_cons.1 hr with rfl | hr
      · exact ⟨rfl, rfl⟩
      · exact h3 r hr
    · intro j r hj
      cases j with
      | zero =>
        simp only [List.getElem?_cons_zero, Option.some.injEq] at hj
        subst hj
        exact ⟨_, hk, rfl⟩
      | succ j =>
        obtain ⟨k, g1, g2⟩ := h4 j r (by simpa using hj)
        exact ⟨k, by rw [show i + 1 + (j + 1) = i + 1 + 1 + j by omega]; exact g1, g2⟩

theorem creds_intro {t : TransferBuilder} {attrs : ℕ → List IdentityAttribute} {expiry : U64}
    (attrs_len : ∀ i, (attrs i).length = 8) : ∀ {l : List RecordOpening} {i : ℕ}, i + l.length ≤ t.input_keypairs.length →
    (∀ r ∈ l, r.asset_def.policy.cred_pk ≠ 0 → t.asset.isSome) →
    ∃ cs, t.creds attrs expiry i l = .ok cs ∧ cs.length = l.length ∧
      ∀ (j : ℕ) r k c, l[j]? = some r → t.input_keypairs[i + j]? = some k → cs[j]? = some c →
        r.asset_def.policy.cred_pk ≠ 0 → ∃ a as, t.asset = some a ∧ as.length = 8 ∧
          c = some ⟨k.pubKey.address, as, expiry, E.schnorrSign a.minter (ExpirableCredential.msg expiry k.pubKey.address as),
            smulFr a.minter E.gen⟩
  | [], _, _, _ => ⟨[], rfl, rfl, fun j r k c h => by simp at h⟩
  | ro :: l, i, h, hs => by
    simp only [List.length_cons] at h
    obtain ⟨cs, h1, h2, h3⟩ := creds_intro attrs_len (l := l) (i := i + 1) (by omega)
      (fun r hr => hs r (List.mem_cons_of_mem _ hr))
    have hk : t.input_keypairs[i]? = some (t.input_keypairs[i]'(by omega)) := List.getElem?_eq_getElem _
    have step : ∀ (j : ℕ) r k c, l[j]? = some r → t.input_keypairs[i + (j + 1)]? = some k → cs[j]? = some c →
        r.asset_def.policy.cred_pk ≠ 0 → ∃ a as, t.asset = some a ∧ as.length = 8 ∧
          c = some ⟨k.pubKey.address, as, expiry, E.schnorrSign a.minter (ExpirableCredential.msg expiry k.pubKey.address as),
            smulFr a.minter E.gen⟩ :=
      fun j r k c g1 g2 g3 => h3 j r k c g1 (by rw [show i + 1 + j = i + (j + 1) by omega]; exact g2) g3
    by_cases hc : ro.asset_def.policy.cred_pk = 0
    · refine ⟨none :: cs, ?_, by simp [h2], ?_⟩
      · rw [TransferBuilder.creds, if_pos hc, h1]
        rfl
      · intro j r k c g1 g2 g3 g4
        cases j with
        | zero =>
          simp only [List.getElem?_cons_zero, Option.some.injEq] at g1
          subst g1
          exact absurd hc g4
        | succ j => exact step j r k c (by simpa using g1) g2 (by simpa using g3) g4
    · obtain ⟨a, ha⟩ := Option.isSome_iff_exists.1 (hs ro List.mem_cons_self hc)
      let k0 := t.input_keypairs[i]'(by omega)
      let c0 : ExpirableCredential := ⟨k0.pubKey.address, attrs i, expiry,
        E.schnorrSign a.minter (ExpirableCredential.msg expiry k0.pubKey.address (attrs i)), smulFr a.minter E.gen⟩
      refine ⟨some c0 :: cs, ?_, by simp [h2], ?_⟩
      · have e1 : t.inputUpkAt i = .ok k0.pubKey := by
          unfold inputUpkAt
          rw [hk]
        have e2 : unwrapRes (ExpirableCredential.create k0.pubKey.address (attrs i) expiry a.minter) = .ok c0 := by
          unfold ExpirableCredential.create
          rw [if_neg (show ¬ (attrs i).length ≠ ATTRS_LEN from not_not.2 (attrs_len i))]
          rfl
        rw [TransferBuilder.creds, if_neg hc, h1, ha]
        simp only [e1]
        show (do let c ← unwrapRes (ExpirableCredential.create k0.pubKey.address (attrs i) expiry a.minter); _) = _
        rw [e2]
        rfl
      · intro j r k c g1 g2 g3 g4
        cases j with
        | zero =>
          simp only [List.getElem?_cons_zero, Option.some.injEq] at g1 g3
          subst g1 g3
          rw [Nat.add_zero, hk, Option.some.injEq] at g2
          subst g2
          exact ⟨a, attrs i, ha, attrs_len i, rfl⟩
        | succ j => exact step j r k c (by simpa using g1) g2 (by simpa using g3) g4

/-- The public functions of the builder, one after the other, do what they should. -/
theorem make_intro {ni no : ℕ} {d : Fin 256} {users : List UserKeyPair} {asset : Option NonNativeAsset} {in_blinds : ℕ → F}
    {fee_in : Amount} {ins : List Amount} {receivers : ℕ → UserPubKey} {out_blinds : ℕ → F} {fee_chg : Amount}
    {outs : List Amount} {attrs : ℕ → List IdentityAttribute} {expiry : U64}
    (hu : users.length = ni) (hi : ins.length + 1 = ni) (ho : outs.length + 1 = no) (fits : ni + no ≤ 3 ^ d.val)
    (small : 3 ^ d.val < 2 ^ 64) (attrs_len : ∀ i, (attrs i).length = 8) :
    ∃ t, make ni no d users asset in_blinds fee_in ins receivers out_blinds fee_chg outs attrs expiry = .ok t ∧
      t.Shaped fee_in ins fee_chg outs expiry ∧ t.Placed ∧ t.asset = asset ∧ t.tree_depth = d ∧ t.input_keypairs = users ∧
      t.output_ros = outs.mapIdx (fun i a => ⟨a, t.assetDef, receivers i, .unfrozen, out_blinds (i + 1)⟩) := by
  let t0 : TransferBuilder := ⟨ni, no, d, asset, [], [], defaultRecord, users, List.replicate ni none,
    List.replicate ni ⟨[], 0, 0⟩, 0⟩
  have h0 : TransferBuilder.new ni no d users asset = .ok t0 := by
    unfold TransferBuilder.new calculateTreeDepth
    simp only [bind_ok_iff, ensure_ok_iff, decide_eq_true_eq]
    exact ⟨(), hu, d, ⟨(), by omega, (), by omega, (), small, (), fits, rfl⟩, rfl⟩
  obtain ⟨k, hk⟩ : ∃ k, users[0]? = some k := ⟨_, List.getElem?_eq_getElem (by omega)⟩
  obtain ⟨ros, r1, r2, r3, r4⟩ := inputRecords_intro (t := t0) (blinds := in_blinds) (l := ins) (i := 0)
    (show 0 + ins.length < users.length by omega)
  have hros : ros.length = ins.length := by rw [← r2, List.length_map]
  let fee_ro : RecordOpening := ⟨fee_in, AssetDefinition.native, k.pubKey, .unfrozen, in_blinds 0⟩
  let t1 : TransferBuilder := { t0 with input_ros := fee_ro :: ros }
  obtain ⟨accs, root, h1, l1, p1⟩ := refresh_intro (t := t1)
    (show (List.replicate ni (⟨[], 0, 0⟩ : AccMemberWitness)).length = (fee_ro :: ros).length by
      rw [List.length_replicate, List.length_cons, hros]; omega)
    (show (fee_ro :: ros).length ≤ 3 ^ d.val by rw [List.length_cons, hros]; omega)
    (show (fee_ro :: ros).length < 2 ^ 64 by rw [List.length_cons, hros]; omega)
  have h1' : t0.setInputAmounts in_blinds fee_in ins = .ok { t1 with accs, root } := by
    unfold setInputAmounts
    simp only [bind_ok_iff, ensure_ok_iff, decide_eq_true_eq]
    refine ⟨(), rfl, (), hi, k.pubKey, ?_, ros, r1, h1⟩
    unfold inputUpkAt
    rw [show t0.input_keypairs[0]? = some k from hk]
  let t2 : TransferBuilder := { t1 with accs, root }
  let os := outs.mapIdx (fun i a => (⟨a, t2.assetDef, receivers i, .unfrozen, out_blinds (i + 1)⟩ : RecordOpening))
  let t3 : TransferBuilder := { t2 with fee_chg_ro := ⟨fee_chg, AssetDefinition.native, k.pubKey, .unfrozen, out_blinds 0⟩,
                                        output_ros := os }
  have h2 : t2.setOutputAmounts receivers out_blinds fee_chg outs = .ok t3 := by
    unfold setOutputAmounts
    simp only [bind_ok_iff, ensure_ok_iff, decide_eq_true_eq]
    refine ⟨(), rfl, (), ho, k.pubKey, ?_, rfl⟩
    unfold inputUpkAt
    rw [show t2.input_keypairs[0]? = some k from hk]
  obtain ⟨cs, c1, c2, c3⟩ := creds_intro (t := t3) (expiry := expiry) attrs_len (l := fee_ro :: ros) (i := 0)
    (show 0 + (fee_ro :: ros).length ≤ users.length by rw [List.length_cons, hros]; omega) (by
      intro r hr hne
      rcases List.mem_cons.1 hr with rfl | hr
      · exact absurd rfl hne
      · rw [(r3 r hr).1] at hne
        cases ha : asset with
        | some a => show (asset).isSome; rw [ha]; rfl
        | none =>
          have : t0.assetDef = AssetDefinition.native := by
            show (match asset with | some a => a.asset_def | none => AssetDefinition.native) = _
            rw [ha]
          rw [this] at hne
          exact absurd rfl hne)
  have h3 : t3.setInputCreds attrs expiry = .ok { t3 with input_creds := cs } := by
    unfold setInputCreds
    simp only [bind_ok_iff, ensure_ok_iff, decide_eq_true_eq]
    refine ⟨(), ?_, cs, c1, rfl⟩
    show (fee_ro :: ros).length = ni
    rw [List.length_cons, hros]; omega
  refine ⟨{ t3 with input_creds := cs }, ?_, ?_, p1, rfl, rfl, rfl, rfl⟩
  · unfold make
    simp only [bind_ok_iff]
    exact ⟨t0, h0, _, h1', _, h2, h3⟩
  · refine ⟨small, hi.symm, ho.symm, ?_, hu, ?_, ?_, ?_, ?_, ?_, ?_, ?_, ?_, ?_, ?_, ⟨k, out_blinds 0, hk, rfl⟩⟩
    · show (fee_ro :: ros).length = ni
      rw [List.length_cons, hros]; omega
    · show cs.length = ni
      rw [c2, List.length_cons, hros]; omega
    · show accs.length = ni
      rw [l1]
      show (fee_ro :: ros).length = ni
      rw [List.length_cons, hros]; omega
    · intro r hr
      have : fee_ro = r := by simpa [t3, t2, t1] using hr
      subst this
      rfl
    · intro j r hr
      exact (r3 r (List.mem_of_getElem? (show ros[j]? = some r by simpa [t3, t2, t1] using hr))).1
    · intro r hr
      rcases List.mem_cons.1 (show r ∈ fee_ro :: ros from hr) with rfl | hr
      · rfl
      · exact (r3 r hr).2
    · intro j r k' hr hk'
      cases j with
      | zero =>
        have e1 : fee_ro = r := by simpa [t3, t2, t1] using hr
        have e2 : some k = some k' := hk.symm.trans hk'
        subst e1
        rw [Option.some.injEq] at e2
        rw [← e2]
      | succ j =>
        obtain ⟨k'', g1, g2⟩ := r4 j r (show ros[j]? = some r by simpa [t3, t2, t1] using hr)
        have e : some k'' = some k' := g1.symm.trans (by
          rw [show 0 + 1 + j = j + 1 by omega]
          exact hk')
        rw [Option.some.injEq] at e
        rw [g2, e]
    · intro j r k' c g1 g2 g3 g4
      exact c3 j r k' c g1 (by rw [Nat.zero_add]; exact g2) g3 g4
    · show (fee_ro :: ros).map (·.amount) = _
      rw [List.map_cons, r2]
    · show os.map (·.amount) = outs
      refine List.ext_getElem (by simp [os]) (fun i _ _ => by simp [os])
    · intro o ho
      obtain ⟨i, hi, rfl⟩ := List.mem_mapIdx.1 ho
      exact ⟨rfl, rfl⟩

theorem mem_inputs {t : TransferBuilder} {i : TransferNoteInput} (h : i ∈ t.inputs) :
    ∃ j : ℕ, t.input_ros[j]? = some i.ro ∧ t.accs[j]? = some i.acc ∧ t.input_keypairs[j]? = some i.owner_keypair ∧
      t.input_creds[j]? = some i.cred := by
  obtain ⟨j, hj⟩ := List.mem_iff_getElem?.1 h
  unfold inputs at hj
  rw [List.getElem?_map, Option.map_eq_some_iff] at hj
  obtain ⟨⟨r, a, k, c⟩, h1, rfl⟩ := hj
  simp only [List.getElem?_zip_eq_some] at h1
  exact ⟨j, h1.1, h1.2.1, h1.2.2.1, h1.2.2.2⟩

theorem getElem?_inputs {t : TransferBuilder} {j : ℕ} {i : TransferNoteInput} (h : t.inputs[j]? = some i) :
    t.input_ros[j]? = some i.ro ∧ t.accs[j]? = some i.acc ∧ t.input_keypairs[j]? = some i.owner_keypair ∧
      t.input_creds[j]? = some i.cred := by
  unfold inputs at h
  rw [List.getElem?_map, Option.map_eq_some_iff] at h
  obtain ⟨⟨r, a, k, c⟩, h1, rfl⟩ := h
  simp only [List.getElem?_zip_eq_some] at h1
  exact ⟨h1.1, h1.2.1, h1.2.2.1, h1.2.2.2⟩

section Shaped

variable {t : TransferBuilder} {fee_in fee_chg : Amount} {ins outs : List Amount} {expiry : U64}

theorem Shaped.inputs_ros (h : t.Shaped fee_in ins fee_chg outs expiry) : t.inputs.map (·.ro) = t.input_ros := by
  unfold inputs
  rw [List.map_map]
  show (List.zip _ _).map Prod.fst = _
  refine List.map_fst_zip ?_
  rw [List.length_zip, List.length_zip, h.ros_len, h.accs_len, h.keys_len, h.creds_len]
  simp

theorem Shaped.inputs_keys (h : t.Shaped fee_in ins fee_chg outs expiry) :
    t.inputs.map (·.owner_keypair) = t.input_keypairs := by
  unfold inputs
  rw [List.map_map]
  show (List.zip _ _).map ((Prod.fst ∘ Prod.snd) ∘ Prod.snd) = _
  have h1 := h.ros_len
  have h2 := h.accs_len
  have h3 := h.keys_len
  have h4 := h.creds_len
  rw [← List.map_map, List.map_snd_zip (by simp [h1, h2, h3, h4]), ← List.map_map, List.map_snd_zip (by simp [h2, h3, h4]),
    List.map_fst_zip (by simp [h3, h4])]

theorem Shaped.inputs_len (h : t.Shaped fee_in ins fee_chg outs expiry) : t.inputs.length = t.num_input := by
  rw [← h.ros_len, ← h.inputs_ros, List.length_map]

theorem Shaped.spendable (h : t.Shaped fee_in ins fee_chg outs expiry) (placed : t.Placed)
    (real : t.assetDef ≠ AssetDefinition.dummy) : ∀ i ∈ t.inputs, Spendable t.tree_depth.val t.root i := by
  intro i hi
  obtain ⟨j, h1, h2, h3, h4⟩ := mem_inputs hi
  have p := placed j i.ro i.acc h1 h2
  refine ⟨p.depth, h.owned j _ _ h1 h3, h.unfrozen _ (List.mem_of_getElem? h1), fun _ => ⟨p.root_eq, p.member⟩, fun hd => ?_⟩
  cases j with
  | zero => exact absurd (hd.symm.trans (h.first _ h1)).symm nativeDef_ne_dummyDef
  | succ j => exact absurd ((h.rest j _ h1).symm.trans hd) real

theorem total_eq {l : List RecordOpening} : total l = ((l.map (·.amount)).map Fin.val).sum := by
  rw [List.map_map]; rfl

theorem Shaped.total_in (h : t.Shaped fee_in ins fee_chg outs expiry) :
    total t.input_ros = fee_in.val + (ins.map Fin.val).sum := by
  rw [total_eq, h.amounts_in, List.map_cons, List.sum_cons]

theorem Shaped.total_out (h : t.Shaped fee_in ins fee_chg outs expiry) :
    total t.output_ros = (outs.map Fin.val).sum := by
  rw [total_eq, h.outs_eq]

theorem Shaped.outs_len (h : t.Shaped fee_in ins fee_chg outs expiry) : t.output_ros.length + 1 = t.num_output := by
  rw [h.no, ← h.outs_eq, List.length_map]

/-- The builder's fee input and the others. -/
theorem Shaped.split (h : t.Shaped fee_in ins fee_chg outs expiry) : ∃ i0 is, t.inputs = i0 :: is ∧
    i0.ro.asset_def = AssetDefinition.native ∧ i0.ro.amount = fee_in ∧ is.length = ins.length ∧
    t.input_keypairs[0]? = some i0.owner_keypair ∧
    (is.map (·.ro)).map (·.amount) = ins ∧ ∀ i ∈ is, i.ro.asset_def = t.assetDef ∧
      (i.ro.asset_def.policy.cred_pk ≠ 0 → ∃ a attrs, t.asset = some a ∧ attrs.length = 8 ∧
        i.cred = some ⟨i.owner_keypair.pubKey.address, attrs, expiry,
          E.schnorrSign a.minter (ExpirableCredential.msg expiry i.owner_keypair.pubKey.address attrs),
          smulFr a.minter E.gen⟩) := by
  have hl := h.inputs_len
  have hm := h.amounts_in
  rw [← h.inputs_ros] at hm
  cases hi : t.inputs with
  | nil => rw [hi] at hl; rw [h.ni] at hl; simp at hl
  | cons i0 is =>
    rw [hi] at hl hm
    simp only [List.map_cons, List.cons.injEq] at hm
    obtain ⟨g1, -, g3, -⟩ := getElem?_inputs (t := t) (j := 0) (i := i0) (by rw [hi]; rfl)
    refine ⟨i0, is, rfl, h.first _ g1, hm.1, ?_, g3, hm.2, fun i hmem => ?_⟩
    · rw [h.ni, List.length_cons] at hl; omega
    · obtain ⟨j, hj⟩ := List.mem_iff_getElem?.1 hmem
      obtain ⟨q1, q2, q3, q4⟩ := getElem?_inputs (t := t) (j := j + 1) (i := i) (by rw [hi]; simpa using hj)
      exact ⟨h.rest j _ q1, fun hne => h.creds (j + 1) _ _ _ q1 q3 q4 hne⟩

variable [S : CapExt]

theorem finish_intro {rng : Draw} {n : TransferNote} {sk : Fr}
    (can : ∀ o ∈ t.output_ros, ∀ r, ∃ c, ReceiverMemo.fromRo r o [] = .ok c) (ne : t.output_ros ≠ [])
    (key : n.aux_info.txn_memo_ver_key = smulFr sk E.gen) :
    ∃ memos sig, t.finish rng n sk = .ok (n, memos, sig) ∧ memos.length = t.output_ros.length ∧
      (∀ (j : ℕ) o c, t.output_ros[j]? = some o → memos[j]? = some c → ReceiverMemo.fromRo (rng.memos j) o [] = .ok c) ∧
      (TransactionNote.transfer n).verifyReceiverMemosSignature memos sig = .ok () := by
  obtain ⟨cs, hcs⟩ := Wallet.payMemos_intro (memos := rng.memos) (l := t.output_ros) (i := 0)
    (fun j ro hj => can ro (List.mem_of_getElem? hj) _)
  obtain ⟨hlen, hat⟩ := Wallet.payMemos_ok hcs
  obtain ⟨sig, h1, h2⟩ := C36_sign_verify sk (.transfer n) cs key (by
    intro hn
    rw [hn] at hlen
    exact ne (List.length_eq_zero_iff.1 hlen.symm))
  refine ⟨cs, sig, ?_, hlen, ?_, h2⟩
  · unfold finish
    simp only [bind_ok_iff]
    exact ⟨cs, hcs, sig, h1, rfl⟩
  · intro j o c ho hc
    obtain ⟨c', g1, g2⟩ := hat j o ho
    rw [hc, Option.some.injEq] at g1
    subst g1
    simpa using g2

theorem Shaped.lenCheck (h : t.Shaped fee_in ins fee_chg outs expiry) : t.lenCheck = .ok () := by
  unfold TransferBuilder.lenCheck
  rw [ensure_ok_iff, decide_eq_true_eq]
  exact ⟨h.ros_len, h.accs_len, h.keys_len, h.creds_len⟩

theorem subU128_intro {b : Build} {x y : Amount} (h : y.val ≤ x.val) :
    ∃ z, subU128 b x y = .ok z ∧ z.val = x.val - y.val :=
  ⟨x - y, if_pos h, Fin.sub_val_of_le h⟩

theorem build_native (complete : SnarkComplete) {pk : TransferProvingKey} {vk : TransferVerifyingKey}
    (keys : transferPreprocess t.num_input t.num_output t.tree_depth = .ok (pk, vk))
    (shaped : t.Shaped fee_in ins fee_chg outs expiry) (placed : t.Placed) (native : t.asset = none)
    (once : (t.inputs.map nullifierOf).Nodup)
    (can : ∀ o ∈ t.output_ros, ∀ r, ∃ c, ReceiverMemo.fromRo r o [] = .ok c) (one_out : outs ≠ [])
    (covers : fee_chg.val ≤ fee_in.val) (balanced : (ins.map Fin.val).sum = (outs.map Fin.val).sum)
    (small : fee_in.val + (ins.map Fin.val).sum < 2 ^ 127) (b : Build) (rng : Draw) :
    ∃ n memos sig, t.buildNative b rng pk = .ok (n, memos, sig) ∧
      TransferBuilt t (fee_in.val - fee_chg.val) rng vk Wallet.unexpiredValidUntil n memos sig := by
  have had : t.assetDef = AssetDefinition.native := by unfold assetDef; rw [native]
  obtain ⟨fee, hfee, hval⟩ := subU128_intro (b := b) covers
  obtain ⟨i0, is, hi, hn, ha, -, -, -, hrest⟩ := shaped.split
  have hsp := shaped.spendable placed (by rw [had]; exact nativeDef_ne_dummyDef)
  let inputs' : List TransferNoteInput := t.inputs.map (fun i => { i with cred := none })
  have hros : inputs'.map (·.ro) = t.input_ros := by
    rw [← shaped.inputs_ros, List.map_map]; rfl
  have hnul : inputs'.map nullifierOf = t.inputs.map nullifierOf := by
    rw [List.map_map]; rfl
  have pay : NativePayment t.num_input t.num_output t.tree_depth.val t.root inputs' t.output_ros fee := by
    refine ⟨by rw [List.length_map, shaped.inputs_len], shaped.outs_len,
      ⟨{ i0 with cred := none }, is.map (fun i => { i with cred := none }), by
        show t.inputs.map _ = _
        rw [hi]; rfl, hn⟩, ?_, ?_, ?_, by rw [hnul]; exact once, ?_, ?_⟩
    · intro i hmem
      obtain ⟨i', hm, rfl⟩ := List.mem_map.1 hmem
      rw [hi] at hm
      rcases List.mem_cons.1 hm with rfl | hm
      · exact .inl hn
      · exact .inl ((hrest i' hm).1.trans had)
    · intro o ho
      have := shaped.outs_ok o ho
      exact ⟨this.1.trans had, this.2⟩
    · intro i hmem
      obtain ⟨i', hm, rfl⟩ := List.mem_map.1 hmem
      obtain ⟨h1, h2, h3, h4, h5⟩ := hsp i' hm
      exact ⟨h1, h2, h3, h4, h5⟩
    · rw [hros, shaped.total_in, shaped.total_out, hval]
      omega
    · rw [hros, shaped.total_in]; exact small
  obtain ⟨n, sk, chg, gen, -, g2, g3, g4, g5⟩ := C55_native_partial complete keys pay (by decide) b rng.chg_blind rng.note
    (valid_until := Wallet.unexpiredValidUntil)
  obtain ⟨w, pub, g⟩ := TransferNote.generate_ok.1 (generateNative_generate gen)
  have hno : t.output_ros ≠ [] := by
    intro h
    have := shaped.outs_eq
    rw [h] at this
    exact one_out this.symm
  obtain ⟨memos, sig, f1, f2, f3, f4⟩ := finish_intro (rng := rng) (n := n) (sk := sk) can hno (by rw [g.ver_key, g.sign_key])
  refine ⟨n, memos, sig, ?_, by rw [g2, hval], by rw [g3, hnul], by rw [g4]; rfl, g5, f2, f3, f4⟩
  obtain ⟨c, hc⟩ := shaped.chg
  obtain ⟨k, blind, hc⟩ := shaped.chg
  unfold buildNative
  have hr : t.input_ros = i0.ro :: is.map (·.ro) := by rw [← shaped.inputs_ros, hi]; rfl
  rw [shaped.lenCheck, hr]
  simp only [bind_ok_iff]
  refine ⟨(), trivial, fee, ?_, _, gen, f1⟩
  rw [ha, hc.2]
  exact hfee

theorem build_asset (complete : SnarkComplete) {pk : TransferProvingKey} {vk : TransferVerifyingKey}
    (keys : transferPreprocess t.num_input t.num_output t.tree_depth = .ok (pk, vk))
    (shaped : t.Shaped fee_in ins fee_chg outs expiry) (placed : t.Placed) {viewer : ViewerKeyPair} {minter freezer : Fr}
    {seed : F} {a : NonNativeAsset} (asset : t.asset = some a)
    (made : NonNativeAsset.generate viewer minter freezer seed = .ok a) (viewed : viewer.pubKey ≠ 0)
    (once : (t.inputs.map nullifierOf).Nodup)
    (can : ∀ o ∈ t.output_ros, ∀ r, ∃ c, ReceiverMemo.fromRo r o [] = .ok c) (one_in : ins ≠ []) (one_out : outs ≠ [])
    (covers : fee_chg.val ≤ fee_in.val) (balanced : (ins.map Fin.val).sum = (outs.map Fin.val).sum)
    (small : fee_in.val + (ins.map Fin.val).sum < 2 ^ 127) {valid_until : U64} (window : valid_until.val < 2 ^ 20)
    (unexpired : valid_until ≤ expiry) (fresh : expiry.val < valid_until.val + 2 ^ 20) (b : Build) (rng : Draw)
    (extra : List Byte) :
    ∃ n memos sig, t.buildNonNative b rng pk valid_until extra = .ok (n, memos, sig) ∧
      TransferBuilt t (fee_in.val - fee_chg.val) rng vk valid_until n memos sig := by
  have had : t.assetDef = a.asset_def := by unfold assetDef; rw [asset]
  have hgen : a.asset_def = ⟨newDomestic seed [], ((AssetPolicy.default.setViewerPubKey viewer.pubKey).setCredCreatorPubKey
      (smulFr minter E.gen)).setFreezerPubKey (FreezerKeyPair.generate freezer).pub_key⟩ ∧ a.minter = minter ∧
      newDomestic seed [] ≠ nativeCode ∧ newDomestic seed [] ≠ dummyCode := by
    unfold NonNativeAsset.generate AssetDefinition.new at made
    split at made
    · cases made
    · next h =>
      cases made
      exact ⟨rfl, rfl, fun h' => h (.inl h'), fun h' => h (.inr h')⟩
  obtain ⟨hdef, hminter, hcn, hcd⟩ := hgen
  have hreal : t.assetDef ≠ AssetDefinition.dummy := by
    rw [had, hdef]
    intro h
    exact hcd (congrArg AssetDefinition.code h)
  obtain ⟨fee, hfee, hval⟩ := subU128_intro (b := b) covers
  obtain ⟨i0, is, hi, hn, ha, hlen, hk0, his, hrest⟩ := shaped.split
  have hsp := shaped.spendable placed hreal
  have hsp0 := hsp i0 (by rw [hi]; exact List.mem_cons_self)
  obtain ⟨k, blind, hk, hchg⟩ := shaped.chg
  have hkk : k = i0.owner_keypair := Option.some.inj (hk.symm.trans hk0)
  subst hkk
  have htot : total (is.map (·.ro)) = (ins.map Fin.val).sum := by rw [total_eq, his]
  let fi : FeeInput := ⟨i0.ro, i0.acc, i0.owner_keypair⟩
  have hnul : nullifierOf fi.toTransferInput :: is.map nullifierOf = t.inputs.map nullifierOf := by
    rw [hi]; rfl
  have hcred : ∀ i ∈ is, i.ro.asset_def.policy.cred_pk ≠ 0 → ∃ c, i.cred = some c ∧ c.verify valid_until = .ok () ∧
      c.attrs.length = 8 ∧ c.expiry = expiry := by
    intro i hm hne
    obtain ⟨a', attrs, h1, h2, h3⟩ := (hrest i hm).2 hne
    refine ⟨_, h3, ?_, h2, rfl⟩
    unfold ExpirableCredential.verify ExpirableCredential.isExpired
    rw [if_neg (by simpa using unexpired), if_pos]
    exact E.schnorr_correct _ _
  have pay : AssetPayment t.num_input t.num_output t.tree_depth.val t.root valid_until a.asset_def is t.output_ros fi fee := by
    have hne : is ≠ [] := by
      intro h
      rw [h] at hlen
      exact one_in (List.length_eq_zero_iff.1 hlen.symm)
    obtain ⟨i1, is', hi1⟩ := List.exists_cons_of_ne_nil hne
    refine ⟨by rw [shaped.ni, hlen], shaped.outs_len, by rw [hdef]; exact ⟨hcn, hcd⟩, fun _ => by rw [hdef]; exact viewed, ?_, ?_, ?_, ?_, ?_,
      by rw [hnul]; exact once, ?_, ?_, ?_⟩
    · refine ⟨hsp0.depth, hn, hsp0.unfrozen, hsp0.owned, hsp0.member (by rw [hn]; exact nativeDef_ne_dummyDef), ?_⟩
      show fee.val ≤ i0.ro.amount.val
      rw [ha, hval]; omega
    · exact ⟨i1, by rw [hi1]; exact List.mem_cons_self, ((hrest i1 (by rw [hi1]; exact List.mem_cons_self)).1).trans had⟩
    · exact fun i hm => .inl ((hrest i hm).1.trans had)
    · intro o ho
      have := shaped.outs_ok o ho
      exact ⟨this.1.trans had, this.2⟩
    · exact fun i hm => hsp i (by rw [hi]; exact List.mem_cons_of_mem _ hm)
    · rw [htot, shaped.total_out, balanced]
    · show i0.ro.amount.val + _ < _
      rw [htot, ha]; exact small
    · intro hne i hm he
      obtain ⟨c, h1, h2, h3, -⟩ := hcred i hm (by rw [he]; exact hne)
      exact ⟨c, h1, h2, h3⟩
  have limits : Limits valid_until (fi.toTransferInput :: is) a.asset_def := by
    refine ⟨window, ?_, .inr ?_⟩
    · intro i hm hne c hc
      rcases List.mem_cons.1 hm with rfl | hm
      · exact absurd (show i0.ro.asset_def.policy.cred_pk = 0 by rw [hn]; rfl) hne
      · obtain ⟨c', h1, -, -, h4⟩ := hcred i hm hne
        rw [hc, Option.some.injEq] at h1
        rw [h1, h4]
        exact fresh
    · rw [hdef]
      show (_ ≤ 0 ∧ _) ∨ (0 < _ ∧ _)
      rcases Nat.eq_zero_or_pos (moved (fi.toTransferInput :: is)) with h0 | h0
      · exact .inl ⟨h0.le, Nat.lt_of_le_of_lt (Nat.sub_le _ _) (Nat.two_pow_pos 127)⟩
      · exact .inr ⟨h0, .inl rfl⟩
  obtain ⟨info, chg, n, sk, new, gen, -, g2, g3, g4, g5⟩ := C55_asset_partial complete keys pay limits b blind rng.note extra
  have hinfo : info = ⟨fi, fee, t.fee_chg_ro⟩ := by
    obtain ⟨h1, h2, h3, h4, h5, h6, h7, h8⟩ := C23_change _ _ _ _ _ new
    have : chg = t.fee_chg_ro := by
      rw [hchg]
      have e1 : chg.amount = fee_chg := by
        apply Fin.ext
        have : chg.amount.val + fee.val = i0.ro.amount.val := h1
        rw [ha, hval] at this
        omega
      have e2 : chg.pub_key = i0.owner_keypair.pubKey := h2.trans hsp0.owned
      rcases chg with ⟨c1, c2, c3, c4, c5⟩
      simp only at e1 e2 h3 h4 h5
      rw [e1, e2, h3, h4, h5]
    rcases info with ⟨f1, f2, f3⟩
    simp only at h6 h7 h8
    rw [h6, h7, h8, this]
  subst hinfo
  have gen' : TransferNote.generate b rng.note (fi.toTransferInput :: is) (t.fee_chg_ro :: t.output_ros) pk valid_until extra =
      .ok (n, sk) := by
    unfold TransferNote.generateNonNative at gen
    rw [bind_ok_iff] at gen
    obtain ⟨-, -, gen⟩ := gen
    exact gen
  obtain ⟨w, pub, g⟩ := TransferNote.generate_ok.1 gen'
  have hno : t.output_ros ≠ [] := by
    intro h
    have := shaped.outs_eq
    rw [h] at this
    exact one_out this.symm
  obtain ⟨memos, sig, f1, f2, f3, f4⟩ := finish_intro (rng := rng) (n := n) (sk := sk) can hno (by rw [g.ver_key, g.sign_key])
  refine ⟨n, memos, sig, ?_, by rw [g2, hval], by rw [g3]; exact hnul, by rw [g4]; rfl, g5, f2, f3, f4⟩
  unfold buildNonNative
  rw [shaped.lenCheck, hi]
  simp only [bind_ok_iff]
  refine ⟨(), trivial, fee, ?_, _, gen, f1⟩
  rw [ha, hchg]
  exact hfee

end Shaped

end TransferBuilder

/-! ### Mints -/

namespace MintBuilder

/-- What `new` makes, apart from the witness. -/
structure Shaped (m : MintBuilder) : Prop where
  native : m.fee_ro.asset_def = AssetDefinition.native
  unfrozen : m.fee_ro.freeze_flag = .unfrozen
  owned : m.fee_ro.pub_key = m.minter.pubKey
  mintable : Mintable m.ac_seed m.ac_description m.mint_ro

theorem update_intro {m : MintBuilder} {tree : LedgerState} {uid : ℕ} (fits : tree.leaves.length ≤ 3 ^ m.tree_depth.val)
    (small : tree.leaves.length < 2 ^ 64) (h : tree.leaves[uid]? = some m.fee_ro.commitment) :
    ∃ acc, m.updateAccMemberWitness tree uid = .ok { m with acc } ∧
      Proves m.tree_depth.val (treeRoot m.tree_depth.val tree.leaves) m.fee_ro acc := by
  obtain ⟨acc, h1, h2⟩ := lookupFromTree_intro fits small h
  exact ⟨acc, bind_ok_iff.2 ⟨acc, h1, rfl⟩, h2⟩

theorem new_intro {seed fee_blind mint_blind : F} {d : Fin 256} {input_amount fee mint_amount : Amount}
    {minter receiver : UserKeyPair} {viewer : ViewerKeyPair} (hn : newDomestic seed description ≠ nativeCode)
    (hd : newDomestic seed description ≠ dummyCode) :
    ∃ m root, MintBuilder.new seed fee_blind mint_blind d input_amount fee mint_amount minter receiver viewer = .ok m ∧
      m.Shaped ∧ Proves m.tree_depth.val root m.fee_ro m.acc ∧ m.tree_depth = d ∧ m.fee = fee ∧
      m.fee_ro = ⟨input_amount, AssetDefinition.native, minter.pubKey, .unfrozen, fee_blind⟩ ∧ m.minter = minter ∧
      m.mint_ro = ⟨mint_amount, ⟨newDomestic seed description, AssetPolicy.default.setViewerPubKey viewer.pubKey⟩,
        receiver.pubKey, .unfrozen, mint_blind⟩ := by
  let fee_ro : RecordOpening := ⟨input_amount, AssetDefinition.native, minter.pubKey, .unfrozen, fee_blind⟩
  let mint_ro : RecordOpening := ⟨mint_amount, ⟨newDomestic seed description, AssetPolicy.default.setViewerPubKey viewer.pubKey⟩,
    receiver.pubKey, .unfrozen, mint_blind⟩
  let m : MintBuilder := ⟨d, minter, fee_ro, fee, mint_ro, seed, description, ⟨[], 0, 0⟩⟩
  have h1 : (1 : ℕ) ≤ 3 ^ d.val := Nat.one_le_pow _ _ (by decide)
  obtain ⟨acc, g1, g2⟩ := update_intro (m := m) (tree := ⟨[fee_ro.commitment], [], []⟩) (uid := 0) h1
    (show 1 < 2 ^ 64 by decide) rfl
  refine ⟨{ m with acc }, _, ?_, ⟨rfl, rfl, rfl, ⟨rfl, rfl⟩⟩, g2, rfl, rfl, rfl, rfl, rfl⟩
  have had : AssetDefinition.new (newDomestic seed description) AssetPolicy.default =
      .ok ⟨newDomestic seed description, AssetPolicy.default⟩ := if_neg (by rintro (h | h); exacts [hn h, hd h])
  unfold MintBuilder.new
  rw [had]
  show (do let tree ← treeOf d.val [fee_ro.commitment]; m.updateAccMemberWitness tree 0) = _
  rw [bind_ok_iff]
  exact ⟨_, treeOf_intro h1 (show 1 < 2 ^ 64 by decide), g1⟩

theorem build_mint [S : CapExt] (complete : SnarkComplete) {m : MintBuilder} {pk : MintProvingKey} {vk : MintVerifyingKey}
    {root : F} (keys : mintPreprocess m.tree_depth = .ok (pk, vk)) (shaped : m.Shaped)
    (placed : Proves m.tree_depth.val root m.fee_ro m.acc) (covers : m.fee.val ≤ m.fee_ro.amount.val)
    (small : m.mint_ro.amount.val < 2 ^ 127) (chg_blind : F) (rng : TransferRand) :
    ∃ n sk chg, m.buildMintNote chg_blind rng pk = .ok (n, sk, chg) ∧ MintBuilt m vk root n chg := by
  obtain ⟨info, chg, n, sk, h1, h2, h3, -, h5, h6, h7, h8, h9, h10⟩ := C53_partial complete keys
    (fi := ⟨m.fee_ro, m.acc, m.minter⟩) (fee := m.fee) (root := root)
    ⟨placed.depth, shaped.native, shaped.unfrozen, shaped.owned, ⟨placed.root_eq, placed.member⟩, covers⟩ shaped.mintable
    small chg_blind rng
  refine ⟨n, sk, chg, ?_, h9, h10, h8, h5, h6, h7, h3⟩
  unfold buildMintNote
  rw [h1]
  show (do let (note, sk) ← MintNote.generate rng m.mint_ro m.ac_seed m.ac_description info pk; _) = _
  rw [h2]
  rfl

end MintBuilder

/-! ### Freezing -/

namespace FreezeBuilder

/-- What `new` and `updateInputFreezeFlag` make, apart from the witnesses. -/
structure Shaped (f : FreezeBuilder) : Prop where
  native : f.fee_input.ro.asset_def = AssetDefinition.native
  unfrozen : f.fee_input.ro.freeze_flag = .unfrozen
  owned : f.fee_input.ro.pub_key = f.fee_input.owner_keypair.pubKey
  keys : ∀ i ∈ f.inputs, i.ro.asset_def.policy.freezer_pk = smulFr i.keypair.sec_key E.gen ∧
    i.ro.asset_def.policy.freezer_pk ≠ 0
  owners : ∀ i ∈ f.inputs, i.ro.pub_key.address ≠ 0

structure Placed (f : FreezeBuilder) (root : F) : Prop where
  inputs : ∀ i ∈ f.inputs, Proves f.tree_depth.val root i.ro i.acc
  fee : Proves f.tree_depth.val root f.fee_input.ro f.fee_input.acc

/-- `f'` is `f` with other witnesses. -/
structure SameButAccs (f f' : FreezeBuilder) : Prop where
  depth : f'.tree_depth = f.tree_depth
  ros : f'.inputs.map (·.ro) = f.inputs.map (·.ro)
  keypairs : f'.inputs.map (·.keypair) = f.inputs.map (·.keypair)
  fee_ro : f'.fee_input.ro = f.fee_input.ro
  fee_key : f'.fee_input.owner_keypair = f.fee_input.owner_keypair
  fee : f'.fee = f.fee

theorem SameButAccs.len {f f' : FreezeBuilder} (h : SameButAccs f f') : f'.inputs.length = f.inputs.length := by
  have := congrArg List.length h.ros
  simpa using this

theorem SameButAccs.leaves {f f' : FreezeBuilder} (h : SameButAccs f f') : f'.leaves = f.leaves := by
  have := congrArg (List.map RecordOpening.commitment) h.ros
  rw [List.map_map, List.map_map] at this
  unfold FreezeBuilder.leaves
  rw [h.fee_ro]
  exact congrArg (· ++ _) this

theorem SameButAccs.at {f f' : FreezeBuilder} (h : SameButAccs f f') {i : FreezeNoteInput} (hi : i ∈ f'.inputs) :
    ∃ i0 ∈ f.inputs, i.ro = i0.ro ∧ i.keypair = i0.keypair := by
  obtain ⟨j, hj⟩ := List.mem_iff_getElem?.1 hi
  have h1 := congrArg (·[j]?) h.ros
  have h2 := congrArg (·[j]?) h.keypairs
  simp only [List.getElem?_map, hj, Option.map_some] at h1 h2
  obtain ⟨i0, q1, q2⟩ := Option.map_eq_some_iff.1 h1.symm
  rw [q1, Option.map_some, Option.some.injEq] at h2
  exact ⟨i0, List.mem_of_getElem? q1, q2.symm, h2⟩

theorem SameButAccs.shaped {f f' : FreezeBuilder} (h : SameButAccs f f') (s : f.Shaped) : f'.Shaped := by
  refine ⟨by rw [h.fee_ro]; exact s.native, by rw [h.fee_ro]; exact s.unfrozen, by rw [h.fee_ro, h.fee_key]; exact s.owned, ?_, ?_⟩
  · intro i hi
    obtain ⟨i0, h0, h1, h2⟩ := h.at hi
    rw [h1, h2]
    exact s.keys i0 h0
  · intro i hi
    obtain ⟨i0, h0, h1, h2⟩ := h.at hi
    rw [h1]
    exact s.owners i0 h0

theorem update_intro {f : FreezeBuilder} {tree : LedgerState} {offset : ℕ} (fits : tree.leaves.length ≤ 3 ^ f.tree_depth.val)
    (small : tree.leaves.length < 2 ^ 64) (h : ∀ (j : ℕ) c, f.leaves[j]? = some c → tree.leaves[offset + j]? = some c) :
    ∃ f', f.updateAccMemberWitness tree offset = .ok f' ∧ SameButAccs f f' ∧
      f'.Placed (treeRoot f.tree_depth.val tree.leaves) := by
  obtain ⟨accs, h1, h2, h3⟩ := lookupFrom_intro fits small (ros := f.inputs.map (·.ro)) (offset := offset) (fun j ro hj => by
    apply h
    have hlt := (List.getElem?_eq_some_iff.1 hj).1
    rw [List.length_map] at hlt
    unfold leaves
    rw [List.getElem?_append_left (by simpa using hlt), List.getElem?_map]
    rw [List.getElem?_map] at hj
    obtain ⟨i, q1, q2⟩ := Option.map_eq_some_iff.1 hj
    rw [q1, ← q2]; rfl)
  rw [List.length_map] at h1 h2
  obtain ⟨acc, h4, h5⟩ := lookupFromTree_intro fits small (i := offset + f.inputs.length) (ro := f.fee_input.ro)
    (h f.inputs.length _ (by
      unfold leaves
      rw [List.getElem?_append_right (by simp)]
      simp))
  refine ⟨_, bind_ok_iff.2 ⟨accs, h1, bind_ok_iff.2 ⟨acc, h4, rfl⟩⟩, ⟨rfl, ?_, ?_, rfl, rfl, rfl⟩, ⟨?_, h5⟩⟩
  · rw [List.map_map]
    show (f.inputs.zip accs).map ((·.ro) ∘ Prod.fst) = _
    rw [← List.map_map, List.map_fst_zip h2.ge]
  · rw [List.map_map]
    show (f.inputs.zip accs).map ((·.keypair) ∘ Prod.fst) = _
    rw [← List.map_map, List.map_fst_zip h2.ge]
  · intro i hi
    obtain ⟨x, hx, rfl⟩ := List.mem_map.1 hi
    obtain ⟨j, hj⟩ := List.mem_iff_getElem?.1 hx
    rcases x with ⟨i0, a⟩
    rw [List.getElem?_zip_eq_some] at hj
    exact h3 j i0.ro a (by rw [List.getElem?_map, hj.1]; rfl) hj.2

theorem refresh_intro {f : FreezeBuilder} (fits : f.inputs.length + 1 ≤ 3 ^ f.tree_depth.val)
    (small : f.inputs.length + 1 < 2 ^ 64) :
    ∃ f', f.refreshMerkleRoot = .ok f' ∧ SameButAccs f f' ∧ ∃ root, f'.Placed root := by
  have hl : f.leaves.length = f.inputs.length + 1 := by unfold leaves; simp
  obtain ⟨f', h1, h2, h3⟩ := update_intro (f := f) (tree := ⟨f.leaves, [], []⟩) (offset := 0) (by rw [hl]; exact fits)
    (by rw [hl]; exact small) (fun j c hj => by rw [Nat.zero_add]; exact hj)
  exact ⟨f', bind_ok_iff.2 ⟨_, treeOf_intro (by rw [hl]; exact fits) (by rw [hl]; exact small), h1⟩, h2, _, h3⟩

theorem build_freeze [S : CapExt] (complete : SnarkComplete) {f : FreezeBuilder} {pk : FreezeProvingKey}
    {vk : FreezeVerifyingKey} {root : F} (keys : freezePreprocess (f.inputs.length + 1) f.tree_depth = .ok (pk, vk))
    (shaped : f.Shaped) (placed : f.Placed root) (ne : f.inputs ≠ []) (covers : f.fee.val ≤ f.fee_input.ro.amount.val)
    (once : (nullifierOf f.fee_input.toTransferInput :: f.inputs.map freezerNullifierOf).Nodup) (chg_blind : F)
    (rng : FreezeRand) :
    ∃ n sk chg outs, f.buildFreezeNote chg_blind rng pk = .ok (n, sk, chg, outs) ∧ FreezeBuilt f rng vk root n chg outs := by
  obtain ⟨info, chg, n, sk, outs, h1, h2, h3, -, h5, h6, h7, h8⟩ := C54_partial complete keys (root := root)
    (inputs := f.inputs) (fi := f.fee_input) (fee := f.fee)
    ⟨ne, rfl, ⟨placed.fee.depth, shaped.native, shaped.unfrozen, shaped.owned, ⟨placed.fee.root_eq, placed.fee.member⟩, covers⟩,
      fun i hi => .real (shaped.keys i hi).2 (shaped.keys i hi).1 (placed.inputs i hi).depth (placed.inputs i hi).root_eq
        (placed.inputs i hi).member, once⟩ shaped.owners chg_blind rng
  refine ⟨n, sk, chg, outs, ?_, h7, h8, h5, h6, h3⟩
  unfold buildFreezeNote
  rw [h1]
  show (do let (note, sk, outs) ← FreezeNote.generate rng f.inputs info pk; _) = _
  rw [h2]
  rfl

theorem new_intro {draws : ℕ → InputSample} {fee_blind : F} {d : Fin 256} {amounts : List Amount} {fee_in fee : Amount}
    {k : UserKeyPair} {freezers : List Fr} (len : amounts.length = freezers.length) (fits : freezers.length + 1 ≤ 3 ^ d.val)
    (small : freezers.length + 1 < 2 ^ 64) (hk : ∀ s ∈ freezers, smulFr s E.gen ≠ 0)
    (howner : ∀ i, (draws i).owner.pubKey.address ≠ 0) :
    ∃ f, FreezeBuilder.new draws fee_blind d amounts fee_in fee k (freezers.map FreezerKeyPair.generate) = .ok f ∧ f.Shaped ∧
      (∃ root, f.Placed root) ∧ f.tree_depth = d ∧ f.inputs.map (·.ro.amount) = amounts ∧
      f.inputs.map (·.keypair) = freezers.map FreezerKeyPair.generate ∧ (∀ i ∈ f.inputs, i.ro.freeze_flag = .unfrozen) ∧
      f.fee_input.ro = ⟨fee_in, AssetDefinition.native, k.pubKey, .unfrozen, fee_blind⟩ ∧
      f.fee_input.owner_keypair = k ∧ f.fee = fee := by
  let ins := (amounts.zip (freezers.map FreezerKeyPair.generate)).mapIdx (fun i x => inputOf draws i x.1 x.2)
  let fi : FeeInput := ⟨⟨fee_in, AssetDefinition.native, k.pubKey, .unfrozen, fee_blind⟩, ⟨[], 0, 0⟩, k⟩
  let f0 : FreezeBuilder := ⟨d, ins, fi, fee⟩
  have hl : ins.length = freezers.length := by simp [ins, len]
  have s0 : f0.Shaped := by
    refine ⟨rfl, rfl, rfl, ?_, ?_⟩
    · intro i hi
      obtain ⟨j, hj, rfl⟩ := List.mem_mapIdx.1 (show i ∈ ins from hi)
      have hs : (freezers[j]'(by simp at hj; omega)) ∈ freezers := List.getElem_mem _
      have e : ((amounts.zip (freezers.map FreezerKeyPair.generate))[j]).2 =
          FreezerKeyPair.generate (freezers[j]'(by simp at hj; omega)) := by simp
      rw [e]
      exact ⟨rfl, hk _ hs⟩
    · intro i hi
      obtain ⟨j, hj, rfl⟩ := List.mem_mapIdx.1 (show i ∈ ins from hi)
      exact howner j
  obtain ⟨f, h1, h2, h3⟩ := refresh_intro (f := f0) (by rw [show f0.inputs.length = _ from hl]; exact fits)
    (by rw [show f0.inputs.length = _ from hl]; exact small)
  refine ⟨f, bind_ok_iff.2 ⟨(), ensure_ok_iff.2 (by rw [decide_eq_true_eq, List.length_map]; exact len), h1⟩, h2.shaped s0, h3,
    h2.depth, ?_, ?_, ?_, h2.fee_ro, h2.fee_key, h2.fee⟩
  · have := congrArg (List.map (·.amount)) h2.ros
    rw [List.map_map, List.map_map] at this
    refine Eq.trans this ?_
    refine List.ext_getElem (by simp [f0, ins, len]) (fun i _ _ => by simp [f0, ins, inputOf])
  · rw [h2.keypairs]
    refine List.ext_getElem (by simp [f0, ins, len]) (fun i _ _ => by simp [f0, ins, inputOf])
  · intro i hi
    obtain ⟨i0, g0, g1, -⟩ := h2.at hi
    obtain ⟨j, hj, rfl⟩ := List.mem_mapIdx.1 (show i0 ∈ ins from g0)
    rw [g1]; rfl

/-- `f'` is `f` with other witnesses and other flags. -/
structure SameButFlags (f f' : FreezeBuilder) : Prop where
  depth : f'.tree_depth = f.tree_depth
  amounts : f'.inputs.map (·.ro.amount) = f.inputs.map (·.ro.amount)
  keypairs : f'.inputs.map (·.keypair) = f.inputs.map (·.keypair)
  fee_ro : f'.fee_input.ro = f.fee_input.ro
  fee_key : f'.fee_input.owner_keypair = f.fee_input.owner_keypair
  fee : f'.fee = f.fee

theorem modify_map {α β : Type*} {g : α → α} {p : α → β} (h : ∀ x, p (g x) = p x) (l : List α) (i : ℕ) :
    (l.modify i g).map p = l.map p := by
  refine List.ext_getElem? (fun j => ?_)
  rw [List.getElem?_map, List.getElem?_modify, List.getElem?_map]
  cases l[j]? with
  | none => rfl
  | some x =>
    show some (p _) = some (p x)
    split
    · exact congrArg some (h x)
    · rfl

theorem mem_modify {α : Type*} {g : α → α} {l : List α} {i : ℕ} {y : α} (h : y ∈ l.modify i g) :
    ∃ x ∈ l, y = x ∨ y = g x := by
  obtain ⟨j, hj⟩ := List.mem_iff_getElem?.1 h
  rw [List.getElem?_modify] at hj
  cases hx : l[j]? with
  | none => rw [hx] at hj; cases hj
  | some x =>
    rw [hx] at hj
    refine ⟨x, List.mem_of_getElem? hx, ?_⟩
    have := Option.some.inj hj
    split at this
    · exact .inr this.symm
    · exact .inl this.symm

theorem flag_intro {f : FreezeBuilder} {i : ℕ} {flag : FreezeFlag} (s : f.Shaped) (hi : i < f.inputs.length)
    (fits : f.inputs.length + 1 ≤ 3 ^ f.tree_depth.val) (small : f.inputs.length + 1 < 2 ^ 64) :
    ∃ f', f.updateInputFreezeFlag i flag = .ok f' ∧ f'.Shaped ∧ (∃ root, f'.Placed root) ∧ SameButFlags f f' ∧
      f'.inputs.map (·.ro.freeze_flag) = (f.inputs.map (·.ro.freeze_flag)).set i flag := by
  let g : FreezeNoteInput → FreezeNoteInput := fun x => { x with ro := { x.ro with freeze_flag := flag } }
  let f0 : FreezeBuilder := { f with inputs := f.inputs.modify i g }
  have hl : f0.inputs.length = f.inputs.length := List.length_modify _ _ _
  have s0 : f0.Shaped := by
    refine ⟨s.native, s.unfrozen, s.owned, ?_, ?_⟩
    · intro y hy
      obtain ⟨x, hx, rfl | rfl⟩ := mem_modify (show y ∈ f.inputs.modify i g from hy)
      · exact s.keys _ hx
      · exact s.keys x hx
    · intro y hy
      obtain ⟨x, hx, rfl | rfl⟩ := mem_modify (show y ∈ f.inputs.modify i g from hy)
      · exact s.owners _ hx
      · exact s.owners x hx
  obtain ⟨f', h1, h2, h3⟩ := refresh_intro (f := f0) (by rw [hl]; exact fits) (by rw [hl]; exact small)
  refine ⟨f', bind_ok_iff.2 ⟨(), ensure_ok_iff.2 (by rw [decide_eq_true_eq]; exact hi), h1⟩, h2.shaped s0, h3,
    ⟨h2.depth, ?_, ?_, h2.fee_ro, h2.fee_key, h2.fee⟩, ?_⟩
  · have := congrArg (List.map (·.amount)) h2.ros
    rw [List.map_map, List.map_map] at this
    refine Eq.trans this ?_
    exact modify_map (g := g) (fun _ => rfl) _ _
  · rw [h2.keypairs]
    exact modify_map (g := g) (fun _ => rfl) _ _
  · have := congrArg (List.map (·.freeze_flag)) h2.ros
    rw [List.map_map, List.map_map] at this
    refine Eq.trans this ?_
    refine List.ext_getElem? (fun j => ?_)
    show ((f.inputs.modify i g).map _)[j]? = _
    rw [List.getElem?_map, List.getElem?_modify, List.getElem?_set, List.getElem?_map, List.length_map]
    by_cases hij : i = j
    · subst hij
      rw [if_pos rfl, if_pos hi, List.getElem?_eq_getElem hi]
      simp [g]
    · rw [if_neg hij]
      simp only [if_neg hij]
      cases f.inputs[j]? <;> rfl

theorem freezeSome_intro {frozen : ℕ → Bool} : ∀ {l : List ℕ} {f : FreezeBuilder}, f.Shaped → (∃ root, f.Placed root) →
    (∀ i ∈ l, i < f.inputs.length) → f.inputs.length + 1 ≤ 3 ^ f.tree_depth.val → f.inputs.length + 1 < 2 ^ 64 →
    ∃ f', freezeSome frozen f l = .ok f' ∧ f'.Shaped ∧ (∃ root, f'.Placed root) ∧ SameButFlags f f' ∧
      ∀ (j : ℕ) i i', f.inputs[j]? = some i → f'.inputs[j]? = some i' →
        i'.ro.freeze_flag = if j ∈ l ∧ frozen j then .frozen else i.ro.freeze_flag
  | [], f, s, p, _, _, _ => ⟨f, rfl, s, p, ⟨rfl, rfl, rfl, rfl, rfl, rfl⟩, fun j i i' h1 h2 => by
      rw [h1, Option.some.injEq] at h2
      subst h2
      simp⟩
  | k :: l, f, s, p, hl, fits, small => by
    by_cases hf : frozen k
    · obtain ⟨f1, a1, a2, a3, a4, a5⟩ := flag_intro (flag := .frozen) s (hl k List.mem_cons_self) fits small
      have hlen : f1.inputs.length = f.inputs.length := by
        have := congrArg List.length a4.keypairs
        simpa using this
      obtain ⟨f', b1, b2, b3, b4, b5⟩ := freezeSome_intro (frozen := frozen) (l := l) a2 a3
        (fun i hi => by rw [hlen]; exact hl i (List.mem_cons_of_mem _ hi)) (by rw [hlen, a4.depth]; exact fits)
        (by rw [hlen]; exact small)
      refine ⟨f', ?_, b2, b3, ⟨b4.depth.trans a4.depth, b4.amounts.trans a4.amounts, b4.keypairs.trans a4.keypairs,
        b4.fee_ro.trans a4.fee_ro, b4.fee_key.trans a4.fee_key, b4.fee.trans a4.fee⟩, ?_⟩
      · rw [freezeSome, if_pos hf, a1]
        exact b1
      · intro j i i' h1 h2
        have hj := (List.getElem?_eq_some_iff.1 h1).1
        have h3 : f1.inputs[j]? = some (f1.inputs[j]'(by omega)) := List.getElem?_eq_getElem _
        rw [b5 j _ i' h3 h2]
        have h4 := congrArg (·[j]?) a5
        simp only [List.getElem?_map, h3, List.getElem?_set, h1, Option.map_some, List.length_map] at h4
        by_cases hjk : k = j
        · subst hjk
          rw [if_pos rfl, if_pos hj, Option.some.injEq] at h4
          rw [h4, if_pos (⟨List.mem_cons_self, hf⟩ : k ∈ k :: l ∧ frozen k = true)]
          split <;> rfl
        · rw [if_neg hjk, Option.some.injEq] at h4
          rw [h4]
          have : (j ∈ k :: l) ↔ j ∈ l := by
            rw [List.mem_cons]
            exact ⟨fun h => h.resolve_left (fun e => hjk e.symm), .inr⟩
          simp only [this]
    · obtain ⟨f', b1, b2, b3, b4, b5⟩ := freezeSome_intro (frozen := frozen) (l := l) s p
        (fun i hi => hl i (List.mem_cons_of_mem _ hi)) fits small
      refine ⟨f', ?_, b2, b3, b4, ?_⟩
      · rw [freezeSome, if_neg hf]
        exact b1
      · intro j i i' h1 h2
        rw [b5 j i i' h1 h2]
        by_cases hjk : j = k
        · subst hjk
          rw [if_neg (fun h => hf h.2), if_neg (fun h => hf h.2)]
        · have : (j ∈ k :: l) ↔ j ∈ l := by
            rw [List.mem_cons]
            exact ⟨fun h => h.resolve_left hjk, .inr⟩
          simp only [this]

end FreezeBuilder

/-! ### What is drawn -/

namespace TransferBuilder

variable [S : CapExt]

omit E S in
theorem shares_sum {total n : ℕ} (h : n ∣ total) (hn : 0 < n) (small : total < 2 ^ 128) :
    ((shares total n).map Fin.val).sum = total := by
  unfold shares
  rw [List.map_replicate, List.sum_replicate, smul_eq_mul]
  have : (Fin.ofNat (2 ^ 128) (total / n)).val = total / n :=
    Nat.mod_eq_of_lt (lt_of_le_of_lt (Nat.div_le_self _ _) small)
  rw [this, Nat.mul_div_cancel' h]

/-- what `rand` gives for this sample -/
structure FromSample (x : Sample) (d : Fin 256) (t : TransferBuilder) : Prop where
  shaped : t.Shaped x.fee (shares (x.unit * 1 * 2) 1) x.fee_change (shares (x.unit * 1 * 2) 2) x.cred_expiry
  depth : t.tree_depth = d
  asset : x.asset = .ok t.asset

omit S in
theorem rand_intro {x : Sample} (h : TransferInRange x) {d : Fin 256} {users : List UserKeyPair} (hu : users.length = 2)
    (fits : 5 ≤ 3 ^ d.val) (small : 3 ^ d.val < 2 ^ 64) : ∃ t, rand x 2 3 d users = .ok t ∧ FromSample x d t := by
  obtain ⟨a, ha⟩ : ∃ a, x.asset = .ok a := by
    unfold Sample.asset
    split
    · exact ⟨none, rfl⟩
    · have : ∀ policy, AssetDefinition.new (newDomestic x.seed []) policy = .ok ⟨newDomestic x.seed [], policy⟩ := fun policy =>
        if_neg (by rintro (q | q); exacts [h.code.1 q, h.code.2 q])
      unfold NonNativeAsset.generate
      simp only [this]
      exact ⟨_, rfl⟩
  obtain ⟨t, h1, h2, -, h4, h5, -, -⟩ := make_intro (ni := 2) (no := 3) (d := d) (users := users) (asset := a)
    (in_blinds := x.in_blinds) (fee_in := x.fee) (ins := shares (x.unit * 1 * 2) 1)
    (receivers := fun i => (x.receivers i).pubKey) (out_blinds := x.out_blinds) (fee_chg := x.fee_change)
    (outs := shares (x.unit * 1 * 2) 2) (attrs := x.attrs) (expiry := x.cred_expiry) hu (by simp [shares]) (by simp [shares])
    fits small h.attrs
  refine ⟨t, ?_, h2, h5, by rw [ha, h4]⟩
  unfold rand
  simp only [bind_ok_iff, ensure_ok_iff, decide_eq_true_eq]
  exact ⟨(), by decide, (), by decide, a, ha, h1⟩

theorem build_of_none {t : TransferBuilder} (h : t.asset = none) {b : Build} {rng : Draw} {pk : TransferProvingKey}
    {valid_until : U64} {extra : List Byte} : t.buildTransferNote b rng pk valid_until extra = t.buildNative b rng pk := by
  unfold buildTransferNote
  rw [h]

theorem build_of_some {t : TransferBuilder} {a : NonNativeAsset} (h : t.asset = some a) {b : Build} {rng : Draw}
    {pk : TransferProvingKey} {valid_until : U64} {extra : List Byte} :
    t.buildTransferNote b rng pk valid_until extra = t.buildNonNative b rng pk valid_until extra := by
  unfold buildTransferNote
  rw [h]

theorem FromSample.build (complete : SnarkComplete) {x : Sample} (h : TransferInRange x) {d : Fin 256} {t : TransferBuilder}
    (f : FromSample x d t) {pk : TransferProvingKey} {vk : TransferVerifyingKey} (keys : transferPreprocess 2 3 d = .ok (pk, vk))
    {accs : List AccMemberWitness} {root : F} (len : accs.length = t.input_ros.length)
    (placed : Placed { t with accs, root }) (once : (({ t with accs, root } : TransferBuilder).inputs.map nullifierOf).Nodup)
    (can : CanReceive t.output_ros) (b : Build) (rng : Draw) (extra : List Byte) :
    ∃ n memos sig, ({ t with accs, root } : TransferBuilder).buildTransferNote b rng pk 1000 extra = .ok (n, memos, sig) ∧
      TransferBuilt { t with accs, root } (x.fee.val - x.fee_change.val) rng vk 1000 n memos sig := by
  have hs := f.shaped.place (accs := accs) (root := root) len
  have hu := h.unit
  have s1 : ((shares (x.unit * 1 * 2) 1).map Fin.val).sum = x.unit * 1 * 2 := shares_sum (Nat.one_dvd _) (by decide) (by omega)
  have s2 : ((shares (x.unit * 1 * 2) 2).map Fin.val).sum = x.unit * 1 * 2 := shares_sum (Nat.dvd_mul_left _ _) (by decide) (by omega)
  have hni : t.num_input = 2 := by rw [f.shaped.ni]; simp [shares]
  have hno : t.num_output = 3 := by rw [f.shaped.no]; simp [shares]
  have keys' : transferPreprocess t.num_input t.num_output t.tree_depth = .ok (pk, vk) := by rw [hni, hno, f.depth]; exact keys
  have small : x.fee.val + ((shares (x.unit * 1 * 2) 1).map Fin.val).sum < 2 ^ 127 := by
    rw [s1]
    have := h.fee
    omega
  rcases hopt : t.asset.isSome with _ | _
  · have ha : t.asset = none := by simpa using hopt
    rw [build_of_none (t := { t with accs, root }) ha]
    obtain ⟨n, memos, sig, h1, h2⟩ := build_native complete (t := { t with accs, root }) keys' hs placed ha once can
      (by simp [shares]) h.fee_change.2 (by rw [s1, s2]) small b rng
    refine ⟨n, memos, sig, h1, h2.pays, h2.nullifiers, h2.outputs, fun now hn => ?_, h2.memos_len, h2.memos_of,
      h2.signed⟩
    exact h2.valid now (hn.trans (by decide))
  · obtain ⟨a, ha⟩ := Option.isSome_iff_exists.1 hopt
    rw [build_of_some (t := { t with accs, root }) ha]
    have hx := f.asset
    rw [ha] at hx
    unfold Sample.asset at hx
    split at hx
    · cases hx
    · rw [bind_ok_iff] at hx
      obtain ⟨a', made, e⟩ := hx
      cases e
      have he := h.expiry
      obtain ⟨n, memos, sig, h1, h2⟩ := build_asset complete (t := { t with accs, root }) keys' hs placed ha made h.viewer once can
        (by simp [shares]) (by simp [shares]) h.fee_change.2 (by rw [s1, s2]) small (valid_until := 1000) (by decide)
        (show (1000 : ℕ) ≤ x.cred_expiry.val by omega) (show x.cred_expiry.val < 1000 + 2 ^ 20 by omega) b rng extra
      exact ⟨n, memos, sig, h1, h2⟩

end TransferBuilder

namespace FreezeBuilder

variable [S : CapExt]

/-- what `rand` gives for this sample -/
structure FromSample (x : Sample) (d : Fin 256) (f : FreezeBuilder) : Prop where
  shaped : f.Shaped
  depth : f.tree_depth = d
  len : f.inputs.length = 2
  fee_ro : f.fee_input.ro.amount = x.fee_input_amount
  fee : f.fee = x.fee

omit S in
theorem rand_intro {x : Sample} (h : FreezeInRange x) {d : Fin 256} (fits : 3 ≤ 3 ^ d.val) :
    ∃ f, rand x d = .ok f ∧ FromSample x d f := by
  obtain ⟨f, h1, h2, h3, h4, h5, h6, h7, h8, h9, h10⟩ := new_intro (draws := x.inputs) (fee_blind := x.fee_blind) (d := d)
    (amounts := (List.range x.freezers.length).map x.amounts) (fee_in := x.fee_input_amount) (fee := x.fee)
    (k := x.fee_keypair) (freezers := x.freezers) (by simp) (by rw [h.freezers]; exact fits) (by rw [h.freezers]; decide)
    h.keys h.owners
  have hlen : f.inputs.length = 2 := by
    have := congrArg List.length h6
    simpa [h.freezers] using this
  obtain ⟨f', g1, g2, g3, g4, g5⟩ := freezeSome_intro (frozen := x.frozen) (l := List.range x.freezers.length) h2 h3
    (fun i hi => by rw [hlen, ← h.freezers]; exact List.mem_range.1 hi) (by rw [hlen, h4]; exact fits) (by rw [hlen]; decide)
  refine ⟨f', ?_, g2, g4.depth.trans h4, ?_, by rw [g4.fee_ro, h8], g4.fee.trans h10⟩
  · unfold rand
    simp only [bind_ok_iff, ensure_ok_iff, decide_eq_true_eq]
    exact ⟨(), by rw [h.freezers]; decide, f, h1, g1⟩
  · have := congrArg List.length g4.keypairs
    simpa [hlen] using this

end FreezeBuilder

namespace MintBuilder

variable [S : CapExt]

/-- what `rand` gives for this sample -/
structure FromSample (x : Sample) (d : Fin 256) (m : MintBuilder) : Prop where
  shaped : m.Shaped
  depth : m.tree_depth = d
  fee : m.fee = x.fee
  fee_ro : m.fee_ro.amount = x.input_amount
  amount : m.mint_ro.amount = x.mint_amount

omit S in
theorem rand_intro {x : Sample} (h : MintInRange x) {d : Fin 256} : ∃ m, rand x d = .ok m ∧ FromSample x d m := by
  obtain ⟨m, root, h1, h2, -, h4, h5, h6, -, h8⟩ := new_intro (seed := x.seed) (fee_blind := x.fee_blind)
    (mint_blind := x.mint_blind) (d := d) (input_amount := x.input_amount) (fee := x.fee) (mint_amount := x.mint_amount)
    (minter := x.minter) (receiver := x.receiver) (viewer := x.viewer) h.code.1 h.code.2
  exact ⟨m, h1, h2, h4, h5, by rw [h6], by rw [h8]⟩

end MintBuilder

/-! ### The common tree -/

namespace TxnsParams

variable [S : CapExt]

omit S in
theorem placeTransfers_intro {tree : LedgerState} {d : Fin 256} (fits : tree.leaves.length ≤ 3 ^ d.val)
    (small : tree.leaves.length < 2 ^ 64) : ∀ {ts : List TransferBuilder} {offset : ℕ},
    (∀ t ∈ ts, t.tree_depth = d ∧ t.accs.length = t.input_ros.length) →
    (∀ (j : ℕ) c, (ts.flatMap (fun t => t.input_ros.map RecordOpening.commitment))[j]? = some c →
      tree.leaves[offset + j]? = some c) →
    ∃ ts', placeTransfers tree offset ts =
        .ok (ts', offset + (ts.flatMap (fun t => t.input_ros.map RecordOpening.commitment)).length) ∧
      List.Forall₂ (fun t t' => ∃ accs, t' = { t with accs, root := treeRoot d.val tree.leaves } ∧
        accs.length = t.input_ros.length ∧ t'.Placed) ts ts'
  | [], offset, _, _ => ⟨[], rfl, .nil⟩
  | t :: ts, offset, h, hl => by
    obtain ⟨hd, hlen⟩ := h t List.mem_cons_self
    obtain ⟨accs, h1, h2, h3⟩ := TransferBuilder.update_intro (t := t) (tree := tree) (offset := offset) hlen
      (by rw [hd]; exact fits) small (fun j ro hj => hl j _ (by
        rw [List.flatMap_cons, List.getElem?_append_left (by
          rw [List.length_map]; exact (List.getElem?_eq_some_iff.1 hj).1), List.getElem?_map, hj]
        rfl))
    have hr : treeRoot t.tree_depth.val tree.leaves = treeRoot d.val tree.leaves := by rw [hd]
    rw [hr] at h1 h3
    obtain ⟨ts', g1, g2⟩ := placeTransfers_intro fits small (ts := ts) (offset := offset + t.input_ros.length)
      (fun t' ht' => h t' (List.mem_cons_of_mem _ ht')) (fun j c hj => by
        rw [Nat.add_assoc]
        apply hl
        rw [List.flatMap_cons, List.getElem?_append_right (by simp)]
        simpa using hj)
    refine ⟨_ :: ts', ?_, .cons ⟨accs, rfl, h2, h3⟩ g2⟩
    rw [placeTransfers, h1]
    show (do let (ts, last) ← placeTransfers tree (offset + t.input_ros.length) ts; _) = _
    rw [g1]
    show Except.ok (_, _) = _
    rw [List.flatMap_cons, List.length_append, List.length_map, Nat.add_assoc]

omit S in
theorem placeMints_intro {tree : LedgerState} {d : Fin 256} (fits : tree.leaves.length ≤ 3 ^ d.val)
    (small : tree.leaves.length < 2 ^ 64) : ∀ {ms : List MintBuilder} {offset : ℕ}, (∀ m ∈ ms, m.tree_depth = d) →
    (∀ (j : ℕ) c, (ms.map (fun m => m.fee_ro.commitment))[j]? = some c → tree.leaves[offset + j]? = some c) →
    ∃ ms', placeMints tree offset ms = .ok (ms', offset + (ms.map (fun m => m.fee_ro.commitment)).length) ∧
      List.Forall₂ (fun m m' => ∃ acc, m' = { m with acc } ∧
        Proves d.val (treeRoot d.val tree.leaves) m.fee_ro acc) ms ms'
  | [], offset, _, _ => ⟨[], rfl, .nil⟩
  | m :: ms, offset, h, hl => by
    have hd := h m List.mem_cons_self
    obtain ⟨acc, h1, h2⟩ := MintBuilder.update_intro (m := m) (tree := tree) (uid := offset) (by rw [hd]; exact fits) small
      (hl 0 _ rfl)
    rw [hd] at h2
    obtain ⟨ms', g1, g2⟩ := placeMints_intro fits small (ms := ms) (offset := offset + 1)
      (fun m' hm' => h m' (List.mem_cons_of_mem _ hm')) (fun j c hj => by
        rw [Nat.add_assoc, Nat.add_comm 1 j]
        exact hl (j + 1) c (by simpa using hj))
    refine ⟨_ :: ms', ?_, .cons ⟨acc, rfl, h2⟩ g2⟩
    rw [placeMints, h1]
    show (do let (ms, last) ← placeMints tree (offset + 1) ms; _) = _
    rw [g1]
    show Except.ok (_, _) = _
    rw [List.map_cons, List.length_cons, Nat.add_assoc, Nat.add_comm 1]

omit S in
theorem placeFreezes_intro {tree : LedgerState} {d : Fin 256} (fits : tree.leaves.length ≤ 3 ^ d.val)
    (small : tree.leaves.length < 2 ^ 64) : ∀ {fs : List FreezeBuilder} {offset : ℕ}, (∀ f ∈ fs, f.tree_depth = d) →
    (∀ (j : ℕ) c, (fs.flatMap FreezeBuilder.leaves)[j]? = some c → tree.leaves[offset + j]? = some c) →
    ∃ fs', placeFreezes tree offset fs = .ok (fs', offset + (fs.flatMap FreezeBuilder.leaves).length) ∧
      List.Forall₂ (fun f f' => FreezeBuilder.SameButAccs f f' ∧ f'.Placed (treeRoot d.val tree.leaves)) fs fs'
  | [], offset, _, _ => ⟨[], rfl, .nil⟩
  | f :: fs, offset, h, hl => by
    have hd := h f List.mem_cons_self
    have hlen : f.leaves.length = f.inputs.length + 1 := by unfold FreezeBuilder.leaves; simp
    obtain ⟨f', h1, h2, h3⟩ := FreezeBuilder.update_intro (f := f) (tree := tree) (offset := offset) (by rw [hd]; exact fits)
      small (fun j c hj => hl j c (by
        rw [List.flatMap_cons, List.getElem?_append_left (List.getElem?_eq_some_iff.1 hj).1]
        exact hj))
    rw [hd] at h3
    obtain ⟨fs', g1, g2⟩ := placeFreezes_intro fits small (fs := fs) (offset := offset + f'.inputs.length + 1)
      (fun m' hm' => h m' (List.mem_cons_of_mem _ hm')) (fun j c hj => by
        rw [h2.len, Nat.add_assoc offset, Nat.add_assoc offset]
        apply hl
        rw [List.flatMap_cons, List.getElem?_append_right (by omega)]
        simpa [hlen] using hj)
    refine ⟨f' :: fs', ?_, .cons ⟨h2, h3⟩ g2⟩
    rw [placeFreezes, h1]
    show (do let (fs, last) ← placeFreezes tree (offset + f'.inputs.length + 1) fs; _) = _
    rw [g1]
    show Except.ok (_, _) = _
    rw [List.flatMap_cons, List.length_append, hlen, h2.len]
    congr 2
    omega

omit E S in
theorem forall₂_right {α β : Type*} {R : α → β → Prop} : ∀ {xs : List α} {ys : List β}, List.Forall₂ R xs ys →
    ∀ y ∈ ys, ∃ x ∈ xs, R x y
  | [], _, .nil => fun y h => by simp at h
  | x :: xs, y :: ys, .cons h1 h2 => fun z hz => by
    rcases List.mem_cons.1 hz with rfl | hz
    · exact ⟨x, List.mem_cons_self, h1⟩
    · obtain ⟨w, h3, h4⟩ := forall₂_right h2 z hz
      exact ⟨w, List.mem_cons_of_mem _ h3, h4⟩

omit E S in
theorem flatMap_length {α β : Type*} {g : α → List β} {k : ℕ} : ∀ {l : List α}, (∀ a ∈ l, (g a).length = k) →
    (l.flatMap g).length = k * l.length
  | [], _ => rfl
  | a :: l, h => by
    rw [List.flatMap_cons, List.length_append, h a List.mem_cons_self, flatMap_length (fun a ha => h a (List.mem_cons_of_mem _ ha)),
      List.length_cons]
    ring

omit E S in
theorem zip_of_forall₂ {α β γ : Type*} {R : α → β → Prop} {Q : β → γ → Prop} : ∀ {xs : List α} {ys : List β} {zs : List γ},
    List.Forall₂ R xs ys → List.Forall₂ Q ys zs → ∀ p ∈ zs.zip xs, p.2 ∈ xs ∧ ∃ y ∈ ys, R p.2 y ∧ Q y p.1
  | [], _, _, .nil, .nil => fun p h => by simp at h
  | x :: xs, y :: ys, z :: zs, .cons h1 h2, .cons h3 h4 => fun p h => by
    rw [List.zip_cons_cons] at h
    rcases List.mem_cons.1 h with rfl | h
    · exact ⟨List.mem_cons_self, y, List.mem_cons_self, h1, h3⟩
    · obtain ⟨g1, y', g2, g3⟩ := zip_of_forall₂ h2 h4 p h
      exact ⟨List.mem_cons_of_mem _ g1, y', List.mem_cons_of_mem _ g2, g3⟩

omit E S in
theorem mapM_intro {α β γ : Type} {f : α → Res β} {g : γ → β} {P : α → γ → Prop} : ∀ {l : List α},
    (∀ a ∈ l, ∃ n, f a = .ok (g n) ∧ P a n) → ∃ ns, l.mapM f = .ok (ns.map g) ∧ List.Forall₂ P l ns
  | [], _ => ⟨[], rfl, .nil⟩
  | a :: l, h => by
    obtain ⟨n, h1, h2⟩ := h a List.mem_cons_self
    obtain ⟨ns, h3, h4⟩ := mapM_intro (l := l) (fun a ha => h a (List.mem_cons_of_mem _ ha))
    exact ⟨n :: ns, mapM_cons_ok_iff.2 ⟨_, _, h1, h3, rfl⟩, .cons h2 h4⟩

/-- What `prepare` prepares. -/
structure Ready (x : Samples) (d : Fin 256) (p : Prepared) : Prop where
  transfers_len : p.transfers.length = x.transfers.length
  mints_len : p.mints.length = x.mints.length
  freezes_len : p.freezes.length = x.freezes.length
  transfers : ∀ y ∈ p.transfers, y.2 ∈ x.transfers ∧ ∃ t accs, TransferBuilder.FromSample y.2 d t ∧
    accs.length = t.input_ros.length ∧ y.1 = { t with accs, root := p.root } ∧ y.1.Placed
  mints : ∀ y ∈ p.mints, y.2 ∈ x.mints ∧ ∃ m acc, MintBuilder.FromSample y.2 d m ∧ y.1 = { m with acc } ∧
    Proves d.val p.root m.fee_ro acc
  freezes : ∀ y ∈ p.freezes, y.2 ∈ x.freezes ∧ ∃ f, FreezeBuilder.FromSample y.2 d f ∧ FreezeBuilder.SameButAccs f y.1 ∧
    y.1.Placed p.root

omit S in
theorem prepare_intro {x : Samples} {d : Fin 256} (users : x.users.length = 2) (ht : ∀ s ∈ x.transfers, TransferInRange s)
    (hm : ∀ s ∈ x.mints, MintInRange s) (hf : ∀ s ∈ x.freezes, FreezeInRange s) (five : 5 ≤ 3 ^ d.val)
    (fits : 2 * x.transfers.length + x.mints.length + 3 * x.freezes.length ≤ 3 ^ d.val) (small : 3 ^ d.val < 2 ^ 64) :
    ∃ p, prepare x d = .ok p ∧ Ready x d p := by
  obtain ⟨ts, t1, t2⟩ := mapM_intro (l := x.transfers) (g := id) (P := fun s t => TransferBuilder.FromSample s d t)
    (f := fun s => TransferBuilder.rand s 2 3 d x.users) (fun s hs => TransferBuilder.rand_intro (ht s hs) users five small)
  obtain ⟨ms, m1, m2⟩ := mapM_intro (l := x.mints) (g := id) (P := fun s t => MintBuilder.FromSample s d t)
    (f := fun s => MintBuilder.rand s d) (fun s hs => MintBuilder.rand_intro (hm s hs))
  obtain ⟨fs, f1, f2⟩ := mapM_intro (l := x.freezes) (g := id) (P := fun s t => FreezeBuilder.FromSample s d t)
    (f := fun s => FreezeBuilder.rand s d) (fun s hs => FreezeBuilder.rand_intro (hf s hs) (by omega))
  rw [List.map_id] at t1 m1 f1
  have t_len : ts.length = x.transfers.length := t2.length_eq.symm
  have m_len : ms.length = x.mints.length := m2.length_eq.symm
  have f_len : fs.length = x.freezes.length := f2.length_eq.symm
  have t_ros : ∀ t ∈ ts, t.input_ros.length = 2 ∧ t.tree_depth = d ∧ t.accs.length = t.input_ros.length := by
    intro t h
    obtain ⟨s, -, hs⟩ := forall₂_right t2 t h
    have e : t.input_ros.length = 2 := by rw [hs.shaped.ros_len, hs.shaped.ni]; simp [TransferBuilder.shares]
    exact ⟨e, hs.depth, by rw [hs.shaped.accs_len, hs.shaped.ros_len]⟩
  have f_ros : ∀ f ∈ fs, f.leaves.length = 3 ∧ f.tree_depth = d := by
    intro f h
    obtain ⟨s, -, hs⟩ := forall₂_right f2 f h
    refine ⟨?_, hs.depth⟩
    unfold FreezeBuilder.leaves
    simp [hs.len]
  let lt := ts.flatMap (fun t => t.input_ros.map RecordOpening.commitment)
  let lm := ms.map (fun m => m.fee_ro.commitment)
  let lf := fs.flatMap FreezeBuilder.leaves
  have lt_len : lt.length = 2 * x.transfers.length := by
    rw [← t_len]
    exact flatMap_length (fun t h => by rw [List.length_map]; exact (t_ros t h).1)
  have lm_len : lm.length = x.mints.length := by rw [← m_len]; exact List.length_map _
  have lf_len : lf.length = 3 * x.freezes.length := by
    rw [← f_len]
    exact flatMap_length (fun t h => (f_ros t h).1)
  have hl : (lt ++ lm ++ lf).length ≤ 3 ^ d.val := by
    rw [List.length_append, List.length_append, lt_len, lm_len, lf_len]
    exact fits
  have hs : (lt ++ lm ++ lf).length < 2 ^ 64 := lt_of_le_of_lt hl small
  obtain ⟨ts', a1, a2⟩ := placeTransfers_intro (tree := ⟨lt ++ lm ++ lf, [], []⟩) (d := d) hl hs (ts := ts) (offset := 0)
    (fun t h => (t_ros t h).2) (fun j c hj => by
      rw [Nat.zero_add]
      show (lt ++ lm ++ lf)[j]? = _
      have := (List.getElem?_eq_some_iff.1 (show lt[j]? = some c from hj)).1
      rw [List.append_assoc, List.getElem?_append_left this]
      exact hj)
  obtain ⟨ms', b1, b2⟩ := placeMints_intro (tree := ⟨lt ++ lm ++ lf, [], []⟩) (d := d) hl hs (ms := ms) (offset := 0 + lt.length)
    (fun m h => by obtain ⟨s, -, hs⟩ := forall₂_right m2 m h; exact hs.depth) (fun j c hj => by
      show (lt ++ lm ++ lf)[_]? = _
      have := (List.getElem?_eq_some_iff.1 (show lm[j]? = some c from hj)).1
      rw [List.getElem?_append_left (by rw [List.length_append]; omega), List.getElem?_append_right (by omega)]
      rw [show 0 + lt.length + j - lt.length = j by omega]
      exact hj)
  obtain ⟨fs', c1, c2⟩ := placeFreezes_intro (tree := ⟨lt ++ lm ++ lf, [], []⟩) (d := d) hl hs (fs := fs)
    (offset := 0 + lt.length + lm.length)
    (fun m h => (f_ros m h).2) (fun j c hj => by
      show (lt ++ lm ++ lf)[_]? = _
      rw [List.getElem?_append_right (by rw [List.length_append]; omega), List.length_append]
      rw [show 0 + lt.length + lm.length + j - (lt.length + lm.length) = j by omega]
      exact hj)
  refine ⟨⟨ts'.zip x.transfers, ms'.zip x.mints, fs'.zip x.freezes, treeRoot d.val (lt ++ lm ++ lf)⟩, ?_, ?_, ?_, ?_, ?_, ?_, ?_⟩
  · unfold prepare
    simp only [bind_ok_iff]
    exact ⟨ts, t1, ms, m1, fs, f1, ⟨lt ++ lm ++ lf, [], []⟩, treeOf_intro hl hs, _, a1, _, b1, _, c1, rfl⟩
  · rw [List.length_zip, ← a2.length_eq, t_len, Nat.min_self]
  · rw [List.length_zip, ← b2.length_eq, m_len, Nat.min_self]
  · rw [List.length_zip, ← c2.length_eq, f_len, Nat.min_self]
  · intro y hy
    obtain ⟨h1, t, -, h2, accs, h3, h4, h5⟩ := zip_of_forall₂ t2 a2 y hy
    exact ⟨h1, t, accs, h2, h4, h3, h5⟩
  · intro y hy
    obtain ⟨h1, m, -, h2, acc, h3, h4⟩ := zip_of_forall₂ m2 b2 y hy
    exact ⟨h1, m, acc, h2, h3, h4⟩
  · intro y hy
    obtain ⟨h1, f, -, h2, h3, h4⟩ := zip_of_forall₂ f2 c2 y hy
    exact ⟨h1, f, h2, h3, h4⟩

end TxnsParams

end Cap
