/-
Histories of notes made by the library are histories of satisfying assignments, and pass the missing checks.
-/
import Verif.Lemmas.AnyoneHistory

namespace Cap.Spec

open Cap

variable [E : CapEnv] [S : CapExt]

/-- the assignment behind a made transaction -/
structure OpensTxn (d : ℕ) (t : Txn) (o : Opening) : Prop where
  note : o.note = t.note
  satisfied : o.Satisfied d
  creates : o.creates = t.creates.map RecordOpening.toV
  spends : o.spends.map (fun s => (s.ro, s.acc)) = t.spends.map (fun x => (x.1.toV, x.2.toV))
  same_code : o.SameCode
  change_fits : o.ChangeFits
  canonical : ∀ s ∈ o.spends, s.sk.val < E.r

omit S in
theorem frToFq_lt (s : Fr) : (frToFq s).val < E.r := by
  rw [frToFq_val]
  exact ZMod.val_lt s

omit S in
theorem freezeInputsV_maps : ∀ (inputs : List FreezeNoteInput) (outs : List RecordOpening), outs.length = inputs.length →
    (freezeInputsV (inputs.map (·.ro)) (inputs.map (·.acc)) (inputs.map (·.keypair)) outs).map
        (fun i => (i.ro, i.acc, i.sk)) = inputs.map (fun i => (i.ro.toV, i.acc.toV, frToFq i.keypair.sec_key)) ∧
      (freezeInputsV (inputs.map (·.ro)) (inputs.map (·.acc)) (inputs.map (·.keypair)) outs).map (·.out) =
        outs.map RecordOpening.toV
  | [], [], _ => ⟨rfl, rfl⟩
  | [], _ :: _, h => by simp at h
  | _ :: _, [], h => by simp at h
  | i :: is, o :: os, h => by
    obtain ⟨h1, h2⟩ := freezeInputsV_maps is os (by simpa using h)
    simp only [List.map_cons, freezeInputsV, h1, h2, and_self]

omit S in
theorem secrets_maps {inputs : List TransferNoteInput} {l : List InputSecret}
    (h4 : List.Forall₂ (fun x y => inputSecretOf x = .ok y) inputs l) :
    l.map ((fun i : InputV => (i.ro, i.acc, i.addr_secret)) ∘ InputSecret.toV) =
      inputs.map (fun i => (i.ro.toV, i.acc.toV, frToFq i.owner_keypair.sk)) := by
  induction h4 with
  | nil => rfl
  | cons hx _ ih =>
    obtain ⟨q1, q2, q3, -⟩ := inputSecretOf_ok.1 hx
    rw [List.map_cons, List.map_cons, ih]
    simp only [Function.comp_apply, InputSecret.toV, q1, q2, q3]

theorem transfer_opens {a c : ℕ} {d : Fin 256} {pk : TransferProvingKey} {vk : TransferVerifyingKey} {b : Build}
    {rng : TransferRand} {inputs : List TransferNoteInput} {outputs : List RecordOpening} {valid_until : U64}
    {extra : List Byte} {n : TransferNote} {sk : Fr} (keys : transferPreprocess a c d = .ok (pk, vk)) {w : TransferWitness}
    {pub : TransferPublicInput} (h : TransferGen b rng inputs outputs pk valid_until extra n sk w pub) :
    OpensTxn d.val ⟨.transfer n, inputs.map (fun i => (i.ro, i.acc)), outputs⟩ (.transfer n w.toV) := by
  obtain ⟨h1, h2, h3, h4⟩ := newUnchecked_ok.1 h.witness
  have hsh := h.shape h.sat
  have hd := (transferPreprocess_ok keys).2.2.2
  have hn : n.inputs_nullifiers.length = pk.n_inputs := by
    have := hsh.nullifiers_len
    rwa [← h.pub_note] at this
  have hc : n.output_commitments.length = pk.n_outputs := by
    have := hsh.commitments_len
    rwa [← h.pub_note] at this
  have hmap : w.toV.inputs.map (fun i => (i.ro, i.acc, i.addr_secret)) =
      inputs.map (fun i => (i.ro.toV, i.acc.toV, frToFq i.owner_keypair.sk)) := by
    simp only [TransferWitness.toV, List.map_map]
    exact secrets_maps h4
  refine ⟨rfl, ?_, ?_, ?_, ?_, trivial, ?_⟩
  · show OpensTransfer _ _ _ _ _
    rw [hn, hc, ← hd]
    refine ⟨?_, ?_⟩
    · rw [h.pub_note]; exact hsh
    · rw [h.pub_note]; exact h.sat
  · show w.toV.outputs = _
    simp only [TransferWitness.toV, h2]
  · show (w.toV.inputs.map _).map _ = (inputs.map _).map _
    have := congrArg (List.map (fun x : RecordV × AccV × F => (x.1, x.2.1))) hmap
    simp only [List.map_map] at this ⊢
    exact this
  · intro i hi hdm
    obtain ⟨ad, ha⟩ := transferCheckAssetDef_ok.1 h.asset
    have hw : w.toV.asset_code = ad.code := by
      show w.asset_def.code = ad.code
      rw [h1, witnessAssetDef_eq ha.toAssetsAgree]
    have hro : w.toV.inputs.tail.map (·.ro) = (inputs.map (·.ro)).tail.map RecordOpening.toV := by
      have := congrArg (fun l : List (RecordV × AccV × F) => (l.map (·.1)).tail) hmap
      simp only [List.map_map] at this
      rw [← List.map_tail, ← List.map_tail] at this
      rw [← List.map_tail, List.map_map]
      exact this
    have hmem : i.ro ∈ w.toV.inputs.tail.map (·.ro) := List.mem_map_of_mem hi
    rw [hro] at hmem
    obtain ⟨r, hr, hri⟩ := List.mem_map.1 hmem
    rw [hw, ← hri]
    rcases ha.ins r hr with e | e
    · exact absurd (by rw [← hri]; show r.asset_def.code = _; rw [e]; rfl) hdm
    · show r.asset_def.code = _
      rw [e]
  · intro s hs
    obtain ⟨i, hi, rfl⟩ := List.mem_map.1 hs
    have hmem := List.mem_map_of_mem (f := fun i : InputV => (i.ro, i.acc, i.addr_secret)) hi
    rw [hmap] at hmem
    obtain ⟨j, -, hj⟩ := List.mem_map.1 hmem
    have : frToFq j.owner_keypair.sk = i.addr_secret := congrArg (fun x : RecordV × AccV × F => x.2.2) hj
    show i.addr_secret.val < E.r
    rw [← this]
    exact frToFq_lt _

theorem Made.opens {d : Fin 256} {t : Txn} (h : Made d t)
    (mints : ∀ n, t.note = .mint n → n.mint_amount.val < 2 ^ 127) : ∃ o, OpensTxn d.val t o := by
  cases h with
  | transfer keys gen =>
    rename_i a c pk vk b rng inputs outputs valid_until extra n sk
    obtain ⟨w, pub, h⟩ := TransferNote.generate_ok.1 gen
    exact ⟨_, transfer_opens keys h⟩
  | mint keys gen =>
    rename_i pk vk rng mint_ro ac_seed desc n sk fee
    have hd := (mintPreprocess_ok keys).2
    have hm := mints n rfl
    rw [(C18_fields gen).1] at hm
    have ho := mint_generated gen hm
    rw [hd] at ho
    refine ⟨.mint n _, rfl, ho, rfl, rfl, trivial, ?_, ?_⟩
    · show (Amount.toF fee.fee_chg_ro.amount).val < _
      rw [Amount.toF_val]
      exact Fin.isLt _
    · intro s hs
      obtain rfl := List.mem_singleton.1 hs
      exact frToFq_lt _
  | freeze keys gen hf hp =>
    rename_i num pk vk rng n sk outs inputs fee
    obtain ⟨-, hk, hd⟩ := freezePreprocess_ok keys
    have h := FreezeNote.generate_ok.1 gen
    have ho := freeze_generated gen (by rw [hd]; exact hf) (by rw [hd]; exact hp)
    have hlen : (freezeGetOutputRos rng.blinds inputs).length = inputs.length := by simp [freezeGetOutputRos_length]
    obtain ⟨m1, m2⟩ := freezeInputsV_maps inputs _ hlen
    have hn : n.input_nullifiers.length = pk.num_input := by
      have := h.pub
      have := congrArg (fun p => p.input_nullifiers.length) h.pub
      simp only [FreezeNote.pub, freezePubOf] at this
      rw [this, h.checks.num]
      simp
    rw [hd] at ho
    refine ⟨.freeze n (freezeWitV rng.blinds inputs fee), rfl, ?_, ?_, ?_, trivial, ?_, ?_⟩
    · show OpensFreeze _ _ _ _
      rw [hn]; exact ho
    · show fee.fee_chg_ro.toV :: (freezeInputsV _ _ _ _).map (·.out) = _
      rw [m2, h.outs_eq]
      rfl
    · show (FreezeWit.spends _).map _ = _
      have := congrArg (List.map (fun x : RecordV × AccV × F => (x.1, x.2.1))) m1
      simp only [FreezeWit.spends, freezeWitV, List.map_cons, List.map_map] at this ⊢
      exact congrArg _ this
    · show (Amount.toF fee.fee_chg_ro.amount).val < _
      rw [Amount.toF_val]
      exact Fin.isLt _
    · intro s hs
      rcases List.mem_cons.1 hs with rfl | hs
      · exact frToFq_lt _
      · obtain ⟨i, hi, rfl⟩ := List.mem_map.1 hs
        have hmem := List.mem_map_of_mem (f := fun i : FreezeInputV => (i.ro, i.acc, i.sk)) hi
        have hmem' : (i.ro, i.acc, i.sk) ∈ inputs.map (fun i => (i.ro.toV, i.acc.toV, frToFq i.keypair.sec_key)) := by
          rw [← m1]; exact hmem
        obtain ⟨j, -, hj⟩ := List.mem_map.1 hmem'
        have : frToFq j.keypair.sec_key = i.sk := congrArg (fun x : RecordV × AccV × F => x.2.2) hj
        show i.sk.val < E.r
        rw [← this]
        exact frToFq_lt _

theorem OpensTxn.real {d : ℕ} {t : Txn} {o : Opening} (h : OpensTxn d t o) :
    o.realSpends.map (fun s => (s.ro, s.acc)) = t.realSpends.map (fun x => (x.1.toV, x.2.toV)) := by
  have e1 : o.realSpends.map (fun s => (s.ro, s.acc)) =
      (o.spends.map (fun s => (s.ro, s.acc))).filter (fun x => x.1.asset_code ≠ dummyCode) := by
    rw [List.filter_map]; rfl
  have e2 : t.realSpends.map (fun x => (x.1.toV, x.2.toV)) =
      (t.spends.map (fun x => (x.1.toV, x.2.toV))).filter (fun x => x.1.asset_code ≠ dummyCode) := by
    rw [List.filter_map]; rfl
  rw [e1, e2, h.spends]

/-- the step of an event -/
structure OpensEvent (d : ℕ) (e : Event) (e' : Step) : Prop where
  same : SameNotes e e'
  satisfied : ∀ o ∈ e'.txns, o.Satisfied d
  creates : e'.creates = e.creates.map RecordOpening.toV
  spends : (e'.txns.flatMap Opening.realSpends).map (fun s => (s.ro, s.acc)) =
    (e.txns.flatMap Txn.realSpends).map (fun x => (x.1.toV, x.2.toV))
  checked : ∀ o ∈ e'.txns, o.SameCode ∧ o.ChangeFits ∧ ∀ s ∈ o.realSpends, s.sk.val < E.r

theorem opens_event {d : Fin 256} {e : Event} (made : ∀ t ∈ e.txns, Made d t)
    (mints : ∀ t ∈ e.txns, ∀ n, t.note = .mint n → n.mint_amount.val < 2 ^ 127) : ∃ e', OpensEvent d.val e e' := by
  cases e with
  | grant ro => exact ⟨.grant ro, rfl, by simp [Step.txns], rfl, rfl, by simp [Step.txns]⟩
  | block ts blind who time =>
    have : ∃ os, List.Forall₂ (OpensTxn d.val) ts os := by
      have made : ∀ t ∈ ts, Made d t := made
      have mints : ∀ t ∈ ts, ∀ n, t.note = .mint n → n.mint_amount.val < 2 ^ 127 := mints
      induction ts with
      | nil => exact ⟨[], .nil⟩
      | cons t ts ih =>
        obtain ⟨o, ho⟩ := (made t List.mem_cons_self).opens (mints t List.mem_cons_self)
        obtain ⟨os, hos⟩ := ih (fun t' h' => made t' (List.mem_cons_of_mem _ h'))
          (fun t' h' => mints t' (List.mem_cons_of_mem _ h')) (fun t' h' => made t' (List.mem_cons_of_mem _ h'))
          (fun t' h' => mints t' (List.mem_cons_of_mem _ h'))
        exact ⟨o :: os, .cons ho hos⟩
    obtain ⟨os, hos⟩ := this
    have hnote : os.map Opening.note = ts.map (·.note) := by
      clear made mints
      induction hos with
      | nil => rfl
      | cons h _ ih => rw [List.map_cons, List.map_cons, ih, h.note]
    have hcol : collected (os.map (fun o => ⟨o.note, [], []⟩)) = collected ts := by
      have : ((os.map (fun o => (⟨o.note, [], []⟩ : Txn))).map (fun t => t.note.fee.val)) =
          (ts.map (fun t => t.note.fee.val)) := by
        have e := congrArg (List.map (fun t : TransactionNote => t.fee.val)) hnote
        rw [List.map_map, List.map_map] at e
        rw [List.map_map]
        exact e
      unfold collected
      rw [this]
    have hall : ∀ o ∈ os, ∃ t, OpensTxn d.val t o := by
      intro o ho
      obtain ⟨t, -, ht⟩ := forall₂_mem_right hos o ho
      exact ⟨t, ht⟩
    refine ⟨.block os blind who time, ⟨hnote, rfl, rfl, rfl⟩, ?_, ?_, ?_, ?_⟩
    · intro o ho
      obtain ⟨t, ht⟩ := hall o ho
      exact ht.satisfied
    · show os.flatMap Opening.creates ++ _ = (ts.flatMap (·.creates) ++ _).map _
      rw [hcol, List.map_append]
      congr 1
      clear made mints hnote hcol hall
      induction hos with
      | nil => rfl
      | cons h _ ih => rw [List.flatMap_cons, List.flatMap_cons, List.map_append, ih, h.creates]
    · show (os.flatMap Opening.realSpends).map _ = (ts.flatMap Txn.realSpends).map _
      clear made mints hnote hcol hall
      induction hos with
      | nil => rfl
      | cons h _ ih => rw [List.flatMap_cons, List.flatMap_cons, List.map_append, List.map_append, ih, h.real]
    · intro o ho
      obtain ⟨t, ht⟩ := hall o ho
      exact ⟨ht.same_code, ht.change_fits, fun s hs => ht.canonical s (List.mem_filter.1 hs).1⟩

/-- the history of an honest history -/
theorem opens_history {d : Fin 256} {h : List Event} (honest : Honest d h)
    (mints : ∀ e ∈ h, ∀ t ∈ e.txns, ∀ n, t.note = .mint n → n.mint_amount.val < 2 ^ 127) :
    ∃ h' : List Step, List.Forall₂ SameNotes h h' ∧ AllSatisfied d h' ∧
      everCreated h' = (created h).map RecordOpening.toV ∧
      (everSpent h').map (fun s => (s.ro, s.acc)) = (spends h).map (fun x => (x.1.toV, x.2.toV)) ∧
      ∀ e ∈ h', ∀ o ∈ e.txns, o.SameCode ∧ o.ChangeFits ∧ ∀ s ∈ o.realSpends, s.sk.val < E.r := by
  induction h with
  | nil => exact ⟨[], .nil, by simp [AllSatisfied], rfl, rfl, by simp⟩
  | cons e h ih =>
    obtain ⟨h', i1, i2, i3, i4, i5⟩ := ih (fun e' he' => honest e' (List.mem_cons_of_mem _ he'))
      (fun e' he' => mints e' (List.mem_cons_of_mem _ he'))
    obtain ⟨e', j⟩ := opens_event (honest e List.mem_cons_self) (mints e List.mem_cons_self)
    refine ⟨e' :: h', .cons j.same i1, ?_, ?_, ?_, ?_⟩
    · intro x hx
      rcases List.mem_cons.1 hx with rfl | hx
      · exact j.satisfied
      · exact i2 x hx
    · show e'.creates ++ everCreated h' = (e.creates ++ created h).map _
      rw [j.creates, i3, List.map_append]
    · show (e'.txns.flatMap Opening.realSpends ++ everSpent h').map _ = (e.txns.flatMap Txn.realSpends ++ spends h).map _
      rw [List.map_append, List.map_append, i4, j.spends]
    · intro x hx
      rcases List.mem_cons.1 hx with rfl | hx
      · exact j.checked
      · exact i5 x hx

omit S in
/-- the hypotheses about hashes agree -/
theorem noCollision_toV {d : Fin 256} {records : List RecordOpening} {sp : List (RecordOpening × AccMemberWitness)}
    {sp' : List Spend} (same : sp'.map (fun s => (s.ro, s.acc)) = sp.map (fun x => (x.1.toV, x.2.toV)))
    (h : NoCollision d records sp) : NoCollisionV d (records.map RecordOpening.toV) sp' := by
  have hcom : (records.map RecordOpening.toV).map RecordV.commitment = records.map (·.commitment) := by
    rw [List.map_map]
    exact List.map_congr_left (fun r _ => RecordOpening.toV_commitment r)
  have hback : ∀ s ∈ sp', ∃ x ∈ sp, s.ro = x.1.toV ∧ s.acc = x.2.toV := by
    intro s hs
    have := List.mem_map_of_mem (f := fun s : Spend => (s.ro, s.acc)) hs
    rw [same] at this
    obtain ⟨x, hx, he⟩ := List.mem_map.1 this
    rw [Prod.mk.injEq] at he
    exact ⟨x, hx, he.1.symm, he.2.symm⟩
  have hcalls : ∀ y ∈ sp'.flatMap (fun s => pathCalls (E.leafHash s.acc.uid s.ro.commitment) s.acc.path),
      y ∈ sp.flatMap (fun s => pathCalls (E.leafHash (s.2.uid.val : F) s.1.commitment) s.2.path) := by
    intro y hy
    obtain ⟨s, hs, hy⟩ := List.mem_flatMap.1 hy
    obtain ⟨x, hx, e1, e2⟩ := hback s hs
    rw [e1, e2, RecordOpening.toV_commitment] at hy
    exact List.mem_flatMap.2 ⟨x, hx, hy⟩
  refine ⟨?_, fun y hy => h.node_zero y (hcalls y hy), ?_, ?_, ?_⟩
  · rw [List.length_map, hcom]
    exact fun x hx y hy => h.node x hx y (hcalls y hy)
  · rw [hcom]
    intro x hx s hs
    obtain ⟨z, hz, e1, e2⟩ := hback s hs
    rw [e1, e2, RecordOpening.toV_commitment]
    exact h.leaf x hx z hz
  · intro s hs
    obtain ⟨z, hz, e1, e2⟩ := hback s hs
    rw [e1, e2, RecordOpening.toV_commitment]
    exact h.leaf_zero z hz
  · intro r hr s hs he
    obtain ⟨q, hq, rfl⟩ := List.mem_map.1 hr
    obtain ⟨z, hz, e1, e2⟩ := hback s hs
    rw [e1, RecordOpening.toV_commitment, RecordOpening.toV_commitment] at he
    have := h.commit q hq z hz he
    rw [Prod.mk.injEq] at this
    rw [e1, RecordOpening.toV_scalars, RecordOpening.toV_scalars, this.1]
    show (_, q.blind) = (_, z.1.blind)
    rw [this.2]

end Cap.Spec
