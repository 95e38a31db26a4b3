/-
Invariants of histories of the reference ledger in which anybody submits notes.
-/
import Verif.Lemmas.Anyone

namespace Cap.Spec

open Cap

variable [E : CapEnv] [S : CapExt]

omit S in
/-- **A path that leads to the root belongs to a leaf of the tree**, at the position it claims (a field element). -/
theorem path_leafV {d : ℕ} {leaves : List F} {uid c : F} {path : List PathNode} (len : path.length = d)
    (inj : ∀ x ∈ nodeCalls leaves d 0, ∀ y ∈ pathCalls (E.leafHash uid c) path,
      E.nodeHash x.1 x.2.1 x.2.2 = E.nodeHash y.1 y.2.1 y.2.2 → x = y)
    (nonzero : ∀ y ∈ pathCalls (E.leafHash uid c) path, E.nodeHash y.1 y.2.1 y.2.2 ≠ 0)
    (leaf : ∀ x ∈ leafCalls leaves, E.leafHash x.1 x.2 = E.leafHash uid c → x = (uid, c))
    (leaf_zero : E.leafHash uid c ≠ 0) (h : merkleRoot uid c path = treeRoot d leaves) :
    ∃ j : ℕ, uid = (j : F) ∧ leaves[j]? = some c := by
  subst len
  obtain ⟨j, hj⟩ := fold_leaf (E.leafHash uid c) path 0 inj nonzero h
  cases hl : leaves[j]? with
  | none =>
    rw [treeNode, hl] at hj
    exact absurd hj leaf_zero
  | some c' =>
    rw [treeNode_zero_some hl] at hj
    have hm : ((j : F), c') ∈ leafCalls leaves := by
      unfold leafCalls
      refine List.mem_map.2 ⟨(c', j), ?_, rfl⟩
      rw [List.mem_zipIdx_iff_getElem?]
      exact hl
    have := leaf _ hm hj.symm
    simp only [Prod.mk.injEq] at this
    obtain ⟨h1, rfl⟩ := this
    exact ⟨j, h1.symm, hl⟩

omit S in
theorem NoCollisionV.mono {d : Fin 256} {records more : List RecordV} {sp sp' : List Spend}
    (h : NoCollisionV d (records ++ more) sp') (hs : ∀ x ∈ sp, x ∈ sp') : NoCollisionV d records sp := by
  have hsub : ∀ y ∈ sp.flatMap (fun s => pathCalls (E.leafHash s.acc.uid s.ro.commitment) s.acc.path),
      y ∈ sp'.flatMap (fun s => pathCalls (E.leafHash s.acc.uid s.ro.commitment) s.acc.path) := by
    intro y hy
    obtain ⟨s, h1, h2⟩ := List.mem_flatMap.1 hy
    exact List.mem_flatMap.2 ⟨s, hs s h1, h2⟩
  refine ⟨?_, fun y hy => h.node_zero y (hsub y hy), ?_, fun s hm => h.leaf_zero s (hs s hm), ?_⟩
  · intro x hx y hy
    refine h.node x ?_ y (hsub y hy)
    obtain ⟨k, hk, hx⟩ := List.mem_flatMap.1 hx
    rw [List.mem_range] at hk
    refine List.mem_flatMap.2 ⟨k, ?_, ?_⟩
    · rw [List.mem_range, List.length_append]; omega
    · rw [List.map_append, List.take_append_of_le_length (by rw [List.length_map]; omega)]
      exact hx
  · intro x hx s hm
    refine h.leaf x ?_ s (hs s hm)
    unfold leafCalls at hx ⊢
    rw [List.map_append, List.zipIdx_append, List.map_append]
    exact List.mem_append_left _ hx
  · intro r hr s hm
    exact h.commit r (List.mem_append_left _ hr) s (hs s hm)

/-! ### The books, one step at a time -/

theorem everCreated_append (h : List Step) (e : Step) : everCreated (h ++ [e]) = everCreated h ++ e.creates := by
  simp [everCreated]

theorem everSpent_append (h : List Step) (e : Step) :
    everSpent (h ++ [e]) = everSpent h ++ e.txns.flatMap Opening.realSpends := by
  simp [everSpent]

theorem spentPositions_append (h : List Step) (e : Step) :
    spentPositions (h ++ [e]) = spentPositions h ++ (e.txns.flatMap Opening.realSpends).map (fun s => s.acc.uid) := by
  simp [spentPositions, everSpent_append]

omit S in
theorem _root_.Cap.Spend.Of.append {records more : List RecordV} {s : Spend} (h : s.Of records) : s.Of (records ++ more) := by
  obtain ⟨j, r, h1, h2, h3⟩ := h
  exact ⟨j, r, h1, by rw [List.getElem?_append_left (List.getElem?_eq_some_iff.1 h2).1]; exact h2, h3⟩

/-! ### Spends are of created records -/

/-- what holds without further conditions -/
structure Inv0 (d : Fin 256) (h : List Step) (s : LedgerState) : Prop where
  leaves : s.leaves = (everCreated h).map RecordV.commitment
  size : s.leaves.length < 2 ^ 64
  roots : ∀ r ∈ s.roots, ∃ k ≤ s.leaves.length, r = treeRoot d.val (s.leaves.take k)
  found : ∀ x ∈ everSpent h, x.Of (everCreated h)

theorem Inv0.start (d : Fin 256) : Inv0 d [] (LedgerState.new d.val) := by
  refine ⟨rfl, by simp [LedgerState.new, LedgerState.storeRoot], ?_, by simp [everSpent]⟩
  intro r hr
  rw [LedgerState.new, LedgerState.storeRoot] at hr
  simp only [List.mem_singleton] at hr
  exact ⟨0, Nat.zero_le _, hr⟩

theorem Inv0.grant {d : Fin 256} {h : List Step} {s s' : LedgerState} {ro : RecordOpening} (i : Inv0 d h s)
    (ok : (Step.grant ro).event.apply d s = .ok s') : Inv0 d (h ++ [.grant ro]) s' := by
  obtain ⟨e1, e2, e3, e4, -⟩ := LedgerState.grant_ok ok
  refine ⟨?_, e4, ?_, ?_⟩
  · rw [e1, i.leaves, everCreated_append]; simp [Step.creates, RecordOpening.toV_commitment]
  · intro r hr
    rw [e2, List.mem_cons] at hr
    rcases hr with rfl | hr
    · exact ⟨s'.leaves.length, le_rfl, by rw [List.take_length]⟩
    · obtain ⟨k, hk, rfl⟩ := i.roots r hr
      refine ⟨k, ?_, ?_⟩
      · rw [e1, List.length_append]; omega
      · rw [e1, List.take_append_of_le_length hk]
  · rw [everSpent_append, everCreated_append]
    intro x hx
    simp only [Step.txns, List.flatMap_nil, List.append_nil] at hx
    exact (i.found x hx).append

/-- every spend of a validated block is of a record created before it -/
theorem Inv0.found_block {d : Fin 256} {h : List Step} {s : LedgerState} {os : List Opening} (i : Inv0 d h s)
    (sat : ∀ o ∈ os, o.Satisfied d.val) (nc : NoCollisionV d (everCreated h) (os.flatMap Opening.realSpends))
    (v1 : ∀ o ∈ os, o.note.merkleRoot ∈ s.roots) :
    ∀ x ∈ os.flatMap Opening.realSpends, x.Of (everCreated h) := by
  intro x hx
  obtain ⟨o, ho, hxo⟩ := List.mem_flatMap.1 hx
  have hxo' := List.mem_filter.1 hxo
  have m1 := ((sat o ho).nullifiers.2 x hxo'.1).root_ok (by simpa using hxo'.2)
  have m2 := (sat o ho).path x hxo'.1
  obtain ⟨k, hk, hroot⟩ := i.roots _ (v1 o ho)
  rw [hroot] at m1
  have hlen : s.leaves.length = (everCreated h).length := by rw [i.leaves, List.length_map]
  have hsub : ∀ y ∈ pathCalls (E.leafHash x.acc.uid x.ro.commitment) x.acc.path,
      y ∈ (os.flatMap Opening.realSpends).flatMap
        (fun s => pathCalls (E.leafHash s.acc.uid s.ro.commitment) s.acc.path) :=
    fun y hy => List.mem_flatMap.2 ⟨x, hx, hy⟩
  obtain ⟨j, hj, hleaf⟩ := path_leafV (leaves := s.leaves.take k) m2
    (fun a ha y hy => nc.node a (List.mem_flatMap.2 ⟨k, by rw [List.mem_range]; omega, by rw [← i.leaves]; exact ha⟩)
      y (hsub y hy))
    (fun y hy => nc.node_zero y (hsub y hy))
    (fun a ha => nc.leaf a (by
      rw [← i.leaves]
      unfold leafCalls at ha ⊢
      obtain ⟨z, hz, rfl⟩ := List.mem_map.1 ha
      refine List.mem_map.2 ⟨z, ?_, rfl⟩
      rw [List.mem_zipIdx_iff_getElem?] at hz ⊢
      rw [List.getElem?_take] at hz
      split at hz
      · exact hz
      · cases hz) x hx)
    (nc.leaf_zero x hx) m1
  rw [List.getElem?_take] at hleaf
  split at hleaf
  · rw [i.leaves, List.getElem?_map, Option.map_eq_some_iff] at hleaf
    obtain ⟨r, hr, hrc⟩ := hleaf
    exact ⟨j, r, hj, hr, nc.commit r (List.mem_of_getElem? hr) x hx hrc⟩
  · cases hleaf

/-- what validation and insertion of a block do -/
theorem block_facts {d : Fin 256} {s s' : LedgerState} {os : List Opening} {blind : F} {who : UserPubKey} {time : U64}
    (sat : ∀ o ∈ os, o.Satisfied d.val) (ok : (Step.block os blind who time).event.apply d s = .ok s') :
    (∀ o ∈ os, o.note.merkleRoot ∈ s.roots) ∧
      ((os.flatMap Opening.spends).map Spend.nullifier).Nodup ∧
      (∀ x ∈ os.flatMap Opening.spends, x.nullifier ∉ s.nullifiers) ∧
      s'.leaves = s.leaves ++ (Step.block os blind who time).creates.map RecordV.commitment ∧
      s'.roots = treeRoot d.val s'.leaves :: s.roots ∧
      (∀ x, x ∈ s'.nullifiers ↔ x ∈ (os.flatMap Opening.spends).map Spend.nullifier ∨ x ∈ s.nullifiers) ∧
      s'.leaves.length < 2 ^ 64 ∧
      (collected (os.map (fun o => ⟨o.note, [], []⟩))).val = (os.map (fun o => o.note.fee.val)).sum := by
  rw [Step.event, Event.apply, bind_ok_iff] at ok
  obtain ⟨⟨⟩, hv, hb⟩ := ok
  rw [List.map_map] at hv hb
  have hmap : ((fun t : Txn => t.note) ∘ fun o : Opening => (⟨o.note, [], []⟩ : Txn)) = Opening.note := rfl
  rw [hmap] at hv hb
  obtain ⟨v1, v2, v3, -⟩ := validateTxnsBatch_ok hv
  obtain ⟨fee, hfee, e1, e2, e3, e4, -⟩ := LedgerState.insertBlock_ok hb
  have hsum := (calculateFee_ok _ _).1 hfee
  rw [List.map_map] at hsum
  have hsum' : (os.map (fun o => o.note.fee.val)).sum = fee.val := hsum
  have hcol : collected (os.map (fun o => ⟨o.note, [], []⟩)) = fee := by
    refine Fin.ext ?_
    have : (collected (os.map (fun o => ⟨o.note, [], []⟩))).val = (os.map (fun o => o.note.fee.val)).sum % 2 ^ 128 := by
      unfold collected
      rw [List.map_map]
      rfl
    rw [this, hsum']
    exact Nat.mod_eq_of_lt fee.isLt
  have hnull : (os.map Opening.note).flatMap TransactionNote.nullifiers =
      (os.flatMap Opening.spends).map Spend.nullifier := by
    clear v1 v2 v3 e1 e2 e3 e4 hfee hsum hsum' hcol hv hb
    induction os with
    | nil => rfl
    | cons o os ih =>
      rw [List.map_cons, List.flatMap_cons, List.flatMap_cons, List.map_append,
        (sat o List.mem_cons_self).nullifiers.1, ih (fun o' ho' => sat o' (List.mem_cons_of_mem _ ho'))]
  have hcomm : (os.map Opening.note).flatMap TransactionNote.outputCommitments =
      (os.flatMap Opening.creates).map RecordV.commitment := by
    clear v1 v2 v3 e1 e2 e3 e4 hfee hsum hsum' hcol hv hb hnull
    induction os with
    | nil => rfl
    | cons o os ih =>
      rw [List.map_cons, List.flatMap_cons, List.flatMap_cons, List.map_append,
        (sat o List.mem_cons_self).commitments, ih (fun o' ho' => sat o' (List.mem_cons_of_mem _ ho'))]
  refine ⟨fun o ho => v1 _ (List.mem_map_of_mem ho), hnull ▸ v2, ?_, ?_, e2, ?_, e4, ?_⟩
  · intro x hx
    refine v3 _ ?_
    show _ ∈ (os.map Opening.note).flatMap TransactionNote.nullifiers
    rw [hnull]
    exact List.mem_map_of_mem hx
  · rw [e1]
    show s.leaves ++ (os.map Opening.note).flatMap TransactionNote.outputCommitments ++ _ = _
    rw [hcomm, Step.creates, hcol, List.map_append, List.append_assoc, List.map_cons, List.map_nil,
      RecordOpening.toV_commitment]
  · intro x
    rw [← hnull]
    exact e3 x
  · rw [hcol, hsum']

theorem Inv0.block {d : Fin 256} {h : List Step} {s s' : LedgerState} {os : List Opening} {blind : F} {who : UserPubKey}
    {time : U64} (i : Inv0 d h s) (sat : ∀ o ∈ os, o.Satisfied d.val)
    (nc : NoCollisionV d (everCreated h) (os.flatMap Opening.realSpends))
    (ok : (Step.block os blind who time).event.apply d s = .ok s') : Inv0 d (h ++ [.block os blind who time]) s' := by
  obtain ⟨v1, -, -, e1, e2, -, e4, -⟩ := block_facts sat ok
  refine ⟨?_, e4, ?_, ?_⟩
  · rw [e1, i.leaves, everCreated_append, List.map_append]
  · intro r hr
    rw [e2, List.mem_cons] at hr
    rcases hr with rfl | hr
    · exact ⟨s'.leaves.length, le_rfl, by rw [List.take_length]⟩
    · obtain ⟨k, hk, rfl⟩ := i.roots r hr
      refine ⟨k, ?_, ?_⟩
      · rw [e1, List.length_append]; omega
      · rw [e1, List.take_append_of_le_length hk]
  · rw [everSpent_append, everCreated_append]
    intro x hx
    rcases List.mem_append.1 hx with hx | hx
    · exact (i.found x hx).append
    · exact (i.found_block sat nc v1 x hx).append

theorem event_append {d : Fin 256} {h : List Step} {e : Step} {s : LedgerState}
    (hr : run d ((h ++ [e]).map Step.event) = .ok s) :
    ∃ s1, run d (h.map Step.event) = .ok s1 ∧ e.event.apply d s1 = .ok s := by
  rw [List.map_append, List.map_cons, List.map_nil] at hr
  exact runFrom_append.1 hr

theorem inv0_run {d : Fin 256} (h : List Step) : ∀ {s : LedgerState}, run d (h.map Step.event) = .ok s →
    AllSatisfied d h → NoCollisionV d (everCreated h) (everSpent h) → Inv0 d h s := by
  induction h using List.reverseRecOn with
  | nil =>
    intro s hr _ _
    cases hr
    exact Inv0.start d
  | append_singleton h e ih =>
    intro s hr ho nc
    obtain ⟨s1, h1, h2⟩ := event_append hr
    rw [everCreated_append, everSpent_append] at nc
    have i := ih h1 (fun e' he' => ho e' (List.mem_append_left _ he'))
      (nc.mono (fun x hx => List.mem_append_left _ hx))
    cases e with
    | grant ro => exact i.grant h2
    | block os blind who time =>
      exact i.block (ho _ (List.mem_append_right _ List.mem_cons_self))
        (nc.mono (fun x hx => List.mem_append_right _ hx)) h2

/-! ### Amounts and double spends, with the missing checks -/

omit S in
/-- the amount of a record, if its asset is `c` -/
def weightV (c : F) (r : RecordV) : ℕ := if r.asset_code = c then r.amount.val else 0

omit S in
theorem valueOf_eq (c : F) (l : List RecordV) : valueOf c l = (l.map (weightV c)).sum := rfl

omit S in
theorem _root_.Cap.Spend.Of.position {records : List RecordV} {s : Spend} (h : s.Of records) (small : records.length < 2 ^ 64) :
    ∃ r, records[s.acc.uid.val]? = some r ∧ (r.scalars, r.blind) = (s.ro.scalars, s.ro.blind) := by
  obtain ⟨j, r, h1, h2, h3⟩ := h
  have hp := E.p_gt
  have hj := (List.getElem?_eq_some_iff.1 h2).1
  have : s.acc.uid.val = j := by
    rw [h1]
    exact ZMod.val_natCast_of_lt (by omega)
  exact ⟨r, by rw [this]; exact h2, h3⟩

omit S in
theorem cast_mem {l : List F} {k : ℕ} (hk : k < E.p) : (k : F) ∈ l ↔ k ∈ l.map ZMod.val := by
  constructor
  · intro h
    exact List.mem_map.2 ⟨_, h, ZMod.val_natCast_of_lt hk⟩
  · intro h
    obtain ⟨x, hx, rfl⟩ := List.mem_map.1 h
    rwa [ZMod.natCast_zmod_val]

omit S in
theorem left_valueOf {c : F} {gone : List F} (l : List RecordV) {n : ℕ} (small : n + l.length < E.p) :
    valueOf c (((l.zipIdx n).filter (fun x => ((x.2 : ℕ) : F) ∉ gone)).map (·.1)) =
      leftOf (weightV c) (gone.map ZMod.val) l n := by
  induction l generalizing n with
  | nil => rfl
  | cons r rs ih =>
    rw [List.length_cons] at small
    rw [List.zipIdx_cons, List.filter_cons, leftOf_cons, ← ih (by omega)]
    have hm : ((n : ℕ) : F) ∈ gone ↔ n ∈ gone.map ZMod.val := cast_mem (by omega)
    by_cases h : n ∈ gone.map ZMod.val
    · rw [if_pos h, if_neg (by simpa using hm.2 h), Nat.zero_add]
    · rw [if_neg h, if_pos (by simpa using fun h' => h (hm.1 h')), List.map_cons, Opening.valueOf_cons]
      rfl

theorem neverSpent_value {c : F} {h : List Step} (small : (everCreated h).length < 2 ^ 64) :
    valueOf c (neverSpent h) = leftOf (weightV c) ((spentPositions h).map ZMod.val) (everCreated h) 0 :=
  left_valueOf _ (by have := E.p_gt; omega)

/-- the invariant with the missing checks -/
structure Inv1 (d : Fin 256) (h : List Step) (s : LedgerState) : Prop extends Inv0 d h s where
  held : ∀ r ∈ everCreated h, r.asset_code ≠ dummyCode → r.amount.val < 2 ^ 128
  nodup : (spentPositions h).Nodup
  nulls : ∀ x ∈ everSpent h, (∃ root, x.Valid root) ∧ (x.sk.val < E.r ∧ x.ro.owner_addr ≠ neutral) ∧
    x.nullifier ∈ s.nullifiers
  value : ∀ c ≠ dummyCode, valueOf c (neverSpent h) = issued c (h.map Step.event)

theorem Inv0.length {d : Fin 256} {h : List Step} {s : LedgerState} (i : Inv0 d h s) :
    (everCreated h).length < 2 ^ 64 := by
  have := i.size
  rwa [i.leaves, List.length_map] at this

theorem Inv0.lt {d : Fin 256} {h : List Step} {s : LedgerState} (i : Inv0 d h s) :
    ∀ j ∈ (spentPositions h).map ZMod.val, j < (everCreated h).length := by
  intro j hj
  obtain ⟨u, hu, rfl⟩ := List.mem_map.1 hj
  obtain ⟨x, hx, rfl⟩ := List.mem_map.1 hu
  obtain ⟨r, hr, -⟩ := (i.found x hx).position i.length
  exact (List.getElem?_eq_some_iff.1 hr).1

theorem Inv1.start (d : Fin 256) : Inv1 d [] (LedgerState.new d.val) :=
  ⟨Inv0.start d, by simp [everCreated], by simp [spentPositions, everSpent], by simp [everSpent], fun _ _ => rfl⟩

theorem issued_step (c : F) (h : List Step) (e : Step) :
    issued c ((h ++ [e]).map Step.event) = issued c (h.map Step.event) + e.event.issued c := by
  rw [List.map_append, List.map_cons, List.map_nil, issued_append]

theorem Inv1.grant {d : Fin 256} {h : List Step} {s s' : LedgerState} {ro : RecordOpening} (i : Inv1 d h s)
    (ok : (Step.grant ro).event.apply d s = .ok s') : Inv1 d (h ++ [.grant ro]) s' := by
  have i' := i.toInv0.grant ok
  obtain ⟨-, -, e3, -, -⟩ := LedgerState.grant_ok ok
  have hsp : everSpent (h ++ [.grant ro]) = everSpent h := by simp [everSpent_append, Step.txns]
  have hat : spentPositions (h ++ [.grant ro]) = spentPositions h := by simp [spentPositions, hsp]
  refine ⟨i', ?_, by rw [hat]; exact i.nodup, by rw [hsp, e3]; exact i.nulls, ?_⟩
  · rw [everCreated_append]
    intro r hr hd
    rcases List.mem_append.1 hr with hr | hr
    · exact i.held r hr hd
    · obtain rfl := List.mem_singleton.1 hr
      show (Amount.toF ro.amount).val < _
      rw [Amount.toF_val]
      exact ro.amount.isLt
  · intro c hc
    have hlt : ∀ j ∈ (spentPositions h).map ZMod.val, j < 0 + (everCreated h).length := by
      rw [Nat.zero_add]; exact i.toInv0.lt
    rw [neverSpent_value i'.length, hat, everCreated_append, leftOf_append, leftOf_of_lt _ hlt, issued_step,
      ← i.value c hc, neverSpent_value i.toInv0.length]
    congr 1
    show (if ro.asset_def.code = c then (Amount.toF ro.amount).val else 0) + 0 = _
    rw [Amount.toF_val]
    rfl

/-- the real spends of a block are at different positions, none of which was spent before -/
theorem fresh_positions {records : List RecordV} (small : records.length < 2 ^ 64) {nulls : List F} {pre : List Spend}
    (old : ∀ x ∈ pre, (∃ root, x.Valid root) ∧ (x.sk.val < E.r ∧ x.ro.owner_addr ≠ neutral) ∧ x.nullifier ∈ nulls ∧
      x.Of records)
    {xs : List Spend} (new : ∀ x ∈ xs, (∃ root, x.Valid root) ∧ (x.sk.val < E.r ∧ x.ro.owner_addr ≠ neutral) ∧
      x.Of records ∧ x.ro.asset_code ≠ dummyCode)
    (nodup : (xs.map Spend.nullifier).Nodup) (fresh : ∀ x ∈ xs, x.nullifier ∉ nulls) :
    (xs.map (fun x => x.acc.uid)).Nodup ∧ ∀ x ∈ xs, x.acc.uid ∉ pre.map (fun x => x.acc.uid) := by
  have same : ∀ {x y : Spend}, (∃ root, x.Valid root) → (∃ root, y.Valid root) →
      (x.sk.val < E.r ∧ x.ro.owner_addr ≠ neutral) → (y.sk.val < E.r ∧ y.ro.owner_addr ≠ neutral) →
      x.Of records → y.Of records → x.ro.asset_code ≠ dummyCode → x.acc.uid = y.acc.uid → x.nullifier = y.nullifier := by
    rintro x y ⟨r1, v1⟩ ⟨r2, v2⟩ c1 c2 f1 f2 hd hu
    obtain ⟨a, ha, ha'⟩ := f1.position small
    obtain ⟨b, hb, hb'⟩ := f2.position small
    rw [hu] at ha
    obtain rfl : a = b := Option.some.inj (ha.symm.trans hb)
    obtain ⟨-, q2, q3, q4, q5⟩ := scalarsV_inj (ha'.symm.trans hb')
    exact same_nullifier v1 v2 q5 q3 q4 q2 hu hd c1 c2
  constructor
  · induction xs with
    | nil => simp
    | cons x xs ih =>
      rw [List.map_cons, List.nodup_cons] at nodup ⊢
      refine ⟨?_, ih (fun y hy => new y (List.mem_cons_of_mem _ hy)) nodup.2
        (fun y hy => fresh y (List.mem_cons_of_mem _ hy))⟩
      intro hm
      obtain ⟨y, hy, hyu⟩ := List.mem_map.1 hm
      obtain ⟨x1, x2, x3, x4⟩ := new x List.mem_cons_self
      obtain ⟨y1, y2, y3, -⟩ := new y (List.mem_cons_of_mem _ hy)
      refine nodup.1 ?_
      rw [same x1 y1 x2 y2 x3 y3 x4 hyu.symm]
      exact List.mem_map_of_mem hy
  · intro x hx hm
    obtain ⟨y, hy, hyu⟩ := List.mem_map.1 hm
    obtain ⟨x1, x2, x3, x4⟩ := new x hx
    obtain ⟨y1, y2, y3, y4⟩ := old y hy
    refine fresh x hx ?_
    rw [same x1 y1 x2 y2 x3 y4 x4 hyu.symm]
    exact y3

omit S in
theorem real_flatMap [S : CapExt] (os : List Opening) :
    os.flatMap Opening.realSpends = (os.flatMap Opening.spends).filter (fun s => s.ro.asset_code ≠ dummyCode) := by
  induction os with
  | nil => rfl
  | cons o os ih => rw [List.flatMap_cons, List.flatMap_cons, List.filter_append, ih]; rfl

/-- amounts of a block -/
theorem block_value {d : Fin 256} {os : List Opening} (sat : ∀ o ∈ os, o.Satisfied d.val)
    (checked : ∀ o ∈ os, o.Checked) (held : ∀ o ∈ os, ∀ x ∈ o.realSpends, x.ro.amount.val < 2 ^ 128)
    (few : ∀ o ∈ os, o.creates.length < 2 ^ 64) {c : F} (hc : c ≠ dummyCode) :
    valueOf c ((os.flatMap Opening.realSpends).map (·.ro)) + mintedBy c (os.map (fun o => ⟨o.note, [], []⟩)) =
      valueOf c (os.flatMap Opening.creates) +
        (if c = nativeCode then (os.map (fun o => o.note.fee.val)).sum else 0) := by
  induction os with
  | nil => simp [mintedBy, valueOf]
  | cons o os ih =>
    have h1 := (sat o List.mem_cons_self).balance (checked o List.mem_cons_self) (held o List.mem_cons_self)
      (few o List.mem_cons_self) hc
    have h2 := ih (fun o' h' => sat o' (List.mem_cons_of_mem _ h')) (fun o' h' => checked o' (List.mem_cons_of_mem _ h'))
      (fun o' h' => held o' (List.mem_cons_of_mem _ h')) (fun o' h' => few o' (List.mem_cons_of_mem _ h'))
    rw [mintedBy_eq] at h2 ⊢
    simp only [List.flatMap_cons, List.map_append, Opening.valueOf_append, List.map_cons, List.sum_cons]
    have hm : Txn.minted c ⟨o.note, [], []⟩ = o.minted c := rfl
    rw [hm]
    by_cases hn : c = nativeCode
    · simp only [if_pos hn] at h1 h2 ⊢
      omega
    · simp only [if_neg hn] at h1 h2 ⊢
      omega

theorem Inv1.block {d : Fin 256} {h : List Step} {s s' : LedgerState} {os : List Opening} {blind : F} {who : UserPubKey}
    {time : U64} (i : Inv1 d h s) (sat : ∀ o ∈ os, o.Satisfied d.val) (checked : ∀ o ∈ os, o.Checked)
    (nc : NoCollisionV d (everCreated h) (os.flatMap Opening.realSpends))
    (ok : (Step.block os blind who time).event.apply d s = .ok s') : Inv1 d (h ++ [.block os blind who time]) s' := by
  have i' := i.toInv0.block sat nc ok
  obtain ⟨v1, v2, v3, e1, e2, e3, e4, e5⟩ := block_facts sat ok
  have found := i.toInv0.found_block sat nc v1
  have hamount : ∀ x ∈ os.flatMap Opening.realSpends, x.ro.amount.val < 2 ^ 128 := by
    intro x hx
    obtain ⟨r, hr, he⟩ := (found x hx).position i.toInv0.length
    obtain ⟨q1, q2, -⟩ := scalarsV_inj he
    rw [real_flatMap, List.mem_filter] at hx
    rw [← q1]
    refine i.held r (List.mem_of_getElem? hr) ?_
    rw [q2]
    simpa using hx.2
  have hfew : ∀ o ∈ os, o.creates.length < 2 ^ 64 := by
    intro o ho
    have h1 : o.creates.length ≤ (os.flatMap Opening.creates).length := by
      rw [List.length_flatMap]
      exact List.single_le_sum (by simp) _ (List.mem_map_of_mem ho)
    have h2 : (Step.block os blind who time).creates.length = (os.flatMap Opening.creates).length + 1 := by
      simp [Step.creates]
    have := e4
    rw [e1, List.length_append, List.length_map, h2] at this
    omega
  have hnew : ∀ x ∈ os.flatMap Opening.realSpends, (∃ root, x.Valid root) ∧
      (x.sk.val < E.r ∧ x.ro.owner_addr ≠ neutral) ∧ x.Of (everCreated h) ∧ x.ro.asset_code ≠ dummyCode := by
    intro x hx
    obtain ⟨o, ho, hxo⟩ := List.mem_flatMap.1 hx
    have hf := List.mem_filter.1 hxo
    exact ⟨⟨_, (sat o ho).nullifiers.2 x hf.1⟩, (checked o ho).canonical x hxo, found x hx, by simpa using hf.2⟩
  have hsub : (os.flatMap Opening.realSpends).Sublist (os.flatMap Opening.spends) := by
    rw [real_flatMap]
    exact List.filter_sublist
  obtain ⟨f1, f2⟩ := fresh_positions i.toInv0.length
    (fun x hx => ⟨(i.nulls x hx).1, (i.nulls x hx).2.1, (i.nulls x hx).2.2, i.found x hx⟩) hnew
    (v2.sublist (hsub.map _)) (fun x hx => v3 x (hsub.subset hx))
  have htx : (Step.block os blind who time).txns = os := rfl
  refine ⟨i', ?_, ?_, ?_, ?_⟩
  · rw [everCreated_append]
    intro r hr hd
    rcases List.mem_append.1 hr with hr | hr
    · exact i.held r hr hd
    · rcases List.mem_append.1 hr with hr | hr
      · obtain ⟨o, ho, hro⟩ := List.mem_flatMap.1 hr
        exact (sat o ho).fits (checked o ho) (fun x hx => hamount x (List.mem_flatMap.2 ⟨o, ho, hx⟩)) r hro hd
      · obtain rfl := List.mem_singleton.1 hr
        show (Amount.toF _).val < _
        rw [Amount.toF_val]
        exact Fin.isLt _
  · rw [spentPositions_append, List.nodup_append']
    refine ⟨i.nodup, f1, ?_⟩
    intro j hj hj'
    obtain ⟨x, hx, rfl⟩ := List.mem_map.1 hj'
    exact f2 x hx hj
  · rw [everSpent_append]
    intro x hx
    rcases List.mem_append.1 hx with hx | hx
    · obtain ⟨h1, h2, h3⟩ := i.nulls x hx
      exact ⟨h1, h2, (e3 _).2 (Or.inr h3)⟩
    · obtain ⟨h1, h2, -, -⟩ := hnew x hx
      exact ⟨h1, h2, (e3 _).2 (Or.inl (List.mem_map_of_mem (hsub.subset hx)))⟩
  · intro c hc
    have hlt : ∀ j ∈ (spentPositions (h ++ [.block os blind who time])).map ZMod.val, j < 0 + (everCreated h).length := by
      rw [spentPositions_append, Nat.zero_add, List.map_append]
      intro j hj
      rcases List.mem_append.1 hj with hj | hj
      · exact i.toInv0.lt j hj
      · obtain ⟨u, hu, rfl⟩ := List.mem_map.1 hj
        obtain ⟨x, hx, rfl⟩ := List.mem_map.1 hu
        obtain ⟨r, hr, -⟩ := (found x hx).position i.toInv0.length
        exact (List.getElem?_eq_some_iff.1 hr).1
    rw [neverSpent_value i'.length, everCreated_append, leftOf_append, leftOf_of_lt _ hlt, issued_step,
      ← i.value c hc, neverSpent_value i.toInv0.length, spentPositions_append, List.map_append]
    have hsp := leftOf_spend (w := weightV c) (l := everCreated h) (pos := fun x : Spend => x.acc.uid.val)
      (v := fun x => weightV c x.ro) (os.flatMap Opening.realSpends) (gone := (spentPositions h).map ZMod.val)
      (fun x hx => by
        obtain ⟨r, hr, he⟩ := (found x hx).position i.toInv0.length
        refine ⟨r, hr, ?_⟩
        obtain ⟨q1, q2, -⟩ := scalarsV_inj he
        unfold weightV
        rw [q1, q2])
      (by
        have := f1.map (ZMod.val_injective E.p)
        rwa [List.map_map] at this)
      (by
        intro x hx hm
        obtain ⟨u, hu, he⟩ := List.mem_map.1 hm
        exact f2 x hx (ZMod.val_injective _ he ▸ hu))
    have hbal := block_value sat checked (fun o ho x hx => hamount x (List.mem_flatMap.2 ⟨o, ho, hx⟩)) hfew hc
    have hissued : Event.issued c (Step.block os blind who time).event = mintedBy c (os.map (fun o => ⟨o.note, [], []⟩)) :=
      rfl
    have hval : ((os.flatMap Opening.realSpends).map (fun x => weightV c x.ro)).sum =
        valueOf c ((os.flatMap Opening.realSpends).map (·.ro)) := by
      rw [valueOf_eq, List.map_map]; rfl
    rw [hval] at hsp
    rw [hissued, htx, List.map_map, ← valueOf_eq]
    show leftOf (weightV c) ((spentPositions h).map ZMod.val ++ (os.flatMap Opening.realSpends).map (fun x => x.acc.uid.val))
      (everCreated h) 0 + valueOf c (os.flatMap Opening.creates ++ _) = _
    rw [Opening.valueOf_append, Opening.valueOf_cons]
    have e0 : valueOf c [] = 0 := rfl
    have en : ∀ a, (feeRecord who a blind).toV.asset_code = (nativeCode : F) := fun _ => rfl
    have ea : ∀ a, (feeRecord who a blind).toV.amount.val = a.val := fun a => Amount.toF_val a
    rw [e0, en, ea, e5]
    by_cases hn : c = nativeCode
    · subst hn
      simp only [if_true] at hbal ⊢
      omega
    · have hn' : ¬ nativeCode = c := fun h => hn h.symm
      simp only [if_neg hn, if_neg hn'] at hbal ⊢
      omega

theorem inv1_run {d : Fin 256} (h : List Step) : ∀ {s : LedgerState}, run d (h.map Step.event) = .ok s →
    AllSatisfied d h → (∀ e ∈ h, ∀ o ∈ e.txns, o.Checked) → NoCollisionV d (everCreated h) (everSpent h) → Inv1 d h s := by
  induction h using List.reverseRecOn with
  | nil =>
    intro s hr _ _ _
    cases hr
    exact Inv1.start d
  | append_singleton h e ih =>
    intro s hr ho hk nc
    obtain ⟨s1, h1, h2⟩ := event_append hr
    rw [everCreated_append, everSpent_append] at nc
    have i := ih h1 (fun e' he' => ho e' (List.mem_append_left _ he')) (fun e' he' => hk e' (List.mem_append_left _ he'))
      (nc.mono (fun x hx => List.mem_append_left _ hx))
    cases e with
    | grant ro => exact i.grant h2
    | block os blind who time =>
      exact i.block (ho _ (List.mem_append_right _ List.mem_cons_self)) (hk _ (List.mem_append_right _ List.mem_cons_self))
        (nc.mono (fun x hx => List.mem_append_right _ hx)) h2

end Cap.Spec
