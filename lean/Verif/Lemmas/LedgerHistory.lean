/-
The invariant of histories of the reference ledger.
-/
import Verif.Lemmas.Ledger

namespace Cap

namespace Spec

variable [E : CapEnv]

/-! ### Unspent amounts -/

/-- the amount of a record, if its asset is `c` -/
def weight (c : AssetCode) (r : RecordOpening) : ℕ := if r.asset_def.code = c then r.amount.val else 0

theorem totalOf_eq_sum (c : AssetCode) (l : List RecordOpening) : totalOf c l = (l.map (weight c)).sum := by
  induction l with
  | nil => rfl
  | cons r l ih => rw [totalOf_cons, ih]; rfl

/-- what is left of a list of records, counted from position `n`, when the positions in `gone` are taken out -/
def left (c : AssetCode) (gone : List ℕ) (records : List RecordOpening) (n : ℕ) : ℕ :=
  ((records.zipIdx n).map (fun x => if x.2 ∈ gone then 0 else weight c x.1)).sum

theorem left_eq (c : AssetCode) (gone : List ℕ) (records : List RecordOpening) (n : ℕ) :
    totalOf c (((records.zipIdx n).filter (fun x => x.2 ∉ gone)).map (·.1)) = left c gone records n := by
  unfold left
  induction records generalizing n with
  | nil => rfl
  | cons r rs ih =>
    rw [List.zipIdx_cons, List.filter_cons, List.map_cons, List.sum_cons, ← ih]
    by_cases h : n ∈ gone
    · simp [h]
    · simp [h, totalOf_cons, weight]

theorem left_append (c : AssetCode) (gone : List ℕ) (records more : List RecordOpening) (n : ℕ) :
    left c gone (records ++ more) n = left c gone records n + left c gone more (n + records.length) := by
  unfold left
  rw [List.zipIdx_append, List.map_append, List.sum_append]

theorem left_of_lt {c : AssetCode} {gone : List ℕ} (records : List RecordOpening) {n : ℕ} (h : ∀ j ∈ gone, j < n) :
    left c gone records n = totalOf c records := by
  unfold left
  rw [totalOf_eq_sum]
  induction records generalizing n with
  | nil => rfl
  | cons r rs ih =>
    rw [List.zipIdx_cons, List.map_cons, List.sum_cons, ih (fun j hj => Nat.lt_succ_of_lt (h j hj)), List.map_cons,
      List.sum_cons, if_neg (fun hn => absurd (h n hn) (lt_irrefl n))]

theorem left_congr {c : AssetCode} {g g' : List ℕ} (records : List RecordOpening) {n : ℕ}
    (h : ∀ j, n ≤ j → (j ∈ g ↔ j ∈ g')) : left c g records n = left c g' records n := by
  unfold left
  induction records generalizing n with
  | nil => rfl
  | cons r rs ih =>
    rw [List.zipIdx_cons, List.map_cons, List.sum_cons, ih (fun j hj => h j (by omega)), List.map_cons, List.sum_cons]
    simp only [h n le_rfl]

/-- taking one more record out -/
theorem left_remove {c : AssetCode} {gone : List ℕ} {records : List RecordOpening} {n j : ℕ} {r : RecordOpening}
    (hj : records[j]? = some r) (hn : n + j ∉ gone) :
    left c (gone ++ [n + j]) records n + weight c r = left c gone records n := by
  induction records generalizing n j with
  | nil => simp at hj
  | cons a rs ih =>
    have hcons : ∀ g, left c g (a :: rs) n = (if n ∈ g then 0 else weight c a) + left c g rs (n + 1) := by
      intro g
      unfold left
      rw [List.zipIdx_cons, List.map_cons, List.sum_cons]
    rw [hcons, hcons]
    cases j with
    | zero =>
      simp only [List.getElem?_cons_zero, Option.some.injEq] at hj
      subst hj
      have h1 : n ∉ gone := hn
      have h2 : left c (gone ++ [n + 0]) rs (n + 1) = left c gone rs (n + 1) := by
        refine left_congr rs ?_
        intro k hk
        simp only [List.mem_append, List.mem_singleton, Nat.add_zero, or_iff_left_iff_imp]
        omega
      rw [h2, if_pos (by simp), if_neg h1]
      omega
    | succ j =>
      rw [List.getElem?_cons_succ] at hj
      have := ih (n := n + 1) hj (by rwa [show n + 1 + j = n + (j + 1) by omega])
      rw [show n + 1 + j = n + (j + 1) by omega] at this
      have e : (n ∈ gone ++ [n + (j + 1)]) ↔ n ∈ gone := by
        simp only [List.mem_append, List.mem_singleton, or_iff_left_iff_imp]
        omega
      simp only [e]
      omega

/-- taking several records out -/
theorem left_spend {c : AssetCode} {records : List RecordOpening} {α : Type} {pos : α → ℕ} {ro : α → RecordOpening}
    (xs : List α) : ∀ {gone : List ℕ},
    (∀ x ∈ xs, ∃ r, records[pos x]? = some r ∧ weight c r = weight c (ro x)) → (xs.map pos).Nodup →
    (∀ x ∈ xs, pos x ∉ gone) →
    left c (gone ++ xs.map pos) records 0 + totalOf c (xs.map ro) = left c gone records 0 := by
  induction xs with
  | nil => intro gone _ _ _; simp [totalOf]
  | cons x xs ih =>
    intro gone hr hn hg
    rw [List.map_cons, List.nodup_cons] at hn
    obtain ⟨r, hx, hw⟩ := hr x List.mem_cons_self
    have h1 := ih (gone := gone ++ [pos x]) (fun y hy => hr y (List.mem_cons_of_mem _ hy)) hn.2 (by
      intro y hy hm
      rcases List.mem_append.1 hm with hm | hm
      · exact hg y (List.mem_cons_of_mem _ hy) hm
      · rw [List.mem_singleton] at hm
        exact hn.1 (hm ▸ List.mem_map_of_mem hy))
    have h2 := left_remove (c := c) (n := 0) hx (by rw [Nat.zero_add]; exact hg x List.mem_cons_self)
    rw [Nat.zero_add] at h2
    rw [List.map_cons, List.map_cons, totalOf_cons]
    rw [show gone ++ pos x :: xs.map pos = gone ++ [pos x] ++ xs.map pos by simp]
    rw [show (if (ro x).asset_def.code = c then (ro x).amount.val else 0) = weight c (ro x) from rfl]
    omega

variable [S : CapExt]

/-! ### Hypotheses on hashes -/

theorem NoCollision.mono {d : Fin 256} {records more : List RecordOpening}
    {sp sp' : List (RecordOpening × AccMemberWitness)} (h : NoCollision d (records ++ more) sp')
    (hs : ∀ x ∈ sp, x ∈ sp') : NoCollision d records sp := by
  have hsub : ∀ y ∈ sp.flatMap (fun s => pathCalls (E.leafHash (s.2.uid.val : F) s.1.commitment) s.2.path),
      y ∈ sp'.flatMap (fun s => pathCalls (E.leafHash (s.2.uid.val : F) s.1.commitment) s.2.path) := by
    intro y hy
    obtain ⟨s, h1, h2⟩ := List.mem_flatMap.1 hy
    exact List.mem_flatMap.2 ⟨s, hs s h1, h2⟩
  refine ⟨?_, fun y hy => h.node_zero y (hsub y hy), ?_, fun s hm => h.leaf_zero s (hs s hm), ?_⟩
  · intro x hx y hy
    refine h.node x ?_ y (hsub y hy)
    obtain ⟨k, hk, hx⟩ := List.mem_flatMap.1 hx
    rw [List.mem_range] at hk
    refine List.mem_flatMap.2 ⟨k, ?_, ?_⟩
    · rw [List.mem_range, List.length_append]; omega
    · rw [List.map_append, List.take_append_of_le_length (by rw [List.length_map]; omega)]
      exact hx
  · intro x hx s hm
    refine h.leaf x ?_ s (hs s hm)
    unfold leafCalls at hx ⊢
    rw [List.map_append, List.zipIdx_append, List.map_append]
    exact List.mem_append_left _ hx
  · intro r hr s hm
    exact h.commit r (List.mem_append_left _ hr) s (hs s hm)

/-! ### Histories, one event at a time -/

theorem runFrom_append {d : Fin 256} {h : List Event} {e : Event} {s s' : LedgerState} :
    runFrom d s (h ++ [e]) = .ok s' ↔ ∃ s1, runFrom d s h = .ok s1 ∧ e.apply d s1 = .ok s' := by
  induction h generalizing s with
  | nil =>
    rw [List.nil_append]
    show ((e.apply d s) >>= fun s => runFrom d s []) = .ok s' ↔ _
    rw [bind_ok_iff]
    constructor
    · rintro ⟨a, h1, h2⟩
      cases h2
      exact ⟨s, rfl, h1⟩
    · rintro ⟨s1, h1, h2⟩
      cases h1
      exact ⟨s', h2, rfl⟩
  | cons a h ih =>
    rw [List.cons_append, runFrom, bind_ok_iff]
    constructor
    · rintro ⟨s1, h1, h2⟩
      obtain ⟨s2, h3, h4⟩ := ih.1 h2
      exact ⟨s2, bind_ok_iff.2 ⟨s1, h1, h3⟩, h4⟩
    · rintro ⟨s2, h1, h2⟩
      rw [runFrom, bind_ok_iff] at h1
      obtain ⟨s1, h3, h4⟩ := h1
      exact ⟨s1, h3, ih.2 ⟨s2, h4, h2⟩⟩

theorem created_append (h : List Event) (e : Event) : created (h ++ [e]) = created h ++ e.creates := by
  simp [created]

theorem spends_append (h : List Event) (e : Event) :
    spends (h ++ [e]) = spends h ++ e.txns.flatMap Txn.realSpends := by
  simp [spends]

theorem spentAt_append (h : List Event) (e : Event) :
    spentAt (h ++ [e]) = spentAt h ++ (e.txns.flatMap Txn.realSpends).map (fun x => x.2.uid.val) := by
  simp [spentAt, spends_append]

theorem issued_append (c : AssetCode) (h : List Event) (e : Event) :
    issued c (h ++ [e]) = issued c h + e.issued c := by
  simp [issued]

theorem unspent_total (c : AssetCode) (h : List Event) :
    totalOf c (unspent h) = left c (spentAt h) (created h) 0 := left_eq c _ _ 0

/-- the record at a position is the one that is spent, up to the encryption key of its owner -/
def SameRecord (r ro : RecordOpening) : Prop :=
  r.amount = ro.amount ∧ r.asset_def = ro.asset_def ∧ r.pub_key.address = ro.pub_key.address ∧
    r.freeze_flag = ro.freeze_flag ∧ r.blind = ro.blind

omit S in
theorem sameRecord_of_scalars {r ro : RecordOpening} (h : (r.scalars, r.blind) = (ro.scalars, ro.blind)) :
    SameRecord r ro := by
  obtain ⟨h1, h2, h3, h4, h5, h6⟩ := (C11_exact r ro).1 h
  refine ⟨h1, ?_, h3, h5, h6⟩
  rcases hr : r.asset_def with ⟨ca, pa⟩
  rcases ho : ro.asset_def with ⟨cb, pb⟩
  rw [hr, ho] at h2 h4
  simp only at h2 h4
  rw [h2, h4]

omit S in
theorem SameRecord.commitment {r ro : RecordOpening} (h : SameRecord r ro) : r.commitment = ro.commitment := by
  have := (C11_exact r ro).2 ⟨h.1, congrArg _ h.2.1, h.2.2.1, congrArg _ h.2.1, h.2.2.2.1, h.2.2.2.2⟩
  rw [Prod.mk.injEq] at this
  unfold RecordOpening.commitment
  rw [this.1, this.2]

/-- The invariant. -/
structure Inv (d : Fin 256) (h : List Event) (s : LedgerState) : Prop where
  leaves : s.leaves = (created h).map RecordOpening.commitment
  size : s.leaves.length < 2 ^ 64
  roots : ∀ r ∈ s.roots, ∃ k ≤ s.leaves.length, r = treeRoot d.val (s.leaves.take k)
  found : ∀ x ∈ spends h, ∃ r, (created h)[x.2.uid.val]? = some r ∧ SameRecord r x.1
  nodup : (spentAt h).Nodup
  nulls : ∀ x ∈ spends h, ∃ n nf, GeneratedSpend n x.1 x.2.uid nf ∧ nf ∈ s.nullifiers
  value : ∀ c ≠ dummyCode, totalOf c (unspent h) = issued c h

theorem Inv.start (d : Fin 256) : Inv d [] (LedgerState.new d.val) := by
  refine ⟨rfl, by simp [LedgerState.new, LedgerState.storeRoot], ?_, by simp [spends], by simp [spentAt, spends],
    by simp [spends], fun c _ => rfl⟩
  intro r hr
  rw [LedgerState.new, LedgerState.storeRoot] at hr
  simp only [List.mem_singleton] at hr
  exact ⟨0, Nat.zero_le _, hr⟩

theorem Inv.found_lt {d : Fin 256} {h : List Event} {s : LedgerState} (i : Inv d h s) :
    ∀ j ∈ spentAt h, j < (created h).length := by
  intro j hj
  obtain ⟨x, hx, rfl⟩ := List.mem_map.1 hj
  obtain ⟨r, hr, -⟩ := i.found x hx
  exact (List.getElem?_eq_some_iff.1 hr).1

theorem Inv.grant {d : Fin 256} {h : List Event} {s s' : LedgerState} {ro : RecordOpening} (i : Inv d h s)
    (ok : (Event.grant ro).apply d s = .ok s') : Inv d (h ++ [.grant ro]) s' := by
  obtain ⟨e1, e2, e3, e4, -⟩ := LedgerState.grant_ok ok
  have hsp : spends (h ++ [.grant ro]) = spends h := by simp [spends_append, Event.txns]
  have hat : spentAt (h ++ [.grant ro]) = spentAt h := by simp [spentAt, hsp]
  refine ⟨?_, e4, ?_, ?_, ?_, ?_, ?_⟩
  · rw [e1, i.leaves, created_append]; simp [Event.creates]
  · intro r hr
    rw [e2, List.mem_cons] at hr
    rcases hr with rfl | hr
    · exact ⟨s'.leaves.length, le_rfl, by rw [List.take_length]⟩
    · obtain ⟨k, hk, rfl⟩ := i.roots r hr
      refine ⟨k, ?_, ?_⟩
      · rw [e1, List.length_append]; omega
      · rw [e1, List.take_append_of_le_length hk]
  · rw [hsp, created_append]
    intro x hx
    obtain ⟨r, hr, hs⟩ := i.found x hx
    exact ⟨r, by rw [List.getElem?_append_left (List.getElem?_eq_some_iff.1 hr).1]; exact hr, hs⟩
  · rw [hat]; exact i.nodup
  · rw [hsp, e3]; exact i.nulls
  · intro c hc
    have hlt : ∀ j ∈ spentAt h, j < 0 + (created h).length := by
      rw [Nat.zero_add]; exact i.found_lt
    rw [unspent_total, hat, created_append, left_append, issued_append, ← i.value c hc, unspent_total,
      left_of_lt _ hlt]
    show _ + totalOf c [ro] = _ + Event.issued c (.grant ro)
    rw [totalOf_cons]
    rfl

/-- the spends of a block are at different positions, which no earlier block has spent -/
theorem fresh_spends {pre : List ℕ} {nulls : List F} {records : List RecordOpening}
    (old : ∀ j ∈ pre, ∃ (ro : RecordOpening) (uid : U64) (n : TransactionNote) (nf : F) (r : RecordOpening),
      uid.val = j ∧ GeneratedSpend n ro uid nf ∧ nf ∈ nulls ∧ records[j]? = some r ∧ SameRecord r ro)
    {xs : List (RecordOpening × AccMemberWitness)} {nfs : List F}
    (gen : List.Forall₂ (fun (x : RecordOpening × AccMemberWitness) nf => ∃ n, GeneratedSpend n x.1 x.2.uid nf) xs nfs)
    (found : ∀ x ∈ xs.filter (fun x => x.1.asset_def.code ≠ dummyCode),
      ∃ r, records[x.2.uid.val]? = some r ∧ SameRecord r x.1)
    (nodup : nfs.Nodup) (fresh : ∀ nf ∈ nfs, nf ∉ nulls) :
    ((xs.filter (fun x => x.1.asset_def.code ≠ dummyCode)).map (fun x => x.2.uid.val)).Nodup ∧
      ∀ x ∈ xs.filter (fun x => x.1.asset_def.code ≠ dummyCode), x.2.uid.val ∉ pre := by
  have same : ∀ {n1 n2 : TransactionNote} {a b : RecordOpening} {ua ub : U64} {f1 f2 : F} {r r' : RecordOpening},
      GeneratedSpend n1 a ua f1 → GeneratedSpend n2 b ub f2 → ua.val = ub.val → a.asset_def.code ≠ dummyCode →
      records[ua.val]? = some r → SameRecord r a → records[ub.val]? = some r' → SameRecord r' b → f1 = f2 := by
    intro n1 n2 a b ua ub f1 f2 r r' g1 g2 hu hd hr hs hr' hs'
    obtain rfl := Fin.ext hu
    obtain rfl : r = r' := Option.some.inj (hr.symm.trans hr')
    refine C10_generated_same g1 g2 (hs.2.2.1.symm.trans hs'.2.2.1) (hs.2.1.symm.trans hs'.2.1)
      (hs.commitment.symm.trans hs'.commitment) ?_
    intro he
    rw [he] at hd
    exact hd rfl
  constructor
  · induction gen with
    | nil => simp
    | cons hx hxs ih =>
      rename_i x nf xs nfs
      rw [List.nodup_cons] at nodup
      have ih' := ih (fun y hy => found y (by
        rw [List.mem_filter] at hy ⊢
        exact ⟨List.mem_cons_of_mem _ hy.1, hy.2⟩)) nodup.2 (fun y hy => fresh y (List.mem_cons_of_mem _ hy))
      rw [List.filter_cons]
      split
      · rename_i hd
        rw [List.map_cons, List.nodup_cons]
        refine ⟨?_, ih'⟩
        intro hm
        obtain ⟨y, hy, hyu⟩ := List.mem_map.1 hm
        rw [List.mem_filter] at hy
        obtain ⟨g, hg⟩ := hx
        obtain ⟨nf', hnf', g', hg'⟩ := forall₂_mem_right (List.Forall₂.flip (R := fun nf
          (x : RecordOpening × AccMemberWitness) => ∃ n, GeneratedSpend n x.1 x.2.uid nf) hxs) y hy.1
        obtain ⟨r, hr, hs⟩ := found x (by rw [List.mem_filter]; exact ⟨List.mem_cons_self, hd⟩)
        obtain ⟨r', hr', hs'⟩ := found y (by rw [List.mem_filter]; exact ⟨List.mem_cons_of_mem _ hy.1, hy.2⟩)
        have := same hg hg' hyu.symm (by simpa using hd) hr hs hr' hs'
        exact nodup.1 (this ▸ hnf')
      · exact ih'
  · intro x hx hp
    obtain ⟨ro, uid, n, nf, r, hu, hg, hnf, hr, hs⟩ := old _ hp
    obtain ⟨r', hr', hs'⟩ := found x hx
    rw [List.mem_filter] at hx
    obtain ⟨nf', hnf', g', hg'⟩ := forall₂_mem_right (List.Forall₂.flip (R := fun nf
      (x : RecordOpening × AccMemberWitness) => ∃ n, GeneratedSpend n x.1 x.2.uid nf) gen) x hx.1
    have hd : x.1.asset_def.code ≠ dummyCode := by simpa using hx.2
    have := same hg' hg hu.symm hd hr' hs' (by rw [hu]; exact hr) hs
    exact fresh nf' hnf' (this ▸ hnf)

theorem realSpends_flatMap (ts : List Txn) :
    ts.flatMap Txn.realSpends = (ts.flatMap (·.spends)).filter (fun x => x.1.asset_def.code ≠ dummyCode) := by
  induction ts with
  | nil => rfl
  | cons t ts ih => rw [List.flatMap_cons, List.flatMap_cons, List.filter_append, ih]; rfl

theorem mintedBy_eq (c : AssetCode) (ts : List Txn) : mintedBy c ts = (ts.map (Txn.minted c)).sum := rfl

/-- amounts of a block -/
theorem block_balance {d : Fin 256} {ts : List Txn} (made : ∀ t ∈ ts, Made d t) {c : AssetCode} (hc : c ≠ dummyCode) :
    totalOf c ((ts.flatMap Txn.realSpends).map (·.1)) + mintedBy c ts =
      totalOf c (ts.flatMap (·.creates)) +
        (if c = nativeCode then (ts.map (fun t => t.note.fee.val)).sum else 0) := by
  induction ts with
  | nil => simp [mintedBy, totalOf]
  | cons t ts ih =>
    have h1 := (made t List.mem_cons_self).balance hc
    have h2 := ih (fun t' ht' => made t' (List.mem_cons_of_mem _ ht'))
    rw [mintedBy_eq] at h2 ⊢
    simp only [List.flatMap_cons, List.map_append, totalOf_append, List.map_cons, List.sum_cons]
    by_cases hn : c = nativeCode
    · simp only [if_pos hn] at h1 h2 ⊢
      omega
    · simp only [if_neg hn] at h1 h2 ⊢
      omega

/-- every spend of a block is found among the records created before it -/
theorem Inv.found_block {d : Fin 256} {h : List Event} {s : LedgerState} {ts : List Txn} (i : Inv d h s)
    (made : ∀ t ∈ ts, Made d t) (nc : NoCollision d (created h) (ts.flatMap Txn.realSpends))
    (v1 : ∀ t ∈ ts.map (·.note), t.merkleRoot ∈ s.roots) :
    ∀ x ∈ ts.flatMap Txn.realSpends, ∃ r, (created h)[x.2.uid.val]? = some r ∧ SameRecord r x.1 := by
  intro x hx
  obtain ⟨t, ht, hxt⟩ := List.mem_flatMap.1 hx
  obtain ⟨m1, m2⟩ := (made t ht).member hxt
  obtain ⟨k, hk, hroot⟩ := i.roots _ (v1 t.note (List.mem_map_of_mem ht))
  rw [hroot] at m1
  have hlen : s.leaves.length = (created h).length := by rw [i.leaves, List.length_map]
  have hsub : ∀ y ∈ pathCalls (E.leafHash (x.2.uid.val : F) x.1.commitment) x.2.path,
      y ∈ (ts.flatMap Txn.realSpends).flatMap
        (fun s => pathCalls (E.leafHash (s.2.uid.val : F) s.1.commitment) s.2.path) :=
    fun y hy => List.mem_flatMap.2 ⟨x, hx, hy⟩
  have hleaf := path_leaf (leaves := s.leaves.take k) m2
    (by rw [List.length_take]; have := i.size; omega) x.2.uid.isLt
    (fun a ha y hy => nc.node a (List.mem_flatMap.2 ⟨k, by rw [List.mem_range]; omega, by rw [← i.leaves]; exact ha⟩)
      y (hsub y hy))
    (fun y hy => nc.node_zero y (hsub y hy))
    (fun a ha => nc.leaf a (by
      rw [← i.leaves]
      unfold leafCalls at ha ⊢
      obtain ⟨z, hz, rfl⟩ := List.mem_map.1 ha
      refine List.mem_map.2 ⟨z, ?_, rfl⟩
      rw [List.mem_zipIdx_iff_getElem?] at hz ⊢
      rw [List.getElem?_take] at hz
      split at hz
      · exact hz
      · cases hz) x hx)
    (nc.leaf_zero x hx) m1
  rw [List.getElem?_take] at hleaf
  split at hleaf
  · rw [i.leaves, List.getElem?_map, Option.map_eq_some_iff] at hleaf
    obtain ⟨r, hr, hrc⟩ := hleaf
    exact ⟨r, hr, sameRecord_of_scalars (nc.commit r (List.mem_of_getElem? hr) x hx hrc)⟩
  · cases hleaf

theorem Inv.block {d : Fin 256} {h : List Event} {s s' : LedgerState} {ts : List Txn} {blind : F} {who : UserPubKey}
    {time : U64} (i : Inv d h s) (made : ∀ t ∈ ts, Made d t)
    (nc : NoCollision d (created h) (ts.flatMap Txn.realSpends))
    (ok : (Event.block ts blind who time).apply d s = .ok s') : Inv d (h ++ [.block ts blind who time]) s' := by
  rw [Event.apply, bind_ok_iff] at ok
  obtain ⟨⟨⟩, hv, hb⟩ := ok
  obtain ⟨v1, v2, v3, -⟩ := validateTxnsBatch_ok hv
  obtain ⟨fee, hfee, e1, e2, e3, e4, -⟩ := LedgerState.insertBlock_ok hb
  have hfee' : fee = collected ts := by
    have := (calculateFee_ok _ _).1 hfee
    rw [List.map_map] at this
    refine Fin.ext ?_
    rw [← this]
    show _ = Fin.val (Fin.ofNat (2 ^ 128) ((ts.map (fun t => t.note.fee.val)).sum))
    rw [Fin.ofNat]
    refine (Nat.mod_eq_of_lt ?_).symm
    have hlt := fee.isLt
    rw [← this] at hlt
    exact hlt
  have found := i.found_block made nc v1
  -- nullifiers belong to spends
  have gen : List.Forall₂ (fun (x : RecordOpening × AccMemberWitness) nf => ∃ n, GeneratedSpend n x.1 x.2.uid nf)
      (ts.flatMap (·.spends)) ((ts.map (·.note)).flatMap TransactionNote.nullifiers) := by
    clear found nc v1 v2 v3 e1 e3 hfee hfee' hv hb
    induction ts with
    | nil => exact .nil
    | cons t ts ih =>
      rw [List.flatMap_cons, List.map_cons, List.flatMap_cons]
      refine List.rel_append ?_ (ih (fun t' ht' => made t' (List.mem_cons_of_mem _ ht')))
      exact (made t List.mem_cons_self).nullifiers.imp (fun x nf hx => ⟨_, hx⟩)
  have old : ∀ j ∈ spentAt h, ∃ (ro : RecordOpening) (uid : U64) (n : TransactionNote) (nf : F) (r : RecordOpening),
      uid.val = j ∧ GeneratedSpend n ro uid nf ∧ nf ∈ s.nullifiers ∧ (created h)[j]? = some r ∧ SameRecord r ro := by
    intro j hj
    obtain ⟨x, hx, rfl⟩ := List.mem_map.1 hj
    obtain ⟨n, nf, h1, h2⟩ := i.nulls x hx
    obtain ⟨r, hr, hs⟩ := i.found x hx
    exact ⟨x.1, x.2.uid, n, nf, r, rfl, h1, h2, hr, hs⟩
  obtain ⟨f1, f2⟩ := fresh_spends old gen (by rw [← realSpends_flatMap]; exact found) v2 v3
  rw [← realSpends_flatMap] at f1 f2
  have hcr : (Event.block ts blind who time).creates = ts.flatMap (·.creates) ++ [feeRecord who (collected ts) blind] := rfl
  have hcomm : (ts.map (·.note)).flatMap TransactionNote.outputCommitments =
      (ts.flatMap (·.creates)).map RecordOpening.commitment := by
    clear found nc v1 v2 v3 e1 e3 hfee hfee' hv hb gen f1 f2 hcr
    induction ts with
    | nil => rfl
    | cons t ts ih =>
      rw [List.map_cons, List.flatMap_cons, List.flatMap_cons, List.map_append,
        (made t List.mem_cons_self).commitments, ih (fun t' ht' => made t' (List.mem_cons_of_mem _ ht'))]
  refine ⟨?_, e4, ?_, ?_, ?_, ?_, ?_⟩
  · rw [e1, i.leaves, created_append, hcr, hcomm, hfee']
    simp
  · intro r hr
    rw [e2, List.mem_cons] at hr
    rcases hr with rfl | hr
    · exact ⟨s'.leaves.length, le_rfl, by rw [List.take_length]⟩
    · obtain ⟨k, hk, rfl⟩ := i.roots r hr
      refine ⟨k, ?_, ?_⟩
      · rw [e1, List.length_append, List.length_append]; omega
      · rw [e1, List.append_assoc, List.take_append_of_le_length hk]
  · rw [spends_append, created_append]
    intro x hx
    have : ∃ r, (created h)[x.2.uid.val]? = some r ∧ SameRecord r x.1 := by
      rcases List.mem_append.1 hx with hx | hx
      · exact i.found x hx
      · exact found x hx
    obtain ⟨r, hr, hs⟩ := this
    exact ⟨r, by rw [List.getElem?_append_left (List.getElem?_eq_some_iff.1 hr).1]; exact hr, hs⟩
  · rw [spentAt_append, List.nodup_append']
    refine ⟨i.nodup, f1, ?_⟩
    intro j hj hj'
    obtain ⟨x, hx, rfl⟩ := List.mem_map.1 hj'
    exact f2 x hx hj
  · rw [spends_append]
    intro x hx
    rcases List.mem_append.1 hx with hx | hx
    · obtain ⟨n, nf, h1, h2⟩ := i.nulls x hx
      exact ⟨n, nf, h1, (e3 nf).2 (Or.inr h2)⟩
    · have hx : x ∈ ts.flatMap Txn.realSpends := hx
      rw [realSpends_flatMap, List.mem_filter] at hx
      obtain ⟨nf, hnf, n, hg⟩ := forall₂_mem_right (List.Forall₂.flip (R := fun nf
        (x : RecordOpening × AccMemberWitness) => ∃ n, GeneratedSpend n x.1 x.2.uid nf) gen) x hx.1
      exact ⟨n, nf, hg, (e3 nf).2 (Or.inl hnf)⟩
  · intro c hc
    have hlt : ∀ j ∈ spentAt (h ++ [.block ts blind who time]), j < 0 + (created h).length := by
      rw [spentAt_append, Nat.zero_add]
      intro j hj
      rcases List.mem_append.1 hj with hj | hj
      · exact i.found_lt j hj
      · obtain ⟨x, hx, rfl⟩ := List.mem_map.1 hj
        obtain ⟨r, hr, -⟩ := found x hx
        exact (List.getElem?_eq_some_iff.1 hr).1
    rw [unspent_total, created_append, left_append, left_of_lt _ hlt, issued_append, ← i.value c hc, unspent_total,
      spentAt_append]
    have hsp := left_spend (c := c) (records := created h) (pos := fun x : RecordOpening × AccMemberWitness => x.2.uid.val)
      (ro := fun x => x.1) (ts.flatMap Txn.realSpends) (gone := spentAt h)
      (fun x hx => by
        obtain ⟨r, hr, hs⟩ := found x hx
        refine ⟨r, hr, ?_⟩
        unfold weight
        rw [hs.1, hs.2.1]) f1 f2
    have hbal := block_balance made hc
    have hissued : Event.issued c (.block ts blind who time) = mintedBy c ts := rfl
    have htx : (Event.block ts blind who time).txns = ts := rfl
    have hfv : (collected ts).val = (ts.map (fun t => t.note.fee.val)).sum := by
      rw [← hfee']
      have := (calculateFee_ok _ _).1 hfee
      rw [List.map_map] at this
      exact this.symm
    rw [hissued, htx, hcr, totalOf_append, totalOf_cons]
    have e0 : totalOf c [] = 0 := rfl
    have en : (feeRecord who (collected ts) blind).asset_def.code = (nativeCode : F) := rfl
    have ea : (feeRecord who (collected ts) blind).amount = collected ts := rfl
    rw [e0, en, ea, hfv]
    by_cases hn : c = nativeCode
    · subst hn
      simp only [if_true] at hbal ⊢
      omega
    · have hn' : ¬ nativeCode = c := fun h => hn h.symm
      simp only [if_neg hn, if_neg hn'] at hbal ⊢
      omega

/-- **The invariant holds along every honest history.** -/
theorem inv_run {d : Fin 256} (h : List Event) : ∀ {s : LedgerState}, run d h = .ok s → Honest d h →
    NoCollision d (created h) (spends h) → Inv d h s := by
  induction h using List.reverseRecOn with
  | nil =>
    intro s hr _ _
    cases hr
    exact Inv.start d
  | append_singleton h e ih =>
    intro s hr ho nc
    obtain ⟨s1, h1, h2⟩ := runFrom_append.1 hr
    rw [created_append, spends_append] at nc
    have i := ih h1 (fun e' he' => ho e' (List.mem_append_left _ he'))
      (nc.mono (fun x hx => List.mem_append_left _ hx))
    cases e with
    | grant ro => exact i.grant h2
    | block ts blind who time =>
      exact i.block (ho _ (List.mem_append_right _ List.mem_cons_self))
        (nc.mono (fun x hx => List.mem_append_right _ hx)) h2

end Spec

end Cap
