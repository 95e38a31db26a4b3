/-
C73: without the keys nobody takes a record, makes it unspendable, or diminishes what an address holds.

status: proved
note: Histories of the reference ledger in which anybody submits any notes (the setting of C57). C73_spender: whoever takes a record off the ledger holds a secret key of its address (then it is not frozen), or a secret key of its policy's freezer (then the transaction is a freeze, which gives the same amount of the same asset back to the same owner). C73_kept: a position that is unspent stays unspent as long as neither key is used. C73_frozen: a frozen record is taken only with the freezer's key. C73_balance: what an address holds of an asset (frozen records included) does not become less as long as no transaction spends with a secret key of the address. C73_nullifier: if the nullifier that the owner would publish for a record has been published (so that the ledger would refuse the owner's spending), then it was published by taking this very record with one of the two keys, or two named inputs of a hash function collide. C73_accepted: the same for a history of which only acceptance is known. Hypothesis on hashes as in C57 (NoCollisionV), about the evaluations of this history.
-/
import Verif.SpecHolder
import Verif.Props.C57
import Verif.Props.C05
import Verif.Props.C06
import Verif.Props.C07

namespace Cap

open Spec

variable [E : CapEnv] [S : CapExt]

/-- what the circuits say about who spends a record with these committed values -/
theorem takenBy {d : ℕ} {o : Opening} (sat : o.Satisfied d) {x : Spend} (hx : x ∈ o.spends) {ro : RecordOpening}
    (reads : Reads ro x.ro) (real : ro.asset_def.code ≠ dummyCode) : TakenBy o x ro := by
  obtain ⟨h1, h2, h3, -, -, h6, -⟩ := reads_iff.1 reads
  have hv := (sat.nullifiers.2 x hx)
  cases o with
  | transfer n w =>
    obtain ⟨i, hi, rfl⟩ := List.mem_map.1 hx
    exact .owner rfl ((C05_transfer_records sat).1 i hi reads) (xy_inj (hv.spend.2.trans h3.symm))
  | mint n w =>
    obtain rfl := List.mem_singleton.1 hx
    exact .owner rfl ((C05_mint sat).2 ro (Or.inr (Or.inl reads))) (xy_inj (hv.spend.2.trans h3.symm))
  | freeze n w =>
    rcases List.mem_cons.1 hx with rfl | hx'
    · exact .owner rfl ((C05_freeze sat).2 ro (Or.inl reads)) (xy_inj (hv.spend.2.trans h3.symm))
    · obtain ⟨i, hi, rfl⟩ := List.mem_map.1 hx'
      obtain ⟨e1, e2, e3, -, -⟩ := C06_partial sat i hi
      refine .freezer n rfl rfl ?_ (xy_inj (hv.spend.2.trans h6.symm)) i.out
        (List.mem_cons_of_mem _ (List.mem_map_of_mem hi)) (e1.trans h3.symm) (e3.trans h2.symm) (e2.trans h1.symm)
      have := hv.freezer rfl (by show i.ro.asset_code ≠ _; rw [← h2]; exact real)
      intro hz
      refine this ?_
      show i.ro.policy.freezer_pk = _
      rw [← h6, hz]
      exact xy_eq_neutral.2 rfl

theorem mem_everSpent {h : List Step} {x : Spend} : x ∈ everSpent h ↔ ∃ e ∈ h, ∃ o ∈ e.txns, x ∈ o.realSpends := by
  simp only [everSpent, List.mem_flatMap]

theorem mem_realSpends {o : Opening} {x : Spend} : x ∈ o.realSpends ↔ x ∈ o.spends ∧ x.ro.asset_code ≠ dummyCode := by
  simp [Opening.realSpends, List.mem_filter]

/-- **Who takes a record.**  The record `ro` stands at position `u`.  Every spend of this position is of `ro`, by its owner
if it is not frozen, or by its freezer. -/
theorem C73_spender {d : Fin 256} {h : List Step} {s : LedgerState} (ok : run d (h.map Step.event) = .ok s)
    (sat : AllSatisfied d h) (hashes : NoCollisionV d (everCreated h) (everSpent h)) {u : ℕ} {r : RecordV}
    (stands : (everCreated h)[u]? = some r) {ro : RecordOpening} (reads : Reads ro r)
    (real : ro.asset_def.code ≠ dummyCode) :
    ∀ e ∈ h, ∀ o ∈ e.txns, ∀ x ∈ o.realSpends, x.acc.uid = (u : F) → Reads ro x.ro ∧ TakenBy o x ro := by
  intro e he o ho x hx hu
  have i := inv0_run h ok sat hashes
  obtain ⟨r', hr', hsame⟩ := (i.found x (mem_everSpent.2 ⟨e, he, o, ho, hx⟩)).position i.length
  have hl := i.length
  have hj := (List.getElem?_eq_some_iff.1 stands).1
  have hp := E.p_gt
  rw [hu, ZMod.val_natCast_of_lt (by omega), stands, Option.some.injEq] at hr'
  subst hr'
  rw [Prod.mk.injEq] at hsame
  have hre : Reads ro x.ro := ⟨reads.1.trans hsame.1, reads.2.trans hsame.2⟩
  exact ⟨hre, takenBy (sat e he o ho) (mem_realSpends.1 hx).1 hre real⟩

/-- **A frozen record is taken only with the freezer's key.** -/
theorem C73_frozen {d : Fin 256} {h : List Step} {s : LedgerState} (ok : run d (h.map Step.event) = .ok s)
    (sat : AllSatisfied d h) (hashes : NoCollisionV d (everCreated h) (everSpent h)) {u : ℕ} {r : RecordV}
    (stands : (everCreated h)[u]? = some r) {ro : RecordOpening} (reads : Reads ro r)
    (real : ro.asset_def.code ≠ dummyCode) (frozen : ro.freeze_flag = .frozen)
    (idle : ∀ e ∈ h, ¬ e.Uses .freezer ro.asset_def.policy.freezer_pk) : (u : F) ∉ spentPositions h := by
  intro hu
  obtain ⟨x, hx, hxu⟩ := List.mem_map.1 hu
  obtain ⟨e, he, o, ho, hxo⟩ := mem_everSpent.1 hx
  cases (C73_spender ok sat hashes stands reads real e he o ho x hxo hxu).2 with
  | owner _ unfrozen _ => rw [frozen] at unfrozen; cases unfrozen
  | freezer _ _ who _ key => exact idle e he ⟨o, ho, x, hxo, who, key⟩

/-- **What is unspent stays so while its keys are not used.** -/
theorem C73_kept {d : Fin 256} {before after : List Step} {s : LedgerState}
    (ok : run d ((before ++ after).map Step.event) = .ok s) (sat : AllSatisfied d (before ++ after))
    (hashes : NoCollisionV d (everCreated (before ++ after)) (everSpent (before ++ after))) {u : ℕ} {r : RecordV}
    (stands : (everCreated before)[u]? = some r) {ro : RecordOpening} (reads : Reads ro r)
    (real : ro.asset_def.code ≠ dummyCode) (unspent : (u : F) ∉ spentPositions before)
    (owner_idle : ∀ e ∈ after, ¬ e.Uses .user ro.pub_key.address)
    (freezer_idle : ∀ e ∈ after, ¬ e.Uses .freezer ro.asset_def.policy.freezer_pk) :
    (u : F) ∉ spentPositions (before ++ after) := by
  intro hu
  have stands' : (everCreated (before ++ after))[u]? = some r := by
    have : everCreated (before ++ after) = everCreated before ++ everCreated after := by simp [everCreated]
    rw [this, List.getElem?_append_left (List.getElem?_eq_some_iff.1 stands).1]
    exact stands
  obtain ⟨x, hx, hxu⟩ := List.mem_map.1 hu
  obtain ⟨e, he, o, ho, hxo⟩ := mem_everSpent.1 hx
  rcases List.mem_append.1 he with he' | he'
  · exact unspent (List.mem_map.2 ⟨x, mem_everSpent.2 ⟨e, he', o, ho, hxo⟩, hxu⟩)
  · cases (C73_spender ok sat hashes stands' reads real e he o ho x hxo hxu).2 with
    | owner who _ key => exact owner_idle e he' ⟨o, ho, x, hxo, who, key⟩
    | freezer _ _ who _ key => exact freezer_idle e he' ⟨o, ho, x, hxo, who, key⟩

/-! ### What an address holds -/

/-- taking several out, with repetitions -/
theorem leftOf_take {α β : Type} {w : α → ℕ} {l : List α} {pos : β → ℕ} {v : β → ℕ} (xs : List β) : ∀ {gone : List ℕ},
    (∀ x ∈ xs, ∃ r, l[pos x]? = some r ∧ w r = v x) →
    leftOf w gone l 0 ≤ leftOf w (gone ++ xs.map pos) l 0 + (xs.map v).sum := by
  induction xs with
  | nil => intro gone _; simp
  | cons x xs ih =>
    intro gone hr
    obtain ⟨r, hx, hw⟩ := hr x List.mem_cons_self
    have h1 := ih (gone := gone ++ [pos x]) (fun y hy => hr y (List.mem_cons_of_mem _ hy))
    rw [List.map_cons, List.map_cons, List.sum_cons,
      show gone ++ pos x :: xs.map pos = gone ++ [pos x] ++ xs.map pos by simp]
    by_cases hg : pos x ∈ gone
    · have : leftOf w (gone ++ [pos x]) l 0 = leftOf w gone l 0 := by
        refine leftOf_congr l fun j _ => ?_
        simp only [List.mem_append, List.mem_singleton, or_iff_left_iff_imp]
        rintro rfl
        exact hg
      omega
    · have h2 := leftOf_remove (w := w) (n := 0) hx (by rw [Nat.zero_add]; exact hg)
      rw [Nat.zero_add] at h2
      omega

omit S in
theorem left_amountFor {A : Pt} {c : AssetCode} {gone : List F} (l : List RecordV) {n : ℕ} (small : n + l.length < E.p) :
    ((((l.zipIdx n).filter (fun x => ((x.2 : ℕ) : F) ∉ gone)).map (·.1)).map (amountFor A c)).sum =
      leftOf (amountFor A c) (gone.map ZMod.val) l n := by
  induction l generalizing n with
  | nil => rfl
  | cons r rs ih =>
    rw [List.length_cons] at small
    rw [List.zipIdx_cons, List.filter_cons, leftOf_cons, ← ih (by omega)]
    have hm : ((n : ℕ) : F) ∈ gone ↔ n ∈ gone.map ZMod.val := cast_mem (by omega)
    by_cases h : n ∈ gone.map ZMod.val
    · rw [if_pos h, if_neg (by simpa using hm.2 h), Nat.zero_add]
    · rw [if_neg h, if_pos (by simpa using fun h' => h (hm.1 h')), List.map_cons, List.map_cons, List.sum_cons]

theorem heldBy_left {A : Pt} {c : AssetCode} {h : List Step} (small : (everCreated h).length < 2 ^ 64) :
    heldBy A c h = leftOf (amountFor A c) ((spentPositions h).map ZMod.val) (everCreated h) 0 :=
  left_amountFor _ (by have := E.p_gt; omega)

omit S in
theorem amountFor_same {A : Pt} {c : AssetCode} {r s : RecordV} (h : (r.scalars, r.blind) = (s.scalars, s.blind)) :
    amountFor A c r = amountFor A c s := by
  obtain ⟨h1, h2, h3, -⟩ := scalarsV_inj h
  unfold amountFor
  rw [h1, h2, h3]

/-- what a transaction takes from an address without its key, it gives back -/
theorem given_back {d : ℕ} {o : Opening} (sat : o.Satisfied d) {A : Pt} {c : AssetCode}
    (idle : ∀ x ∈ o.realSpends, x.who = .user → x.sk.val • E.gen ≠ A) :
    ((o.realSpends.map (fun x => amountFor A c x.ro)).sum) ≤ (o.creates.map (amountFor A c)).sum := by
  have user0 : ∀ x ∈ o.realSpends, x.who = .user → amountFor A c x.ro = 0 := by
    intro x hx hw
    have hv := sat.nullifiers.2 x (mem_realSpends.1 hx).1
    unfold amountFor
    rw [if_neg]
    rintro ⟨ho, -⟩
    refine idle x hx hw (xy_inj (hv.spend.2.trans ?_))
    rw [hw]
    exact ho
  have none : (∀ x ∈ o.realSpends, x.who = .user) → (o.realSpends.map (fun x => amountFor A c x.ro)).sum = 0 := by
    intro h
    refine List.sum_eq_zero ?_
    intro y hy
    obtain ⟨x, hx, rfl⟩ := List.mem_map.1 hy
    exact user0 x hx (h x hx)
  cases o with
  | transfer n w =>
    rw [none]
    · exact Nat.zero_le _
    · intro x hx
      obtain ⟨i, -, rfl⟩ := List.mem_map.1 (mem_realSpends.1 hx).1
      rfl
  | mint n w =>
    rw [none]
    · exact Nat.zero_le _
    · intro x hx
      obtain rfl := List.mem_singleton.1 (mem_realSpends.1 hx).1
      rfl
  | freeze n w =>
    have hp := C06_partial sat
    have e1 : (Opening.freeze n w).realSpends =
        List.filter (fun s => s.ro.asset_code ≠ dummyCode) (⟨w.fee_ro, w.fee_acc, w.fee_sk, .user⟩ :: w.inputs.map fun i => ⟨i.ro, i.acc, i.sk, .freezer⟩) := rfl
    have e2 : (Opening.freeze n w).creates = w.chg_ro :: w.inputs.map (·.out) := rfl
    have rest : ∀ l : List FreezeInputV, (∀ i ∈ l, i ∈ w.inputs) →
        ((List.filter (fun s : Spend => s.ro.asset_code ≠ dummyCode) (l.map fun i => ⟨i.ro, i.acc, i.sk, .freezer⟩)).map
          (fun x => amountFor A c x.ro)).sum ≤ ((l.map (·.out)).map (amountFor A c)).sum := by
      intro l
      induction l with
      | nil => intro _; simp
      | cons i l ih =>
        intro hl
        have := ih (fun j hj => hl j (List.mem_cons_of_mem _ hj))
        obtain ⟨p1, p2, p3, -, -⟩ := hp i (hl i List.mem_cons_self)
        have hsame : amountFor A c i.out = amountFor A c i.ro := by
          unfold amountFor
          rw [p1, p2, p3]
        rw [List.map_cons, List.filter_cons, List.map_cons, List.map_cons, List.sum_cons, hsame]
        split
        · rw [List.map_cons, List.sum_cons]
          exact Nat.add_le_add_left this _
        · omega
    rw [e2, List.map_cons, List.sum_cons]
    have hr := rest w.inputs (fun _ h => h)
    rw [e1, List.filter_cons]
    rw [e1, List.filter_cons] at user0
    split at user0
    · rename_i hd
      rw [if_pos hd, List.map_cons, List.sum_cons, user0 _ List.mem_cons_self rfl]
      omega
    · rename_i hd
      rw [if_neg hd]
      omega

theorem held_step {d : Fin 256} {h : List Step} {e : Step} {s : LedgerState}
    (ok : run d ((h ++ [e]).map Step.event) = .ok s) (sat : AllSatisfied d (h ++ [e]))
    (hashes : NoCollisionV d (everCreated (h ++ [e])) (everSpent (h ++ [e]))) {A : Pt} (idle : ¬ e.Uses .user A)
    (c : AssetCode) : heldBy A c h ≤ heldBy A c (h ++ [e]) := by
  obtain ⟨s1, h1, h2⟩ := event_append ok
  have i' := inv0_run _ ok sat hashes
  have i := inv0_run h h1 (fun e' he' => sat e' (List.mem_append_left _ he')) (by
    rw [everCreated_append, everSpent_append] at hashes
    exact hashes.mono (fun x hx => List.mem_append_left _ hx))
  have hfound : ∀ x ∈ e.txns.flatMap Opening.realSpends, x.Of (everCreated h) := by
    intro x hx
    obtain ⟨o, ho, hxo⟩ := List.mem_flatMap.1 hx
    exact C57_spends (after := []) ok sat hashes o ho x (mem_realSpends.1 hxo).1 (mem_realSpends.1 hxo).2
  rw [heldBy_left i.length, heldBy_left i'.length, everCreated_append, leftOf_append]
  have hpos : (spentPositions (h ++ [e])).map ZMod.val =
      (spentPositions h).map ZMod.val ++ (e.txns.flatMap Opening.realSpends).map (fun x => x.acc.uid.val) := by
    rw [spentPositions_append, List.map_append, List.map_map]
    rfl
  have htake := leftOf_take (w := amountFor A c) (l := everCreated h) (pos := fun x : Spend => x.acc.uid.val)
    (v := fun x => amountFor A c x.ro) (e.txns.flatMap Opening.realSpends) (gone := (spentPositions h).map ZMod.val)
    (fun x hx => by
      obtain ⟨r, hr, hs⟩ := (hfound x hx).position i.length
      exact ⟨r, hr, amountFor_same hs⟩)
  rw [← hpos] at htake
  have hnew : leftOf (amountFor A c) ((spentPositions (h ++ [e])).map ZMod.val) e.creates (0 + (everCreated h).length) =
      (e.creates.map (amountFor A c)).sum := by
    refine leftOf_of_lt _ ?_
    intro j hj
    rw [hpos, List.mem_append] at hj
    rw [Nat.zero_add]
    rcases hj with hj | hj
    · exact i.lt j hj
    · obtain ⟨x, hx, rfl⟩ := List.mem_map.1 hj
      obtain ⟨r, hr, -⟩ := (hfound x hx).position i.length
      exact (List.getElem?_eq_some_iff.1 hr).1
  have hback : ((e.txns.flatMap Opening.realSpends).map (fun x => amountFor A c x.ro)).sum ≤
      (e.creates.map (amountFor A c)).sum := by
    cases e with
    | grant ro => simp [Step.txns]
    | block os blind who time =>
      have hsat := sat (.block os blind who time) (List.mem_append_right _ List.mem_cons_self)
      show ((os.flatMap Opening.realSpends).map _).sum ≤ ((os.flatMap Opening.creates ++ [_]).map _).sum
      rw [List.map_append, List.sum_append]
      refine le_trans ?_ (Nat.le_add_right _ _)
      have hidle : ∀ o ∈ os, ∀ x ∈ o.realSpends, x.who = .user → x.sk.val • E.gen ≠ A :=
        fun o ho x hx hw hk => idle ⟨o, ho, x, hx, hw, hk⟩
      have hsat' : ∀ o ∈ os, o.Satisfied d.val := hsat
      clear hsat idle hnew htake hpos hfound i i' h2 ok sat hashes
      induction os with
      | nil => simp
      | cons o os ih =>
        rw [List.flatMap_cons, List.flatMap_cons, List.map_append, List.map_append, List.sum_append, List.sum_append]
        exact Nat.add_le_add (given_back (hsat' o List.mem_cons_self) (hidle o List.mem_cons_self))
          (ih (fun o' ho' => hidle o' (List.mem_cons_of_mem _ ho')) (fun o' ho' => hsat' o' (List.mem_cons_of_mem _ ho')))
  omega

/-- **What an address holds does not become less while its key is not used**, whatever anybody submits. -/
theorem C73_balance {d : Fin 256} {before after : List Step} {s : LedgerState}
    (ok : run d ((before ++ after).map Step.event) = .ok s) (sat : AllSatisfied d (before ++ after))
    (hashes : NoCollisionV d (everCreated (before ++ after)) (everSpent (before ++ after))) {A : Pt}
    (idle : ∀ e ∈ after, ¬ e.Uses .user A) (c : AssetCode) : heldBy A c before ≤ heldBy A c (before ++ after) := by
  induction after using List.reverseRecOn generalizing s with
  | nil => rw [List.append_nil]
  | append_singleton l e ih =>
    rw [← List.append_assoc] at ok sat hashes ⊢
    obtain ⟨s1, h1, -⟩ := event_append ok
    refine le_trans (ih h1 (fun e' he' => sat e' (List.mem_append_left _ he')) ?_
      (fun e' he' => idle e' (List.mem_append_left _ he'))) (held_step ok sat hashes (idle e (by simp)) c)
    rw [everCreated_append, everSpent_append] at hashes
    exact hashes.mono (fun x hx => List.mem_append_left _ hx)

/-! ### Nullifiers -/

theorem mem_openedSpends {h : List Step} {y : Opening × Spend} :
    y ∈ openedSpends h ↔ ∃ e ∈ h, y.1 ∈ e.txns ∧ y.2 ∈ y.1.spends := by
  simp only [openedSpends, List.mem_flatMap, List.mem_map]
  constructor
  · rintro ⟨e, he, o, ho, x, hx, rfl⟩
    exact ⟨e, he, ho, hx⟩
  · rintro ⟨e, he, ho, hx⟩
    exact ⟨e, he, y.1, ho, y.2, hx, rfl⟩

/-- every published nullifier belongs to a spend of the history -/
theorem nullifier_source {d : Fin 256} (h : List Step) : ∀ {s : LedgerState}, run d (h.map Step.event) = .ok s →
    AllSatisfied d h → ∀ nf ∈ s.nullifiers, ∃ y ∈ openedSpends h, y.2.nullifier = nf := by
  induction h using List.reverseRecOn with
  | nil =>
    intro s hr _ nf hnf
    cases hr
    cases hnf
  | append_singleton h e ih =>
    intro s hr sat nf hnf
    obtain ⟨s1, h1, h2⟩ := event_append hr
    have old : nf ∈ s1.nullifiers → ∃ y ∈ openedSpends (h ++ [e]), y.2.nullifier = nf := by
      intro hm
      obtain ⟨y, hy, hn⟩ := ih h1 (fun e' he' => sat e' (List.mem_append_left _ he')) nf hm
      obtain ⟨e', he', rest⟩ := mem_openedSpends.1 hy
      exact ⟨y, mem_openedSpends.2 ⟨e', List.mem_append_left _ he', rest⟩, hn⟩
    cases e with
    | grant ro =>
      obtain ⟨-, -, e3, -⟩ := LedgerState.grant_ok h2
      exact old (e3 ▸ hnf)
    | block os blind who time =>
      obtain ⟨-, -, -, -, -, e6, -⟩ := block_facts (sat _ (List.mem_append_right _ List.mem_cons_self)) h2
      rcases (e6 nf).1 hnf with hm | hm
      · obtain ⟨x, hx, hn⟩ := List.mem_map.1 hm
        obtain ⟨o, ho, hxo⟩ := List.mem_flatMap.1 hx
        exact ⟨(o, x), mem_openedSpends.2 ⟨_, List.mem_append_right _ List.mem_cons_self, ho, hxo⟩, hn⟩
      · exact old hm

/-- **Nobody else makes a record unspendable.**  If the nullifier its owner would publish has been published, this very
record was taken with one of its two keys; or two named hash inputs collide. -/
theorem C73_nullifier {d : Fin 256} {h : List Step} {s : LedgerState} (ok : run d (h.map Step.event) = .ok s)
    (sat : AllSatisfied d h) {ro : RecordOpening} (real : ro.asset_def.code ≠ dummyCode) (k : UserKeyPair) (u : U64)
    (published : k.nullify ro.asset_def.policy.freezer_pk u ro.commitment ∈ s.nullifiers) :
    ∃ y ∈ openedSpends h, (y.2.acc.uid = (u.val : F) ∧ Reads ro y.2.ro ∧ TakenBy y.1 y.2 ro) ∨
      Collides prfOf (k.deriveNullifierKey ro.asset_def.policy.freezer_pk, [(u.val : F), ro.commitment])
        (spendKey y.2, [y.2.acc.uid, y.2.ro.commitment]) ∨
      Collides commitOf (ro.scalars, ro.blind) (y.2.ro.scalars, y.2.ro.blind) := by
  obtain ⟨y, hy, hn⟩ := nullifier_source h ok sat _ published
  refine ⟨y, hy, ?_⟩
  obtain ⟨e, he, ho, hx⟩ := mem_openedSpends.1 hy
  by_cases hc : (k.deriveNullifierKey ro.asset_def.policy.freezer_pk, [(u.val : F), ro.commitment]) =
      (spendKey y.2, [y.2.acc.uid, y.2.ro.commitment])
  · simp only [Prod.mk.injEq, List.cons.injEq, and_true] at hc
    by_cases hr : (ro.scalars, ro.blind) = (y.2.ro.scalars, y.2.ro.blind)
    · rw [Prod.mk.injEq] at hr
      exact Or.inl ⟨hc.2.1.symm, hr, takenBy (sat e he y.1 ho) hx hr real⟩
    · exact Or.inr (Or.inr ⟨hr, hc.2.2⟩)
  · exact Or.inr (Or.inl ⟨hc, hn.symm⟩)

/-- **For a history of which only acceptance is known.** -/
theorem C73_accepted (sound : SnarkSound) (batch : SnarkBatch) {d : Fin 256} {h : List Event} {s : LedgerState}
    (ok : run d h = .ok s) :
    ∃ h' : List Step, List.Forall₂ SameNotes h h' ∧ AllSatisfied d h' ∧
      (NoCollisionV d (everCreated h') (everSpent h') →
        (∀ (u : ℕ) (r : RecordV) (ro : RecordOpening), (everCreated h')[u]? = some r → Reads ro r →
          ro.asset_def.code ≠ dummyCode → ∀ e ∈ h', ∀ o ∈ e.txns, ∀ x ∈ o.realSpends, x.acc.uid = (u : F) →
            Reads ro x.ro ∧ TakenBy o x ro) ∧
        ∀ before after, h' = before ++ after → ∀ (A : Pt), (∀ e ∈ after, ¬ e.Uses .user A) →
          ∀ c, heldBy A c before ≤ heldBy A c h') := by
  obtain ⟨h', h1, h2, h3⟩ := C57_opened sound batch ok
  refine ⟨h', h1, h2, fun nc => ⟨fun u r ro a b c => C73_spender h3 h2 nc a b c, ?_⟩⟩
  rintro before after rfl A idle c
  exact C73_balance h3 h2 nc idle c

end Cap

namespace Cap.Examples

open Toy Spec

/-! The history of C57 (grants, a payment by Alice, a mint by Bob), and then a grant of a frozen record. -/

/-- the longer history -/
noncomputable def stepsMore : List Step := steps ++ [.grant frozenRec]

theorem stepsMore_run : ∃ s, run 2 (stepsMore.map Step.event) = .ok s := by
  have hl : led2.leaves.length = 8 := by
    have := C57_tree steps_run steps_satisfied steps_noCollision
    rw [this, List.length_map, steps_created, hist_created]
    rfl
  refine ⟨LedgerState.storeRoot 2 { led2 with leaves := led2.leaves ++ [frozenRec.commitment] }, ?_⟩
  rw [stepsMore, List.map_append]
  have hg : led2.grant 2 frozenRec =
      .ok (LedgerState.storeRoot 2 { led2 with leaves := led2.leaves ++ [frozenRec.commitment] }) := by
    rw [LedgerState.grant, room (by omega)]
    rfl
  exact runFrom_append.2 ⟨led2, steps_run, hg⟩

theorem stepsMore_satisfied : AllSatisfied 2 stepsMore := by
  intro e he o ho
  rcases List.mem_append.1 he with he | he
  · exact steps_satisfied e he o ho
  · obtain rfl := List.mem_singleton.1 he
    simp [Step.txns] at ho

theorem stepsMore_created : everCreated stepsMore = (records1 ++ [frozenRec]).map RecordOpening.toV := by
  rw [stepsMore, everCreated_append, steps_created, hist_created, List.map_append]
  rfl

theorem stepsMore_spent : everSpent stepsMore = everSpent steps := by
  rw [stepsMore, everSpent_append]
  simp [Step.txns]

theorem more_noCollision : NoCollision 2 (records1 ++ [frozenRec]) spends1 := by
  have el : (records1 ++ [frozenRec]).map (·.commitment) = leaves1 ++ [frozenRec.commitment] := by
    rw [List.map_append, leaves1_eq]; rfl
  refine ⟨?_, ?_, ?_, ?_, ?_⟩
  · rw [el, calls1_eq]
    have h : (((List.range 10).flatMap (fun k => nodeCalls ((leaves1 ++ [frozenRec.commitment]).take k) 2 0)).all
        (fun x => calls1.all (fun y =>
          decide (E.nodeHash x.1 x.2.1 x.2.2 = E.nodeHash y.1 y.2.1 y.2.2 → x = y)))) = true := by decide +kernel
    intro x hx y hy
    exact of_decide_eq_true (List.all_eq_true.1 (List.all_eq_true.1 h x hx) y hy)
  · rw [calls1_eq]
    have h : (calls1.all (fun y => decide (E.nodeHash y.1 y.2.1 y.2.2 ≠ (0 : ZMod p)))) = true := by decide +kernel
    intro y hy
    exact of_decide_eq_true (List.all_eq_true.1 h y hy)
  · rw [el]
    have h : ((leafCalls (leaves1 ++ [frozenRec.commitment])).all (fun x => spends1.all (fun s =>
        decide (E.leafHash x.1 x.2 = E.leafHash (s.2.uid.val : F) s.1.commitment →
          x = ((s.2.uid.val : F), s.1.commitment))))) = true := by decide +kernel
    intro x hx y hy
    exact of_decide_eq_true (List.all_eq_true.1 (List.all_eq_true.1 h x hx) y hy)
  · decide +kernel
  · decide +kernel

theorem stepsMore_noCollision : NoCollisionV 2 (everCreated stepsMore) (everSpent stepsMore) := by
  rw [stepsMore_created, stepsMore_spent]
  exact noCollision_toV (by rw [steps_spends, hist_spends]) more_noCollision

theorem reads_self (ro : RecordOpening) : Reads ro ro.toV := ⟨(RecordOpening.toV_scalars ro).symm, rfl⟩

/-- the payment uses a key of Alice's address, the mint one of Bob's, and neither uses a freezer's key -/
theorem steps_keys {t : Txn} {o : Opening} (h : OpensTxn 2 t o) (kind : ∀ n, t.note ≠ .freeze n) {k : UserKeyPair}
    (owner : ∀ y ∈ t.spends, y.1.pub_key.address = k.address) :
    ∀ x ∈ o.realSpends, x.who = .user ∧ x.sk.val • Toy.E.gen = k.address := by
  intro x hx
  have hx' := (mem_realSpends.1 hx).1
  have hw : x.who = .user := by
    cases o with
    | transfer n w => obtain ⟨i, -, rfl⟩ := List.mem_map.1 hx'; rfl
    | mint n w => obtain rfl := List.mem_singleton.1 hx'; rfl
    | freeze n w => exact absurd h.note.symm (kind n)
  refine ⟨hw, ?_⟩
  have hv := (h.satisfied.nullifiers.2 x hx').spend.2
  rw [hw] at hv
  have hm := List.mem_map_of_mem (f := fun s : Spend => (s.ro, s.acc)) hx'
  rw [h.spends] at hm
  obtain ⟨y, hy, e⟩ := List.mem_map.1 hm
  rw [Prod.mk.injEq] at e
  rw [← owner y hy]
  refine xy_inj (hv.trans ?_)
  show x.ro.owner_addr = _
  rw [← e.1]
  rfl

theorem keys_open1 : ∀ x ∈ open1.realSpends, x.who = .user ∧ x.sk.val • Toy.E.gen = alice.address :=
  steps_keys open1_ok (fun _ h => nomatch h) (fun y hy => by obtain rfl := List.mem_singleton.1 hy; rfl)
theorem keys_open2 : ∀ x ∈ open2.realSpends, x.who = .user ∧ x.sk.val • Toy.E.gen = bob.address :=
  steps_keys open2_ok (fun _ h => nomatch h) (fun y hy => by obtain rfl := List.mem_singleton.1 hy; rfl)

theorem no_freezer (P : Pt) : ∀ e ∈ stepsMore, ¬ e.Uses .freezer P := by
  rintro e he ⟨o, ho, x, hx, hw, -⟩
  rcases List.mem_append.1 he with he | he
  · have := steps_mem (P := fun o => ∀ x ∈ o.realSpends, x.who = .user) (fun x hx => (keys_open1 x hx).1)
      (fun x hx => (keys_open2 x hx).1) e he o ho x hx
    rw [hw] at this
    cases this
  · obtain rfl := List.mem_singleton.1 he
    simp [Step.txns] at ho

theorem alice_idle : ∀ e ∈ [Step.block [open2] 49 bob.pubKey 701], ¬ e.Uses .user alice.address := by
  rintro e he ⟨o, ho, x, hx, -, hk⟩
  obtain rfl := List.mem_singleton.1 he
  simp only [Step.txns, List.mem_singleton] at ho
  subst ho
  rw [(keys_open2 x hx).2] at hk
  exact absurd hk (by decide +kernel)

theorem steps_positions : spentPositions steps = [0, 3] := by
  have h := congrArg (List.map (fun x : RecordV × AccV => x.2.uid)) steps_spends
  rw [hist_spends, List.map_map, List.map_map] at h
  exact h.trans (by decide +kernel)

/-- `C73_spender`: Bob's 60 units at position 3, and the mint that takes them -/
example : run 2 (steps.map Step.event) = .ok led2 ∧ AllSatisfied 2 steps ∧
    NoCollisionV 2 (everCreated steps) (everSpent steps) ∧ (everCreated steps)[3]? = some bobs.toV ∧
    Reads bobs bobs.toV ∧ bobs.asset_def.code ≠ (dummyCode : ZMod p) ∧ ((3 : ℕ) : F) ∈ spentPositions steps :=
  ⟨steps_run, steps_satisfied, steps_noCollision, by rw [steps_created, hist_created]; rfl, reads_self _,
    by decide +kernel, by rw [steps_positions]; decide +kernel⟩

/-- `C73_frozen`: the frozen record at position 8 -/
example : ∃ s, run 2 (stepsMore.map Step.event) = .ok s ∧ AllSatisfied 2 stepsMore ∧
    NoCollisionV 2 (everCreated stepsMore) (everSpent stepsMore) ∧ (everCreated stepsMore)[8]? = some frozenRec.toV ∧
    Reads frozenRec frozenRec.toV ∧ frozenRec.asset_def.code ≠ (dummyCode : ZMod p) ∧ frozenRec.freeze_flag = .frozen ∧
    ∀ e ∈ stepsMore, ¬ e.Uses .freezer frozenRec.asset_def.policy.freezer_pk :=
  stepsMore_run.imp fun _ h => ⟨h, stepsMore_satisfied, stepsMore_noCollision, by rw [stepsMore_created]; rfl,
    reads_self _, by decide +kernel, rfl, no_freezer _⟩

/-- `C73_kept` and `C73_balance`: Alice's 50 units at position 1, before and after Bob's mint -/
example : (1 : F) ∉ spentPositions steps ∧
    heldBy alice.address asset.code [.grant feeRec, .grant assetRec, .block [open1] 47 bob.pubKey 700] ≤
      heldBy alice.address asset.code steps ∧ heldBy alice.address asset.code steps = 50 := by
  refine ⟨?_, C73_balance steps_run steps_satisfied steps_noCollision alice_idle _, ?_⟩
  · have h1 : (everCreated [.grant feeRec, .grant assetRec, .block [open1] 47 bob.pubKey 700])[1]? = some assetRec.toV := rfl
    have := C73_kept (u := 1) steps_run steps_satisfied steps_noCollision h1 (reads_self _) (by decide +kernel) ?_
      alice_idle (fun e he => no_freezer _ e (List.mem_append_left _ (List.mem_append_right _ he)))
    · rwa [Nat.cast_one] at this
    · intro hm
      have hs : spentPositions steps = spentPositions [.grant feeRec, .grant assetRec, .block [open1] 47 bob.pubKey 700] ++
          _ := spentPositions_append _ _
      have : ((1 : ℕ) : F) ∈ spentPositions steps := by rw [hs]; exact List.mem_append_left _ hm
      rw [steps_positions] at this
      exact absurd this (by decide +kernel)
  · unfold heldBy neverSpent
    rw [steps_positions, steps_created, hist_created]
    decide +kernel

/-- `C73_nullifier`: the nullifier of Bob's record has been published -/
example : bob.nullify bobs.asset_def.policy.freezer_pk 3 bobs.commitment ∈ led2.nullifiers ∧
    bobs.asset_def.code ≠ (dummyCode : ZMod p) := by
  refine ⟨?_, by decide +kernel⟩
  obtain ⟨fee, -, -, -, h, -⟩ := LedgerState.insertBlock_ok (okVal_eq _ led2_ok)
  have hn : note2.input_nullifier = bob.nullify bobs.asset_def.policy.freezer_pk 3 bobs.commitment := note2_nullifier
  rw [← hn]
  exact (h _).2 (.inl List.mem_cons_self)

/-- `C73_accepted` -/
example : SnarkSound ∧ SnarkBatch ∧ run 2 hist = .ok led2 := ⟨Toy.sound, Toy.batch, hist_run⟩

end Cap.Examples
