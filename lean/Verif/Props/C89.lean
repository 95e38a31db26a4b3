/-
C89: all wallets together hold what was issued, no more and no less.

status: partial
note: Any number of wallets (C59) with keys of different addresses follow the same ledger; each is shown its own memos and handed its own records. C89_books_partial: for every asset, the balances they report (debug build) and the unspent records that none of them holds make up exactly what was granted and minted. C89_solvent_partial: so the wallets together never claim more. C89_claims: a wallet that was handed an unspent record, can decrypt its memo, or waited for it as change, holds it. C89_total_partial: when every unspent record of the asset is known in this way to some wallet, the balances make up exactly what was granted and minted. Partial because of the checks that the circuits do not make (C58); C89_honest: in histories of notes made by the library they hold. C89_solvent_false: without them, for every instantiation, a wallet reports an amount of an asset of which nothing was ever granted or minted.
-/
import Verif.SpecTogether
import Verif.Props.C58
import Verif.Props.C60

namespace Cap

open Spec

variable [E : CapEnv] [S : CapExt] {d : Fin 256} {b : Build} {h : List Step} {s : LedgerState} {fs : List Follower}

/-- the wallet's run is the run of the history -/
theorem Spec.Follower.Follows.run {f : Follower} (follows : f.Follows d b h s) : run d (h.map Step.event) = .ok s :=
  (sameNotes_run follows.same).trans (world_run follows.world)

theorem Spec.Follower.Follows.apart {f : Follower} (follows : f.Follows d b h s) (sat : AllSatisfied d h)
    (hashes : NoCollisionV d (everCreated h) (everSpent h)) (clear : f.Clear h) : Apart f.key f.seen :=
  C59_apart_of follows.world follows.same sat clear.no_dummy hashes clear.unmixed

/-- a held record is the created record at its position -/
theorem held_created {f : Follower} (follows : f.Follows d b h s) (clear : f.Clear h) (i : Inv0 d h s)
    {x : RecordOpening × U64} (holds : f.wallet.Holds x) :
    ∃ r, (everCreated h)[x.2.val]? = some r ∧ (r.scalars, r.blind) = (x.1.toV.scalars, x.1.toV.blind) := by
  obtain ⟨h1, -, -, h4⟩ := C59_sound follows.world x holds
  rw [i.leaves, List.getElem?_map, Option.map_eq_some_iff] at h4
  obtain ⟨r, hr, hc⟩ := h4
  refine ⟨r, hr, ?_⟩
  rw [RecordOpening.toV_scalars]
  exact clear.commit x h1 r (List.mem_of_getElem? hr) hc

omit S in
/-- the owner's spend of a record -/
theorem own_valid {k : UserKeyPair} {x : RecordOpening × U64} (mine : x.1.pub_key = k.pubKey) :
    ∃ y : Spend, y.ro = x.1.toV ∧ y.acc.uid = (x.2.val : F) ∧ y.sk.val < E.r ∧ y.nullifier = ownNullifier k x ∧
      ∃ root, y.Valid root := by
  refine ⟨⟨x.1.toV, (⟨[], 0, x.2⟩ : AccMemberWitness).toV, frToFq k.sk, .user⟩, rfl, rfl, frToFq_lt _,
    spendNullifier_user _ _ _, _, ⟨⟨frToFq_ok _, ?_⟩, fun _ => rfl, fun h => nomatch h⟩⟩
  show deriveUserAddressV _ = E.xy x.1.pub_key.address
  rw [mine]
  unfold deriveUserAddressV
  rw [frToFq_val]
  rfl

/-- a spent position has its nullifier published, whoever owns the record -/
theorem spent_published {k : UserKeyPair} {x : RecordOpening × U64} (i : Inv1 d h s) (mine : x.1.pub_key = k.pubKey)
    (real : x.1.asset_def.code ≠ dummyCode) {r : RecordV} (there : (everCreated h)[x.2.val]? = some r)
    (same : (r.scalars, r.blind) = (x.1.toV.scalars, x.1.toV.blind)) (spent : (x.2.val : F) ∈ spentPositions h) :
    ownNullifier k x ∈ s.nullifiers := by
  obtain ⟨y, hy, hu⟩ := List.mem_map.1 spent
  obtain ⟨⟨root, hv⟩, hc, hn⟩ := i.nulls y hy
  obtain ⟨z, z1, z2, z3, z4, root', z5⟩ := own_valid mine
  obtain ⟨r', hr', he⟩ := (i.found y hy).position i.length
  rw [hu, ZMod.val_natCast_of_lt (by have := E.p_gt; have := x.2.isLt; omega), there, Option.some.injEq] at hr'
  subst hr'
  have heq := he.symm.trans same
  rw [← z1] at heq
  obtain ⟨-, g2, g3, g4, g5⟩ := scalarsV_inj heq
  have hcode : y.ro.asset_code ≠ dummyCode := by rw [g2, z1]; exact real
  rw [← z4, ← same_nullifier hv z5 g5 g3 g4 g2 (hu.trans z2.symm) hcode hc ⟨z3, g3 ▸ hc.2⟩]
  exact hn

/-- the records of an asset a wallet holds -/
noncomputable def shelfOf (c : AssetCode) (f : Follower) : List (RecordOpening × U64) :=
  (mapGet c f.wallet.unspent).getD []

theorem mem_shelfOf {f : Follower} (follows : f.Follows d b h s) {c : AssetCode} {x : RecordOpening × U64} :
    x ∈ shelfOf c f ↔ f.wallet.Holds x ∧ x.1.asset_def.code = c := ((worldOk follows.world).ok.get c).2 x

/-- what the wallets hold is at different positions -/
theorem shelves_nodup (follows : ∀ f ∈ fs, f.Follows d b h s) (clear : ∀ f ∈ fs, f.Clear h) (i : Inv0 d h s)
    (owners : (fs.map (fun f => f.key.address)).Nodup) (c : AssetCode) :
    ((fs.flatMap (shelfOf c)).map (fun x => x.2.val)).Nodup := by
  have key : ∀ f ∈ fs, ∀ g ∈ fs, ∀ x ∈ shelfOf c f, ∀ y ∈ shelfOf c g, x.2.val = y.2.val →
      f.key.address = g.key.address ∧ x.1.commitment = y.1.commitment := by
    intro f hf g hg x hx y hy he
    rw [mem_shelfOf (follows f hf)] at hx
    rw [mem_shelfOf (follows g hg)] at hy
    obtain ⟨r, h1, h2⟩ := held_created (follows f hf) (clear f hf) i hx.1
    obtain ⟨r', h3, h4⟩ := held_created (follows g hg) (clear g hg) i hy.1
    rw [he, h3, Option.some.injEq] at h1
    subst h1
    have h5 := scalarsV_inj (h2.symm.trans h4)
    have hx' := (C59_sound (follows f hf).world x hx.1).2.1
    have hy' := (C59_sound (follows g hg).world y hy.1).2.1
    refine ⟨?_, by rw [← RecordOpening.toV_commitment, ← RecordOpening.toV_commitment]; exact h5.2.2.2.2⟩
    have h6 : x.1.pub_key.address = y.1.pub_key.address := xy_inj h5.2.2.1
    rw [hx', hy'] at h6
    exact h6
  have one : ∀ f ∈ fs, ((shelfOf c f).map (fun x => x.2.val)).Nodup := by
    intro f hf
    refine List.Nodup.map_on ?_ ((worldOk (follows f hf).world).ok.get c).1
    intro x hx y hy he
    have h1 := (key f hf f hf x hx y hy he).2
    rw [mem_shelfOf (follows f hf)] at hx hy
    obtain ⟨r1, m1, -, -⟩ := C59_sound (follows f hf).world x hx.1
    obtain ⟨r2, m2, -, -⟩ := C59_sound (follows f hf).world y hy.1
    obtain ⟨g1, g2, g3, g4, g5⟩ := sameRecord_of_scalars ((clear f hf).unmixed.commit x y r1 r2 h1)
    refine Prod.ext ?_ (Fin.ext he)
    have g6 : x.1.pub_key = y.1.pub_key := m1.trans m2.symm
    revert g1 g2 g4 g5 g6
    cases x.1
    cases y.1
    rintro rfl rfl rfl rfl rfl
    rfl
  clear follows clear
  induction fs with
  | nil => exact List.nodup_nil
  | cons f fs ih =>
    rw [List.map_cons, List.nodup_cons] at owners
    rw [List.flatMap_cons, List.map_append, List.nodup_append]
    refine ⟨one f List.mem_cons_self, ih owners.2 (fun a ha g hg => key a (List.mem_cons_of_mem _ ha) g (List.mem_cons_of_mem _ hg))
      (fun a ha => one a (List.mem_cons_of_mem _ ha)), ?_⟩
    intro a ha a' hb he
    obtain ⟨x, hx, rfl⟩ := List.mem_map.1 ha
    obtain ⟨y, hy, rfl⟩ := List.mem_map.1 hb
    obtain ⟨g, hg, hy⟩ := List.mem_flatMap.1 hy
    have := (key f List.mem_cons_self g (List.mem_cons_of_mem _ hg) x hx y hy he).1
    exact owners.1 (this ▸ List.mem_map_of_mem (f := fun f : Follower => f.key.address) hg)

/-- what a wallet reports, in the debug build -/
theorem reported_sum {f : Follower} (follows : f.Follows d b h s) {c : AssetCode} {a : Amount}
    (reported : f.wallet.availableFunds .debug c = .ok a) : a.val = ((shelfOf c f).map (fun x => x.1.amount.val)).sum :=
  ((C60_funds follows.world c (shelfOf c f) ((worldOk follows.world).ok.get c).1
    ((worldOk follows.world).ok.get c).2).1 a).1 reported

/-- **The books.**  The balances of any wallets of different owners, and the unspent records that none of them holds, make up
what was granted and minted. -/
theorem C89_books_partial (ok : run d (h.map Step.event) = .ok s) (sat : AllSatisfied d h)
    (checked : ∀ e ∈ h, ∀ o ∈ e.txns, o.Checked) (hashes : NoCollisionV d (everCreated h) (everSpent h))
    (follows : ∀ f ∈ fs, f.Follows d b h s) (clear : ∀ f ∈ fs, f.Clear h)
    (owners : (fs.map (fun f => f.key.address)).Nodup) {c : AssetCode} (real : c ≠ dummyCode)
    {balance : Follower → Amount} (reported : ∀ f ∈ fs, f.wallet.availableFunds .debug c = .ok (balance f)) :
    (fs.map (fun f => (balance f).val)).sum + valueOf c (heldByNone h fs) = issued c (h.map Step.event) := by
  classical
  have i := inv1_run h ok sat checked hashes
  have i0 : Inv0 d h s := i.toInv0
  set gone := (spentPositions h).map ZMod.val with hgone
  set L := fs.flatMap (shelfOf c) with hL
  have hmem : ∀ x, x ∈ L ↔ ∃ f ∈ fs, f.wallet.Holds x ∧ x.1.asset_def.code = c := by
    intro x
    rw [hL, List.mem_flatMap]
    constructor
    · rintro ⟨f, hf, hx⟩
      exact ⟨f, hf, (mem_shelfOf (follows f hf)).1 hx⟩
    · rintro ⟨f, hf, hx⟩
      exact ⟨f, hf, (mem_shelfOf (follows f hf)).2 hx⟩
  have small := i0.length
  have hp := E.p_gt
  have h1 := leftOf_spend (w := weightV c) (l := everCreated h) (pos := fun x : RecordOpening × U64 => x.2.val)
    (v := fun x => x.1.amount.val) L (gone := gone) (by
      intro x hx
      obtain ⟨f, hf, hx, hc⟩ := (hmem x).1 hx
      obtain ⟨r, h1, h2⟩ := held_created (follows f hf) (clear f hf) i0 hx
      obtain ⟨g1, g2, -⟩ := scalarsV_inj h2
      refine ⟨r, h1, ?_⟩
      rw [weightV, if_pos (g2.trans hc), g1]
      exact Amount.toF_val x.1.amount) (shelves_nodup follows clear i0 owners c) (by
      intro x hx hg
      obtain ⟨f, hf, hx, hc⟩ := (hmem x).1 hx
      obtain ⟨r, h1, h2⟩ := held_created (follows f hf) (clear f hf) i0 hx
      obtain ⟨hr, hm, -, -⟩ := C59_sound (follows f hf).world x hx
      refine C59_fresh (follows f hf).world ((follows f hf).apart sat hashes (clear f hf)) x hx
        (spent_published i hm ((clear f hf).no_dummy x hr) h1 h2 ?_)
      rw [cast_mem (by have := x.2.isLt; omega)]
      exact hg)
  rw [← neverSpent_value small, i.value c real] at h1
  have h2 : (L.map (fun x => x.1.amount.val)).sum = (fs.map (fun f => (balance f).val)).sum := by
    clear h1 hmem
    rw [hL]
    clear hL L owners clear
    induction fs with
    | nil => rfl
    | cons f fs ih =>
      rw [List.flatMap_cons, List.map_append, List.sum_append, List.map_cons, List.sum_cons,
        ih (fun g hg => follows g (List.mem_cons_of_mem _ hg)) (fun g hg => reported g (List.mem_cons_of_mem _ hg)),
        reported_sum (follows f List.mem_cons_self) (reported f List.mem_cons_self)]
  have h3 : valueOf c (heldByNone h fs) = leftOf (weightV c) (gone ++ L.map (fun x => x.2.val)) (everCreated h) 0 := by
    unfold heldByNone leftOf
    rw [valueOf_eq, List.map_map]
    have : ∀ (l : List (RecordV × ℕ)) (P : RecordV × ℕ → Prop) [DecidablePred P] (Q : RecordV × ℕ → Prop) [DecidablePred Q],
        (∀ z ∈ l, weightV c z.1 ≠ 0 → (P z ↔ ¬ Q z)) →
        ((l.filter (fun z => P z)).map (weightV c ∘ fun z => z.1)).sum = (l.map (fun z => if Q z then 0 else weightV c z.1)).sum := by
      intro l P _ Q _ hz
      induction l with
      | nil => rfl
      | cons z l ih =>
        have ih := ih (fun z' hz' => hz z' (List.mem_cons_of_mem _ hz'))
        have hz := hz z List.mem_cons_self
        rw [List.filter_cons, List.map_cons, List.sum_cons, ← ih]
        by_cases h0 : weightV c z.1 = 0
        · by_cases hP : P z
          · simp [hP, h0]
          · simp [hP, h0]
        · have := hz h0
          by_cases hQ : Q z
          · have hP : ¬ P z := fun h => this.1 h hQ
            simp [hP, hQ]
          · have hP : P z := this.2 hQ
            simp [hP, hQ]
    refine this _ _ (fun z => z.2 ∈ gone ++ L.map (fun x => x.2.val)) ?_
    intro z hz hw
    rw [List.mem_zipIdx_iff_getElem?] at hz
    have hlt := (List.getElem?_eq_some_iff.1 hz).1
    have hcode : z.1.asset_code = c := by
      unfold weightV at hw
      by_contra hc
      exact hw (if_neg hc)
    rw [cast_mem (by omega), ← hgone, List.mem_append, not_or]
    refine and_congr_right (fun _ => not_congr ⟨?_, ?_⟩)
    · rintro ⟨f, hf, y, hy, he⟩
      refine List.mem_map.2 ⟨y, (hmem y).2 ⟨f, hf, hy, ?_⟩, he⟩
      obtain ⟨r, g1, g2⟩ := held_created (follows f hf) (clear f hf) i0 hy
      rw [he, hz, Option.some.injEq] at g1
      rw [← hcode, g1]
      exact (scalarsV_inj g2).2.1.symm
    · intro hy
      obtain ⟨y, hy, he⟩ := List.mem_map.1 hy
      obtain ⟨f, hf, hy, -⟩ := (hmem y).1 hy
      exact ⟨f, hf, y, hy, he⟩
  rw [h3, ← h2]
  omega

/-- **No wallets can claim more than there is.** -/
theorem C89_solvent_partial (ok : run d (h.map Step.event) = .ok s) (sat : AllSatisfied d h)
    (checked : ∀ e ∈ h, ∀ o ∈ e.txns, o.Checked) (hashes : NoCollisionV d (everCreated h) (everSpent h))
    (follows : ∀ f ∈ fs, f.Follows d b h s) (clear : ∀ f ∈ fs, f.Clear h)
    (owners : (fs.map (fun f => f.key.address)).Nodup) {c : AssetCode} (real : c ≠ dummyCode)
    {balance : Follower → Amount} (reported : ∀ f ∈ fs, f.wallet.availableFunds .debug c = .ok (balance f)) :
    (fs.map (fun f => (balance f).val)).sum ≤ issued c (h.map Step.event) := by
  have := C89_books_partial ok sat checked hashes follows clear owners real reported
  omega

/-- a transaction a wallet sees is in the history -/
theorem at_opening {seen : List Seen} {t : TransactionNote} {memos : List E.AeadCt} {pos : ℕ}
    (same : List.Forall₂ SameNotes (ledgerEvents seen) h) (hat : At seen t memos pos) :
    ∃ o : Opening, ∃ e ∈ h, o ∈ e.txns ∧ o.note = t := by
  obtain ⟨before, txns, blind, who, time, after, earlier, later, rfl, rfl, rfl⟩ := hat
  rw [ledgerEvents_append] at same
  obtain ⟨b', r', rfl, h4, h5⟩ := forall₂_split same
  rw [ledgerEvents] at h5
  cases h5 with
  | cons hd hs =>
    rename_i e' a'
    cases e' with
    | grant => exact hd.elim
    | block os blind' who' time' =>
      have hm : os.map Opening.note = (earlier ++ (t, memos) :: later).map (·.1) := by
        have := hd.1
        rwa [List.map_map] at this
      have : t ∈ os.map Opening.note := by
        rw [hm]
        exact List.mem_map.2 ⟨(t, memos), by simp, rfl⟩
      obtain ⟨o, ho, rfl⟩ := List.mem_map.1 this
      exact ⟨o, .block os blind' who' time', by simp, ho, rfl⟩

/-- **A wallet that knows an unspent record holds it.** -/
theorem C89_claims {f : Follower} (ok : run d (h.map Step.event) = .ok s) (sat : AllSatisfied d h)
    (hashes : NoCollisionV d (everCreated h) (everSpent h)) (follows : f.Follows d b h s) (clear : f.Clear h)
    {x : RecordOpening × U64} (knows : f.Knows s.leaves x) (unspent : (x.2.val : F) ∉ spentPositions h) :
    f.wallet.Holds x := by
  have i := inv0_run h ok sat hashes
  have world := follows.world
  -- a published nullifier is that of a spend at this position
  have pub : ∀ x, Received f.key f.seen x → ownNullifier f.key x ∈ s.nullifiers →
      (x.2.val : F) ∈ spentPositions h ∧ s.leaves[x.2.val]? = some x.1.commitment := by
    intro x hx hn
    obtain ⟨t, memos, pos, hat, ht⟩ := ((worldOk world).nulls _).1 hn
    obtain ⟨o, e, he, ho, rfl⟩ := at_opening follows.same hat
    rw [(sat e he o ho).nullifiers.1] at ht
    obtain ⟨y, hy, hyn⟩ := List.mem_map.1 ht
    have hyall : y ∈ h.flatMap (fun e => e.txns.flatMap Opening.spends) :=
      List.mem_flatMap.2 ⟨e, he, List.mem_flatMap.2 ⟨o, ho, hy⟩⟩
    have hpt := clear.unmixed.spent_prf x hx y hyall hyn
    rw [Prod.mk.injEq] at hpt
    have hcode : y.ro.asset_code ≠ dummyCode := by
      have h6 := clear.unmixed.spent_commit x hx y hyall hpt.2
      rw [← RecordOpening.toV_scalars] at h6
      rw [(scalarsV_inj (s := x.1.toV) h6).2.1]
      exact clear.no_dummy x hx
    have hy' : y ∈ everSpent h := List.mem_flatMap.2 ⟨e, he, List.mem_flatMap.2 ⟨o, ho,
      List.mem_filter.2 ⟨hy, by simpa using hcode⟩⟩⟩
    refine ⟨List.mem_map.2 ⟨y, hy', hpt.1⟩, ?_⟩
    obtain ⟨r, hr, he⟩ := (i.found y hy').position i.length
    rw [hpt.1, ZMod.val_natCast_of_lt (by have := E.p_gt; have := x.2.isLt; omega)] at hr
    rw [i.leaves, List.getElem?_map, hr, Option.map_some, (scalarsV_inj he).2.2.2.2, hpt.2]
  cases knows with
  | told mem => exact (C59_told world _ _ mem).resolve_right (fun hn => unspent (pub _ (.told mem) hn).1)
  | memo at_ output memo opens unfrozen position =>
    exact (C59_memo world at_ output memo opens unfrozen position).resolve_right
      (fun hn => unspent (pub _ (.memo at_ output memo opens position) hn).1)
  | change waits no_twin later mem output only =>
    rename_i uid
    obtain ⟨t', memos', pos', uid', h1, h2, h3, h4⟩ := C59_change world waits no_twin later mem output
    have hr : Received f.key f.seen (_, uid') := .change (by rw [waits]; simp) h1 h2 h3
    have hu : uid' = uid := by
      refine Fin.ext (only _ ?_)
      rcases h4 with h4 | h4
      · exact (C59_sound world _ h4).2.2.2
      · exact (pub _ hr h4).2
    subst hu
    exact h4.resolve_right (fun hn => unspent (pub _ hr hn).1)

/-- **Nothing is lost.**  When every unspent record of the asset that is worth something is known to one of the wallets, the
balances make up what was granted and minted. -/
theorem C89_total_partial (ok : run d (h.map Step.event) = .ok s) (sat : AllSatisfied d h)
    (checked : ∀ e ∈ h, ∀ o ∈ e.txns, o.Checked) (hashes : NoCollisionV d (everCreated h) (everSpent h))
    (follows : ∀ f ∈ fs, f.Follows d b h s) (clear : ∀ f ∈ fs, f.Clear h)
    (owners : (fs.map (fun f => f.key.address)).Nodup) {c : AssetCode} (real : c ≠ dummyCode)
    (known : ∀ (j : ℕ) (r : RecordV), (everCreated h)[j]? = some r → (j : F) ∉ spentPositions h → r.asset_code = c → r.amount ≠ 0 →
      ∃ f ∈ fs, ∃ x, f.Knows s.leaves x ∧ x.2.val = j)
    {balance : Follower → Amount} (reported : ∀ f ∈ fs, f.wallet.availableFunds .debug c = .ok (balance f)) :
    (fs.map (fun f => (balance f).val)).sum = issued c (h.map Step.event) := by
  rw [← C89_books_partial ok sat checked hashes follows clear owners real reported, left_eq_add, valueOf]
  refine List.sum_eq_zero (fun v hv => ?_)
  obtain ⟨r, hr, rfl⟩ := List.mem_map.1 hv
  obtain ⟨⟨r', j⟩, hz, rfl⟩ := List.mem_map.1 hr
  obtain ⟨hz, hu⟩ := List.mem_filter.1 hz
  rw [List.mem_zipIdx_iff_getElem?] at hz
  simp only [decide_eq_true_eq] at hu
  split
  · next hc =>
    by_contra hne
    obtain ⟨f, hf, x, hk, hj⟩ := known j r' hz hu.1 hc (fun h0 => hne (by rw [h0]; exact ZMod.val_zero))
    exact hu.2 ⟨f, hf, x, C89_claims ok sat hashes (follows f hf) (clear f hf) hk (by rw [hj]; exact hu.1), hj⟩
  · rfl

/-- **In histories of notes made by the library** the checks hold, so that the books are balanced. -/
theorem C89_honest {h : List Event} (honest : Honest d h)
    (mints : ∀ e ∈ h, ∀ t ∈ e.txns, ∀ n, t.note = .mint n → n.mint_amount.val < 2 ^ 127)
    (owned : ∀ x ∈ spends h, x.1.pub_key.address ≠ 0)
    (short : ∀ e ∈ h, ∀ t ∈ e.txns, t.note.nullifiers.length < 2 ^ 64)
    (hashes : NoCollision d (created h) (spends h)) (ok : run d h = .ok s) :
    ∃ h' : List Step, List.Forall₂ SameNotes h h' ∧ AllSatisfied d h' ∧ ∀ (b : Build) (fs : List Follower),
      (∀ f ∈ fs, f.Follows d b h' s) → (∀ f ∈ fs, f.Clear h') → (fs.map (fun f => f.key.address)).Nodup →
      ∀ c ≠ dummyCode, ∀ balance : Follower → Amount,
        (∀ f ∈ fs, f.wallet.availableFunds .debug c = .ok (balance f)) →
        (fs.map (fun f => (balance f).val)).sum + valueOf c (heldByNone h' fs) = issued c (h'.map Step.event) := by
  obtain ⟨h', h1, h2, h3, h4⟩ := C58_honest honest mints owned short hashes
  exact ⟨h', h1, h2, fun b fs g1 g2 g3 c hc balance g4 =>
    C89_books_partial ((sameNotes_run h1).trans ok) h2 h4 h3 g1 g2 g3 hc g4⟩

/-- **Negation: without the checks a wallet claims what was never issued.**  Two records are granted, a native one and one of
an asset without viewer and freezer.  One accepted transfer turns the second into the same amount of an asset with any other
code, of which nothing was ever granted or minted; its owner `k1` publishes the memo of that output, and their wallet reports
the amount. -/
theorem C89_solvent_false (complete : SnarkComplete) (batch : SnarkBatch) (b : Build) {d : Fin 256} (deep : 2 ≤ d.val)
    {pk : TransferProvingKey} {vk : TransferVerifyingKey} (keys : transferPreprocess 2 2 d = .ok (pk, vk))
    {fee_ro ro : RecordOpening} {k0 k1 : UserKeyPair} (fee_asset : fee_ro.asset_def = AssetDefinition.native)
    (fee_unfrozen : fee_ro.freeze_flag = .unfrozen) (fee_owner : fee_ro.pub_key.address = k0.address)
    (fee_small : fee_ro.amount.val < 2 ^ 127) (ro_unfrozen : ro.freeze_flag = .unfrozen)
    (ro_owner : ro.pub_key = k1.pubKey) (ro_small : ro.amount.val < 2 ^ 127)
    (ro_code : ro.asset_def.code ≠ dummyCode)
    (ro_viewer : ro.asset_def.policy.viewer_pk = 0) (ro_freezer : ro.asset_def.policy.freezer_pk = 0)
    {c : AssetCode} (other : c ≠ ro.asset_def.code) (foreign : c ≠ nativeCode)
    {rand : ℕ} {ct : E.AeadCt} (memo : ReceiverMemo.fromRo rand { ro with asset_def := ⟨c, ro.asset_def.policy⟩ } [] = .ok ct)
    (distinct : [E.prf (frToFq k0.sk) [0, fee_ro.commitment], E.prf (frToFq k1.sk) [1, ro.commitment],
      ownNullifier k1 ({ ro with asset_def := ⟨c, ro.asset_def.policy⟩ }, 3)].Nodup)
    (blind : F) (who : UserPubKey) (time : U64) :
    ∃ (o : Opening) (s : LedgerState) (h : List Step) (f : Follower),
      h = [.grant fee_ro, .grant ro, .block [o] blind who time] ∧
      run d (h.map Step.event) = .ok s ∧ AllSatisfied d h ∧
      f.seen = [.grant fee_ro, .grant ro, .block [(o.note, [ct])] blind who time] ∧ f.key = k1 ∧ f.Follows d b h s ∧
      issued c (h.map Step.event) = 0 ∧ f.wallet.availableFunds .debug c = .ok ro.amount := by
  obtain ⟨s2, hs2, l2, r2, n2⟩ := two_grants deep fee_ro ro
  have h9 : 9 ≤ 3 ^ d.val := le_trans (by norm_num) (Nat.pow_le_pow_right (by norm_num) deep)
  have h64 : (9 : ℕ) < 2 ^ 64 := by norm_num
  obtain ⟨out, ho⟩ : ∃ out : RecordOpening, out = { ro with asset_def := ⟨c, ro.asset_def.policy⟩ } := ⟨_, rfl⟩
  rw [← ho] at memo distinct
  have out_code : out.asset_def.code = c := by rw [ho]
  have out_amount : out.amount = ro.amount := by rw [ho]
  have out_mine : out.pub_key = k1.pubKey := by rw [ho]; exact ro_owner
  have out_unfrozen : out.freeze_flag = .unfrozen := by rw [ho]; exact ro_unfrozen
  have ro_addr : ro.pub_key.address = k1.address := by rw [ro_owner]; rfl
  obtain ⟨π, p1, v1⟩ := Forgery.accepted complete keys _ (swap_ok (d := d.val) (by omega) fee_asset fee_unfrozen
    ((SpendOk_user_host _ _).2 fee_owner) fee_small ro_unfrozen ((SpendOk_user_host _ _).2 ro_addr) ro_small ro_code
    ro_viewer (out := out) (by rw [ho]) out_unfrozen out_amount)
  obtain ⟨q1, q2⟩ := swap_nullifiers (d := d.val) (out := out) (sk0 := frToFq k0.sk) (sk1 := frToFq k1.sk) fee_asset ro_freezer
  obtain ⟨n, hn⟩ : ∃ n, n = (swap d.val fee_ro ro out (frToFq k0.sk) (frToFq k1.sk)).note π := ⟨_, rfl⟩
  obtain ⟨wit, hwit⟩ : ∃ w, w = (swap d.val fee_ro ro out (frToFq k0.sk) (frToFq k1.sk)).wit := ⟨_, rfl⟩
  have nul1 : n.inputs_nullifiers =
      [E.prf (frToFq k0.sk) [0, fee_ro.commitment], E.prf (frToFq k1.sk) [1, ro.commitment]] := by
    rw [hn, ← q1, ← q2]; rfl
  have out1 : n.output_commitments = [fee_ro.commitment, out.commitment] := by
    rw [hn, ← RecordOpening.toV_commitment, ← RecordOpening.toV_commitment]; rfl
  simp only [List.nodup_cons, List.mem_cons, List.not_mem_nil, or_false, not_or] at distinct
  obtain ⟨s3, a3, l3, r3, n3⟩ := block_single batch (s := s2) (time := time) (w := wit) (n := n)
    (by rw [nul1, out1]; exact keys) (by rw [hn]; exact v1 _ (Fin.le_last _)) (by rw [hn]; exact r2)
    (by rw [nul1]; simpa using distinct.1.1) (by rw [n2]; simp)
    (by
      rw [Room, l2, out1]
      show 2 + (2 + 1) ≤ _ ∧ 2 + (2 + 1) < _
      omega) blind who
  have hrun := runFrom_append.2 ⟨s2, hs2, a3⟩
  -- the wallet
  have w2 : World d b k1 [.grant fee_ro, .grant ro] s2 (Wallet.new k1) := by
    rw [run, runFrom, bind_ok_iff] at hs2
    obtain ⟨s1, g1, g2⟩ := hs2
    rw [runFrom, bind_ok_iff] at g2
    obtain ⟨s2', g2, g3⟩ := g2
    cases g3
    exact .grant (h := [.grant fee_ro]) (.grant (h := []) .start g1) g2
  rw [Step.event, Event.apply, bind_ok_iff] at a3
  obtain ⟨⟨⟩, valid, inserted⟩ := a3
  have lens : ∀ t ∈ [(TransactionNote.transfer n, [ct])], t.1.outputCommitments.length = t.2.length + 1 := by
    intro t ht
    obtain rfl := List.mem_singleton.1 ht
    show n.output_commitments.length = _
    rw [out1]; rfl
  obtain ⟨w3, recv, -, hw⟩ := C59_scans w2 (txns := [(.transfer n, [ct])]) (uid := 2) valid inserted (by rw [l2]; rfl) lens
  have opens := C35_round_trip rand out [] k1 ct out_mine memo
  have hat : At ([.grant fee_ro, .grant ro] ++ [.block [(.transfer n, [ct])] blind who time]) (.transfer n) [ct] 2 :=
    .last (n := 0) ⟨[], [], rfl, rfl⟩
  have holds : w3.Holds (out, 3) := by
    refine (C59_memo hw hat (j := 0) (rc := out.commitment) (by
      show n.output_commitments[1]? = _
      rw [out1]; rfl) rfl opens out_unfrozen rfl).resolve_right ?_
    rw [n3, nul1, n2]
    simp only [List.mem_cons, List.not_mem_nil, or_false, not_or]
    exact ⟨fun h => distinct.1.2 h.symm, fun h => distinct.2.1 h.symm⟩
  have only : ∀ x, w3.Holds x → x = (out, 3) := by
    intro x hx
    obtain ⟨hr, -, -, -⟩ := C59_sound hw x hx
    have at_cases : ∀ {t memos pos}, At ([.grant fee_ro, .grant ro] ++ [.block [(.transfer n, [ct])] blind who time]) t memos pos →
        t = .transfer n ∧ memos = [ct] ∧ pos = 2 := by
      intro t memos pos ha
      rcases ha.cases with ha | ⟨txns, blind', who', time', m, h1, h2, rfl⟩
      · exfalso
        obtain ⟨before, txns, blind', who', time', after, -, -, h1, -⟩ := ha
        have : Seen.block txns blind' who' time' ∈ [Seen.grant fee_ro, .grant ro] := by rw [h1]; simp
        simp at this
      · cases h1
        rcases h2.cases with ⟨h3, h4⟩ | ⟨m, -, h3⟩
        · cases h3
          exact ⟨rfl, rfl, by rw [h4]; rfl⟩
        · exact (nomatch h3.mem)
    cases hr with
    | told mem => simp at mem
    | change waiting _ _ _ => simp at waiting
    | memo ha o m op p =>
      obtain ⟨rfl, rfl, rfl⟩ := at_cases ha
      rename_i j rc c' ro' uid
      change n.output_commitments[j + 1]? = _ at o
      rw [out1] at o
      match j with
      | 0 =>
        simp only [List.getElem?_cons_succ, List.getElem?_cons_zero, Option.some.injEq] at o m
        subst o m
        rw [opens, Except.ok.injEq] at op
        subst op
        have : uid = 3 := Fin.ext p
        rw [this]
      | j + 1 => simp at o
  refine ⟨.transfer n wit, s3, _, ⟨k1, _, w3⟩, rfl, hrun, ?_, rfl, rfl, ⟨hw, ?_⟩, ?_, ?_⟩
  · intro e he o ho
    simp only [List.mem_cons, List.not_mem_nil, or_false] at he
    rcases he with rfl | rfl | rfl
    · simp [Step.txns] at ho
    · simp [Step.txns] at ho
    · obtain rfl := List.mem_singleton.1 ho
      rw [hn, hwit]; exact p1
  · exact .cons rfl (.cons rfl (.cons ⟨rfl, rfl, rfl, rfl⟩ .nil))
  · show (if fee_ro.asset_def.code = c then fee_ro.amount.val else 0) +
          ((if ro.asset_def.code = c then ro.amount.val else 0) + (0 + 0)) = 0
    rw [if_neg (by rw [fee_asset]; exact Ne.symm foreign), if_neg (Ne.symm other)]
  · refine ((C60_funds hw c [(out, 3)] (List.nodup_singleton _) (fun x => ?_)).1 ro.amount).2 (by
      rw [← out_amount]; simp)
    rw [List.mem_singleton]
    exact ⟨fun h => by rw [h]; exact ⟨holds, out_code⟩, fun h => only x h.1⟩

end Cap

namespace Cap.Examples
open Toy Spec

/-! The history of C59, with the wallets of Alice (who pays 60 of her 100 coins to Bob) and of Bob (who also proposes the
block and is handed the fee of 3 coins). -/

/-- the ledger's history -/
noncomputable def steps89 : List Step := [.grant feeRec, .grant assetRec, .block [open1] 47 bob.pubKey 700]

/-- the collected fee -/
def fee89 : RecordOpening := feeRecord bob.pubKey 3 (47 : ZMod p)

theorem steps89_same : List.Forall₂ SameNotes (ledgerEvents (seen0 ++ [seenBlock])) steps89 :=
  .cons rfl (.cons rfl (.cons ⟨congrArg (· :: []) open1_ok.note, rfl, rfl, rfl⟩ .nil))

theorem steps89_run : run 2 (steps89.map Step.event) = .ok led1 := by
  obtain ⟨w, hw⟩ := alice_after
  have h := world_run hw
  exact (sameNotes_run steps89_same).trans h

theorem steps89_satisfied : AllSatisfied 2 steps89 := fun e he => steps_satisfied e (List.mem_append_left _ he)
theorem steps89_checked : ∀ e ∈ steps89, ∀ o ∈ e.txns, o.Checked := fun e he => steps_checked e (List.mem_append_left _ he)

theorem steps89_noCollision : NoCollisionV 2 (everCreated steps89) (everSpent steps89) := by
  have := steps_noCollision
  rw [show everCreated steps = everCreated steps89 ++ everCreated [.block [open2] 49 bob.pubKey 701] by
    simp [steps, steps89, everCreated]] at this
  exact this.mono (fun y hy => by
    simp only [steps, everSpent, List.flatMap_append, List.mem_append]
    exact .inl hy)

theorem steps89_created : everCreated steps89 = [feeRec, assetRec, chg1, bobs, fee89].map RecordOpening.toV := by
  have h1 : collected [⟨open1.note, [], []⟩] = 3 := by
    rw [open1_ok.note]
    show Fin.ofNat (2 ^ 128) (note1.aux_info.fee.val + 0) = 3
    rw [note1_fee]
    rfl
  show [feeRec.toV] ++ ([assetRec.toV] ++ ((open1.creates ++ [] ++
    [(feeRecord bob.pubKey (collected [⟨open1.note, [], []⟩]) 47).toV]) ++ [])) = _
  rw [h1, open1_ok.creates]
  rfl

theorem spend89 : ∀ y ∈ open1.spends, y.ro = feeRec.toV ∧ y.acc.uid = 0 ∧ y.nullifier = ownNullifier alice (feeRec, 0) := by
  intro y hy
  have h1 : (y.ro, y.acc) ∈ open1.spends.map (fun s => (s.ro, s.acc)) := List.mem_map.2 ⟨y, hy, rfl⟩
  rw [open1_ok.spends] at h1
  have h2 : (y.ro, y.acc) = (feeRec.toV, (⟨treePath 2 tree1 0, treeRoot 2 tree1, 0⟩ : AccMemberWitness).toV) := by
    simpa [txn1, in1] using h1
  rw [Prod.mk.injEq] at h2
  have h3 : y.nullifier ∈ open1.spends.map Spend.nullifier := List.mem_map.2 ⟨y, hy, rfl⟩
  rw [← (open1_ok.satisfied).nullifiers.1, open1_ok.note, seenBlock_nullifiers] at h3
  exact ⟨h2.1, by rw [h2.2]; decide +kernel, List.mem_singleton.1 h3⟩

/-- Bob's wallet is handed the fee after the block -/
theorem bob_after89 : ∃ w, World 2 .debug bob (seen0 ++ [seenBlock] ++ [.told fee89 4]) led1 w := by
  obtain ⟨w, -, -, hw⟩ := C59_scans (uid := 2) (start_world bob) (txns := [(txn1.note, [bobsMemo])]) valid1 led1_ok rfl lens1
  refine ⟨_, hw.told rfl rfl rfl ?_⟩
  have hn : led1.nullifiers = [ownNullifier alice (feeRec, 0)] := note1_nullifiers
  rw [hn, (worldOk hw).nullify, List.mem_singleton]
  decide +kernel

theorem bob_at89 {t : TransactionNote} {memos : List Toy.E.AeadCt} {pos : ℕ}
    (h : At (seen0 ++ [seenBlock] ++ [.told fee89 4]) t memos pos) : t = txn1.note ∧ memos = [bobsMemo] ∧ pos = 2 := by
  rcases h.cases with h | ⟨txns, blind, who, time, n, h1, -⟩
  · rcases h.cases with h | ⟨txns, blind, who, time, n, h1, h2, rfl⟩
    · exfalso
      obtain ⟨before, txns, blind, who, time, after, -, -, h1, -⟩ := h
      have : Seen.block txns blind who time ∈ seen0 := by rw [h1]; simp
      simp [seen0] at this
    · unfold seenBlock at h1
      cases h1
      rcases h2.cases with ⟨h3, h4⟩ | ⟨m, -, h3⟩
      · cases h3
        exact ⟨rfl, rfl, by rw [h4]; rfl⟩
      · exact (nomatch h3.mem)
  · cases h1

/-- what Bob receives -/
theorem bob_received89 {x : RecordOpening × U64} (h : Received bob (seen0 ++ [seenBlock] ++ [.told fee89 4]) x) :
    x ∈ [(bobs, (3 : U64)), (fee89, 4)] := by
  cases h with
  | told mem =>
    simp only [seen0, seenBlock, List.cons_append, List.nil_append, List.mem_cons, List.not_mem_nil, or_false,
      reduceCtorEq, false_or, Seen.told.injEq] at mem
    obtain ⟨rfl, rfl⟩ := mem
    simp
  | memo a o m op p =>
    obtain ⟨rfl, rfl, rfl⟩ := bob_at89 a
    rename_i j rc c ro uid
    rw [seenBlock_outputs] at o
    match j with
    | 0 =>
      simp only [List.getElem?_cons_succ, List.getElem?_cons_zero, Option.some.injEq] at o m
      subst o m
      rw [bobsMemo_bob, Except.ok.injEq] at op
      subst op
      have : uid = 3 := Fin.ext p
      subst this
      simp
    | j + 1 => simp at o
  | change wt a o p =>
    simp [seen0, seenBlock] at wt

/-- the wallets -/
noncomputable def alice89 : Follower := ⟨alice, seen0 ++ seenA0 ++ [seenBlock], alice_after.choose⟩
/-- the wallets -/
noncomputable def bob89 : Follower := ⟨bob, seen0 ++ [seenBlock] ++ [.told fee89 4], bob_after89.choose⟩

theorem follows89 : ∀ f ∈ [alice89, bob89], f.Follows 2 .debug steps89 led1 := by
  intro f hf
  simp only [List.mem_cons, List.not_mem_nil, or_false] at hf
  rcases hf with rfl | rfl
  · exact ⟨alice_after.choose_spec, steps89_same⟩
  · exact ⟨bob_after89.choose_spec, steps89_same⟩

/-- no collisions among the records of the example -/
theorem commitments89 : (([feeRec, assetRec, chg1, bobs, fee89] : List RecordOpening).map RecordOpening.commitment).Nodup := by
  decide +kernel
theorem nullifiers89 : (ownNullifier alice (feeRec, 0) :: ([(bobs, (3 : U64)), (fee89, 4)] : List (RecordOpening × U64)).map
    (ownNullifier bob)).Nodup := by decide +kernel

theorem spends89 : steps89.flatMap (fun e => e.txns.flatMap Opening.spends) = open1.spends := by simp [steps89, Step.txns]

/-- the records of a wallet are among those of the history, so that equal commitments are those of equal records -/
theorem commit89 {x : RecordOpening} (hx : x ∈ [feeRec, assetRec, chg1, bobs, fee89]) :
    ∀ r ∈ everCreated steps89, r.commitment = x.commitment → (r.scalars, r.blind) = (x.scalars, x.blind) := by
  intro r hr hc
  rw [steps89_created] at hr
  obtain ⟨y, hy, rfl⟩ := List.mem_map.1 hr
  rw [RecordOpening.toV_commitment] at hc
  rw [List.inj_on_of_nodup_map commitments89 hy hx hc, RecordOpening.toV_scalars]
  rfl

theorem clear89 : ∀ f ∈ [alice89, bob89], f.Clear steps89 := by
  intro f hf
  simp only [List.mem_cons, List.not_mem_nil, or_false] at hf
  rcases hf with rfl | rfl
  · have hin : ∀ x, Received alice (seen0 ++ seenA0 ++ [seenBlock]) x → x.1 ∈ [feeRec, assetRec, chg1, bobs, fee89] := by
      intro x hx
      have h1 := alice_received hx
      simp only [List.mem_cons, List.not_mem_nil, or_false] at h1
      rcases h1 with rfl | rfl | rfl <;> simp
    have hf : (feeRec, (0 : U64)) ∈ [(feeRec, (0 : U64)), (assetRec, 1), (chg1, 2)] := List.mem_cons_self
    refine ⟨?_, fun x hx => commit89 (hin x hx), ?_⟩
    · rw [spends89]
      refine ⟨fun x y hx hy hn => ?_, fun x y hx hy hn => ?_, fun x hx y hm hn => ?_, fun x hx y hm hn => ?_⟩
      · rw [List.inj_on_of_nodup_map alice_nullifiers (alice_received hx) (alice_received hy) hn]
      · rw [List.inj_on_of_nodup_map commitments89 (hin x hx) (hin y hy) hn]
      · obtain ⟨h1, h2, h3⟩ := spend89 y hm
        rw [h3] at hn
        rw [← List.inj_on_of_nodup_map alice_nullifiers hf (alice_received hx) hn, h1, h2, RecordOpening.toV_commitment]
        rfl
      · obtain ⟨h1, -, -⟩ := spend89 y hm
        rw [h1, RecordOpening.toV_commitment] at hn
        rw [← List.inj_on_of_nodup_map alice_commitments hf (alice_received hx) hn, h1, RecordOpening.toV_scalars]
        rfl
    · intro x hx
      have h1 := alice_received hx
      simp only [List.mem_cons, List.not_mem_nil, or_false] at h1
      rcases h1 with rfl | rfl | rfl <;> decide +kernel
  · have hin : ∀ x, Received bob (seen0 ++ [seenBlock] ++ [.told fee89 4]) x → x.1 ∈ [feeRec, assetRec, chg1, bobs, fee89] := by
      intro x hx
      have h1 := bob_received89 hx
      simp only [List.mem_cons, List.not_mem_nil, or_false] at h1
      rcases h1 with rfl | rfl <;> simp
    have hnd := nullifiers89
    rw [List.nodup_cons] at hnd
    refine ⟨?_, fun x hx => commit89 (hin x hx), ?_⟩
    · rw [spends89]
      refine ⟨fun x y hx hy hn => ?_, fun x y hx hy hn => ?_, fun x hx y hm hn => ?_, fun x hx y hm hn => ?_⟩
      · rw [List.inj_on_of_nodup_map hnd.2 (bob_received89 hx) (bob_received89 hy) hn]
      · rw [List.inj_on_of_nodup_map commitments89 (hin x hx) (hin y hy) hn]
      · obtain ⟨h1, h2, h3⟩ := spend89 y hm
        rw [h3] at hn
        exact absurd (List.mem_map.2 ⟨x, bob_received89 hx, hn.symm⟩) hnd.1
      · obtain ⟨h1, -, -⟩ := spend89 y hm
        rw [h1, RecordOpening.toV_commitment] at hn
        rw [← List.inj_on_of_nodup_map commitments89 List.mem_cons_self (hin x hx) hn, h1, RecordOpening.toV_scalars]
        rfl
    · intro x hx
      have h1 := bob_received89 hx
      simp only [List.mem_cons, List.not_mem_nil, or_false] at h1
      rcases h1 with rfl | rfl
      · exact native_ne_dummy
      · exact native_ne_dummy

theorem owners89 : ([alice89, bob89].map (fun f => f.key.address)).Nodup := by
  show ([alice.address, bob.address]).Nodup
  decide +kernel

theorem published89 : led1.nullifiers = [ownNullifier alice (feeRec, 0)] := note1_nullifiers

/-- Alice's balance is the change -/
theorem alice_funds89 : alice89.wallet.availableFunds .debug nativeCode = .ok 37 := by
  have hw := alice_after.choose_spec
  have hd := alice_nullifiers
  simp only [List.map_cons, List.map_nil, List.nodup_cons, List.mem_cons, List.not_mem_nil, or_false, not_or] at hd
  refine ((C60_funds hw nativeCode [(chg1, 2)] (List.nodup_singleton _) (fun x => ?_)).1 37).2 rfl
  rw [List.mem_singleton]
  constructor
  · rintro rfl
    refine ⟨?_, rfl⟩
    obtain ⟨t, memos, pos, uid, h1, h2, h3, h4⟩ := C59_change hw (before := seen0 ++ [.told feeRec 0, .told assetRec 1,
      .spending (feeRec, 0)]) (after := [seenBlock]) (chg := chg1) rfl (by
        intro c hc _
        simpa only [seen0, seenA0, seenBlock, List.cons_append, List.nil_append, List.mem_cons, List.not_mem_nil, or_false,
          reduceCtorEq, false_or, Seen.expecting.injEq] using hc) (List.mem_singleton.2 rfl) List.mem_cons_self (by
        show (txn1.note).outputCommitments[0]? = _
        rw [seenBlock_outputs]
        rfl)
    obtain ⟨-, -, rfl⟩ := alice_at h1
    have : uid = 2 := Fin.ext h3
    subst this
    refine h4.resolve_right ?_
    rw [published89, List.mem_singleton]
    exact fun h => hd.1.2 h.symm
  · rintro ⟨hx, hc⟩
    have h1 := alice_received (C59_sound hw x hx).1
    simp only [List.mem_cons, List.not_mem_nil, or_false] at h1
    rcases h1 with rfl | rfl | rfl
    · exact absurd (by rw [published89]; exact List.mem_singleton.2 rfl) (C59_fresh hw alice_apart _ hx)
    · exact absurd hc (by decide +kernel)
    · rfl

/-- Bob's balance is the payment and the fee -/
theorem bob_funds89 : bob89.wallet.availableFunds .debug nativeCode = .ok 63 := by
  have hw := bob_after89.choose_spec
  have hd := nullifiers89
  simp only [List.map_cons, List.map_nil, List.nodup_cons, List.mem_cons, List.not_mem_nil, or_false, not_or] at hd
  refine ((C60_funds hw nativeCode [(bobs, 3), (fee89, 4)] (by simp) (fun x => ?_)).1 63).2 rfl
  constructor
  · intro hx
    simp only [List.mem_cons, List.not_mem_nil, or_false] at hx
    rcases hx with rfl | rfl
    · refine ⟨(C59_memo hw (t := txn1.note) (memos := [bobsMemo]) (pos := 2) (j := 0) (uid := 3) ?_
        (by rw [seenBlock_outputs]; rfl) rfl bobsMemo_bob rfl rfl).resolve_right ?_, rfl⟩
      · exact ⟨seen0, [(txn1.note, [bobsMemo])], (47 : ZMod p), bob.pubKey, 700, [.told fee89 4], [], [], rfl, rfl, rfl⟩
      · rw [published89, List.mem_singleton]
        exact fun h => hd.1.1 h.symm
    · refine ⟨(C59_told hw fee89 4 (by simp)).resolve_right ?_, rfl⟩
      rw [published89, List.mem_singleton]
      exact fun h => hd.1.2 h.symm
  · rintro ⟨hx, -⟩
    exact bob_received89 (C59_sound hw x hx).1

/-- every unspent native record is known to Alice or to Bob -/
theorem known89 : ∀ (j : ℕ) (r : RecordV), (everCreated steps89)[j]? = some r → (j : F) ∉ spentPositions steps89 →
    r.asset_code = nativeCode → r.amount ≠ 0 → ∃ f ∈ [alice89, bob89], ∃ x, f.Knows led1.leaves x ∧ x.2.val = j := by
  intro j r hr hu hc _
  rw [steps89_created] at hr
  match j with
  | 0 =>
    refine absurd ?_ hu
    have hm : (feeRec.toV, (⟨treePath 2 tree1 0, treeRoot 2 tree1, 0⟩ : AccMemberWitness).toV) ∈
        (everSpent steps89).map (fun s => (s.ro, s.acc)) := by
      show _ ∈ List.map _ (open1.realSpends ++ [] ++ [])
      rw [List.append_nil, List.append_nil, open1_ok.real]
      have h2 : txn1.realSpends = [(feeRec, ⟨treePath 2 tree1 0, treeRoot 2 tree1, 0⟩)] :=
        List.filter_cons_of_pos (by decide +kernel)
      rw [h2]
      exact List.mem_cons_self
    obtain ⟨y, hy, he⟩ := List.mem_map.1 hm
    refine List.mem_map.2 ⟨y, hy, ?_⟩
    rw [(Prod.mk.inj he).2]
    decide +kernel
  | 1 =>
    simp only [List.map_cons, List.getElem?_cons_succ, List.getElem?_cons_zero, Option.some.injEq] at hr
    subst hr
    exact absurd hc (by decide +kernel)
  | 2 =>
    refine ⟨alice89, List.mem_cons_self, (chg1, 2), ?_, rfl⟩
    refine .change (before := seen0 ++ [.told feeRec 0, .told assetRec 1, .spending (feeRec, 0)]) (after := [seenBlock])
      (txns := [(txn1.note, [bobsMemo])]) (blind := (47 : ZMod p)) (who := bob.pubKey) (time := 700)
      (t := (txn1.note, [bobsMemo])) rfl ?_ (List.mem_singleton.2 rfl) List.mem_cons_self ?_ ?_
    · intro c hc _
      simpa only [alice89, seen0, seenA0, seenBlock, List.cons_append, List.nil_append, List.mem_cons, List.not_mem_nil,
        or_false, reduceCtorEq, false_or, Seen.expecting.injEq] using hc
    · show (txn1.note).outputCommitments[0]? = _
      rw [seenBlock_outputs]
      rfl
    · intro i hi
      have h2 : led1.leaves[2]? = some chg1.commitment := rfl
      have h3 : led1.leaves.Nodup := commitments89
      exact (List.getElem?_inj (List.getElem?_eq_some_iff.1 hi).1 h3).1 (hi.trans h2.symm)
  | 3 =>
    refine ⟨bob89, by simp, (bobs, 3), ?_, rfl⟩
    exact .memo (t := txn1.note) (memos := [bobsMemo]) (pos := 2) (j := 0)
      ⟨seen0, [(txn1.note, [bobsMemo])], (47 : ZMod p), bob.pubKey, 700, [.told fee89 4], [], [], rfl, rfl, rfl⟩
      (by rw [seenBlock_outputs]; rfl) rfl bobsMemo_bob rfl rfl
  | 4 => exact ⟨bob89, by simp, (fee89, 4), .told (by simp [bob89]), rfl⟩
  | j + 5 => simp at hr

/-- what the two wallets report -/
noncomputable def balance89 : Follower → Amount := fun f => if f.key.sk = alice.sk then 37 else 63

theorem reported89 : ∀ f ∈ [alice89, bob89], f.wallet.availableFunds .debug nativeCode = .ok (balance89 f) := by
  intro f hf
  simp only [List.mem_cons, List.not_mem_nil, or_false] at hf
  rcases hf with rfl | rfl
  · rw [alice_funds89, balance89, if_pos (show alice89.key.sk = alice.sk from rfl)]
  · rw [bob_funds89, balance89, if_neg (show bob89.key.sk ≠ alice.sk by show bob.sk ≠ alice.sk; decide +kernel)]

/-- All hypotheses of `C89_books_partial`, `C89_solvent_partial`, `C89_claims` and `C89_total_partial` hold, and 37 + 63 coins are the 100
that were granted. -/
example : run 2 (steps89.map Step.event) = .ok led1 ∧ AllSatisfied 2 steps89 ∧ (∀ e ∈ steps89, ∀ o ∈ e.txns, o.Checked) ∧
    NoCollisionV 2 (everCreated steps89) (everSpent steps89) ∧ (∀ f ∈ [alice89, bob89], f.Follows 2 .debug steps89 led1) ∧
    (∀ f ∈ [alice89, bob89], f.Clear steps89) ∧ ([alice89, bob89].map (fun f => f.key.address)).Nodup ∧
    (∀ f ∈ [alice89, bob89], f.wallet.availableFunds .debug nativeCode = .ok (balance89 f)) ∧
    ([alice89, bob89].map (fun f => (balance89 f).val)).sum = issued nativeCode (steps89.map Step.event) :=
  ⟨steps89_run, steps89_satisfied, steps89_checked, steps89_noCollision, follows89, clear89, owners89, reported89,
    C89_total_partial steps89_run steps89_satisfied steps89_checked steps89_noCollision follows89 clear89 owners89
      native_ne_dummy known89 reported89⟩

/-- the hypotheses of `C89_honest` -/
example : Honest 2 hist ∧ (∀ x ∈ spends hist, x.1.pub_key.address ≠ 0) ∧ NoCollision 2 (created hist) (spends hist) ∧
    run 2 hist = .ok led2 := by
  refine ⟨hist_honest, ?_, hist_noCollision, hist_run⟩
  rw [hist_spends]
  decide +kernel

/-- the record the forgery makes of Alice's record of the asset -/
def forged89 : RecordOpening := { assetRec with asset_def := ⟨(77 : ZMod p), AssetPolicy.default⟩ }

/-- Alice's wallet reports units of an asset that nobody issued -/
example : ∃ (ct : Toy.E.AeadCt) (o : Opening) (s : LedgerState) (h : List Step) (f : Follower),
    h = [.grant feeRec, .grant { assetRec with asset_def := ⟨asset.code, AssetPolicy.default⟩ }, .block [o] 47 bob.pubKey 700] ∧
    run 2 (h.map Step.event) = .ok s ∧ AllSatisfied 2 h ∧ f.Follows 2 .debug h s ∧ issued (77 : ZMod p) (h.map Step.event) = 0 ∧
    f.wallet.availableFunds .debug (77 : ZMod p) = .ok 50 := by
  obtain ⟨pk, vk, keys⟩ := keys22
  obtain ⟨ct, hct⟩ : ∃ ct, ReceiverMemo.fromRo 0 forged89 [] = .ok ct := ⟨_, rfl⟩
  obtain ⟨o, s, h, f, h1, h2, h3, -, -, h4, h5, h6⟩ := C89_solvent_false Toy.complete Toy.batch .debug (d := 2) (by decide) keys
    (fee_ro := feeRec) (ro := { assetRec with asset_def := ⟨asset.code, AssetPolicy.default⟩ }) (k0 := alice) (k1 := alice)
    (by decide +kernel) (by decide +kernel) (by decide +kernel) (by decide +kernel) (by decide +kernel) rfl
    (by decide +kernel) (by decide +kernel) (by decide +kernel) (by decide +kernel) (c := (77 : ZMod p))
    (by decide +kernel) (by decide +kernel) hct (by decide +kernel) 47 bob.pubKey 700
  exact ⟨ct, o, s, h, f, h1, h2, h3, h4, h5, h6⟩

end Cap.Examples
