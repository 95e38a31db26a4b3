/-
C104: freezing and releasing move exactly the listed records in and out of the accounts.

status: proved
note: C104_user: after a block with a freeze or release by somebody else, the account of every asset of every wallet, together with what was frozen of the records it holds, is what it was together with what was released to its owner. C104_freezer: the same for the wallet of the freezer, who may freeze and release records of their own, with the fee in the native asset. C104_back: what the release of the replaced records gives back is what was taken when they were frozen. Conditions: the listed records are live (C64), the wallet's records have different nullifiers, and what the freezer draws does not coincide by accident with nullifiers or memos of the wallet.
-/
import Verif.Props.C102

namespace Cap

open Spec

variable [E : CapEnv] [S : CapExt]

/-- Nothing of the history coincides by accident with what the freezer draws or lists. -/
structure Spec.Unmistaken (k : UserKeyPair) (h : List Seen) (f : Freezer) (rng : FreezerRand) (flag : FreezeFlag)
    (rs : List (RecordOpening × U64)) : Prop where
  dummies : ∀ x, Received k h x → ownNullifier k x ≠ dummyNull (dummyFirst rng flag) ∧
    ownNullifier k x ≠ dummyNull (dummyLast rng flag)
  listed : ∀ x, Received k h x → ∀ r ∈ rs, ownNullifier k x = f.nullifier r → x = r
  memos : ∀ (j : ℕ) ro c ro', (replaced rng flag rs)[j]? = some ro → ReceiverMemo.fromRo (rng.memos j) ro [] = .ok c →
    ReceiverMemo.decrypt c k ro.commitment [] = .ok ro' → ro' = ro
  owners : (dummyFirst rng flag).pub_key ≠ k.pubKey ∧ (dummyLast rng flag).pub_key ≠ k.pubKey

omit S in
/-- what is released to the owner of `k` -/
def Spec.releasedTo (k : UserKeyPair) (code : AssetCode) (flag : FreezeFlag) (rs : List (RecordOpening × U64)) : ℕ :=
  match flag with
  | .frozen => worth code ((rs.filter (fun r => r.1.pub_key = k.pubKey)).map (·.1))
  | .unfrozen => 0

variable {d : Fin 256} {b : Build} {k k' : UserKeyPair} {h : List Seen} {s s' : LedgerState} {w w1 w2 : Wallet}
  {fee : Amount} {memos : List E.AeadCt} {coin : RecordOpening × U64} {chg : RecordOpening} {t : TransactionNote}
  {blind : F} {who : UserPubKey} {time uid : U64} {recv : List RecordOpening} {code : AssetCode}
  {before after taken rs : List (RecordOpening × U64)} {f f' : Freezer} {rng : FreezerRand} {flag : FreezeFlag} {user : Pt}
  {note : FreezeNote} {sig : E.Sig}

/-- the books of a block with one transaction -/
theorem one_note_books (world : World d b k h s w)
    (valid : validateTxnsBatch d s [t] time = .ok ())
    (inserted : s.insertBlock d.val ⟨[t], blind, who⟩ = .ok s') (offset : uid.val = s.leaves.length)
    (scanned : w.scanBlock b [t] [memos] uid = .ok (w2, recv))
    (apart : Apart k (h ++ [.block [(t, memos)] blind who time]))
    (unique : ∀ c ∈ w.changes, ∀ c' ∈ w.changes, c.commitment = c'.commitment → c = c')
    (late : ∀ x, Received k (h ++ [.block [(t, memos)] blind who time]) x → records h ≤ x.2.val → ownNullifier k x ∉ t.nullifiers)
    {spent : List (RecordOpening × U64)} (once : spent.Nodup)
    (spends : ∀ x, x ∈ spent ↔ w.Holds x ∧ ownNullifier k x ∈ t.nullifiers)
    (hb : Coins w code before) (ha : Coins w2 code after) :
    total (after.map (·.1)) + worth code (spent.map (·.1)) =
      total (before.map (·.1)) + worth code (brings k w.changes (t, memos)) := by
  obtain ⟨kept, nd, mk, perm⟩ := C101_account (blocks := [[(t, memos)]]) world
    (.block (txns := [(t, memos)]) (time := time) valid inserted offset scanned .done) apart unique
    ⟨List.nodup_singleton _, fun x hx hp t' ht => by
      obtain rfl := List.mem_singleton.1 ht
      exact late x hx hp⟩ hb ha
  simp only [List.flatten_cons, List.flatten_nil, List.append_nil, List.mem_singleton, forall_eq, List.flatMap_cons,
    List.flatMap_nil] at mk perm
  have split : before.Perm (kept ++ spent.filter (fun x => x.1.asset_def.code = code)) := by
    refine (List.perm_ext_iff_of_nodup hb.1 ?_).2 fun x => ?_
    · rw [List.nodup_append]
      refine ⟨nd, once.filter _, fun x hx z hz he => ?_⟩
      subst he
      exact ((mk x).1 hx).2 ((spends x).1 (List.mem_filter.1 hz).1).2
    · rw [List.mem_append, List.mem_filter, decide_eq_true_iff, mk, spends, hb.2]
      by_cases hn : ownNullifier k x ∈ t.nullifiers
      · exact ⟨fun ⟨h1, h2⟩ => .inr ⟨⟨h1, hn⟩, h2⟩, fun h1 => h1.elim (fun h2 => h2.1) (fun h2 => ⟨h2.1.1, h2.2⟩)⟩
      · exact ⟨fun h1 => .inl ⟨h1, hn⟩, fun h1 => h1.elim (fun h2 => h2.1) (fun h2 => absurd h2.1.2 hn)⟩
  have t1 := total_perm split
  rw [List.map_append, total_append] at t1
  have t2 : total (after.map (·.1)) = total (kept.map (·.1)) + worth code (brings k w.changes (t, memos)) := by
    unfold worth
    rw [← total_append]
    exact (perm.map _).sum_eq
  have t3 : total ((spent.filter (fun x => x.1.asset_def.code = code)).map (·.1)) = worth code (spent.map (·.1)) := by
    unfold worth
    rw [List.filter_map]
    rfl
  omega

omit S in
theorem worth_flipped (k : UserKeyPair) (code : AssetCode) : ∀ (rs : List (RecordOpening × U64))
    (g : ℕ → RecordOpening × U64 → RecordOpening), (∀ r ∈ rs, r.1.freeze_flag = flag) →
    (∀ j x, (g j x).amount = x.1.amount ∧ (g j x).asset_def = x.1.asset_def ∧ (g j x).pub_key = x.1.pub_key ∧
      (g j x).freeze_flag = x.1.freeze_flag.flip) →
    worth code ((rs.mapIdx g).filter (fun ro => ro.pub_key = k.pubKey ∧ ro.freeze_flag = .unfrozen)) = releasedTo k code flag rs
  | [], _, _, _ => by cases flag <;> rfl
  | r :: rs, g, hf, hg => by
    have ih := worth_flipped k code rs (fun i => g (i + 1)) (fun r hr => hf r (List.mem_cons_of_mem _ hr)) (fun j x => hg (j + 1) x)
    obtain ⟨g1, g2, g3, g4⟩ := hg 0 r
    have hr := hf r List.mem_cons_self
    rw [List.mapIdx_cons]
    cases flag with
    | unfrozen =>
      rw [List.filter_cons_of_neg (by rw [g4, hr]; simp [FreezeFlag.flip]), ih]
      rfl
    | frozen =>
      unfold releasedTo at ih ⊢
      dsimp only at ih ⊢
      by_cases hk : r.1.pub_key = k.pubKey
      · rw [List.filter_cons_of_pos (by rw [g4, hr, g3]; simp [FreezeFlag.flip, hk]), List.filter_cons_of_pos (by simpa using hk),
          List.map_cons, worth_cons, worth_cons, ih, g1, g2]
      · rw [List.filter_cons_of_neg (by rw [g3]; simp [hk]), List.filter_cons_of_neg (by simpa using hk), ih]

/-- what the note releases, as the memos tell it -/
theorem frozen_tells (fr : OneCoin k f.wallet (.freeze f rng flag rs fee) coin chg (replaced rng flag rs) t memos)
    (un : Unmistaken k' h f rng flag rs) (states : ∀ r ∈ rs, r.1.freeze_flag = flag) :
    worth code ((t.outputCommitments.tail.zip memos).filterMap (tells k')) = releasedTo k' code flag rs := by
  rw [fr.outputs, List.map_cons, List.tail_cons, tells_outs fr.lengths (fun j ro hj => by
    obtain ⟨c, r, h1, h2, j', h3, h4⟩ := fr.memos j ro hj
    subst h4
    exact ⟨c, _, h1, h2, fun ro' h5 => un.memos j' ro c ro' h3 h2 h5⟩)]
  unfold replaced
  have d1 : (dummiesAfter rng flag rs.length).1.pub_key ≠ k'.pubKey := un.owners.1
  have d2 : (dummiesAfter rng flag rs.length).2.pub_key ≠ k'.pubKey := un.owners.2
  rw [List.filter_cons_of_neg (by simp [d1]), List.filter_append, List.filter_cons_of_neg (by simp [d2]), List.filter_nil,
    List.append_nil]
  exact worth_flipped k' code rs (flipped rng) states (fun j x => ⟨rfl, rfl, rfl, rfl⟩)

/-- what of a wallet's records the note spends, besides the coin -/
theorem frozen_spends (holder : Holder f) (fr : Froze k f rng flag rs fee coin chg note memos) (live : ∀ r ∈ rs, Live f s flag r)
    (un : Unmistaken k' h f rng flag rs) {x : RecordOpening × U64} (known : Received k' h x) (mine : x.1.pub_key = k'.pubKey) :
    ownNullifier k' x ∈ note.input_nullifiers ↔ ownNullifier k' x = ownNullifier k coin ∨ x ∈ rs := by
  rw [fr.nullifiers, List.mem_cons]
  refine or_congr_right ⟨fun hx => ?_, fun hx => ?_⟩
  · rcases List.mem_cons.1 hx with hx | hx
    · exact absurd hx (un.dummies x known).1
    · rcases List.mem_append.1 hx with hx | hx
      · obtain ⟨r, hr, he⟩ := List.mem_map.1 hx
        rw [un.listed x known r hr he.symm]
        exact hr
      · exact absurd (List.mem_singleton.1 hx) (un.dummies x known).2
  · rw [owner_nullifier holder (live x hx).asset (congrArg (·.address) mine)]
    exact List.mem_cons_of_mem _ (List.mem_append_left _ (List.mem_map_of_mem hx))

/-- **The account of a user.**  After a block with a freeze or a release by somebody else, the account of every asset is lower by
what is frozen of the records that the wallet holds, and higher by what is released to its owner; for users who are not
concerned it is the same. -/
theorem C104_user (world : World d b k' h s w) (holder : Holder f)
    (known : mapGet user (f.shelf flag) = some rs) (made : f.freezeUser d s rng flag user fee = .ok (f', note, memos, sig))
    (froze : Froze k f rng flag rs fee coin chg note memos) (live : ∀ r ∈ rs, Live f s flag r)
    (valid : validateTxnsBatch d s [.freeze note] time = .ok ())
    (inserted : s.insertBlock d.val ⟨[.freeze note], blind, who⟩ = .ok s') (offset : uid.val = s.leaves.length)
    (scanned : w.scanBlock b [.freeze note] [memos] uid = .ok (w2, recv))
    (apart : Apart k' (h ++ [.block [(.freeze note, memos)] blind who time]))
    (unmistaken : Unmistaken k' (h ++ [.block [(.freeze note, memos)] blind who time]) f rng flag rs)
    (unique : ∀ c ∈ w.changes, ∀ c' ∈ w.changes, c.commitment = c'.commitment → c = c')
    (not_coin : ∀ x, Received k' (h ++ [.block [(.freeze note, memos)] blind who time]) x → ownNullifier k' x ≠ ownNullifier k coin)
    (not_change : ∀ c ∈ w.changes, c.commitment ≠ chg.commitment)
    (once : taken.Nodup) (ht : ∀ x, x ∈ taken ↔ x ∈ rs ∧ w.Holds x) (hb : Coins w code before) (ha : Coins w2 code after) :
    total (after.map (·.1)) + worth code (taken.map (·.1)) = total (before.map (·.1)) + releasedTo k' code flag rs := by
  have one := froze_made known made froze
  have size := (worldOk world).size
  have res := one_note_books (spent := taken) world valid inserted offset scanned apart unique
    (fun x hx hp hn => by
      have hr : x ∈ rs := by
        have hn : ownNullifier k' x ∈ note.input_nullifiers := hn
        rw [froze.nullifiers] at hn
        rcases List.mem_cons.1 hn with hn | hn
        · exact absurd hn (not_coin x hx)
        · rcases List.mem_cons.1 hn with hn | hn
          · exact absurd hn (unmistaken.dummies x hx).1
          · rcases List.mem_append.1 hn with hn | hn
            · obtain ⟨r, hr, he⟩ := List.mem_map.1 hn
              rw [unmistaken.listed x hx r hr he.symm]
              exact hr
            · exact absurd (List.mem_singleton.1 hn) (unmistaken.dummies x hx).2
      have := (List.getElem?_eq_some_iff.1 (live x hr).leaf).1
      omega) once
    (fun x => by
      rw [ht, and_comm]
      refine and_congr_right fun hx => ?_
      obtain ⟨h1, h2, -⟩ := C59_sound world x hx
      have := frozen_spends holder froze live unmistaken (h1.append _) h2
      rw [or_iff_right (not_coin x (h1.append _))] at this
      exact this.symm) hb ha
  rw [res]
  congr 1
  unfold brings
  rw [worth_append, frozen_tells one unmistaken (fun r hr => (live r hr).state)]
  have none_ : givesBack w.changes (.freeze note) = [] := by
    unfold givesBack
    rw [one.outputs]
    rw [List.map_cons, List.getElem?_cons_zero]
    dsimp only
    rw [List.find?_eq_none.2 (fun c hc => by simpa using not_change c hc)]
    rfl
  rw [none_]
  exact Nat.zero_add _

/-- **The account of the freezer**, who may freeze and release records of their own: besides, the fee is paid in the native asset. -/
theorem C104_freezer (world : World d b k h s f.wallet) (holder : Holder f)
    (known : mapGet user (f.shelf flag) = some rs) (made : f.freezeUser d s rng flag user fee = .ok (f', note, memos, sig))
    (froze : Froze k f rng flag rs fee coin chg note memos) (live : ∀ r ∈ rs, Live f s flag r)
    (begun : World d b k (h ++ [coin].map .spending ++ [.expecting chg]) s f'.wallet)
    (valid : validateTxnsBatch d s [.freeze note] time = .ok ())
    (inserted : s.insertBlock d.val ⟨[.freeze note], blind, who⟩ = .ok s') (offset : uid.val = s.leaves.length)
    (scanned : f'.wallet.scanBlock b [.freeze note] [memos] uid = .ok (w2, recv))
    (apart : Apart k (h ++ [coin].map .spending ++ [.expecting chg] ++ [.block [(.freeze note, memos)] blind who time]))
    (unmistaken : Unmistaken k (h ++ [coin].map .spending ++ [.expecting chg] ++ [.block [(.freeze note, memos)] blind who time])
      f rng flag rs)
    (unique : ∀ c c', .expecting c ∈ h ++ [coin].map .spending ++ [.expecting chg] →
      .expecting c' ∈ h ++ [coin].map .spending ++ [.expecting chg] → c.commitment = c'.commitment → c = c')
    (once : taken.Nodup) (ht : ∀ x, x ∈ taken ↔ x ∈ rs ∧ f.wallet.Holds x)
    (hb : Coins f.wallet code before) (ha : Coins w2 code after) :
    total (after.map (·.1)) + worth code (taken.map (·.1)) + (if code = nativeCode then fee.val else 0) =
      total (before.map (·.1)) + releasedTo k code flag rs := by
  have one := froze_made known made froze
  have same : ∀ x, f'.wallet.Holds x ↔ f.wallet.Holds x := (Does.freeze (b := b) rfl rfl known made froze).same world
  have size := (worldOk world).size
  have coin_known := ((C59_sound begun coin ((same coin).2 froze.held.1)).1).append
    [.block [(TransactionNote.freeze note, memos)] blind who time]
  have early : coin.2.val < records h := held_before world froze.held.1
  have fresh : coin ∉ rs := by
    intro hc
    have hv := (validateTxnsBatch_ok valid).2.1
    rw [List.flatMap_cons, List.flatMap_nil, List.append_nil, show (TransactionNote.freeze note).nullifiers = _ from froze.nullifiers,
      List.nodup_cons] at hv
    refine hv.1 (List.mem_cons_of_mem _ (List.mem_append_left _ ?_))
    rw [owner_nullifier holder (live coin hc).asset (congrArg (·.address) (C59_sound world coin froze.held.1).2.1)]
    exact List.mem_map_of_mem hc
  have unique' : ∀ c ∈ f'.wallet.changes, ∀ c' ∈ f'.wallet.changes, c.commitment = c'.commitment → c = c' := fun c hc c' hc' he =>
    unique c c' ((worldOk begun).changes c hc).1 ((worldOk begun).changes c' hc').1 he
  have res := one_note_books (spent := coin :: taken) begun valid inserted offset scanned apart unique'
    (fun x hx hp hn => by
      rw [records_begun] at hp
      have hn : ownNullifier k x ∈ note.input_nullifiers := hn
      rw [froze.nullifiers] at hn
      rcases List.mem_cons.1 hn with hn | hn
      · rw [apart.among x coin hx coin_known hn] at hp
        omega
      · rcases List.mem_cons.1 hn with hn | hn
        · exact absurd hn (unmistaken.dummies x hx).1
        · rcases List.mem_append.1 hn with hn | hn
          · obtain ⟨r, hr, he⟩ := List.mem_map.1 hn
            have := (List.getElem?_eq_some_iff.1 (live r hr).leaf).1
            rw [unmistaken.listed x hx r hr he.symm] at hp
            omega
          · exact absurd (List.mem_singleton.1 hn) (unmistaken.dummies x hx).2)
    (List.nodup_cons.2 ⟨fun hc => fresh ((ht coin).1 hc).1, once⟩)
    (fun x => by
      rw [List.mem_cons, ht, same]
      constructor
      · rintro (rfl | ⟨h1, h2⟩)
        · refine ⟨froze.held.1, ?_⟩
          show _ ∈ note.input_nullifiers
          rw [froze.nullifiers]
          exact List.mem_cons_self
        · obtain ⟨g1, g2, -⟩ := C59_sound begun x ((same x).2 h2)
          exact ⟨h2, (frozen_spends holder froze live unmistaken (g1.append _) g2).2 (.inr h1)⟩
      · rintro ⟨h1, h2⟩
        obtain ⟨g1, g2, -⟩ := C59_sound begun x ((same x).2 h1)
        rcases (frozen_spends holder froze live unmistaken (g1.append _) g2).1 h2 with h3 | h3
        · exact .inl (apart.among x coin (g1.append _) coin_known h3)
        · exact .inr ⟨h3, h1⟩) ⟨hb.1, fun x => by rw [hb.2, same]⟩ ha
  have waits : chg ∈ f'.wallet.changes := expecting_changes begun rfl
  have gives : givesBack f'.wallet.changes (.freeze note) = [chg] := by
    unfold givesBack
    rw [one.outputs]
    rw [List.map_cons, List.getElem?_cons_zero]
    dsimp only
    cases hf : f'.wallet.changes.find? (fun c => c.commitment = chg.commitment) with
    | none =>
      have := List.find?_eq_none.1 hf chg waits
      simp at this
    | some c =>
      rw [unique' c (List.mem_of_find?_eq_some hf) chg waits (by simpa using List.find?_some hf)]
      rfl
  have hbr : worth code (brings k f'.wallet.changes (.freeze note, memos)) =
      worth code [chg] + releasedTo k code flag rs := by
    unfold brings
    rw [worth_append, gives, frozen_tells one unmistaken (fun r hr => (live r hr).state)]
  rw [hbr, List.map_cons, worth_cons, worth_cons, show worth code [] = 0 from rfl, froze.held.2, froze.change.1] at res
  have hfee := froze.fee_value
  have hnat : AssetDefinition.native.code = nativeCode := rfl
  rw [hnat] at res
  by_cases hc : code = nativeCode
  · rw [if_pos hc] at res ⊢
    rw [if_pos hc] at res
    omega
  · rw [if_neg hc] at res ⊢
    rw [if_neg hc] at res
    omega

/-- **There and back.**  What is frozen of a user who holds all of their listed records is what is given back when the records
that replaced them are released. -/
theorem C104_back {rs2 : List (RecordOpening × U64)} (world : World d b k' h s w)
    (froze : Froze k f rng .unfrozen rs fee coin chg note memos)
    (valid : validateTxnsBatch d s [.freeze note] time = .ok ())
    (all : ∀ r ∈ rs, r.1.pub_key = k'.pubKey → w.Holds r) (once : taken.Nodup) (ht : ∀ x, x ∈ taken ↔ x ∈ rs ∧ w.Holds x)
    (replacing : rs2.map (·.1) = rs.mapIdx (flipped rng)) :
    releasedTo k' code .frozen rs2 = worth code (taken.map (·.1)) := by
  have hv := (validateTxnsBatch_ok valid).2.1
  rw [List.flatMap_cons, List.flatMap_nil, List.append_nil, show (TransactionNote.freeze note).nullifiers = _ from froze.nullifiers,
    List.nodup_cons, List.nodup_cons, List.nodup_append] at hv
  have nd : rs.Nodup := List.Nodup.of_map _ hv.2.2.1
  have perm : taken.Perm (rs.filter (fun r => r.1.pub_key = k'.pubKey)) := by
    refine (List.perm_ext_iff_of_nodup once (nd.filter _)).2 fun x => ?_
    rw [ht, List.mem_filter, decide_eq_true_iff]
    exact and_congr_right fun hx => ⟨fun h1 => (C59_sound world x h1).2.1, all x hx⟩
  have e1 : worth code (taken.map (·.1)) = worth code ((rs.filter (fun r => r.1.pub_key = k'.pubKey)).map (·.1)) := by
    unfold worth
    exact (((perm.map _).filter _).map _).sum_eq
  have e2 : ∀ (rs : List (RecordOpening × U64)) (g : ℕ → RecordOpening × U64 → RecordOpening),
      (∀ j x, (g j x).amount = x.1.amount ∧ (g j x).asset_def = x.1.asset_def ∧ (g j x).pub_key = x.1.pub_key) →
      worth code ((rs.mapIdx g).filter (fun ro => ro.pub_key = k'.pubKey)) =
        worth code ((rs.filter (fun r => r.1.pub_key = k'.pubKey)).map (·.1)) := by
    intro rs
    induction rs with
    | nil => exact fun _ _ => rfl
    | cons r rs ih =>
      intro g hg
      have ih := ih (fun i => g (i + 1)) (fun j x => hg (j + 1) x)
      obtain ⟨g1, g2, g3⟩ := hg 0 r
      rw [List.mapIdx_cons]
      by_cases hk : r.1.pub_key = k'.pubKey
      · rw [List.filter_cons_of_pos (by rw [g3]; simp [hk]), List.filter_cons_of_pos (by simpa using hk), List.map_cons, worth_cons,
          worth_cons, ih, g1, g2]
      · rw [List.filter_cons_of_neg (by rw [g3]; simp [hk]), List.filter_cons_of_neg (by simpa using hk), ih]
  have e3 : (rs2.filter (fun r => r.1.pub_key = k'.pubKey)).map (·.1) =
      (rs.mapIdx (flipped rng)).filter (fun ro => ro.pub_key = k'.pubKey) := by
    rw [← replacing, List.filter_map]
    rfl
  rw [e1, ← e2 rs (flipped rng) (fun j x => ⟨rfl, rfl, rfl⟩), ← e3]
  rfl

end Cap

namespace Cap.Examples

open Toy Spec

/-- the note is the only one -/
theorem only104 {pre : List Seen} {n : ℕ} {note : FreezeNote} {memos m : List Toy.E.AeadCt} {blind : F} {who : UserPubKey} {time : U64}
    {t : TransactionNote} {pos : ℕ} (no_block : ∀ txns blind who time, .block txns blind who time ∉ pre) (size : records pre = n)
    (a : At (pre ++ [.block [(.freeze note, memos)] blind who time]) t m pos) : t = .freeze note ∧ m = memos ∧ pos = n := by
  rcases a.cases with a | ⟨txns, blind, who, time, i, h1, h2, rfl⟩
  · exfalso
    obtain ⟨before, txns, blind, who, time, after, -, -, h1, -⟩ := a
    have : Seen.block txns blind who time ∈ pre := by rw [h1]; simp
    exact no_block _ _ _ _ this
  · cases h1
    rcases h2.cases with ⟨h3, h4⟩ | ⟨m, -, h3⟩
    · cases h3
      exact ⟨rfl, rfl, by rw [h4, size]; rfl⟩
    · exact (nomatch h3.mem)

/-- what the owner `k` of a frozen or released record gets to know, if the note is in the only block -/
theorem received104 {k k0 : UserKeyPair} {flag : FreezeFlag} {r : RecordOpening × U64} {pre : List Seen} {n : ℕ} {f : Freezer}
    {fee : Amount} {coin : RecordOpening × U64} {chg : RecordOpening} {note : FreezeNote} {memos : List Toy.E.AeadCt}
    {blind : F} {who : UserPubKey} {time : U64} {w : Wallet}
    (one : OneCoin k0 w (.freeze f frzRand flag [r] fee) coin chg (replaced frzRand flag [r]) (.freeze note) memos)
    (no_block : ∀ txns blind who time, .block txns blind who time ∉ pre) (size : records pre = n)
    (distinct : (replaced frzRand flag [r]).Nodup)
    (readable : ∀ j ro c ro', (replaced frzRand flag [r])[j]? = some ro → ReceiverMemo.fromRo (frzRand.memos j) ro [] = .ok c →
      ReceiverMemo.decrypt c k ro.commitment [] = .ok ro' → ro' = ro ∧ j = 1) {x : RecordOpening × U64}
    (received : Received k (pre ++ [.block [(.freeze note, memos)] blind who time]) x) :
    .told x.1 x.2 ∈ pre ∨ (x.1 = flipped frzRand 0 r ∧ x.2.val = n + 2) ∨
      (.expecting x.1 ∈ pre ∧ x.1.commitment = chg.commitment ∧ x.2.val = n) := by
  have hat : ∀ {t : TransactionNote} {m : List Toy.E.AeadCt} {pos : ℕ},
      At (pre ++ [.block [(.freeze note, memos)] blind who time]) t m pos → t = .freeze note ∧ m = memos ∧ pos = n :=
    fun a => only104 no_block size a
  cases received with
  | told mem =>
    rcases List.mem_append.1 mem with h | h
    · exact .inl h
    · exact absurd (List.mem_singleton.1 h) (by simp)
  | memo a o m op p =>
    rename_i t ms pos j rc c ro uid
    obtain ⟨e1, e2, e3⟩ := hat a
    rw [e1, one.outputs, List.map_cons, List.getElem?_cons_succ, List.getElem?_map] at o
    rw [e2] at m
    cases hj : (replaced frzRand flag [r])[j]? with
    | none =>
      rw [hj] at o
      cases o
    | some ro' =>
      rw [hj] at o
      obtain ⟨c', r', g1, g2, j', g3, g4⟩ := one.memos j ro' hj
      rw [g1] at m
      rw [← Option.some.inj o, ← Option.some.inj m] at op
      rw [g4] at g2
      obtain ⟨q1, q2⟩ := readable j' ro' c' ro g3 g2 op
      obtain ⟨l1, m1⟩ := List.getElem?_eq_some_iff.1 hj
      obtain ⟨l2, m2⟩ := List.getElem?_eq_some_iff.1 g3
      have hjj : j = j' := (List.Nodup.getElem_inj_iff distinct).1 (m1.trans m2.symm)
      rw [q2] at g3
      refine .inr (.inl ⟨q1.trans (Option.some.inj g3).symm, ?_⟩)
      dsimp only
      omega
  | change wt a o p =>
    obtain ⟨e1, -, e3⟩ := hat a
    rw [e1, one.outputs, List.map_cons, List.getElem?_cons_zero] at o
    refine .inr (.inr ⟨?_, (Option.some.inj o).symm, by rw [← e3]; exact p⟩)
    rcases List.mem_append.1 wt with h | h
    · exact h
    · exact absurd (List.mem_singleton.1 h) (by simp)

/-! Alice's record is frozen and Bob's is released (C64). -/

def key104 : FreezeFlag → UserKeyPair
  | .unfrozen => alice
  | .frozen => bob
def rec104 : FreezeFlag → RecordOpening × U64
  | .unfrozen => (assetRec, 1)
  | .frozen => (frozenRec, 2)

theorem dummies104 (flag : FreezeFlag) : ([((0 : ℕ), (dummiesAfter frzRand flag 1).1), (2, (dummiesAfter frzRand flag 1).2)].all
    (fun o => match ReceiverMemo.fromRo (frzRand.memos o.1) o.2 [] with
      | .ok c => !isOk (ReceiverMemo.decrypt c (key104 flag) o.2.commitment [])
      | .error _ => false)) = true := by cases flag <;> decide +kernel

theorem distinct104 (flag : FreezeFlag) : (replaced frzRand flag [rec104 flag]).Nodup := by
  refine List.Nodup.of_map RecordOpening.blind ?_
  cases flag <;> decide +kernel

theorem readable104 (flag : FreezeFlag) (j : ℕ) (ro : RecordOpening) (c : Toy.E.AeadCt) (ro' : RecordOpening)
    (hj : (replaced frzRand flag [rec104 flag])[j]? = some ro) (hc : ReceiverMemo.fromRo (frzRand.memos j) ro [] = .ok c)
    (ho : ReceiverMemo.decrypt c (key104 flag) ro.commitment [] = .ok ro') : ro' = ro ∧ j = 1 := by
  have hd := dummies104 flag
  simp only [List.all_cons, List.all_nil, Bool.and_true, Bool.and_eq_true] at hd
  have hl : j < 3 := (List.getElem?_eq_some_iff.1 hj).1
  obtain rfl | rfl | rfl : j = 0 ∨ j = 1 ∨ j = 2 := by omega
  · exfalso
    have h3 := hd.1
    rw [show (dummiesAfter frzRand flag 1).1 = ro from Option.some.inj hj, hc] at h3
    dsimp only at h3
    rw [ho] at h3
    cases h3
  · refine ⟨?_, rfl⟩
    have own : (flipped frzRand 0 (rec104 flag)).pub_key = (key104 flag).pubKey := by cases flag <;> rfl
    rw [show flipped frzRand 0 (rec104 flag) = ro from Option.some.inj hj] at own
    have := C35_round_trip _ _ _ (key104 flag) _ own hc
    exact (Except.ok.inj (this.symm.trans ho)).symm
  · exfalso
    have h3 := hd.2
    rw [show (dummiesAfter frzRand flag 1).2 = ro from Option.some.inj hj, hc] at h3
    dsimp only at h3
    rw [ho] at h3
    cases h3

def seen104 : FreezeFlag → List Seen
  | .unfrozen => seenF ++ [.told assetRec 1]
  | .frozen => seenF
def wallet104 : FreezeFlag → Wallet
  | .unfrozen => (Wallet.new alice).addRecordOpening assetRec 1
  | .frozen => Wallet.new bob

theorem world104 : ∀ flag, World 2 .debug (key104 flag) (seen104 flag) ledF (wallet104 flag)
  | .unfrozen => (worldF alice).told (ro := assetRec) (uid := 1) rfl rfl rfl (by simp [ledF])
  | .frozen => worldF bob

/-- the records the user gets to know of -/
def mine104 (flag : FreezeFlag) : List (RecordOpening × U64) := [rec104 flag, (flipped frzRand 0 (rec104 flag), 5)]

theorem numbers104 (flag : FreezeFlag) : ((mine104 flag).map (ownNullifier (key104 flag))).Nodup ∧
    ((mine104 flag).all (fun x => ownNullifier (key104 flag) x ≠ dummyNull (dummyFirst frzRand flag) ∧
      ownNullifier (key104 flag) x ≠ dummyNull (dummyLast frzRand flag) ∧
      ownNullifier (key104 flag) x ≠ ownNullifier carol (frzCoin, 0))) = true ∧
    ownNullifier (key104 flag) (flipped frzRand 0 (rec104 flag), 5) ≠ freezer1.nullifier (rec104 flag) ∧
    (dummyFirst frzRand flag).pub_key.address ≠ (key104 flag).address ∧
    (dummyLast frzRand flag).pub_key.address ≠ (key104 flag).address := by
  cases flag <;> decide +kernel

/-- Alice's account of the asset goes from 50 to 0, and Bob's from 0 to 40. -/
example (flag : FreezeFlag) : ∃ f' note memos sig s' w2,
    freezer1.freezeUser 2 ledF frzRand flag (frzUser flag) 7 = .ok (f', note, memos, sig) ∧
    World 2 .debug (key104 flag) (seen104 flag ++ [.block [(.freeze note, memos)] (47 : ZMod p) bob.pubKey 5]) s' w2 ∧
    ∀ before after, Coins (wallet104 flag) asset.code before → Coins w2 asset.code after →
      total (after.map (·.1)) + (match flag with | .unfrozen => 50 | .frozen => 0) =
        total (before.map (·.1)) + (match flag with | .unfrozen => 0 | .frozen => 40) := by
  obtain ⟨f', note, memos, sig, h1, -, -, valid⟩ := freezer1_frz flag
  obtain ⟨hl, hm, s', inserted⟩ := frz_block h1
  obtain ⟨rs, coin, chg, known, froze, -⟩ := C64_did worldCarol h1
  obtain rfl : rs = [rec104 flag] := by
    rw [frz_known] at known
    rw [← Option.some.inj known]
    cases flag <;> rfl
  obtain rfl := (walletF_holds coin).1 froze.held.1
  obtain ⟨w2, recv, scanned⟩ := world_scans (world104 flag) (txns := [(.freeze note, memos)]) inserted (uid := 3) rfl (by
    intro t ht
    obtain rfl := List.mem_singleton.1 ht
    show note.output_commitments.length = memos.length + 1
    rw [hl, hm])
  have one := froze_made known h1 froze
  have no_expecting : ∀ c, .expecting c ∉ seen104 flag := by
    intro c hc
    cases flag <;> simp [seen104, seenF] at hc
  have no_block : ∀ txns blind who time, .block txns blind who time ∉ seen104 flag := by
    intro txns blind who time hb
    cases flag <;> simp [seen104, seenF] at hb
  have size : records (seen104 flag) = 3 := by cases flag <;> rfl
  have hr : ∀ x, Received (key104 flag) (seen104 flag ++ [.block [(.freeze note, memos)] (47 : ZMod p) bob.pubKey 5]) x →
      x ∈ mine104 flag := by
    intro x hx
    rcases received104 (n := 3) one no_block size (distinct104 flag) (readable104 flag) hx with h | ⟨h2, h3⟩ | ⟨h, -⟩
    · refine List.mem_cons.2 (.inl ?_)
      cases flag with
      | unfrozen =>
        simp only [seen104, seenF, List.cons_append, List.nil_append, List.mem_cons, List.not_mem_nil, or_false, reduceCtorEq,
          false_or, Seen.told.injEq] at h
        exact Prod.ext h.1 h.2
      | frozen => simp [seen104, seenF] at h
    · exact List.mem_cons_of_mem _ (List.mem_singleton.2 (Prod.ext h2 (Fin.ext h3)))
    · exact absurd h (no_expecting _)
  obtain ⟨n1, n2, n3, n4, n5⟩ := numbers104 flag
  rw [List.all_eq_true] at n2
  have n2 : ∀ x ∈ mine104 flag, _ := fun x hx => of_decide_eq_true (n2 x hx)
  refine ⟨f', note, memos, sig, s', w2, h1, .block (txns := [(.freeze note, memos)]) (world104 flag) (valid 5) inserted
    (uid := 3) rfl scanned, fun before after hb ha => ?_⟩
  have res := C104_user (taken := match flag with | .unfrozen => [(assetRec, 1)] | .frozen => []) (world104 flag) holder1 known h1
    froze (fun r hr => by
      obtain rfl := List.mem_singleton.1 hr
      cases flag with
      | unfrozen => exact ⟨rfl, rfl, frz_owners.1.1, rfl, by simp [ledF]⟩
      | frozen => exact ⟨rfl, rfl, frz_owners.1.2, rfl, by simp [ledF]⟩) (valid 5) inserted (uid := 3) rfl scanned
    ⟨fun x y hx hy hn => List.inj_on_of_nodup_map n1 (hr x hx) (hr y hy) hn, fun x hx t m pos a hp => by
      exfalso
      have : x.2.val ≤ 5 := by
        rcases List.mem_cons.1 (hr x hx) with rfl | h
        · cases flag <;> decide
        · rw [List.mem_singleton.1 h]
          show (5 : U64).val ≤ 5
          decide
      obtain ⟨rfl, -, rfl⟩ := only104 no_block size a
      have hl : (TransactionNote.freeze note).outputCommitments.length = 4 := hl
      omega⟩
    ⟨fun x hx => ⟨(n2 x (hr x hx)).1, (n2 x (hr x hx)).2.1⟩, fun x hx r hr' he => by
      obtain rfl := List.mem_singleton.1 hr'
      rcases List.mem_cons.1 (hr x hx) with rfl | h
      · rfl
      · obtain rfl := List.mem_singleton.1 h
        exact absurd he n3, fun j ro c ro' g1 g2 g3 => (readable104 flag j ro c ro' g1 g2 g3).1,
      fun e => n4 (congrArg (·.address) e), fun e => n5 (congrArg (·.address) e)⟩
    (fun c hc => absurd ((worldOk (world104 flag)).changes c hc).1 (no_expecting c))
    (fun x hx => (n2 x (hr x hx)).2.2)
    (fun c hc => absurd ((worldOk (world104 flag)).changes c hc).1 (no_expecting c))
    (by cases flag <;> simp) (fun x => by
      cases flag with
      | unfrozen =>
        rw [show (wallet104 .unfrozen).Holds x ↔ x = (assetRec, 1) ∨ (Wallet.new alice).Holds x from Wallet.holds_add ..,
          List.mem_singleton, show x ∈ [rec104 .unfrozen] ↔ x = (assetRec, 1) from List.mem_singleton]
        exact ⟨fun e => ⟨e, .inl e⟩, fun e => e.1⟩
      | frozen => exact ⟨fun e => (nomatch e), fun ⟨_, _, e, _⟩ => (nomatch e)⟩) hb ha
  cases flag with
  | unfrozen =>
    change _ + worth asset.code [assetRec] = _ + 0 at res
    rw [show worth asset.code [assetRec] = 50 by decide +kernel] at res
    exact res
  | frozen =>
    have rel : releasedTo (key104 .frozen) asset.code .frozen [rec104 .frozen] = 40 := by
      unfold releasedTo
      dsimp only
      rw [List.filter_cons_of_pos (by rw [decide_eq_true_iff]; rfl)]
      decide +kernel
    rw [rel] at res
    exact res

/-! Alice is the freezer of the asset now, and freezes her own record (C59's ledger). -/

def told104 : List Seen := told100 ++ [.told assetRec 1]
def walletB104 : Wallet := walletA.addRecordOpening assetRec 1

theorem worldB104 : World 2 .debug alice told104 led0 walletB104 := worldA.told (uid := 1) rfl rfl rfl (by simp [led0])

theorem walletB104_holds (x : RecordOpening × U64) : walletB104.Holds x ↔ x = (assetRec, 1) ∨ x = (feeRec, 0) := by
  unfold walletB104
  rw [Wallet.holds_add, walletA_holds]

def freezer104 : Freezer := ⟨⟨viewer, asset⟩, freezer, walletB104, [(alice.address, [(assetRec, 1)])], [], [], [], []⟩
def chg104 : RecordOpening := ⟨93, AssetDefinition.native, alice.pubKey, .unfrozen, (71 : ZMod p)⟩

/-- the records Alice gets to know of -/
def all104 : List (RecordOpening × U64) := [(feeRec, 0), (assetRec, 1), (chg104, 2), (flipped frzRand 0 (assetRec, 1), 4)]

theorem numbersB104 : (all104.map (ownNullifier alice)).Nodup ∧
    (all104.all (fun x => ownNullifier alice x ≠ dummyNull (dummyFirst frzRand .unfrozen) ∧
      ownNullifier alice x ≠ dummyNull (dummyLast frzRand .unfrozen) ∧
      (ownNullifier alice x = freezer104.nullifier (assetRec, 1) → x.2 = 1))) = true ∧
    (ownNullifier alice (feeRec, 0) :: dummyNull (dummyFirst frzRand .unfrozen) ::
      ([(assetRec, (1 : U64))].map freezer104.nullifier ++ [dummyNull (dummyLast frzRand .unfrozen)])).Nodup := by
  decide +kernel

theorem apartB104 : Apart alice told104 := by
  have hat : ∀ {t : TransactionNote} {memos : List Toy.E.AeadCt} {pos : ℕ}, ¬ At told104 t memos pos := by
    rintro t memos pos ⟨before, txns, blind, who, time, after, -, -, h1, -⟩
    have : Seen.block txns blind who time ∈ told104 := by rw [h1]; simp
    simp [told104, told100, seen0] at this
  have hr : ∀ x, Received alice told104 x → x ∈ all104 := by
    intro x hx
    cases hx with
    | told mem =>
      simp only [told104, told100, seen0, List.cons_append, List.nil_append, List.mem_cons, List.not_mem_nil, or_false,
        reduceCtorEq, false_or, Seen.told.injEq] at mem
      rcases mem with ⟨h1, h2⟩ | ⟨h1, h2⟩
      · rw [h1, h2]
        simp [all104]
      · rw [h1, h2]
        simp [all104]
    | memo a => exact absurd a hat
    | change _ a => exact absurd a hat
  exact ⟨fun x y hx hy hn => List.inj_on_of_nodup_map numbersB104.1 (hr x hx) (hr y hy) hn, fun x hx t m pos a => absurd a hat⟩

theorem holder104 : Holder freezer104 := ⟨rfl, holder1.set, rfl⟩
theorem live104 : ∀ r ∈ [(assetRec, (1 : U64))], Live freezer104 led0 .unfrozen r := by
  intro r hr
  obtain rfl := List.mem_singleton.1 hr
  exact ⟨rfl, rfl, frz_owners.1.1, rfl, by simp [led0]⟩

/-- what Alice knows when she has frozen her record -/
def begun104 : List Seen := told104 ++ [(feeRec, (0 : U64))].map .spending ++ [.expecting chg104]

theorem expects104 {c : RecordOpening} (hc : .expecting c ∈ begun104) : c = chg104 := by
  simpa [begun104, told104, told100, seen0] using hc

/-- the freeze, and the block with it -/
theorem own104 : ∃ f' note memos sig s' w2 recv,
    freezer104.freezeUser 2 led0 frzRand .unfrozen alice.address 7 = .ok (f', note, memos, sig) ∧
    Froze alice freezer104 frzRand .unfrozen [(assetRec, 1)] 7 (feeRec, 0) chg104 note memos ∧
    World 2 .debug alice begun104 led0 f'.wallet ∧ validateTxnsBatch 2 led0 [.freeze note] 5 = .ok () ∧
    led0.insertBlock 2 ⟨[.freeze note], (47 : ZMod p), bob.pubKey⟩ = .ok s' ∧
    f'.wallet.scanBlock .debug [.freeze note] [memos] 2 = .ok (w2, recv) ∧
    Apart alice (begun104 ++ [.block [(.freeze note, memos)] (47 : ZMod p) bob.pubKey 5]) ∧
    Unmistaken alice (begun104 ++ [.block [(.freeze note, memos)] (47 : ZMod p) bob.pubKey 5]) freezer104 frzRand .unfrozen
      [(assetRec, 1)] := by
  have only : ∀ x, walletB104.Holds x → x.1.asset_def.code = nativeCode → x = (feeRec, 0) := by
    intro x hx hc
    rcases (walletB104_holds x).1 hx with rfl | rfl
    · exact absurd hc asset_code.1
    · rfl
  have known : mapGet alice.address (freezer104.shelf .unfrozen) = some [(assetRec, 1)] := rfl
  obtain ⟨f', note, memos, sig, h1, -, -, valid⟩ := C64_accepted_partial (fee := 7) Toy.complete Toy.batch worldB104 apartB104
    holder104 known live104 frzRand (fun x hx hc => by rw [only x hx hc]; rfl)
    ⟨_, (walletB104_holds _).2 (.inr rfl), rfl, by decide⟩ frz_owners.2
    (fun x hx hc => by rw [only x hx hc]; exact numbersB104.2.2) ⟨by simp [led0], by simp [led0]⟩ ⟨_, rfl⟩
    (fun i o ho => ⟨_, rfl⟩)
  obtain ⟨rs, coin, chg, known', froze, -, begun, -, -⟩ := C64_did worldB104 h1
  obtain rfl : rs = [(assetRec, 1)] := (Option.some.inj (known.symm.trans known')).symm
  obtain rfl := only coin froze.held.1 (by rw [froze.held.2]; rfl)
  have hg : chg = chg104 := by
    have hv := froze.fee_value
    change 100 = chg.amount.val + 7 at hv
    have ha : chg.amount = 93 := Fin.ext (show chg.amount.val = 93 by omega)
    obtain ⟨c1, c2, c3, c4⟩ := froze.change
    obtain ⟨a, ad, pk, ff, bl⟩ := chg
    dsimp only at ha c1 c2 c3 c4
    subst ha c1 c2 c3 c4
    rfl
  subst hg
  have begun : World 2 .debug alice begun104 led0 f'.wallet := by
    simpa [begun104] using begun
  have hl : note.output_commitments.length = 4 := by
    rw [froze.outputs]
    rfl
  have hm : memos.length = 3 := froze.memos.1
  obtain ⟨s', inserted⟩ : ∃ s', led0.insertBlock 2 ⟨[.freeze note], (47 : ZMod p), bob.pubKey⟩ = .ok s' :=
    insertBlock_iff.2 ⟨by
      show Room 2 led0 (note.output_commitments.length + 0 + 1)
      rw [hl]
      exact ⟨by decide, by decide⟩, by
      show note.aux_info.fee.val + 0 < _
      have := note.aux_info.fee.isLt
      omega⟩
  obtain ⟨w2, recv, scanned⟩ := world_scans begun (txns := [(.freeze note, memos)]) inserted (uid := 2) rfl (by
    intro t ht
    obtain rfl := List.mem_singleton.1 ht
    show note.output_commitments.length = memos.length + 1
    rw [hl, hm])
  have one := froze_made known h1 froze
  have no_block : ∀ txns blind who time, .block txns blind who time ∉ begun104 := by
    intro txns blind who time hb
    simp [begun104, told104, told100, seen0] at hb
  have size : records begun104 = 2 := rfl
  have hr : ∀ x, Received alice (begun104 ++ [.block [(.freeze note, memos)] (47 : ZMod p) bob.pubKey 5]) x → x ∈ all104 := by
    intro x hx
    rcases received104 (n := 2) (r := (assetRec, 1)) one no_block size (distinct104 .unfrozen) (readable104 .unfrozen) hx with
      h | ⟨h2, h3⟩ | ⟨h2, -, h3⟩
    · simp only [begun104, told104, told100, seen0, List.cons_append, List.nil_append, List.mem_cons, List.not_mem_nil, or_false,
        reduceCtorEq, false_or, Seen.told.injEq, List.map_cons, List.map_nil] at h
      rcases h with ⟨h1, h2⟩ | ⟨h1, h2⟩
      · rw [show x = (feeRec, 0) from Prod.ext h1 h2]
        simp [all104]
      · rw [show x = (assetRec, 1) from Prod.ext h1 h2]
        simp [all104]
    · rw [show x = (flipped frzRand 0 (assetRec, 1), 4) from Prod.ext h2 (Fin.ext h3)]
      simp [all104]
    · rw [show x = (chg104, 2) from Prod.ext (expects104 h2) (Fin.ext h3)]
      simp [all104]
  obtain ⟨n1, n2, -⟩ := numbersB104
  rw [List.all_eq_true] at n2
  have n2 : ∀ x ∈ all104, _ := fun x hx => of_decide_eq_true (n2 x hx)
  have apart : Apart alice (begun104 ++ [.block [(.freeze note, memos)] (47 : ZMod p) bob.pubKey 5]) :=
    ⟨fun x y hx hy hn => List.inj_on_of_nodup_map n1 (hr x hx) (hr y hy) hn, fun x hx t m pos a hp => by
      exfalso
      have h1 := hr x hx
      have : x.2.val ≤ 4 := by
        simp only [all104, List.mem_cons, List.not_mem_nil, or_false] at h1
        rcases h1 with rfl | rfl | rfl | rfl <;> decide
      obtain ⟨rfl, -, rfl⟩ := only104 no_block size a
      have hl : (TransactionNote.freeze note).outputCommitments.length = 4 := hl
      omega⟩
  have clear : Unmistaken alice (begun104 ++ [.block [(.freeze note, memos)] (47 : ZMod p) bob.pubKey 5]) freezer104 frzRand .unfrozen
      [(assetRec, 1)] :=
    ⟨fun x hx => ⟨(n2 x (hr x hx)).1, (n2 x (hr x hx)).2.1⟩, fun x hx r hr' he => by
      obtain rfl := List.mem_singleton.1 hr'
      have h1 := hr x hx
      have h2 := (n2 x h1).2.2 he
      simp only [all104, List.mem_cons, List.not_mem_nil, or_false] at h1
      rcases h1 with rfl | rfl | rfl | rfl
      · exact absurd (congrArg Fin.val h2) (by decide)
      · rfl
      · exact absurd (congrArg Fin.val h2) (by decide)
      · exact absurd (congrArg Fin.val h2) (by decide),
      fun j ro c ro' g1 g2 g3 => (readable104 .unfrozen j ro c ro' g1 g2 g3).1,
      fun e => (numbers104 .unfrozen).2.2.2.1 (congrArg (·.address) e), fun e => (numbers104 .unfrozen).2.2.2.2 (congrArg (·.address) e)⟩
  exact ⟨f', note, memos, sig, s', w2, recv, h1, froze, begun, valid 5, inserted, scanned, apart, clear⟩

/-- Alice has 93 native and none of the asset afterwards. -/
example : ∃ f' note memos sig s' w2,
    freezer104.freezeUser 2 led0 frzRand .unfrozen alice.address 7 = .ok (f', note, memos, sig) ∧
    World 2 .debug alice (begun104 ++ [.block [(.freeze note, memos)] (47 : ZMod p) bob.pubKey 5]) s' w2 ∧
    ∀ native of_asset native' of_asset', Coins walletB104 nativeCode native → Coins walletB104 asset.code of_asset →
      Coins w2 nativeCode native' → Coins w2 asset.code of_asset' →
      total (native'.map (·.1)) + 7 = total (native.map (·.1)) ∧ total (of_asset'.map (·.1)) + 50 = total (of_asset.map (·.1)) := by
  obtain ⟨f', note, memos, sig, s', w2, recv, h1, froze, begun, valid, inserted, scanned, apart, clear⟩ := own104
  have books : ∀ {code before after}, Coins walletB104 code before → Coins w2 code after →
      total (after.map (·.1)) + worth code [assetRec] + (if code = nativeCode then (7 : Amount).val else 0) =
        total (before.map (·.1)) + 0 := fun hb ha =>
    C104_freezer (taken := [(assetRec, 1)]) worldB104 holder104 rfl h1 froze live104 begun valid inserted (uid := 2) rfl scanned
      apart clear (fun c c' h2 h3 _ => by rw [expects104 h2, expects104 h3]) (List.nodup_singleton _) (fun x => by
        rw [List.mem_singleton]
        exact ⟨fun e => ⟨e, (walletB104_holds x).2 (.inl e)⟩, fun e => e.1⟩) hb ha
  refine ⟨f', note, memos, sig, s', w2, h1, .block (txns := [(.freeze note, memos)]) begun valid inserted (uid := 2) rfl scanned,
    fun native of_asset native' of_asset' b1 b2 b3 b4 => ?_⟩
  have r1 := books b1 b3
  have r2 := books b2 b4
  rw [show worth nativeCode [assetRec] = 0 by decide +kernel, if_pos rfl] at r1
  rw [show worth asset.code [assetRec] = 50 by decide +kernel, if_neg asset_code.1] at r2
  change _ + 0 + 7 = _ at r1
  omega

end Cap.Examples
