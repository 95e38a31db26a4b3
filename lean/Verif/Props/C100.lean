/-
C100: mints, freezes and payments of one wallet are booked to the right accounts.

status: partial
note: C100_minted, C100_froze: what the wallet holds when a mint, a freeze or a release is settled: what it held without the coin that paid the fee, the change, and, if it minted for itself, the minted record; nothing else. C100_charge, C100_account: after any sequence of payments in any assets, mints, freezes and releases of records of others, each waited for, the account of every asset is lower by what was paid of it to others, the native one also by all fees, and higher by what was minted for the wallet itself. C100_mint_goes_on, C100_freeze_goes_on: every accepted mint, freeze or release can be settled and carried on with. FALSE that the balance suffices: C100_scattered_false: if every single native record is below the fee, no mint, freeze or release is made. Partial: freezing the wallet's own records is left out here; it is in C104 and C105.
-/
import Verif.Props.C63
import Verif.Props.C64
import Verif.Props.C99

namespace Cap

open Spec

variable [E : CapEnv] [S : CapExt]

omit S in
/-- the records that a freeze note creates besides the change of the fee -/
def Spec.replaced (rng : FreezerRand) (flag : FreezeFlag) (records : List (RecordOpening × U64)) : List RecordOpening :=
  (dummiesAfter rng flag records.length).1 :: (records.mapIdx (flipped rng) ++ [(dummiesAfter rng flag records.length).2])

omit S in
/-- What the owner of a wallet does with it: pay, mint as an issuer, freeze or release the records of others as a freezer. -/
inductive Spec.Act
  | pay (o : Deal)
  | mint (rng : MintRand) (ad : AssetDefinition) (amount : Amount) (owner : UserPubKey) (fee : Amount)
  | freeze (f : Freezer) (rng : FreezerRand) (flag : FreezeFlag) (records : List (RecordOpening × U64)) (fee : Amount)

omit S in
/-- what it takes from the account of an asset -/
def Spec.Act.takes (k : UserKeyPair) (code : AssetCode) : Act → ℕ
  | .pay o => o.charge k code
  | .mint _ _ _ _ fee => if code = nativeCode then fee.val else 0
  | .freeze _ _ _ _ fee => if code = nativeCode then fee.val else 0

omit S in
/-- what it adds to the account of an asset: only minting for oneself does -/
def Spec.Act.gives (k : UserKeyPair) (code : AssetCode) : Act → ℕ
  | .pay _ => 0
  | .mint _ ad amount owner _ => if owner = k.pubKey ∧ code = ad.code then amount.val else 0
  | .freeze .. => 0

omit S in
/-- the nullifiers in its note that are not of coins of the wallet -/
def Spec.Act.foreign : Act → List F
  | .pay o => [dummyNullifier o.rng]
  | .mint .. => []
  | .freeze f rng flag records _ =>
    dummyNull (dummyFirst rng flag) :: (records.map f.nullifier ++ [dummyNull (dummyLast rng flag)])

omit S in
/-- it publishes a memo of this record, encrypted with this randomness -/
def Spec.Act.Tells : Act → ℕ → RecordOpening → Prop
  | .pay o, r, ro => ∃ j, paid o.rng o.definition o.recipients j ro ∧ r = o.rng.memos j
  | .mint rng ad amount owner _, r, ro => ro = ⟨amount, ad, owner, .unfrozen, rng.blind⟩ ∧ r = rng.memo
  | .freeze _ rng flag records _, r, ro => ∃ j, (replaced rng flag records)[j]? = some ro ∧ r = rng.memos j

omit S in
/-- the records that it puts in the place of others -/
def Spec.Act.replaces : Act → List RecordOpening
  | .freeze _ rng flag records _ => replaced rng flag records
  | _ => []

/-- The wallet `w` does this and becomes `w1`: the coins it gives away, the change it waits for, and what is published.  For a
mint it is the wallet of an issuer, for a freeze that of a freezer. -/
inductive Spec.Does (d : Fin 256) (b : Build) (k : UserKeyPair) (s : LedgerState) (w w1 : Wallet) :
    Act → List (RecordOpening × U64) → RecordOpening → TransactionNote → List E.AeadCt → Prop
  | pay {o people coins chg note memos} (makes : Makes d b k s w w1 o people coins chg note memos) :
      Does d b k s w w1 (.pay o) coins chg (.transfer note) memos
  | mint {i i' : Issuer} {rng fee code ad amount owner coin chg note sig memo} (mine : i.wallet = w) (then_ : i'.wallet = w1)
      (known : i.assetDefinition code = some ad)
      (made : i.mint d s rng fee code amount owner = .ok (i', note, sig, memo))
      (minted : Minted k w rng ad amount owner fee coin chg note memo) :
      Does d b k s w w1 (.mint rng ad amount owner fee) [coin] chg (.mint note) [memo]
  | freeze {f f' : Freezer} {rng flag user records fee coin chg note memos sig} (mine : f.wallet = w) (then_ : f'.wallet = w1)
      (known : mapGet user (f.shelf flag) = some records)
      (made : f.freezeUser d s rng flag user fee = .ok (f', note, memos, sig))
      (froze : Froze k f rng flag records fee coin chg note memos) :
      Does d b k s w w1 (.freeze f rng flag records fee) [coin] chg (.freeze note) memos

/-- The wallet does these things, and waits after each until it has scanned a block with its note. -/
inductive Spec.ActsInTurn (d : Fin 256) (b : Build) (k : UserKeyPair) : List Seen → LedgerState → Wallet → List Act →
    List Seen → LedgerState → Wallet → Prop
  | done {h s w} : ActsInTurn d b k h s w [] h s w
  | act {h s w w1 s1 w2 t memos coins chg blind who time uid recv} {a : Act} {acts h' s' w'}
      (does : Does d b k s w w1 a coins chg t memos)
      (begun : World d b k (h ++ coins.map .spending ++ [.expecting chg]) s w1)
      (valid : validateTxnsBatch d s [t] time = .ok ())
      (inserted : s.insertBlock d.val ⟨[t], blind, who⟩ = .ok s1)
      (offset : (uid : U64).val = s.leaves.length)
      (scanned : w1.scanBlock b [t] [memos] uid = .ok (w2, recv))
      (rest : ActsInTurn d b k (h ++ coins.map .spending ++ [.expecting chg] ++ [.block [(t, memos)] blind who time])
        s1 w2 acts h' s' w') :
      ActsInTurn d b k h s w (a :: acts) h' s' w'

/-- Nothing of the history coincides by accident with what the acts draw, and only records of others are frozen or released. -/
structure Spec.Calm (k : UserKeyPair) (h : List Seen) (acts : List Act) : Prop where
  changes : ∀ c c', .expecting c ∈ h → .expecting c' ∈ h → c'.commitment = c.commitment → c' = c
  foreign : ∀ a ∈ acts, ∀ n ∈ a.foreign, ∀ x, Received k h x → ownNullifier k x ≠ n
  memos : ∀ a ∈ acts, ∀ r ro c ro', a.Tells r ro → ReceiverMemo.fromRo r ro [] = .ok c →
    ReceiverMemo.decrypt c k ro.commitment [] = .ok ro' → ro' = ro
  others : ∀ a ∈ acts, ∀ ro ∈ a.replaces, ro.pub_key ≠ k.pubKey

/-- A note with one coin of the wallet in it: the coin, the change, and the other records. -/
structure Spec.OneCoin (k : UserKeyPair) (w : Wallet) (a : Act) (coin : RecordOpening × U64) (chg : RecordOpening)
    (outs : List RecordOpening) (t : TransactionNote) (memos : List E.AeadCt) : Prop where
  held : w.Holds coin ∧ coin.1.asset_def = AssetDefinition.native
  change : chg.asset_def = AssetDefinition.native
  nullifiers : t.nullifiers = ownNullifier k coin :: a.foreign
  outputs : t.outputCommitments = (chg :: outs).map RecordOpening.commitment
  lengths : memos.length = outs.length
  memos : ∀ (j : ℕ) ro, outs[j]? = some ro → ∃ c r, memos[j]? = some c ∧ ReceiverMemo.fromRo r ro [] = .ok c ∧ a.Tells r ro

variable {d : Fin 256} {b : Build} {k : UserKeyPair} {h : List Seen} {s s' : LedgerState} {w w' w1 w2 : Wallet}
  {fee amount : Amount} {memos : List E.AeadCt} {ad : AssetDefinition} {coins : List (RecordOpening × U64)}
  {coin : RecordOpening × U64} {chg : RecordOpening} {a : Act} {t : TransactionNote} {outs : List RecordOpening}
  {blind : F} {who owner : UserPubKey} {time uid : U64} {recv : List RecordOpening}

/-- what a settled note leaves -/
theorem made_settled (world : World d b k h s w) (made : OneCoin k w a coin chg outs t memos)
    (begun : World d b k (h ++ [coin].map .spending ++ [.expecting chg]) s w1) (same : ∀ x, w1.Holds x ↔ w.Holds x)
    (valid : validateTxnsBatch d s [t] time = .ok ())
    (inserted : s.insertBlock d.val ⟨[t], blind, who⟩ = .ok s') (offset : uid.val = s.leaves.length)
    (scanned : w1.scanBlock b [t] [memos] uid = .ok (w2, recv))
    (apart : Apart k (h ++ [coin].map .spending ++ [.expecting chg] ++ [.block [(t, memos)] blind who time]))
    (calm : Calm k (h ++ [coin].map .spending ++ [.expecting chg] ++ [.block [(t, memos)] blind who time]) [a])
    (x : RecordOpening × U64) :
    w2.Holds x ↔ (w.Holds x ∧ x ≠ coin) ∨ (x.1 = chg ∧ x.2.val = records h) ∨
      ∃ j : ℕ, outs[j]? = some x.1 ∧ x.1.freeze_flag = .unfrozen ∧ x.1.pub_key = k.pubKey ∧ x.2.val = records h + 1 + j := by
  obtain ⟨f1, f2, f3, f4, f5⟩ := scan_facts (txns := [(t, memos)]) begun inserted offset scanned
  have world2 := World.block (txns := [(t, memos)]) (time := time) begun valid inserted offset scanned
  rw [records_begun] at f2 f3 f4
  have hrec : records (h ++ [coin].map .spending ++ [.expecting chg]) = records h := records_begun h [coin] chg
  have awaited : .expecting chg ∈ h ++ [coin].map .spending ++ [.expecting chg] ++ [.block [(t, memos)] blind who time] := by
    simp
  set H := h ++ [coin].map .spending ++ [.expecting chg] with hH
  have only : ∀ {t' ms n}, InList [(t, memos)] t' ms n → t' = t ∧ ms = memos ∧ n = 0 := by
    intro t' ms n hi
    rcases hi.cases with ⟨h3, h4⟩ | ⟨m, -, h3⟩
    · cases h3
      exact ⟨rfl, rfl, h4⟩
    · exact (nomatch h3.mem)
  have first : t.outputCommitments[0]? = some chg.commitment := by
    rw [made.outputs]
    rfl
  have next : ∀ j ro, outs[j]? = some ro → t.outputCommitments[j + 1]? = some ro.commitment := by
    intro j ro hj
    rw [made.outputs, List.map_cons, List.getElem?_cons_succ, List.getElem?_map, hj]
    rfl
  have coin_known : Received k (H ++ [.block [(t, memos)] blind who time]) coin :=
    ((C59_sound begun coin ((same coin).2 made.held.1)).1).mono _
  have unspent : ∀ x, Received k (H ++ [.block [(t, memos)] blind who time]) x →
      (∃ t' ∈ [(t, memos)], ownNullifier k x ∈ t'.1.nullifiers) → x = coin := by
    rintro x hr ⟨t', ht, hx⟩
    obtain rfl := List.mem_singleton.1 ht
    rw [show (t, memos).1.nullifiers = _ from made.nullifiers] at hx
    rcases List.mem_cons.1 hx with hx | hx
    · exact (apart.among coin x coin_known hr hx.symm).symm
    · exact absurd rfl (calm.foreign a List.mem_cons_self _ hx x hr)
  have early : coin.2.val < records h := held_before world made.held.1
  have here : ∀ {pos}, InList [(t, memos)] t memos pos →
      At (H ++ [.block [(t, memos)] blind who time]) t memos (records H + pos) := fun hi => .last hi
  constructor
  · intro hx
    rcases f2 x hx with h1 | ⟨t', ms, n, hi, h2⟩
    · refine .inl ⟨(same x).1 h1, fun hc => ?_⟩
      subst hc
      refine C59_gone (more := []) world2 apart x (t := (t, memos)) List.mem_cons_self ?_ hx
      rw [show (t, memos).1.nullifiers = _ from made.nullifiers]
      exact List.mem_cons_self
    · obtain ⟨rfl, rfl, rfl⟩ := only hi
      rcases h2 with ⟨hf, j, rc, c, h3, h4, h5, h6⟩ | ⟨h3, h4, h5⟩
      · have hj : j < outs.length := by
          rw [← made.lengths]
          exact (List.getElem?_eq_some_iff.1 h4).1
        have ho : outs[j]? = some outs[j] := List.getElem?_eq_getElem hj
        obtain ⟨c', r, g2, g3, g4⟩ := made.memos j _ ho
        have e1 := Option.some.inj (g2.symm.trans h4)
        have e2 := Option.some.inj ((next j _ ho).symm.trans h3)
        rw [← e1, ← e2] at h5
        have e3 := calm.memos a List.mem_cons_self r _ c' x.1 g4 g3 h5
        exact .inr (.inr ⟨j, by rw [e3]; exact ho, hf, (C35_sound _ _ _ _ _ h5).1, by omega⟩)
      · refine .inr (.inl ⟨?_, by omega⟩)
        have h6 := ((worldOk begun).changes _ h3).1
        exact calm.changes chg x.1 awaited (List.mem_append_left _ h6) (Option.some.inj (h4.symm.trans first))
  · rintro (⟨h1, h2⟩ | ⟨h1, h2⟩ | ⟨j, h1, hf, h2, h3⟩)
    · have hr := ((C59_sound begun x ((same x).2 h1)).1).mono (.block [(t, memos)] blind who time)
      exact (f1 x ((same x).2 h1)).resolve_right (fun hn => h2 (unspent x hr hn))
    · obtain ⟨ro, u⟩ := x
      dsimp only at h1 h2
      subst h1
      have hw := expecting_changes begun rfl
      rcases f4 ro hw with h3 | ⟨t', ms, n, u', hi, h3, h4⟩
      · exact absurd first (f5 ro h3 (fun c' hc' e => calm.changes ro c' awaited
          (List.mem_append_left _ ((worldOk begun).changes _ hc').1) e) _ List.mem_cons_self)
      · obtain ⟨rfl, rfl, rfl⟩ := only hi
        have hu : u' = u := Fin.ext (h3.2.2.trans h2.symm)
        subst hu
        refine h4.resolve_right (fun hn => ?_)
        have := unspent _ (.change awaited (here hi) first (by rw [hrec]; exact h2)) hn
        rw [← this] at early
        dsimp only at early
        omega
    · obtain ⟨ro, u⟩ := x
      dsimp only at h1 h2 h3 hf
      obtain ⟨c', r, g2, g3, -⟩ := made.memos j ro h1
      have g4 := C35_round_trip _ _ _ k _ h2 g3
      refine (f3 (ro, u) t memos 0 .head ⟨hf, j, _, c', next j ro h1, g2, g4, by dsimp only; omega⟩).resolve_right
        (fun hn => ?_)
      have := unspent _ (.memo (here .head) (next j ro h1) g2 g4 (by rw [hrec]; omega)) hn
      rw [← this] at early
      dsimp only at early
      omega

/-- what a mint consists of, as a note with one coin -/
theorem Spec.Minted.made {rng : MintRand} {note : MintNote} {memo : E.AeadCt}
    (p : Minted k w rng ad amount owner fee coin chg note memo) :
    OneCoin k w (.mint rng ad amount owner fee) coin chg [⟨amount, ad, owner, .unfrozen, rng.blind⟩] (.mint note) [memo] := by
  refine ⟨p.held, p.change.1, ?_, ?_, rfl, fun j ro hj => ?_⟩
  · show [note.input_nullifier] = _
    rw [p.nullifier]
    rfl
  · show [note.chg_comm, note.mint_comm] = _
    rw [p.first, p.minted.1]
    rfl
  · match j, hj with
    | 0, hj =>
      cases hj
      exact ⟨memo, rng.memo, rfl, p.memo, rfl, rfl⟩

/-- what a freeze consists of, as a note with one coin -/
theorem froze_made {f f' : Freezer} {rng : FreezerRand} {flag : FreezeFlag} {user : Pt} {records : List (RecordOpening × U64)}
    {note : FreezeNote} {sig : E.Sig} (known : mapGet user (f.shelf flag) = some records)
    (ok : f.freezeUser d s rng flag user fee = .ok (f', note, memos, sig))
    (p : Froze k f rng flag records fee coin chg note memos) :
    OneCoin k f.wallet (.freeze f rng flag records fee) coin chg (replaced rng flag records) (.freeze note) memos := by
  obtain ⟨rs, c, info, chg', pk, vk, sk, outs, pending, sp⟩ := Freezer.freezeUser_ok.1 ok
  obtain rfl : rs = records := Option.some.inj (sp.known.symm.trans known)
  have hm := sp.memos_ok
  rw [(FreezeNote.generate_ok.1 sp.gen).outs_eq, allInputs_outputs] at hm
  obtain ⟨m1, m2⟩ := Wallet.payMemos_ok hm
  refine ⟨p.held, p.change.1, p.nullifiers, p.outputs, m1, fun j ro hj => ?_⟩
  obtain ⟨c, h1, h2⟩ := m2 j ro hj
  rw [Nat.zero_add] at h2
  exact ⟨c, rng.memos j, h1, h2, j, hj, rfl⟩

/-- neither a mint nor a freeze changes what the wallet holds before it is settled -/
theorem Spec.Does.same (world : World d b k h s w) (does : Does d b k s w w1 a coins chg t memos) (x : RecordOpening × U64) :
    w1.Holds x ↔ w.Holds x := by
  cases does with
  | pay makes => exact (makes.facts world).2.1 x
  | mint mine then_ known made minted =>
    obtain ⟨_, _, _, _, _, _, _, sp⟩ := Issuer.mint_ok made
    rw [← mine, ← then_, sp.issuer]
    rfl
  | @freeze _ _ _ flag _ _ _ _ _ _ _ _ mine then_ known made froze =>
    obtain ⟨_, _, _, _, _, _, _, _, _, sp⟩ := Freezer.freezeUser_ok.1 made
    rw [← mine, ← then_, sp.freezer]
    cases flag <;> rfl

/-- **A settled mint**: the coin is gone, the change is there, and, if it was minted for the wallet itself, the new record. -/
theorem C100_minted {rng : MintRand} (world : World d b k h s w)
    (does : Does d b k s w w1 (.mint rng ad amount owner fee) [coin] chg t memos)
    (begun : World d b k (h ++ [coin].map .spending ++ [.expecting chg]) s w1)
    (valid : validateTxnsBatch d s [t] time = .ok ())
    (inserted : s.insertBlock d.val ⟨[t], blind, who⟩ = .ok s') (offset : uid.val = s.leaves.length)
    (scanned : w1.scanBlock b [t] [memos] uid = .ok (w2, recv))
    (apart : Apart k (h ++ [coin].map .spending ++ [.expecting chg] ++ [.block [(t, memos)] blind who time]))
    (calm : Calm k (h ++ [coin].map .spending ++ [.expecting chg] ++ [.block [(t, memos)] blind who time])
      [.mint rng ad amount owner fee])
    (x : RecordOpening × U64) :
    w2.Holds x ↔ (w.Holds x ∧ x ≠ coin) ∨ (x.1 = chg ∧ x.2.val = records h) ∨
      (owner = k.pubKey ∧ x.1 = ⟨amount, ad, owner, .unfrozen, rng.blind⟩ ∧ x.2.val = records h + 1) := by
  have same := does.same world
  cases does with
  | mint mine then_ known made minted =>
    rw [made_settled world minted.made begun same valid inserted offset scanned apart calm x]
    refine or_congr_right (or_congr_right ⟨?_, ?_⟩)
    · rintro ⟨j, h1, h2, h3, h4⟩
      match j, h1 with
      | 0, h1 =>
        have e := (Option.some.inj h1).symm
        rw [e] at h3
        exact ⟨h3, e, h4⟩
    · rintro ⟨h1, h2, h3⟩
      exact ⟨0, by rw [h2]; rfl, by rw [h2], by rw [h2]; exact h1, h3⟩

/-- **A settled freeze or release**: the coin is gone, the change is there, and nothing else is new. -/
theorem C100_froze {f : Freezer} {rng : FreezerRand} {flag : FreezeFlag} {rs : List (RecordOpening × U64)}
    (world : World d b k h s w)
    (does : Does d b k s w w1 (.freeze f rng flag rs fee) [coin] chg t memos)
    (begun : World d b k (h ++ [coin].map .spending ++ [.expecting chg]) s w1)
    (valid : validateTxnsBatch d s [t] time = .ok ())
    (inserted : s.insertBlock d.val ⟨[t], blind, who⟩ = .ok s') (offset : uid.val = s.leaves.length)
    (scanned : w1.scanBlock b [t] [memos] uid = .ok (w2, recv))
    (apart : Apart k (h ++ [coin].map .spending ++ [.expecting chg] ++ [.block [(t, memos)] blind who time]))
    (calm : Calm k (h ++ [coin].map .spending ++ [.expecting chg] ++ [.block [(t, memos)] blind who time])
      [.freeze f rng flag rs fee])
    (x : RecordOpening × U64) :
    w2.Holds x ↔ (w.Holds x ∧ x ≠ coin) ∨ (x.1 = chg ∧ x.2.val = records h) := by
  have same := does.same world
  cases does with
  | freeze mine then_ known made froze =>
    have made' := froze_made known made froze
    rw [mine] at made'
    rw [made_settled world made' begun same valid inserted offset scanned apart calm x]
    refine or_congr_right ⟨fun hx => hx.resolve_right ?_, .inl⟩
    rintro ⟨j, h1, -, h2, -⟩
    exact calm.others _ List.mem_cons_self x.1 (List.mem_of_getElem? h1) h2

theorem Spec.Calm.neat {o : Deal} (calm : Calm k h [.pay o]) : Neat k h [o] := by
  refine ⟨calm.changes, fun o' ho x hx => ?_, fun o' ho j ro c ro' hp h1 h2 => ?_⟩
  · obtain rfl := List.mem_singleton.1 ho
    exact calm.foreign _ List.mem_cons_self _ List.mem_cons_self x hx
  · obtain rfl := List.mem_singleton.1 ho
    exact calm.memos _ List.mem_cons_self _ ro c ro' ⟨j, hp, rfl⟩ h1 h2

/-- **Each account is charged with what is its own**, for everything a wallet does. -/
theorem C100_charge (world : World d b k h s w) (does : Does d b k s w w1 a coins chg t memos)
    (begun : World d b k (h ++ coins.map .spending ++ [.expecting chg]) s w1)
    (valid : validateTxnsBatch d s [t] time = .ok ())
    (inserted : s.insertBlock d.val ⟨[t], blind, who⟩ = .ok s') (offset : uid.val = s.leaves.length)
    (scanned : w1.scanBlock b [t] [memos] uid = .ok (w2, recv))
    (apart : Apart k (h ++ coins.map .spending ++ [.expecting chg] ++ [.block [(t, memos)] blind who time]))
    (calm : Calm k (h ++ coins.map .spending ++ [.expecting chg] ++ [.block [(t, memos)] blind who time]) [a])
    {code : AssetCode} {before after : List (RecordOpening × U64)} (hb : Coins w code before) (ha : Coins w2 code after) :
    total (after.map (·.1)) + a.takes k code = total (before.map (·.1)) + a.gives k code := by
  have does' := does
  have room : records h + t.outputCommitments.length ≤ 2 ^ 64 := by
    obtain ⟨fee, -, e1, -, -, e4, -⟩ := LedgerState.insertBlock_ok inserted
    have hl := congrArg List.length e1
    rw [List.length_append, List.length_append, List.flatMap_cons, List.flatMap_nil, List.append_nil,
      (worldOk world).size] at hl
    omega
  cases does with
  | pay makes => exact C99_charge world makes begun valid inserted offset scanned apart calm.neat hb ha
  | @mint i i' rng fee _ ad amount owner coin _ note sig memo mine then_ known made minted =>
    have holds := C100_minted world does' begun valid inserted offset scanned apart calm
    have small : records h + 1 < 2 ^ 64 := by
      have : (TransactionNote.mint note).outputCommitments.length = 2 := rfl
      omega
    have value := minted.fee_value
    have change := minted.change.1
    have native := minted.held.2
    by_cases ho : owner = k.pubKey
    · have key := book (code := code) (w2 := w2) (new := [(chg, ⟨records h, by omega⟩),
          (⟨amount, ad, owner, .unfrozen, rng.blind⟩, ⟨records h + 1, small⟩)]) (List.nodup_singleton coin)
        (fun x hx => by rw [List.mem_singleton.1 hx]; exact minted.held.1)
        (List.nodup_cons.2 ⟨fun hm => by
          have := congrArg (fun x : RecordOpening × U64 => x.2.val) (List.mem_singleton.1 hm)
          dsimp only at this
          omega, List.nodup_singleton _⟩)
        (fun x hx hw => by
          have h1 := held_before world hw
          rcases List.mem_cons.1 hx with rfl | hx
          · exact absurd h1 (lt_irrefl _)
          · obtain rfl := List.mem_singleton.1 hx
            dsimp only at h1
            omega)
        (fun x => by
          rw [holds, List.mem_singleton, List.mem_cons, List.mem_singleton]
          exact or_congr_right (or_congr ⟨fun h => Prod.ext h.1 (Fin.ext h.2), fun h => by rw [h]; exact ⟨rfl, rfl⟩⟩
            ⟨fun h => Prod.ext h.2.1 (Fin.ext h.2.2), fun h => by rw [h]; exact ⟨ho, rfl, rfl⟩⟩)) hb ha
      rw [ofCode_cons, ofCode_cons, ofCode_cons, native] at key
      dsimp only at key
      rw [change, show AssetDefinition.native.code = nativeCode from rfl] at key
      show _ + (if code = nativeCode then fee.val else 0) = _ + if owner = k.pubKey ∧ code = ad.code then amount.val else 0
      simp only [ho, true_and]
      change _ + (_ + 0) = _ + (_ + (_ + 0)) at key
      by_cases hc : code = nativeCode
      · rw [if_pos hc] at key ⊢
        rw [if_pos hc] at key
        omega
      · rw [if_neg hc] at key ⊢
        rw [if_neg hc] at key
        omega
    · have key := book (code := code) (w2 := w2) (new := [(chg, ⟨records h, by omega⟩)]) (List.nodup_singleton coin)
        (fun x hx => by rw [List.mem_singleton.1 hx]; exact minted.held.1) (List.nodup_singleton _)
        (fun x hx hw => by
          have h1 := held_before world hw
          obtain rfl := List.mem_singleton.1 hx
          exact absurd h1 (lt_irrefl _))
        (fun x => by
          rw [holds, List.mem_singleton, List.mem_singleton]
          exact or_congr_right ⟨fun h => Prod.ext (h.resolve_right (fun h => ho h.1)).1
            (Fin.ext (h.resolve_right (fun h => ho h.1)).2), fun h => by rw [h]; exact .inl ⟨rfl, rfl⟩⟩) hb ha
      rw [ofCode_cons, ofCode_cons, native] at key
      dsimp only at key
      rw [change, show AssetDefinition.native.code = nativeCode from rfl] at key
      show _ + (if code = nativeCode then fee.val else 0) = _ + if owner = k.pubKey ∧ code = ad.code then amount.val else 0
      rw [if_neg (show ¬ (owner = k.pubKey ∧ code = ad.code) from fun h => ho h.1)]
      change _ + (_ + 0) = _ + (_ + 0) at key
      by_cases hc : code = nativeCode
      · rw [if_pos hc] at key ⊢
        rw [if_pos hc] at key
        omega
      · rw [if_neg hc] at key ⊢
        rw [if_neg hc] at key
        omega
  | @freeze f f' rng flag user rs fee coin _ note _ sig mine then_ known made froze =>
    have holds := C100_froze world does' begun valid inserted offset scanned apart calm
    have small : records h < 2 ^ 64 := by
      have : (TransactionNote.freeze note).outputCommitments.length = _ := congrArg List.length froze.outputs
      rw [List.map_cons, List.length_cons] at this
      omega
    have value := froze.fee_value
    have change := froze.change.1
    have native := froze.held.2
    have key := book (code := code) (w2 := w2) (new := [(chg, ⟨records h, small⟩)]) (List.nodup_singleton coin)
      (fun x hx => by rw [List.mem_singleton.1 hx, ← mine]; exact froze.held.1) (List.nodup_singleton _)
      (fun x hx hw => by
        have h1 := held_before world hw
        obtain rfl := List.mem_singleton.1 hx
        exact absurd h1 (lt_irrefl _))
      (fun x => by
        rw [holds, List.mem_singleton, List.mem_singleton]
        exact or_congr_right ⟨fun h => Prod.ext h.1 (Fin.ext h.2), fun h => by rw [h]; exact ⟨rfl, rfl⟩⟩) hb ha
    rw [ofCode_cons, ofCode_cons, native] at key
    dsimp only at key
    rw [change, show AssetDefinition.native.code = nativeCode from rfl] at key
    show _ + (if code = nativeCode then fee.val else 0) = _ + 0
    change _ + (_ + 0) = _ + (_ + 0) at key
    by_cases hc : code = nativeCode
    · rw [if_pos hc] at key ⊢
      rw [if_pos hc] at key
      omega
    · rw [if_neg hc] at key ⊢
      rw [if_neg hc] at key
      omega

theorem Spec.Calm.prefix {more : List Seen} {acts acts' : List Act} (calm : Calm k (h ++ more) acts)
    (sub : ∀ a ∈ acts', a ∈ acts) : Calm k h acts' :=
  ⟨fun c c' h1 h2 => calm.changes c c' (List.mem_append_left _ h1) (List.mem_append_left _ h2),
    fun a ha n hn x hx => calm.foreign a (sub a ha) n hn x (hx.append more), fun a ha => calm.memos a (sub a ha),
    fun a ha => calm.others a (sub a ha)⟩

theorem Spec.ActsInTurn.extends {acts : List Act} {h' : List Seen} (run : ActsInTurn d b k h s w acts h' s' w') :
    ∃ more, h' = h ++ more := by
  induction run with
  | done => exact ⟨[], (List.append_nil _).symm⟩
  | act _ _ _ _ _ _ _ ih =>
    obtain ⟨more, e⟩ := ih
    exact ⟨_, by rw [e, List.append_assoc, List.append_assoc, List.append_assoc]⟩

theorem Spec.ActsInTurn.world {acts : List Act} {h' : List Seen} (run : ActsInTurn d b k h s w acts h' s' w') :
    World d b k h s w → World d b k h' s' w' := by
  induction run with
  | done => exact id
  | act does begun valid inserted offset scanned rest ih =>
    rename_i h s w w1 s1 w2 t memos coins chg blind who time uid recv a acts h' s' w'
    exact fun _ => ih (World.block (txns := [(t, memos)]) (time := time) begun valid inserted offset scanned)

/-- **The accounts after everything a wallet has done**: payments, mints and freezes in any order. -/
theorem C100_account {acts : List Act} {h' : List Seen} (run : ActsInTurn d b k h s w acts h' s' w') :
    World d b k h s w → Apart k h' → Calm k h' acts →
    ∀ {code : AssetCode} {before after : List (RecordOpening × U64)}, Coins w code before → Coins w' code after →
    total (after.map (·.1)) + (acts.map (fun a => a.takes k code)).sum =
      total (before.map (·.1)) + (acts.map (fun a => a.gives k code)).sum := by
  induction run with
  | done =>
    intro _ _ _ code before after hb ha
    have perm : after.Perm before := (List.perm_ext_iff_of_nodup ha.1 hb.1).2 (fun x => (ha.2 x).trans (hb.2 x).symm)
    exact congrArg (· + 0) ((perm.map _).map _).sum_eq
  | act does begun valid inserted offset scanned rest ih =>
    intro world apart calm code before after hb ha
    rename_i h s w w1 s1 w2 t memos coins chg blind who time uid recv a acts h' s' w'
    have world2 := World.block (txns := [(t, memos)]) (time := time) begun valid inserted offset scanned
    obtain ⟨more, e⟩ := rest.extends
    obtain ⟨nd, mem⟩ := (worldOk world2).ok.get code
    have h1 := ih world2 apart ⟨calm.changes, fun a ha => calm.foreign a (List.mem_cons_of_mem _ ha),
      fun a ha => calm.memos a (List.mem_cons_of_mem _ ha), fun a ha => calm.others a (List.mem_cons_of_mem _ ha)⟩ ⟨nd, mem⟩ ha
    have h2 := C100_charge world does begun valid inserted offset scanned (by rw [e] at apart; exact apart.prefix)
      (by rw [e] at calm; exact calm.prefix (by simp)) hb ⟨nd, mem⟩
    simp only [List.map_cons, List.sum_cons]
    omega

/-- **Every mint and every freeze takes part in such a history**: a mint of an issuer … -/
theorem C100_mint_goes_on {defs : List Declared} {i i' : Issuer} {rng : MintRand} {code : AssetCode} {note : MintNote} {sig : E.Sig}
    {memo : E.AeadCt} (world : Issuing d b k h s defs i)
    (made : i.mint d s rng fee code amount owner = .ok (i', note, sig, memo))
    (valid : validateTxnsBatch d s [.mint note] time = .ok ()) (room : Room d.val s 3) (blind : F) (who : UserPubKey) :
    ∃ ad h' s' w', i.assetDefinition code = some ad ∧
      ActsInTurn d b k h s i.wallet [.mint rng ad amount owner fee] h' s' w' ∧ World d b k h' s' w' := by
  obtain ⟨coin, ad, chg, known, minted, -, begun, -⟩ := C63_minted world made
  have begun : World d b k (h ++ [coin].map .spending ++ [.expecting chg]) s i'.wallet := by
    have := issuing_world begun
    rwa [show h ++ [.spending coin, .expecting chg] = h ++ [coin].map .spending ++ [.expecting chg] by simp] at this
  have wo := worldOk (issuing_world world)
  have hins := (C52_partial (d := d.val) (b := ⟨[.mint note], blind, who⟩) (s := s) ⟨wo.room, wo.small⟩).1.2 ⟨room, by
      show note.aux_info.fee.val + 0 < _
      exact note.aux_info.fee.isLt⟩
  have hs := C52_same.2 (Prod.ext rfl hins)
  obtain ⟨w2, recv, scanned, world2⟩ := C59_scans (uid := ⟨s.leaves.length, wo.small⟩) begun (txns := [(.mint note, [memo])])
    (time := time) valid hs rfl (by
      intro t ht
      obtain rfl := List.mem_singleton.1 ht
      rfl)
  exact ⟨ad, _, _, w2, known, .act (.mint rfl rfl known made minted) begun valid hs rfl scanned .done, world2⟩

/-- … and a freeze or release of a freezer. -/
theorem C100_freeze_goes_on {f f' : Freezer} {rng : FreezerRand} {flag : FreezeFlag} {user : Pt} {note : FreezeNote} {sig : E.Sig}
    (world : World d b k h s f.wallet)
    (made : f.freezeUser d s rng flag user fee = .ok (f', note, memos, sig))
    (valid : validateTxnsBatch d s [.freeze note] time = .ok ())
    (room : ∀ rs, mapGet user (f.shelf flag) = some rs → Room d.val s (rs.length + 4)) (blind : F) (who : UserPubKey) :
    ∃ rs h' s' w', mapGet user (f.shelf flag) = some rs ∧
      ActsInTurn d b k h s f.wallet [.freeze f rng flag rs fee] h' s' w' ∧ World d b k h' s' w' := by
  obtain ⟨rs, coin, chg, known, froze, -, begun, -⟩ := C64_did world made
  have begun : World d b k (h ++ [coin].map .spending ++ [.expecting chg]) s f'.wallet := by
    rwa [show h ++ [.spending coin, .expecting chg] = h ++ [coin].map .spending ++ [.expecting chg] by simp] at begun
  have wo := worldOk world
  have hl : note.output_commitments.length = rs.length + 3 := by
    rw [froze.outputs]
    simp
  have hins := (C52_partial (d := d.val) (b := ⟨[.freeze note], blind, who⟩) (s := s) ⟨wo.room, wo.small⟩).1.2 ⟨by
      show Room d.val s ((note.output_commitments.length + 0) + 1)
      rw [hl]
      exact room rs known, by
      show note.aux_info.fee.val + 0 < _
      exact note.aux_info.fee.isLt⟩
  have hs := C52_same.2 (Prod.ext rfl hins)
  obtain ⟨w2, recv, scanned, world2⟩ := C59_scans (uid := ⟨s.leaves.length, wo.small⟩) begun (txns := [(.freeze note, memos)])
    (time := time) valid hs rfl (by
      intro t ht
      obtain rfl := List.mem_singleton.1 ht
      show note.output_commitments.length = memos.length + 1
      rw [hl, froze.memos.1])
  exact ⟨rs, _, _, w2, known, .act (.freeze rfl rfl known made froze) begun valid hs rfl scanned .done, world2⟩

theorem Spec.ActsInTurn.trans {acts more : List Act} {h1 h2 : List Seen} {s1 s2 : LedgerState} {w1 w2 : Wallet}
    (first : ActsInTurn d b k h s w acts h1 s1 w1) (then_ : ActsInTurn d b k h1 s1 w1 more h2 s2 w2) :
    ActsInTurn d b k h s w (acts ++ more) h2 s2 w2 := by
  induction first with
  | done => exact then_
  | act does begun valid inserted offset scanned rest ih => exact .act does begun valid inserted offset scanned (ih then_)

/-- payments in turn are acts in turn -/
theorem Spec.DealsInTurn.acts {orders : List Deal} {h' : List Seen} (deals : DealsInTurn d b k h s w orders h' s' w') :
    ActsInTurn d b k h s w (orders.map .pay) h' s' w' := by
  induction deals with
  | done => exact .done
  | pay makes begun valid inserted offset scanned rest ih => exact .act (.pay makes) begun valid inserted offset scanned ih

/-- **The balance may cover a fee that cannot be paid**: the fee of a mint, and of a freeze or release, has to come from one
single native record. -/
theorem C100_scattered_false (world : World d b k h s w)
    (scattered : ∀ x, w.Holds x → x.1.asset_def.code = nativeCode → x.1.amount.val < fee.val) :
    (∀ (i : Issuer) rng code amount owner r, i.wallet = w → i.mint d s rng fee code amount owner ≠ .ok r) ∧
    ∀ (f : Freezer) rng flag user r, f.wallet = w → f.freezeUser d s rng flag user fee ≠ .ok r := by
  have none : ∀ c, w.findRecordForFee fee ≠ .ok c := by
    intro c hc
    obtain ⟨l, h1, h2, h3⟩ := Wallet.findRecordForFee_ok hc
    obtain ⟨g1, g2⟩ := ((shelf_holds world nativeCode h1).2 c).1 h2
    have := scattered c g1 g2
    have : fee.val ≤ c.1.amount.val := h3
    omega
  refine ⟨fun i rng code amount owner r e ok => ?_, fun f rng flag user r e ok => ?_⟩
  · obtain ⟨i', note, sig, memo⟩ := r
    obtain ⟨c, _, _, _, _, _, _, sp⟩ := Issuer.mint_ok ok
    exact none c (by rw [← e]; exact sp.fee_find)
  · obtain ⟨f', note, memos, sig⟩ := r
    obtain ⟨_, c, _, _, _, _, _, _, _, sp⟩ := Freezer.freezeUser_ok.1 ok
    exact none c (by rw [← e]; exact sp.fee_find)

end Cap

namespace Cap.Examples

open Toy Spec

/-! Alice issues an asset and has a native coin worth 100 (C63).  She mints 1000 of it for herself, with a fee of 7. -/

def act100 : Act := .mint mintRand asset 1000 alice.pubKey 7
def own100 : RecordOpening := ⟨1000, asset, alice.pubKey, .unfrozen, (61 : ZMod p)⟩
def told100 : List Seen := seen0 ++ [.told feeRec 0]

theorem nullifiers100 : (([(feeRec, (0 : U64)), (chgM, 2), (own100, 3)] :
    List (RecordOpening × U64)).map (ownNullifier alice)).Nodup := by decide +kernel

theorem ActsInTurn.mint_inv {d : Fin 256} {b : Build} {k : UserKeyPair} {h h' : List Seen} {s s' : LedgerState} {w w' : Wallet}
    {rng : MintRand} {ad : AssetDefinition} {amount fee : Amount} {owner : UserPubKey}
    (run : ActsInTurn d b k h s w [.mint rng ad amount owner fee] h' s' w') :
    ∃ coin chg note memo blind who time, Minted k w rng ad amount owner fee coin chg note memo ∧
      h' = h ++ [coin].map .spending ++ [.expecting chg] ++ [.block [(.mint note, [memo])] blind who time] := by
  cases run with
  | act does begun valid inserted offset scanned rest =>
    cases rest
    cases does with
    | mint mine then_ known made minted => exact ⟨_, _, _, _, _, _, _, minted, rfl⟩

theorem settled100 {h1 : List Seen} {s1 : LedgerState} {w1 : Wallet}
    (run : ActsInTurn 2 .debug alice told100 led0 walletA [act100] h1 s1 w1) :
    Apart alice h1 ∧ Calm alice h1 [act100] := by
  obtain ⟨coin, chg, note, memo, blind, who, time, minted, rfl⟩ := ActsInTurn.mint_inv run
  obtain rfl := (walletA_holds coin).1 minted.held.1
  have hg : chg = chgM := by
    have hv := minted.fee_value
    change 100 = chg.amount.val + 7 at hv
    have ha : chg.amount = 93 := Fin.ext (show chg.amount.val = 93 by omega)
    obtain ⟨c1, c2, c3, c4⟩ := minted.change
    obtain ⟨a, ad, pk, ff, bl⟩ := chg
    dsimp only at ha c1 c2 c3 c4
    subst ha c1 c2 c3 c4
    rfl
  subst hg
  clear run
  have hat : ∀ {t : TransactionNote} {m : List Toy.E.AeadCt} {pos : ℕ},
      At (told100 ++ [(feeRec, (0 : U64))].map .spending ++ [.expecting chgM] ++ [.block [(.mint note, [memo])] blind who time])
        t m pos → t = .mint note ∧ m = [memo] ∧ pos = 2 := by
    intro t m pos a
    rcases a.cases with a | ⟨txns, blind, who, time, n, h1, h2, rfl⟩
    · exfalso
      obtain ⟨before, txns, blind, who, time, after, -, -, h1, -⟩ := a
      have : Seen.block txns blind who time ∈ told100 ++ [(feeRec, (0 : U64))].map .spending ++ [.expecting chgM] := by
        rw [h1]; simp
      simp [told100, seen0] at this
    · cases h1
      rcases h2.cases with ⟨h3, h4⟩ | ⟨m, -, h3⟩
      · cases h3
        exact ⟨rfl, rfl, by rw [h4]; rfl⟩
      · exact (nomatch h3.mem)
  have expects : ∀ {c : RecordOpening}, .expecting c ∈ told100 ++ [(feeRec, (0 : U64))].map .spending ++ [.expecting chgM] ++
      [.block [(.mint note, [memo])] blind who time] → c = chgM := by
    intro c hc
    rcases List.mem_append.1 hc with hc | hc
    · rcases List.mem_append.1 hc with hc | hc
      · simp [told100, seen0] at hc
      · cases List.mem_singleton.1 hc
        rfl
    · simp at hc
  have hr : ∀ x, Received alice (told100 ++ [(feeRec, (0 : U64))].map .spending ++ [.expecting chgM] ++
      [.block [(.mint note, [memo])] blind who time]) x → x ∈ [(feeRec, (0 : U64)), (chgM, 2), (own100, 3)] := by
    intro x hx
    cases hx with
    | told mem =>
      simp only [told100, seen0, List.cons_append, List.nil_append, List.mem_cons, List.not_mem_nil, or_false, reduceCtorEq,
        false_or, Seen.told.injEq, List.map_cons, List.map_nil] at mem
      rw [mem.1, mem.2]
      exact List.mem_cons_self
    | memo a o m op p =>
      rename_i t ms pos j rc c ro uid
      obtain ⟨e1, e2, e3⟩ := hat a
      rw [e1] at o
      rw [e2] at m
      have hj : j = 0 := by
        have := (List.getElem?_eq_some_iff.1 m).1
        simp only [List.length_cons, List.length_nil] at this
        omega
      subst hj
      cases m
      have g1' : (TransactionNote.mint note).outputCommitments[0 + 1]? = some own100.commitment := by
        rw [show own100.commitment = note.mint_comm from minted.minted.1.symm]
        rfl
      rw [g1'] at o
      rw [← Option.some.inj o, C35_round_trip _ own100 _ _ _ rfl minted.memo] at op
      rw [e3] at p
      rw [← Except.ok.inj op, show uid = 3 from Fin.ext p]
      simp
    | change wt a o p =>
      rename_i t ms pos chg uid
      obtain ⟨-, -, e3⟩ := hat a
      rw [e3] at p
      rw [expects wt, show uid = 2 from Fin.ext p]
      simp
  refine ⟨⟨fun x y hx hy hn => List.inj_on_of_nodup_map nullifiers100 (hr x hx) (hr y hy) hn, fun x hx t m pos a hp => ?_⟩,
    ⟨fun c c' h1 h2 _ => by rw [expects h1, expects h2], fun a ha n hn => ?_, fun a ha r ro c ro' ht h1 h2 => ?_,
      fun a ha ro hm => ?_⟩⟩
  · exfalso
    have h1 := hr x hx
    have : x.2.val ≤ 3 := by
      simp only [List.mem_cons, List.not_mem_nil, or_false] at h1
      rcases h1 with rfl | rfl | rfl <;> decide
    obtain ⟨rfl, -, rfl⟩ := hat a
    have hl : (TransactionNote.mint note).outputCommitments.length = 2 := rfl
    omega
  · obtain rfl := List.mem_singleton.1 ha
    exact (nomatch hn)
  · obtain rfl := List.mem_singleton.1 ha
    obtain ⟨rfl, rfl⟩ := ht
    have := (C35_round_trip _ own100 _ alice _ rfl h1).symm.trans h2
    exact (Except.ok.inj this).symm
  · obtain rfl := List.mem_singleton.1 ha
    exact (nomatch hm)

theorem coins100 : Coins walletA nativeCode [(feeRec, 0)] ∧ ∀ code ≠ nativeCode, Coins walletA code [] := by
  refine ⟨⟨by simp, fun x => ?_⟩, fun code hc => ⟨List.nodup_nil, fun x => ⟨fun h => (nomatch h), fun h => ?_⟩⟩⟩
  · rw [List.mem_singleton, walletA_holds]
    exact ⟨fun h => ⟨h, by rw [h]; rfl⟩, fun h => h.1⟩
  · rw [(walletA_holds x).1 h.1] at h
    exact absurd h.2.symm hc

/-- The mint can be made and settled; then Alice has 93 native and 1000 of the asset. -/
example : ∃ h1 s1 w1, ActsInTurn 2 .debug alice told100 led0 walletA [act100] h1 s1 w1 ∧
    ∀ native of_asset, Coins w1 nativeCode native → Coins w1 asset.code of_asset →
      total (native.map (·.1)) = 93 ∧ total (of_asset.map (·.1)) = 1000 := by
  obtain ⟨i, hi, hwal⟩ := issuing1
  have hold : ∀ x, i.wallet.Holds x ↔ x = (feeRec, 0) := by
    rw [hwal]
    exact walletA_holds
  obtain ⟨i', note, sig, memo, h1, -, -, -, -, h2⟩ := C63_mints_partial (rng := mintRand) (fee := 7) (amount := 1000)
    (owner := alice.pubKey) Toy.complete Toy.batch hi
    (by simpa using coin_only (more := []) (by simp)) (fun x hx _ => by rw [(hold x).1 hx]; rfl)
    ⟨_, (hold _).2 rfl, rfl, by decide⟩ (x := declared1) (List.mem_singleton.2 rfl) (fun y hy _ => List.mem_singleton.1 hy)
    (by decide) ⟨_, rfl⟩
  obtain ⟨ad, h', s', w', had, run, -⟩ := C100_mint_goes_on hi h1 (h2 5) ⟨by decide, by decide⟩ (47 : ZMod p) bob.pubKey
  rw [hwal] at run
  obtain rfl : ad = asset := by
    have := C63_kept hi (x := declared1) (List.mem_singleton.2 rfl) (fun y hy _ => List.mem_singleton.1 hy)
    exact Option.some.inj (had.symm.trans this)
  refine ⟨h', s', w', run, fun native of_asset hn ha => ?_⟩
  obtain ⟨apart, calm⟩ := settled100 run
  change ActsInTurn 2 .debug alice told100 led0 walletA [act100] h' s' w' at run
  have a1 := C100_account run worldA apart calm coins100.1 hn
  have a2 := C100_account run worldA apart calm (coins100.2 _ asset_code.1) ha
  rw [show ([act100].map (fun a => a.takes alice nativeCode)).sum = 7 by decide +kernel,
    show ([act100].map (fun a => a.gives alice nativeCode)).sum = 0 by decide +kernel] at a1
  rw [show ([act100].map (fun a => a.takes alice asset.code)).sum = 0 by decide +kernel,
    show ([act100].map (fun a => a.gives alice asset.code)).sum = 1000 by decide +kernel] at a2
  change _ + 7 = 100 + 0 at a1
  change _ + 0 = 0 + 1000 at a2
  omega

/-! The freezer of the asset pays its fees from Carol's wallet (C64), which holds a native coin worth 100. -/

def toldF100 : List Seen := seenF ++ [.told frzCoin 0]
def actF100 (flag : FreezeFlag) : Act := .freeze freezer1 frzRand flag (frzRecords flag) 7
def chgF100 : RecordOpening := ⟨93, AssetDefinition.native, carol.pubKey, .unfrozen, (71 : ZMod p)⟩

theorem ActsInTurn.freeze_inv {d : Fin 256} {b : Build} {k : UserKeyPair} {h h' : List Seen} {s s' : LedgerState} {w w' : Wallet}
    {f : Freezer} {rng : FreezerRand} {flag : FreezeFlag} {rs : List (RecordOpening × U64)} {fee : Amount}
    (run : ActsInTurn d b k h s w [.freeze f rng flag rs fee] h' s' w') :
    ∃ coin chg note memos blind who time, Froze k f rng flag rs fee coin chg note memos ∧
      OneCoin k f.wallet (.freeze f rng flag rs fee) coin chg (replaced rng flag rs) (.freeze note) memos ∧
      h' = h ++ [coin].map .spending ++ [.expecting chg] ++ [.block [(.freeze note, memos)] blind who time] := by
  cases run with
  | act does begun valid inserted offset scanned rest =>
    cases rest
    cases does with
    | freeze mine then_ known made froze => exact ⟨_, _, _, _, _, _, _, froze, froze_made known made froze, rfl⟩

/-- Carol cannot read the memos of the freezer, and the records are not hers -/
theorem carol_reads100 : ∀ flag, ((replaced frzRand flag (frzRecords flag)).zipIdx.all
    (fun o => (match ReceiverMemo.fromRo (frzRand.memos o.2) o.1 [] with
      | .ok c => !isOk (ReceiverMemo.decrypt c carol o.1.commitment [])
      | .error _ => false) && o.1.pub_key ≠ carol.pubKey)) = true := by
  intro flag
  cases flag <;> decide +kernel

theorem nullifiersF100 : (([(frzCoin, (0 : U64)), (chgF100, 3)] :
    List (RecordOpening × U64)).map (ownNullifier carol)).Nodup := by decide +kernel

theorem foreign100 : ∀ flag, ∀ x ∈ ([(frzCoin, (0 : U64)), (chgF100, 3)] : List (RecordOpening × U64)),
    ownNullifier carol x ∉ (actF100 flag).foreign := by
  intro flag x hx
  have h1 : ([(frzCoin, (0 : U64)), (chgF100, 3)] : List (RecordOpening × U64)).all
      (fun x => ownNullifier carol x ∉ (actF100 .unfrozen).foreign ∧ ownNullifier carol x ∉ (actF100 .frozen).foreign) = true := by
    decide +kernel
  have := List.all_eq_true.1 h1 x hx
  cases flag
  · exact (of_decide_eq_true this).1
  · exact (of_decide_eq_true this).2

theorem settledF100 {flag : FreezeFlag} {h1 : List Seen} {s1 : LedgerState} {w1 : Wallet}
    (run : ActsInTurn 2 .debug carol toldF100 ledF walletF [actF100 flag] h1 s1 w1) :
    Apart carol h1 ∧ Calm carol h1 [actF100 flag] := by
  obtain ⟨coin, chg, note, memos, blind, who, time, froze, one, rfl⟩ := ActsInTurn.freeze_inv run
  obtain rfl := (walletF_holds coin).1 froze.held.1
  have hg : chg = chgF100 := by
    have hv := froze.fee_value
    change 100 = chg.amount.val + 7 at hv
    have ha : chg.amount = 93 := Fin.ext (show chg.amount.val = 93 by omega)
    obtain ⟨c1, c2, c3, c4⟩ := froze.change
    obtain ⟨a, ad, pk, ff, bl⟩ := chg
    dsimp only at ha c1 c2 c3 c4
    subst ha c1 c2 c3 c4
    rfl
  subst hg
  clear run
  have reads := List.all_eq_true.1 (carol_reads100 flag)
  have unreadable : ∀ j ro c ro', (replaced frzRand flag (frzRecords flag))[j]? = some ro →
      ReceiverMemo.fromRo (frzRand.memos j) ro [] = .ok c → ReceiverMemo.decrypt c carol ro.commitment [] ≠ .ok ro' := by
    intro j ro c ro' hj h1 h2
    have h3 := reads (ro, j) (List.mk_mem_zipIdx_iff_getElem?.2 hj)
    rw [Bool.and_eq_true] at h3
    have h4 := h3.1
    dsimp only at h4
    rw [h1] at h4
    dsimp only at h4
    rw [h2] at h4
    cases h4
  have hat : ∀ {t : TransactionNote} {m : List Toy.E.AeadCt} {pos : ℕ},
      At (toldF100 ++ [(frzCoin, (0 : U64))].map .spending ++ [.expecting chgF100] ++
        [.block [(.freeze note, memos)] blind who time]) t m pos → t = .freeze note ∧ m = memos ∧ pos = 3 := by
    intro t m pos a
    rcases a.cases with a | ⟨txns, blind, who, time, n, h1, h2, rfl⟩
    · exfalso
      obtain ⟨before, txns, blind, who, time, after, -, -, h1, -⟩ := a
      have : Seen.block txns blind who time ∈ toldF100 ++ [(frzCoin, (0 : U64))].map .spending ++ [.expecting chgF100] := by
        rw [h1]; simp
      simp [toldF100, seenF] at this
    · cases h1
      rcases h2.cases with ⟨h3, h4⟩ | ⟨m, -, h3⟩
      · cases h3
        exact ⟨rfl, rfl, by rw [h4]; rfl⟩
      · exact (nomatch h3.mem)
  have expects : ∀ {c : RecordOpening}, .expecting c ∈ toldF100 ++ [(frzCoin, (0 : U64))].map .spending ++
      [.expecting chgF100] ++ [.block [(.freeze note, memos)] blind who time] → c = chgF100 := by
    intro c hc
    rcases List.mem_append.1 hc with hc | hc
    · rcases List.mem_append.1 hc with hc | hc
      · simp [toldF100, seenF] at hc
      · cases List.mem_singleton.1 hc
        rfl
    · simp at hc
  have hr : ∀ x, Received carol (toldF100 ++ [(frzCoin, (0 : U64))].map .spending ++ [.expecting chgF100] ++
      [.block [(.freeze note, memos)] blind who time]) x → x ∈ [(frzCoin, (0 : U64)), (chgF100, 3)] := by
    intro x hx
    cases hx with
    | told mem =>
      simp only [toldF100, seenF, List.cons_append, List.nil_append, List.mem_cons, List.not_mem_nil, or_false, reduceCtorEq,
        false_or, Seen.told.injEq, List.map_cons, List.map_nil] at mem
      rw [mem.1, mem.2]
      exact List.mem_cons_self
    | memo a o m op p =>
      rename_i t ms pos j rc c ro uid
      exfalso
      obtain ⟨e1, e2, e3⟩ := hat a
      rw [e1, one.outputs, List.map_cons, List.getElem?_cons_succ, List.getElem?_map] at o
      rw [e2] at m
      cases ho : (replaced frzRand flag (frzRecords flag))[j]? with
      | none =>
        rw [ho] at o
        cases o
      | some out =>
        rw [ho] at o
        obtain ⟨c', r, g1, g2, j', g3, g4⟩ := one.memos j out ho
        rw [m] at g1
        rw [← Option.some.inj o, Option.some.inj g1] at op
        rw [g4] at g2
        exact unreadable j' out c' _ g3 g2 op
    | change wt a o p =>
      rename_i t ms pos chg uid
      obtain ⟨-, -, e3⟩ := hat a
      rw [e3] at p
      rw [expects wt, show uid = 3 from Fin.ext p]
      simp
  refine ⟨⟨fun x y hx hy hn => List.inj_on_of_nodup_map nullifiersF100 (hr x hx) (hr y hy) hn, fun x hx t m pos a hp => ?_⟩,
    ⟨fun c c' h1 h2 _ => by rw [expects h1, expects h2], fun a ha n hn x hx e => ?_, fun a ha r ro c ro' ht h1 h2 => ?_,
      fun a ha ro hm => ?_⟩⟩
  · exfalso
    have h1 := hr x hx
    have : x.2.val ≤ 3 := by
      simp only [List.mem_cons, List.not_mem_nil, or_false] at h1
      rcases h1 with rfl | rfl <;> decide
    obtain ⟨rfl, -, rfl⟩ := hat a
    have hl := congrArg List.length one.outputs
    rw [List.map_cons, List.length_cons] at hl
    omega
  · obtain rfl := List.mem_singleton.1 ha
    exact foreign100 flag x (hr x hx) (by rw [e]; exact hn)
  · obtain rfl := List.mem_singleton.1 ha
    obtain ⟨j, hj, rfl⟩ := ht
    exact absurd h2 (unreadable j ro c ro' hj h1)
  · obtain rfl := List.mem_singleton.1 ha
    obtain ⟨j, hj⟩ := List.getElem?_of_mem hm
    have h3 := reads (ro, j) (List.mk_mem_zipIdx_iff_getElem?.2 hj)
    rw [Bool.and_eq_true] at h3
    exact of_decide_eq_true h3.2

/-- Freezing Alice's record, or releasing Bob's, costs Carol the fee and nothing else. -/
example (flag : FreezeFlag) : ∃ h1 s1 w1, ActsInTurn 2 .debug carol toldF100 ledF walletF [actF100 flag] h1 s1 w1 ∧
    ∀ native of_asset, Coins w1 nativeCode native → Coins w1 asset.code of_asset →
      total (native.map (·.1)) = 93 ∧ total (of_asset.map (·.1)) = 0 := by
  obtain ⟨f', note, memos, sig, h1, -, -, valid⟩ := freezer1_frz flag
  obtain ⟨rs, h', s', w', hk, run, -⟩ := C100_freeze_goes_on worldCarol h1 (valid 5) (fun rs hk => by
    rw [frz_known] at hk
    cases hk
    cases flag <;> exact ⟨(by decide : 3 + (1 + 4) ≤ 3 ^ 2), (by decide : 3 + (1 + 4) < 2 ^ 64)⟩) (47 : ZMod p) bob.pubKey
  rw [frz_known] at hk
  cases hk
  refine ⟨h', s', w', run, fun native of_asset hn ha => ?_⟩
  change ActsInTurn 2 .debug carol toldF100 ledF walletF [actF100 flag] h' s' w' at run
  obtain ⟨apart, calm⟩ := settledF100 run
  have a1 := C100_account run worldCarol apart calm (before := [(frzCoin, 0)]) ⟨by simp, fun x => by
    rw [List.mem_singleton, walletF_holds]
    exact ⟨fun h => ⟨h, by rw [h]; rfl⟩, fun h => h.1⟩⟩ hn
  have a2 := C100_account run worldCarol apart calm (before := []) ⟨List.nodup_nil, fun x => ⟨fun h => (nomatch h), fun h => by
    rw [(walletF_holds x).1 h.1] at h
    exact absurd h.2 native_code_ne⟩⟩ ha
  rw [show ([actF100 flag].map (fun a => a.takes carol nativeCode)).sum = 7 by cases flag <;> decide +kernel,
    show ([actF100 flag].map (fun a => a.gives carol nativeCode)).sum = 0 by rfl] at a1
  rw [show ([actF100 flag].map (fun a => a.takes carol asset.code)).sum = 0 by cases flag <;> decide +kernel,
    show ([actF100 flag].map (fun a => a.gives carol asset.code)).sum = 0 by rfl] at a2
  change _ + 7 = 100 + 0 at a1
  change _ + 0 = 0 + 0 at a2
  omega

/-- Alice has two native coins worth 100 each, but can neither mint nor freeze with a fee of 150. -/
example (i : Issuer) (rng : MintRand) (code : AssetCode) (amount : Amount) (owner : UserPubKey) (r)
    (mine : i.wallet = ((walletA.addRecordOpening assetRec 1)).addRecordOpening coin99 2) :
    i.mint 2 led99 rng 150 code amount owner ≠ .ok r := by
  have world := ((worldA.told (ro := assetRec) (uid := 1) rfl rfl rfl (by simp [led0])).grant (s' := led99) (ro := coin99)
    (bind_ok_iff.2 ⟨_, room (by decide), rfl⟩)).told (ro := coin99) (uid := 2) rfl rfl rfl (by simp [led99])
  refine (C100_scattered_false world (fun x hx hc => ?_)).1 i rng code amount owner r mine
  rw [Wallet.holds_add, Wallet.holds_add, walletA_holds] at hx
  rcases hx with rfl | rfl | rfl
  · decide
  · exact absurd hc asset_code.1
  · decide

end Cap.Examples
