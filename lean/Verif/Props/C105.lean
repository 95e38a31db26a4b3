/-
C105: the accounts of a wallet whose owner also freezes and releases records of their own.

status: proved
note: C105_charge, C105_account: after any sequence of payments in any assets, mints, freezes and releases, each waited for, where records of others and of the wallet itself are frozen and released: the account of every asset, together with all that was paid of it to others, the fees in the native asset, and what was frozen of the wallet's own records, is what it was together with what was minted for the wallet and what was released to its owner. C105_goes_on: every accepted freeze or release takes part in such a history. Conditions as in C100 and C104, but with no condition on whose records are frozen.
-/
import Verif.Props.C104

namespace Cap

open Spec

variable [E : CapEnv] [S : CapExt]

omit S in
/-- what an act releases to the owner of `k` -/
def Spec.Act.releases (k : UserKeyPair) (code : AssetCode) : Act → ℕ
  | .freeze _ _ flag rs _ => releasedTo k code flag rs
  | _ => 0

omit S in
/-- `taken` are the records of the wallet that an act freezes; only the freezer of the asset freezes, and records that exist -/
def Spec.Takes (s : LedgerState) (w : Wallet) (taken : List (RecordOpening × U64)) : Act → Prop
  | .freeze f _ flag rs _ => Holder f ∧ (∀ r ∈ rs, Live f s flag r) ∧ taken.Nodup ∧ ∀ x, x ∈ taken ↔ x ∈ rs ∧ w.Holds x
  | _ => taken = []

/-- The wallet does these things, and waits after each until it has scanned a block with its note.  With each act stand the
records of the wallet that it freezes. -/
inductive Spec.Turns (d : Fin 256) (b : Build) (k : UserKeyPair) : List Seen → LedgerState → Wallet →
    List (Act × List (RecordOpening × U64)) → List Seen → LedgerState → Wallet → Prop
  | done {h s w} : Turns d b k h s w [] h s w
  | act {h s w w1 s1 w2 t memos coins chg blind who time uid recv} {a : Act} {taken acts h' s' w'}
      (does : Does d b k s w w1 a coins chg t memos)
      (takes : Takes s w taken a)
      (begun : World d b k (h ++ coins.map .spending ++ [.expecting chg]) s w1)
      (valid : validateTxnsBatch d s [t] time = .ok ())
      (inserted : s.insertBlock d.val ⟨[t], blind, who⟩ = .ok s1)
      (offset : (uid : U64).val = s.leaves.length)
      (scanned : w1.scanBlock b [t] [memos] uid = .ok (w2, recv))
      (rest : Turns d b k (h ++ coins.map .spending ++ [.expecting chg] ++ [.block [(t, memos)] blind who time])
        s1 w2 acts h' s' w') :
      Turns d b k h s w ((a, taken) :: acts) h' s' w'

/-- Nothing of the history coincides by accident with what the acts draw. -/
structure Spec.Clear (k : UserKeyPair) (h : List Seen) (acts : List Act) : Prop where
  changes : ∀ c c', .expecting c ∈ h → .expecting c' ∈ h → c'.commitment = c.commitment → c' = c
  payments : ∀ o, .pay o ∈ acts → ∀ x, Received k h x → ownNullifier k x ≠ dummyNullifier o.rng
  freezes : ∀ f rng flag rs fee, .freeze f rng flag rs fee ∈ acts → Unmistaken k h f rng flag rs
  memos : ∀ a ∈ acts, ∀ r ro c ro', a.Tells r ro → ReceiverMemo.fromRo r ro [] = .ok c →
    ReceiverMemo.decrypt c k ro.commitment [] = .ok ro' → ro' = ro

variable {d : Fin 256} {b : Build} {k : UserKeyPair} {h h' : List Seen} {s s' : LedgerState} {w w' w1 w2 : Wallet}
  {fee : Amount} {memos : List E.AeadCt} {coins taken before after : List (RecordOpening × U64)} {chg : RecordOpening} {a : Act}
  {t : TransactionNote} {blind : F} {who : UserPubKey} {time uid : U64} {recv : List RecordOpening} {code : AssetCode}

theorem Spec.Unmistaken.prefix {more : List Seen} {f : Freezer} {rng : FreezerRand} {flag : FreezeFlag}
    {rs : List (RecordOpening × U64)} (un : Unmistaken k (h ++ more) f rng flag rs) : Unmistaken k h f rng flag rs :=
  ⟨fun x hx => un.dummies x (hx.append _), fun x hx => un.listed x (hx.append _), un.memos, un.owners⟩

theorem Spec.Clear.prefix {more : List Seen} {acts acts' : List Act} (clear : Clear k (h ++ more) acts)
    (sub : ∀ a ∈ acts', a ∈ acts) : Clear k h acts' :=
  ⟨fun c c' hc hc' => clear.changes c c' (List.mem_append_left _ hc) (List.mem_append_left _ hc'),
    fun o ho x hx => clear.payments o (sub _ ho) x (hx.append _),
    fun f rng flag rs fee hf => (clear.freezes f rng flag rs fee (sub _ hf)).prefix, fun a ha => clear.memos a (sub a ha)⟩

theorem Spec.Turns.extends {acts : List (Act × List (RecordOpening × U64))} (run : Turns d b k h s w acts h' s' w') :
    ∃ more, h' = h ++ more := by
  induction run with
  | done => exact ⟨[], (List.append_nil _).symm⟩
  | act does takes begun valid inserted offset scanned rest ih =>
    obtain ⟨more, e⟩ := ih
    exact ⟨_, by rw [e]; simp only [List.append_assoc]; rfl⟩

/-- **One act.**  The account of an asset, with what the act takes from it and what it freezes of it, is what it was, with what
the act adds to it and releases. -/
theorem C105_charge (world : World d b k h s w) (does : Does d b k s w w1 a coins chg t memos) (takes : Takes s w taken a)
    (begun : World d b k (h ++ coins.map .spending ++ [.expecting chg]) s w1)
    (valid : validateTxnsBatch d s [t] time = .ok ())
    (inserted : s.insertBlock d.val ⟨[t], blind, who⟩ = .ok s') (offset : uid.val = s.leaves.length)
    (scanned : w1.scanBlock b [t] [memos] uid = .ok (w2, recv))
    (apart : Apart k (h ++ coins.map .spending ++ [.expecting chg] ++ [.block [(t, memos)] blind who time]))
    (clear : Clear k (h ++ coins.map .spending ++ [.expecting chg] ++ [.block [(t, memos)] blind who time]) [a])
    (hb : Coins w code before) (ha : Coins w2 code after) :
    total (after.map (·.1)) + (a.takes k code + worth code (taken.map (·.1))) =
      total (before.map (·.1)) + (a.gives k code + a.releases k code) := by
  by_cases hf : ∃ f rng flag rs fee, a = .freeze f rng flag rs fee
  · obtain ⟨f, rng, flag, rs, fee, rfl⟩ := hf
    obtain ⟨holder, live, once, ht⟩ := takes
    cases does with
    | freeze mine then_ known made froze =>
      subst mine then_
      have res := C104_freezer world holder known made froze live begun valid inserted offset scanned apart
        (clear.freezes _ _ _ _ _ (List.mem_singleton.2 rfl))
        (fun c c' hc hc' he => (clear.changes c c' (List.mem_append_left _ hc) (List.mem_append_left _ hc') he.symm).symm) once ht hb ha
      simp only [Act.takes, Act.gives, Act.releases]
      omega
  · have calm : Calm k (h ++ coins.map .spending ++ [.expecting chg] ++ [.block [(t, memos)] blind who time]) [a] :=
      ⟨clear.changes, fun a' ha' n hn x hx => by
        obtain rfl := List.mem_singleton.1 ha'
        cases a' with
        | pay o =>
          obtain rfl := List.mem_singleton.1 hn
          exact clear.payments o (List.mem_singleton.2 rfl) x hx
        | mint => exact (nomatch hn)
        | freeze f rng flag rs fee => exact absurd ⟨f, rng, flag, rs, fee, rfl⟩ hf, clear.memos, fun a' ha' ro hro => by
        obtain rfl := List.mem_singleton.1 ha'
        cases a' with
        | pay o => exact (nomatch hro)
        | mint => exact (nomatch hro)
        | freeze f rng flag rs fee => exact absurd ⟨f, rng, flag, rs, fee, rfl⟩ hf⟩
    have res := C100_charge world does begun valid inserted offset scanned apart calm hb ha
    have none_ : taken = [] ∧ a.releases k code = 0 := by
      cases a with
      | pay o => exact ⟨takes, rfl⟩
      | mint => exact ⟨takes, rfl⟩
      | freeze f rng flag rs fee => exact absurd ⟨f, rng, flag, rs, fee, rfl⟩ hf
    rw [none_.1, none_.2]
    exact res

/-- **The accounts after everything a wallet has done**: payments, mints, freezes and releases in any order, also of records of its
own. -/
theorem C105_account {acts : List (Act × List (RecordOpening × U64))} (run : Turns d b k h s w acts h' s' w') :
    World d b k h s w → Apart k h' → Clear k h' (acts.map (·.1)) →
    ∀ {code : AssetCode} {before after : List (RecordOpening × U64)}, Coins w code before → Coins w' code after →
    total (after.map (·.1)) + (acts.map (fun a => a.1.takes k code + worth code (a.2.map (·.1)))).sum =
      total (before.map (·.1)) + (acts.map (fun a => a.1.gives k code + a.1.releases k code)).sum := by
  induction run with
  | done =>
    intro _ _ _ code before after hb ha
    have perm : after.Perm before := (List.perm_ext_iff_of_nodup ha.1 hb.1).2 (fun x => (ha.2 x).trans (hb.2 x).symm)
    exact congrArg (· + 0) ((perm.map _).map _).sum_eq
  | act does takes begun valid inserted offset scanned rest ih =>
    intro world apart clear code before after hb ha
    rename_i h s w w1 s1 w2 t memos coins chg blind who time uid recv a taken acts h' s' w'
    have world2 := World.block (txns := [(t, memos)]) (time := time) begun valid inserted offset scanned
    obtain ⟨more, e⟩ := rest.extends
    obtain ⟨nd, mem⟩ := (worldOk world2).ok.get code
    have h1 := ih world2 apart ⟨clear.changes, fun o ho => clear.payments o (List.mem_cons_of_mem _ ho),
      fun f rng flag rs fee hf => clear.freezes f rng flag rs fee (List.mem_cons_of_mem _ hf),
      fun a ha => clear.memos a (List.mem_cons_of_mem _ ha)⟩ ⟨nd, mem⟩ ha
    have h2 := C105_charge world does takes begun valid inserted offset scanned (by rw [e] at apart; exact apart.prefix)
      (by rw [e] at clear; exact clear.prefix (by simp)) hb ⟨nd, mem⟩
    simp only [List.map_cons, List.sum_cons]
    omega

/-- **Every accepted freeze or release takes part in such a history**, whoever owns the records. -/
theorem C105_goes_on {f f' : Freezer} {rng : FreezerRand} {flag : FreezeFlag} {user : Pt} {rs : List (RecordOpening × U64)}
    {note : FreezeNote} {sig : E.Sig} (world : World d b k h s f.wallet) (holder : Holder f)
    (known : mapGet user (f.shelf flag) = some rs) (live : ∀ r ∈ rs, Live f s flag r)
    (made : f.freezeUser d s rng flag user fee = .ok (f', note, memos, sig))
    (valid : validateTxnsBatch d s [.freeze note] time = .ok ()) (room : Room d.val s (rs.length + 4)) (blind : F)
    (who : UserPubKey) :
    ∃ taken h' s' w', (∀ x, x ∈ taken ↔ x ∈ rs ∧ f.wallet.Holds x) ∧
      Turns d b k h s f.wallet [(.freeze f rng flag rs fee, taken)] h' s' w' ∧ World d b k h' s' w' := by
  classical
  obtain ⟨rs', h', s', w', known', run, world'⟩ := C100_freeze_goes_on world made valid (fun rs' hk => by
    obtain rfl := Option.some.inj (known.symm.trans hk)
    exact room) blind who
  obtain rfl := Option.some.inj (known.symm.trans known')
  have ht : ∀ x, x ∈ (rs.filter (fun x => f.wallet.Holds x)).dedup ↔ x ∈ rs ∧ f.wallet.Holds x := fun x => by
    rw [List.mem_dedup, List.mem_filter, decide_eq_true_iff]
  refine ⟨_, h', s', w', ht, ?_, world'⟩
  cases run with
  | act does begun valid inserted offset scanned rest =>
    cases rest
    exact .act does ⟨holder, live, List.nodup_dedup _, ht⟩ begun valid inserted offset scanned .done

end Cap

namespace Cap.Examples

open Toy Spec

def act105 : Act := .freeze freezer104 frzRand .unfrozen [(assetRec, 1)] 7

/-- Alice freezes her own record: the fee is gone, and the record is off the account. -/
example : ∃ h' s' w', Turns 2 .debug alice told104 led0 walletB104 [(act105, [(assetRec, 1)])] h' s' w' ∧
    ∀ native of_asset, Coins w' nativeCode native → Coins w' asset.code of_asset →
      total (native.map (·.1)) = 93 ∧ total (of_asset.map (·.1)) = 0 := by
  obtain ⟨f', note, memos, sig, s', w2, recv, h1, froze, begun, valid, inserted, scanned, apart, clear⟩ := own104
  have run : Turns 2 .debug alice told104 led0 walletB104 [(act105, [(assetRec, 1)])] _ s' w2 :=
    .act (.freeze rfl rfl rfl h1 froze) ⟨holder104, live104, List.nodup_singleton _, fun x => by
      rw [List.mem_singleton]
      exact ⟨fun e => ⟨e, (walletB104_holds x).2 (.inl e)⟩, fun e => e.1⟩⟩ begun valid inserted (uid := 2) rfl scanned .done
  have quiet : Clear alice (begun104 ++ [.block [(.freeze note, memos)] (47 : ZMod p) bob.pubKey 5])
      ([(act105, [(assetRec, (1 : U64))])].map (·.1)) :=
    ⟨fun c c' hc hc' _ => by
      have only : ∀ c, .expecting c ∈ begun104 ++ [.block [(.freeze note, memos)] (47 : ZMod p) bob.pubKey 5] → c = chg104 := by
        intro c hc
        rcases List.mem_append.1 hc with hc | hc
        · exact expects104 hc
        · exact absurd (List.mem_singleton.1 hc) (by simp)
      rw [only c hc, only c' hc'], fun o ho => by simp [act105] at ho, fun f rng flag rs fee hf => by
      simp only [act105, List.map_cons, List.map_nil, List.mem_singleton, Act.freeze.injEq] at hf
      obtain ⟨rfl, rfl, rfl, rfl, rfl⟩ := hf
      exact clear, fun a ha r ro c ro' ht hc ho => by
      obtain rfl := List.mem_singleton.1 ha
      obtain ⟨j, hj, rfl⟩ := ht
      exact clear.memos j ro c ro' hj hc ho⟩
  refine ⟨_, s', w2, run, fun native of_asset hn ha => ?_⟩
  have r1 := C105_account run worldB104 apart quiet (code := nativeCode) (before := [(feeRec, 0)]) ⟨List.nodup_singleton _, fun x => by
    rw [List.mem_singleton, walletB104_holds]
    constructor
    · rintro rfl
      exact ⟨.inr rfl, rfl⟩
    · rintro ⟨rfl | rfl, hc⟩
      · exact absurd hc asset_code.1
      · rfl⟩ hn
  have r2 := C105_account run worldB104 apart quiet (code := asset.code) (before := [(assetRec, 1)]) ⟨List.nodup_singleton _, fun x => by
    rw [List.mem_singleton, walletB104_holds]
    constructor
    · rintro rfl
      exact ⟨.inl rfl, rfl⟩
    · rintro ⟨rfl | rfl, hc⟩
      · rfl
      · exact absurd hc.symm asset_code.1⟩ ha
  rw [show ([(act105, [(assetRec, (1 : U64))])].map (fun a => a.1.takes alice nativeCode + worth nativeCode (a.2.map (·.1)))).sum = 7 by
    decide +kernel] at r1
  rw [show ([(act105, [(assetRec, (1 : U64))])].map (fun a => a.1.takes alice asset.code + worth asset.code (a.2.map (·.1)))).sum = 50 by
    decide +kernel] at r2
  change _ + 7 = 100 + 0 at r1
  change _ + 50 = 50 + 0 at r2
  omega

end Cap.Examples
