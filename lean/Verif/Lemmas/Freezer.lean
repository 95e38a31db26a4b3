/-
The maps of the freezer, and what `freeze_user` and `unfreeze_user` do.
-/
import Verif.SpecFreezer
import Verif.Props.C63

namespace Cap

open Spec

variable [E : CapEnv]

omit E in
theorem mapGet_add {α β : Type} [DecidableEq α] [DecidableEq β] (c c' : α) (x : β) : ∀ l : List (α × List β),
    mapGet c' (mapAdd c x l) = if c' = c then some (setInsert x ((mapGet c l).getD [])) else mapGet c' l
  | [] => by
    by_cases h : c' = c
    · subst h
      simp [mapAdd, mapGet, setInsert]
    · simp only [mapAdd, mapGet, if_neg h, if_neg (fun e : c = c' => h e.symm)]
  | (a, m) :: l => by
    unfold mapAdd
    by_cases ha : a = c
    · subst ha
      rw [if_pos rfl, mapGet, mapGet, mapGet]
      by_cases h : c' = a
      · subst h; simp
      · rw [if_neg (fun e => h e.symm), if_neg h, if_neg (fun e => h e.symm)]
    · rw [if_neg ha, mapGet, mapGet_add c c' x l, mapGet, mapGet]
      by_cases h : a = c'
      · subst h
        rw [if_pos rfl, if_neg ha, if_pos rfl]
      · rw [if_neg h, if_neg ha, if_neg h]

omit E in
theorem mapRemove_get {α β : Type} [DecidableEq α] [DecidableEq β] {c : α} {x : β} : ∀ {m m' : List (α × List β)},
    mapRemove c x m = .ok m' → ∃ l, mapGet c m = some l ∧
      ∀ c', mapGet c' m' = if c' = c then some (setRemove x l) else mapGet c' m
  | [], _, h => nomatch h
  | (a, l) :: m, m', h => by
    unfold mapRemove at h
    by_cases ha : a = c
    · subst ha
      rw [if_pos rfl] at h
      cases h
      refine ⟨l, by rw [mapGet, if_pos rfl], fun c' => ?_⟩
      rw [mapGet, mapGet]
      by_cases h : c' = a
      · subst h; simp
      · rw [if_neg (fun e => h e.symm), if_neg h, if_neg (fun e => h e.symm)]
    · rw [if_neg ha, bind_ok_iff] at h
      obtain ⟨m1, h1, h2⟩ := h
      cases h2
      obtain ⟨l', g1, g2⟩ := mapRemove_get h1
      refine ⟨l', by rw [mapGet, if_neg ha, g1], fun c' => ?_⟩
      rw [mapGet, g2, mapGet]
      by_cases h : a = c'
      · subst h
        rw [if_pos rfl, if_neg ha, if_pos rfl]
      · rw [if_neg h, if_neg h]

omit E in
theorem mapRemove_intro {α β : Type} [DecidableEq α] [DecidableEq β] {c : α} (x : β) {l : List β} :
    ∀ {m : List (α × List β)}, mapGet c m = some l → ∃ m', mapRemove c x m = .ok m'
  | [], h => nomatch h
  | (a, l') :: m, h => by
    unfold mapRemove
    by_cases ha : a = c
    · rw [if_pos ha]; exact ⟨_, rfl⟩
    · rw [if_neg ha]
      rw [mapGet, if_neg ha] at h
      obtain ⟨m', hm⟩ := mapRemove_intro x h
      exact ⟨(a, l') :: m', by rw [hm]; rfl⟩

omit E in
theorem mapInsert_get {α β : Type} [DecidableEq α] [DecidableEq β] {c : α} {x : β} : ∀ {m m' : List (α × List β)},
    mapInsert c x m = .ok m' → ∃ l, mapGet c m = some l ∧
      ∀ c', mapGet c' m' = if c' = c then some (setInsert x l) else mapGet c' m
  | [], _, h => nomatch h
  | (a, l) :: m, m', h => by
    unfold mapInsert at h
    by_cases ha : a = c
    · subst ha
      rw [if_pos rfl] at h
      cases h
      refine ⟨l, by rw [mapGet, if_pos rfl], fun c' => ?_⟩
      rw [mapGet, mapGet]
      by_cases h : c' = a
      · subst h; simp
      · rw [if_neg (fun e => h e.symm), if_neg h, if_neg (fun e => h e.symm)]
    · rw [if_neg ha, bind_ok_iff] at h
      obtain ⟨m1, h1, h2⟩ := h
      cases h2
      obtain ⟨l', g1, g2⟩ := mapInsert_get h1
      refine ⟨l', by rw [mapGet, if_neg ha, g1], fun c' => ?_⟩
      rw [mapGet, g2, mapGet]
      by_cases h : a = c'
      · subst h
        rw [if_pos rfl, if_neg ha, if_pos rfl]
      · rw [if_neg h, if_neg h]

omit E in
theorem mapInsert_intro {α β : Type} [DecidableEq α] [DecidableEq β] {c : α} (x : β) {l : List β} :
    ∀ {m : List (α × List β)}, mapGet c m = some l → ∃ m', mapInsert c x m = .ok m'
  | [], h => nomatch h
  | (a, l') :: m, h => by
    unfold mapInsert
    by_cases ha : a = c
    · rw [if_pos ha]; exact ⟨_, rfl⟩
    · rw [if_neg ha]
      rw [mapGet, if_neg ha] at h
      obtain ⟨m', hm⟩ := mapInsert_intro x h
      exact ⟨(a, l') :: m', by rw [hm]; rfl⟩

namespace Freezer

variable {f f' : Freezer} {d : Fin 256} {s : LedgerState}

/-- the input for a record of the tree -/
def inputFor (f : Freezer) (d : ℕ) (s : LedgerState) (x : RecordOpening × U64) : FreezeNoteInput :=
  ⟨x.1, lookup d s x.2, f.keypair⟩

/-- the input for a dummy -/
def dummyInput (d : ℕ) (ro : RecordOpening) : FreezeNoteInput := ⟨ro, Wallet.dummyWitness d, defaultKey⟩

theorem freezeInputs_ok : ∀ {l : List (RecordOpening × U64)} {is : List FreezeNoteInput},
    f.freezeInputs d.val s l = .ok is → is = l.map (f.inputFor d.val s)
  | [], _, h => by cases h; rfl
  | x :: l, is, h => by
    unfold freezeInputs at h
    simp only [bind_ok_iff] at h
    obtain ⟨acc, h1, is', h2, h3⟩ := h
    cases h3
    rw [freezeInputs_ok h2, Wallet.lookupFromTree_ok h1]
    rfl

theorem freezeInputs_intro : ∀ {l : List (RecordOpening × U64)}, (∀ x ∈ l, x.2.val < s.leaves.length) →
    f.freezeInputs d.val s l = .ok (l.map (f.inputFor d.val s))
  | [], _ => rfl
  | x :: l, h => by
    unfold freezeInputs
    simp only [bind_ok_iff]
    refine ⟨lookup d.val s x.2, ?_, _, freezeInputs_intro (fun y hy => h y (List.mem_cons_of_mem _ hy)), rfl⟩
    unfold Wallet.lookupFromTree
    rw [if_pos (h x List.mem_cons_self)]
    rfl

/-- all inputs of a note -/
def allInputs (f : Freezer) (d : ℕ) (s : LedgerState) (rng : FreezerRand) (flag : FreezeFlag)
    (records : List (RecordOpening × U64)) : List FreezeNoteInput :=
  dummyInput d (dummyFirst rng flag) :: (records.map (f.inputFor d s) ++ [dummyInput d (dummyLast rng flag)])

theorem markPending_dummies (old : List (RecordOpening × U64)) (m : List (F × Pending)) : ∀ {ds : List RecordOpening},
    (∀ o ∈ ds, o.isDummy = true) → f.markPending ds old m = .ok m
  | [], _ => by rw [markPending]
  | o :: ds, h => by
    rw [markPending.eq_def]
    dsimp only
    rw [if_pos (h o List.mem_cons_self)]
    exact markPending_dummies old m (fun o ho => h o (List.mem_cons_of_mem _ ho))

theorem markPending_spec {ds : List RecordOpening} (dummies : ∀ o ∈ ds, o.isDummy = true) :
    ∀ {news : List RecordOpening} {old : List (RecordOpening × U64)} (m : List (F × Pending)), news.length = old.length →
      (∀ o ∈ news, o.isDummy = false) → ∃ p, f.markPending (news ++ ds) old m = .ok p ∧
        (∀ n, n ∉ old.map f.nullifier → mapGet n p = mapGet n m) ∧
        ((old.map f.nullifier).Nodup → ∀ (j : ℕ) x o, old[j]? = some x → news[j]? = some o →
          mapGet (f.nullifier x) p = some ⟨x.1.pub_key.address, x, o⟩)
  | [], [], m, _, _ => ⟨m, markPending_dummies _ _ dummies, fun _ _ => rfl, fun _ j x o h => by simp at h⟩
  | o :: news, x :: old, m, hl, hn => by
    obtain ⟨p, h1, h2, h3⟩ := markPending_spec dummies
      (mapSet (f.nullifier x) ⟨x.1.pub_key.address, x, o⟩ m) (news := news) (old := old) (by simpa using hl)
      (fun o ho => hn o (List.mem_cons_of_mem _ ho))
    refine ⟨p, ?_, fun n hnm => ?_, fun nd j y o' hj ho' => ?_⟩
    · rw [List.cons_append, markPending.eq_def]
      dsimp only
      rw [if_neg (by rw [hn o List.mem_cons_self]; simp)]
      exact h1
    · rw [List.map_cons, List.mem_cons, not_or] at hnm
      rw [h2 n hnm.2, mapGet_set, if_neg hnm.1]
    · rw [List.map_cons, List.nodup_cons] at nd
      cases j with
      | zero =>
        simp only [List.getElem?_cons_zero, Option.some.injEq] at hj ho'
        subst hj ho'
        rw [h2 _ nd.1, mapGet_set, if_pos rfl]
      | succ j => exact h3 nd.2 j y o' (by simpa using hj) (by simpa using ho')

variable [S : CapExt]

/-- Everything a successful `freeze_user` or `unfreeze_user` went through. -/
structure Doing (f : Freezer) (d : Fin 256) (s : LedgerState) (rng : FreezerRand) (flag : FreezeFlag) (user : Pt)
    (fee : Amount) (f' : Freezer) (note : FreezeNote) (memos : List E.AeadCt) (sig : E.Sig)
    (records : List (RecordOpening × U64)) (c : RecordOpening × U64) (info : TxnFeeInfo) (chg : RecordOpening)
    (pk : FreezeProvingKey) (vk : FreezeVerifyingKey) (sk : Fr) (outs : List RecordOpening) (pending : List (F × Pending)) :
    Prop where
  known : mapGet user (f.shelf flag) = some records
  fee_find : f.wallet.findRecordForFee fee = .ok c
  fee_look : Wallet.lookupFromTree d.val s c.2 = .ok (lookup d.val s c.2)
  fee_ok : TxnFeeInfo.new rng.chg_blind ⟨c.1, lookup d.val s c.2, f.wallet.keypair⟩ fee = .ok (info, chg)
  look : f.freezeInputs d.val s records = .ok (records.map (f.inputFor d.val s))
  keys : freezePreprocess ((f.allInputs d.val s rng flag records).length + 1) d = .ok (pk, vk)
  gen : FreezeNote.generate rng.note (f.allInputs d.val s rng flag records) info pk = .ok (note, sk, outs)
  memos_ok : Wallet.payMemos rng.memos 0 outs = .ok memos
  sig_ok : signReceiverMemos sk memos = .ok sig
  marks : f.markPending outs records (f.waiting flag) = .ok pending
  freezer : f' = match flag with
    | .unfrozen => { f with
        wallet := { (f.wallet.markUnconfirmedSpent (f.wallet.keypair.nullify 0 c.2 c.1.commitment) c.1 c.2) with
          changes := setInsert chg f.wallet.changes }
        freezing := pending }
    | .frozen => { f with
        wallet := { (f.wallet.markUnconfirmedSpent (f.wallet.keypair.nullify 0 c.2 c.1.commitment) c.1 c.2) with
          changes := setInsert chg f.wallet.changes }
        releasing := pending }

variable {rng : FreezerRand} {flag : FreezeFlag} {user : Pt} {fee : Amount} {note : FreezeNote} {memos : List E.AeadCt}
  {sig : E.Sig}

theorem freezeUser_ok : f.freezeUser d s rng flag user fee = .ok (f', note, memos, sig) ↔
    ∃ records c info chg pk vk sk outs pending,
      f.Doing d s rng flag user fee f' note memos sig records c info chg pk vk sk outs pending := by
  constructor
  · intro ok
    unfold freezeUser at ok
    split at ok
    · cases ok
    · next records hk =>
      simp only [bind_ok_iff] at ok
      obtain ⟨c, h1, acc, h2, ⟨info, chg⟩, h3, is, h4, ⟨pk, vk⟩, h5, ⟨n, sk, outs⟩, h6, ms, h7, sg, h8, h9⟩ := ok
      obtain rfl := Wallet.lookupFromTree_ok h2
      obtain rfl := freezeInputs_ok h4
      cases flag with
      | unfrozen =>
        simp only [bind_ok_iff] at h9
        obtain ⟨pending, h9, h10⟩ := h9
        cases h10
        exact ⟨records, c, info, chg, pk, vk, sk, outs, pending, hk, h1, h2, Wallet.unwrap_ok h3, h4, Wallet.unwrap_ok h5,
          Wallet.unwrap_ok h6, Wallet.unwrap_ok h7, h8, h9, rfl⟩
      | frozen =>
        simp only [bind_ok_iff] at h9
        obtain ⟨pending, h9, h10⟩ := h9
        cases h10
        exact ⟨records, c, info, chg, pk, vk, sk, outs, pending, hk, h1, h2, Wallet.unwrap_ok h3, h4, Wallet.unwrap_ok h5,
          Wallet.unwrap_ok h6, Wallet.unwrap_ok h7, h8, h9, rfl⟩
  · rintro ⟨records, c, info, chg, pk, vk, sk, outs, pending, sp⟩
    unfold freezeUser
    cases flag with
    | unfrozen =>
      have hk : mapGet user f.freezable = some records := sp.known
      simp only [hk, bind_ok_iff]
      refine ⟨_, sp.fee_find, _, sp.fee_look, (info, chg), congrArg unwrapRes sp.fee_ok, _, sp.look, (pk, vk),
        congrArg unwrapRes sp.keys, (note, sk, outs), congrArg unwrapRes sp.gen, _, congrArg unwrapRes sp.memos_ok, _, sp.sig_ok,
        pending, sp.marks, ?_⟩
      rw [sp.freezer]
      rfl
    | frozen =>
      have hk : mapGet user f.releasable = some records := sp.known
      simp only [hk, bind_ok_iff]
      refine ⟨_, sp.fee_find, _, sp.fee_look, (info, chg), congrArg unwrapRes sp.fee_ok, _, sp.look, (pk, vk),
        congrArg unwrapRes sp.keys, (note, sk, outs), congrArg unwrapRes sp.gen, _, congrArg unwrapRes sp.memos_ok, _, sp.sig_ok,
        pending, sp.marks, ?_⟩
      rw [sp.freezer]
      rfl

end Freezer

end Cap
