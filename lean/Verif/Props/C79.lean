/-
C79: Caches of keys never change an answer.
status: proved
note: For the validator every sequence of requests is covered, refused and panicking ones included; for wallets and freezers every cache that any sequence of successful payments can leave. As in the rest of the model a failing payment returns no wallet.
-/
import Verif.Model.Cache
import Verif.Props.C51
import Verif.Props.C64
import Verif.Lemmas.Keeper

namespace Cap
open Spec

/-! ### What is asked of a validator -/

namespace Spec

variable [E : CapEnv] [S : CapExt]

/-- a request to a validator, about some ledger at some time -/
inductive Request where
  | notes (s : LedgerState) (txns : List TransactionNote) (time : U64)
  | transfer (s : LedgerState) (note : TransferNote) (time : U64)
  | block (s : LedgerState) (blk : MockBlock) (sig : E.Sig) (time : U64) (proposer : UserPubKey)

/-- the answer of a validator that computes every key anew -/
def Request.answer (ser : MockBlock → List Byte) (d : Fin 256) : Request → Res Unit
  | .notes s txns time => validateTxnsBatch d s txns time
  | .transfer s note time => validateSingleXfrNote d s note time
  | .block s blk sig time proposer => validateBlock ser d s blk sig time proposer

/-- the answer of a validator with a cache, and the validator afterwards -/
def Request.askOf (ser : MockBlock → List Byte) (d : Fin 256) (v : Validator) : Request → Validator × Res Unit
  | .notes s txns time => v.validateTxnsBatch d s txns time
  | .transfer s note time => v.validateSingleXfrNote d s note time
  | .block s blk sig time proposer => Validator.validateBlock ser v d s blk sig time proposer

/-- the answers to one request after the other -/
def answers (ser : MockBlock → List Byte) (d : Fin 256) : Validator → List Request → List (Res Unit)
  | _, [] => []
  | v, r :: rs => (r.askOf ser d v).2 :: answers ser d (r.askOf ser d v).1 rs

/-- the wallets, with their caches, that have made payments on ledgers of depth `d`, and have done anything else -/
inductive Used (b : Build) (d : Fin 256) : CachingWallet → Prop
  | new (k : UserKeyPair) : Used b d ⟨Wallet.new k, []⟩
  | native {w w' : CachingWallet} {s : LedgerState} {rng : PaymentRand} {recipients : List (UserPubKey × Amount)}
      {fee : Amount} {r : TransferNote × List E.AeadCt × E.Sig} (used : Used b d w)
      (ok : w.spendNative b d s rng recipients fee = .ok (w', r)) : Used b d w'
  | asset {w w' : CachingWallet} {s : LedgerState} {rng : PaymentRand} {ad : AssetDefinition}
      {recipients : List (UserPubKey × Amount)} {fee : Amount} {r : TransferNote × List E.AeadCt × E.Sig}
      (used : Used b d w) (ok : w.spendNonNative b d s rng ad recipients fee = .ok (w', r)) : Used b d w'
  /-- scanning, receiving openings, obtaining a credential, …: all that does not touch the keys -/
  | other {w : CachingWallet} (used : Used b d w) (w' : Wallet) : Used b d ⟨w', w.keys⟩

/-- the same for freezers -/
inductive UsedFreezer (d : Fin 256) : CachingFreezer → Prop
  | new (f : Freezer) : UsedFreezer d ⟨f, []⟩
  | freeze {f f' : CachingFreezer} {s : LedgerState} {rng : FreezerRand} {flag : FreezeFlag} {user : Pt} {fee : Amount}
      {r : FreezeNote × List E.AeadCt × E.Sig} (used : UsedFreezer d f)
      (ok : f.freezeUser d s rng flag user fee = .ok (f', r)) : UsedFreezer d f'
  | other {f : CachingFreezer} (used : UsedFreezer d f) (f' : Freezer) : UsedFreezer d ⟨f', f.keys⟩

end Spec

/-! ### Descriptions tell keys apart -/

theorem toString_nat_inj {n m : ℕ} (h : (toString n).toList = (toString m).toList) : n = m := by
  rw [Nat.toString_eq_repr, Nat.toString_eq_repr, Nat.toList_repr, Nat.toList_repr] at h
  have := congrArg (Nat.ofDigitChars 10 · 0) h
  simpa [Nat.ofDigitChars_ten_toDigits] using this

theorem underscore_not_in (n : ℕ) : '_' ∉ (toString n).toList := by
  rw [Nat.toString_eq_repr, Nat.toList_repr]
  exact Nat.underscore_not_in_toDigits

theorem split_unique {α : Type} {x : α} : ∀ {a a' b b' : List α}, x ∉ a → x ∉ a' → a ++ x :: b = a' ++ x :: b' → a = a' ∧ b = b'
  | [], [], b, b', _, _, h => ⟨rfl, (List.cons.inj h).2⟩
  | [], y :: a', b, b', _, h', h => by
    exact absurd (List.cons.inj h).1 (fun e => h' (e ▸ List.mem_cons_self))
  | y :: a, [], b, b', h0, _, h => by
    exact absurd (List.cons.inj h).1 (fun e => h0 (e ▸ List.mem_cons_self))
  | y :: a, y' :: a', b, b', h0, h', h => by
    obtain ⟨e, h⟩ := List.cons.inj h
    obtain ⟨e1, e2⟩ := split_unique (fun m => h0 (List.mem_cons_of_mem _ m)) (fun m => h' (List.mem_cons_of_mem _ m)) h
    exact ⟨by rw [e, e1], e2⟩

theorem xfrDescription_list (n m : ℕ) :
    (xfrDescription n m).toList = 'X' :: 'f' :: 'r' :: '_' :: ((toString n).toList ++ '_' :: (toString m).toList) := by
  simp [xfrDescription, String.toList_append]

theorem freezeDescription_list (n : ℕ) :
    (freezeDescription n).toList = 'F' :: 'r' :: 'e' :: 'e' :: 'z' :: 'e' :: '_' :: (toString n).toList := by
  simp [freezeDescription, String.toList_append]

theorem xfrDescription_inj {n m n' m' : ℕ} (h : xfrDescription n m = xfrDescription n' m') : n = n' ∧ m = m' := by
  have h := congrArg String.toList h
  rw [xfrDescription_list, xfrDescription_list] at h
  simp only [List.cons.injEq, true_and] at h
  obtain ⟨h1, h2⟩ := split_unique (underscore_not_in n) (underscore_not_in n') h
  exact ⟨toString_nat_inj h1, toString_nat_inj h2⟩

theorem freezeDescription_inj {n n' : ℕ} (h : freezeDescription n = freezeDescription n') : n = n' := by
  have h := congrArg String.toList h
  rw [freezeDescription_list, freezeDescription_list] at h
  simp only [List.cons.injEq, true_and] at h
  exact toString_nat_inj h

/-- the kinds of keys -/
inductive KeyKind where
  | transfer (n m : ℕ)
  | mint
  | freeze (n : ℕ)

def KeyKind.describe : KeyKind → String
  | .transfer n m => xfrDescription n m
  | .mint => mintDescription
  | .freeze n => freezeDescription n

theorem KeyKind.describe_inj : ∀ {k k' : KeyKind}, k.describe = k'.describe → k = k'
  | .transfer n m, .transfer n' m', h => by
    obtain ⟨rfl, rfl⟩ := xfrDescription_inj h
    rfl
  | .mint, .mint, _ => rfl
  | .freeze n, .freeze n', h => by
    obtain rfl := freezeDescription_inj h
    rfl
  | .transfer n m, .mint, h => by
    have h := congrArg String.toList h
    simp [describe, xfrDescription_list, mintDescription] at h
  | .transfer n m, .freeze _, h => by
    have h := congrArg String.toList h
    simp [describe, xfrDescription_list, freezeDescription_list] at h
  | .mint, .transfer n m, h => by
    have h := congrArg String.toList h
    simp [describe, xfrDescription_list, mintDescription] at h
  | .mint, .freeze _, h => by
    have h := congrArg String.toList h
    simp [describe, freezeDescription_list, mintDescription] at h
  | .freeze _, .transfer n m, h => by
    have h := congrArg String.toList h
    simp [describe, xfrDescription_list, freezeDescription_list] at h
  | .freeze _, .mint, h => by
    have h := congrArg String.toList h
    simp [describe, freezeDescription_list, mintDescription] at h

variable [E : CapEnv] [S : CapExt]

/-! ### The validator -/

def KeyKind.compute (d : Fin 256) : KeyKind → Res TransactionVerifyingKey
  | .transfer n m => (transferPreprocess n m d).map (fun k => .transfer k.2)
  | .mint => (mintPreprocess d).map (fun k => .mint k.2)
  | .freeze n => (freezePreprocess n d).map (fun k => .freeze k.2)

/-- every key of the cache is the one its description calls for -/
def Validator.Good (d : Fin 256) (v : Validator) : Prop :=
  ∀ kind k, mapGet (KeyKind.describe kind) v.keys = some k → kind.compute d = .ok k

theorem Validator.getKey_good {d : Fin 256} {v : Validator} (good : v.Good d) (kind : KeyKind) :
    (v.getKey kind.describe (kind.compute d)).1.Good d ∧
      (v.getKey kind.describe (kind.compute d)).2 = unwrapRes (kind.compute d) := by
  unfold Validator.getKey
  cases hg : mapGet kind.describe v.keys with
  | some k => exact ⟨good, by rw [good kind k hg]; rfl⟩
  | none =>
    cases hc : kind.compute d with
    | error e => exact ⟨good, rfl⟩
    | ok k =>
      refine ⟨fun kind' k' h => ?_, rfl⟩
      simp only [unwrapRes] at h
      rw [mapGet_set] at h
      split at h
      · next e =>
        cases KeyKind.describe_inj e
        rw [hc, Option.some.inj h]
      · exact good kind' k' h

theorem Validator.keyFor_good {d : Fin 256} {v : Validator} (good : v.Good d) (t : TransactionNote) :
    (v.keyFor d t).1.Good d ∧ (v.keyFor d t).2 = keyForNote d t := by
  cases t with
  | transfer n =>
    obtain ⟨h1, h2⟩ := v.getKey_good good (.transfer n.inputs_nullifiers.length n.output_commitments.length)
    refine ⟨h1, h2.trans ?_⟩
    rw [keyForNote, KeyKind.compute]
    cases transferPreprocess n.inputs_nullifiers.length n.output_commitments.length d <;> rfl
  | mint n =>
    obtain ⟨h1, h2⟩ := v.getKey_good good .mint
    refine ⟨h1, h2.trans ?_⟩
    rw [keyForNote, KeyKind.compute]
    cases mintPreprocess d <;> rfl
  | freeze n =>
    obtain ⟨h1, h2⟩ := v.getKey_good good (.freeze n.input_nullifiers.length)
    refine ⟨h1, h2.trans ?_⟩
    rw [keyForNote, KeyKind.compute]
    cases freezePreprocess n.input_nullifiers.length d <;> rfl

theorem Validator.loop_good {d : Fin 256} {s : LedgerState} : ∀ (txns : List TransactionNote) {v : Validator} (checked : List F),
    v.Good d → (v.loop d s txns checked).1.Good d ∧ (v.loop d s txns checked).2 = validateLoop d s txns checked
  | [], v, checked, good => by
    rw [Validator.loop, validateLoop]
    exact ⟨good, rfl⟩
  | t :: ts, v, checked, good => by
    rw [Validator.loop, validateLoop]
    obtain ⟨h1, h2⟩ := Validator.keyFor_good good t
    rw [← h2]
    generalize v.keyFor d t = r at h1 h2
    obtain ⟨v1, k | k⟩ := r
    · exact ⟨h1, rfl⟩
    · dsimp only at h1 ⊢
      cases checkTxnInputNullifiers s t.nullifiers checked with
      | error e => exact ⟨h1, rfl⟩
      | ok checked' =>
        by_cases hr : t.merkleRoot ∈ s.roots
        · obtain ⟨i1, i2⟩ := Validator.loop_good ts checked' h1
          simp only [if_pos hr, ensure, decide_eq_true_eq]
          dsimp only [bind, Except.bind]
          rw [← i2]
          generalize Validator.loop d s v1 ts checked' = r at i1 i2
          obtain ⟨v2, r | r⟩ := r
          · exact ⟨i1, rfl⟩
          · exact ⟨i1, rfl⟩
        · simp only [if_neg hr, ensure, decide_eq_true_eq]
          exact ⟨h1, rfl⟩

theorem Validator.batch_good {d : Fin 256} {v : Validator} (good : v.Good d) (s : LedgerState) (txns : List TransactionNote)
    (time : U64) : (v.validateTxnsBatch d s txns time).1.Good d ∧
      (v.validateTxnsBatch d s txns time).2 = Cap.validateTxnsBatch d s txns time := by
  rw [Validator.validateTxnsBatch, Cap.validateTxnsBatch]
  obtain ⟨h1, h2⟩ := Validator.loop_good (s := s) txns [] good
  rw [← h2]
  generalize Validator.loop d s v txns [] = r at h1 h2
  obtain ⟨v1, r | r⟩ := r
  · exact ⟨h1, rfl⟩
  · exact ⟨h1, rfl⟩

theorem Validator.ask_good (ser : MockBlock → List Byte) {d : Fin 256} {v : Validator} (good : v.Good d) (r : Request) :
    (r.askOf ser d v).1.Good d ∧ (r.askOf ser d v).2 = r.answer ser d := by
  cases r with
  | notes s txns time => exact Validator.batch_good good s txns time
  | transfer s n time =>
    show (v.validateSingleXfrNote d s n time).1.Good d ∧ (v.validateSingleXfrNote d s n time).2 = _
    obtain ⟨h1, h2⟩ := v.getKey_good good (.transfer n.inputs_nullifiers.length n.output_commitments.length)
    rw [Validator.validateSingleXfrNote, Validator.getXfrKey, Request.answer, Cap.validateSingleXfrNote]
    change ((v.getKey (xfrDescription _ _) ((transferPreprocess _ _ d).map _)).1).Good d at h1
    change (v.getKey (xfrDescription _ _) ((transferPreprocess _ _ d).map _)).2 = unwrapRes ((transferPreprocess _ _ d).map _) at h2
    generalize v.getKey _ _ = r at h1 h2
    obtain ⟨v1, k | k⟩ := r
    · cases ht : transferPreprocess n.inputs_nullifiers.length n.output_commitments.length d with
      | error e =>
        rw [ht] at h2
        cases h2
        exact ⟨h1, rfl⟩
      | ok k' =>
        rw [ht] at h2
        cases h2
    · cases ht : transferPreprocess n.inputs_nullifiers.length n.output_commitments.length d with
      | error e =>
        rw [ht] at h2
        cases h2
      | ok k' =>
        rw [ht] at h2
        cases h2
        exact ⟨h1, rfl⟩
  | block s block sig time proposer =>
    show (Validator.validateBlock ser v d s block sig time proposer).1.Good d ∧
      (Validator.validateBlock ser v d s block sig time proposer).2 = _
    rw [Validator.validateBlock, Request.answer, Cap.validateBlock]
    by_cases hp : block.proposer_pub_key = proposer
    · simp only [if_pos hp, ensure, decide_eq_true_eq]
      cases proposer.verifySig (ser block) sig with
      | error e => exact ⟨good, rfl⟩
      | ok u => exact Validator.batch_good good s block.txns time
    · simp only [if_neg hp, ensure, decide_eq_true_eq]
      exact ⟨good, rfl⟩

theorem Validator.answers_good (ser : MockBlock → List Byte) (d : Fin 256) : ∀ (rs : List Request) {v : Validator}, v.Good d →
    answers ser d v rs = rs.map (·.answer ser d)
  | [], _, _ => rfl
  | r :: rs, v, good => by
    obtain ⟨h1, h2⟩ := Validator.ask_good ser good r
    rw [answers, List.map_cons, h2, Validator.answers_good ser d rs h1]

/-- **C79.** Whatever a validator is asked, and in whatever order, every answer is the one a validator without a cache
gives; refused requests and requests in which it panics are among them. -/
theorem C79_validator (ser : MockBlock → List Byte) (d : Fin 256) (k : UserKeyPair) (requests : List Request) :
    answers ser d (Validator.new k) requests = requests.map (·.answer ser d) :=
  Validator.answers_good ser d requests (fun _ _ h => nomatch h)

/-- **C79, as a user sees it.** The answer to a request does not depend on the requests before it. -/
theorem C79_history (ser : MockBlock → List Byte) (d : Fin 256) (k k' : UserKeyPair) (before before' : List Request)
    (request : Request) : (answers ser d (Validator.new k) (before ++ [request])).getLast? =
      (answers ser d (Validator.new k') (before' ++ [request])).getLast? := by
  rw [C79_validator, C79_validator]
  simp

/-! ### Wallets and freezers -/

/-- every key of the cache is the one its description calls for -/
def GoodKeys (d : Fin 256) (keys : List (String × TransferProvingKey)) : Prop :=
  ∀ n m k, mapGet (xfrDescription n m) keys = some k → (transferPreprocess n m d).map (·.1) = .ok k

def GoodFreezeKeys (d : Fin 256) (keys : List (String × FreezeProvingKey)) : Prop :=
  ∀ n k, mapGet (freezeDescription n) keys = some k → (freezePreprocess n d).map (·.1) = .ok k

/-- a computation that goes on with a key from a good cache, and one that goes on with a key computed anew -/
theorem cachedKey_both {d : Fin 256} {keys : List (String × TransferProvingKey)} (good : GoodKeys d keys) (n m : ℕ)
    {β γ : Type} {f : TransferProvingKey × List (String × TransferProvingKey) → Res β}
    {g : TransferProvingKey × TransferVerifyingKey → Res γ} {p : β → γ} {goal : β → Prop}
    (h : ∀ k keys', GoodKeys d keys' ∧ keys' ≠ [] → (f (k.1, keys')).map p = g k ∧ ∀ r, f (k.1, keys') = .ok r → goal r) :
    (cachedKey keys (xfrDescription n m) ((transferPreprocess n m d).map (·.1)) >>= f).map p =
        (unwrapRes (transferPreprocess n m d) >>= g) ∧
      ∀ r, (cachedKey keys (xfrDescription n m) ((transferPreprocess n m d).map (·.1)) >>= f) = .ok r → goal r := by
  unfold cachedKey
  cases hg : mapGet (xfrDescription n m) keys with
  | some k =>
    have := good n m k hg
    cases ht : transferPreprocess n m d with
    | error e => rw [ht] at this; cases this
    | ok k' =>
      rw [ht] at this
      cases this
      exact h k' keys ⟨good, by rintro rfl; cases hg⟩
  | none =>
    cases ht : transferPreprocess n m d with
    | error e => exact ⟨rfl, fun r h => nomatch h⟩
    | ok k =>
      refine h k (mapSet (xfrDescription n m) k.1 keys) ⟨fun n' m' k' h => ?_, List.cons_ne_nil _ _⟩
      rw [mapGet_set] at h
      split at h
      · next e =>
        obtain ⟨rfl, rfl⟩ := xfrDescription_inj e
        rw [ht, ← Option.some.inj h]
        rfl
      · exact good n' m' k' h

theorem cachedFreezeKey_both {d : Fin 256} {keys : List (String × FreezeProvingKey)} (good : GoodFreezeKeys d keys) (n : ℕ)
    {β γ : Type} {f : FreezeProvingKey × List (String × FreezeProvingKey) → Res β}
    {g : FreezeProvingKey × FreezeVerifyingKey → Res γ} {p : β → γ} {goal : β → Prop}
    (h : ∀ k keys', GoodFreezeKeys d keys' ∧ keys' ≠ [] → (f (k.1, keys')).map p = g k ∧ ∀ r, f (k.1, keys') = .ok r → goal r) :
    (cachedKey keys (freezeDescription n) ((freezePreprocess n d).map (·.1)) >>= f).map p =
        (unwrapRes (freezePreprocess n d) >>= g) ∧
      ∀ r, (cachedKey keys (freezeDescription n) ((freezePreprocess n d).map (·.1)) >>= f) = .ok r → goal r := by
  unfold cachedKey
  cases hg : mapGet (freezeDescription n) keys with
  | some k =>
    have := good n k hg
    cases ht : freezePreprocess n d with
    | error e => rw [ht] at this; cases this
    | ok k' =>
      rw [ht] at this
      cases this
      exact h k' keys ⟨good, by rintro rfl; cases hg⟩
  | none =>
    cases ht : freezePreprocess n d with
    | error e => exact ⟨rfl, fun r h => nomatch h⟩
    | ok k =>
      refine h k (mapSet (freezeDescription n) k.1 keys) ⟨fun n' k' h => ?_, List.cons_ne_nil _ _⟩
      rw [mapGet_set] at h
      split at h
      · next e =>
        obtain rfl := freezeDescription_inj e
        rw [ht, ← Option.some.inj h]
        rfl
      · exact good n' k' h

omit E S in
/-- two computations whose common part comes first -/
theorem bind_both {α β γ : Type} (x : Res α) {f : α → Res β} {g : α → Res γ} {p : β → γ} {good : β → Prop}
    (h : ∀ a, x = .ok a → (f a).map p = g a ∧ ∀ r, f a = .ok r → good r) :
    (x >>= f).map p = (x >>= g) ∧ ∀ r, (x >>= f) = .ok r → good r := by
  cases x with
  | error e => exact ⟨rfl, fun r h => nomatch h⟩
  | ok a => exact h a rfl

theorem spendNative_good {b : Build} {d : Fin 256} {w : CachingWallet} (good : GoodKeys d w.keys) (s : LedgerState)
    (rng : PaymentRand) (recipients : List (UserPubKey × Amount)) (fee : Amount) :
    (w.spendNative b d s rng recipients fee).map (fun r => (r.1.wallet, r.2)) =
        w.wallet.spendNative b d s rng recipients fee ∧
      ∀ r, w.spendNative b d s rng recipients fee = .ok r → GoodKeys d r.1.keys ∧ r.1.keys ≠ [] := by
  unfold CachingWallet.spendNative Wallet.spendNative
  refine bind_both _ fun t1 _ => bind_both _ fun t2 _ => bind_both _ fun rec _ => ?_
  obtain ⟨records, chg⟩ := rec
  refine bind_both _ fun inputs _ => cachedKey_both good _ _ fun k keys' good' => ?_
  refine bind_both _ fun t3 _ => bind_both _ fun t4 _ => bind_both _ fun t5 _ => ?_
  exact ⟨rfl, fun r h => by cases h; exact good'⟩

theorem spendNonNative_good {b : Build} {d : Fin 256} {w : CachingWallet} (good : GoodKeys d w.keys) (s : LedgerState)
    (rng : PaymentRand) (ad : AssetDefinition) (recipients : List (UserPubKey × Amount)) (fee : Amount) :
    (w.spendNonNative b d s rng ad recipients fee).map (fun r => (r.1.wallet, r.2)) =
        w.wallet.spendNonNative b d s rng ad recipients fee ∧
      ∀ r, w.spendNonNative b d s rng ad recipients fee = .ok r → GoodKeys d r.1.keys ∧ r.1.keys ≠ [] := by
  unfold CachingWallet.spendNonNative Wallet.spendNonNative
  refine bind_both _ fun _ _ => bind_both _ fun t1 _ => bind_both _ fun t2 _ => bind_both _ fun acc _ =>
    bind_both _ fun info _ => bind_both _ fun rec _ => bind_both _ fun inputs _ =>
    cachedKey_both good _ _ fun k keys' good' => ?_
  refine bind_both _ fun t3 _ => bind_both _ fun t4 _ => bind_both _ fun t5 _ => ?_
  exact ⟨rfl, fun r h => by cases h; exact good'⟩

theorem freezeUser_good {d : Fin 256} {f : CachingFreezer} (good : GoodFreezeKeys d f.keys) (s : LedgerState)
    (rng : FreezerRand) (flag : FreezeFlag) (user : Pt) (fee : Amount) :
    (f.freezeUser d s rng flag user fee).map (fun r => (r.1.freezer, r.2)) = f.freezer.freezeUser d s rng flag user fee ∧
      ∀ r, f.freezeUser d s rng flag user fee = .ok r → GoodFreezeKeys d r.1.keys ∧ r.1.keys ≠ [] := by
  unfold CachingFreezer.freezeUser Freezer.freezeUser
  dsimp only
  cases mapGet user (match flag with | .unfrozen => f.freezer.freezable | .frozen => f.freezer.releasable) with
  | none => exact ⟨rfl, fun r h => nomatch h⟩
  | some records =>
  refine bind_both _ fun t1 _ => bind_both _ fun acc _ => bind_both _ fun info _ => bind_both _ fun inputs _ =>
    cachedFreezeKey_both good _ fun k keys' good' => ?_
  refine bind_both _ fun t3 _ => bind_both _ fun t4 _ => bind_both _ fun t5 _ => ?_
  cases flag
  · exact bind_both _ fun t6 _ => ⟨rfl, fun r h => by cases h; exact good'⟩
  · exact bind_both _ fun t6 _ => ⟨rfl, fun r h => by cases h; exact good'⟩

theorem Spec.Used.good {b : Build} {d : Fin 256} {w : CachingWallet} (used : Used b d w) : GoodKeys d w.keys := by
  induction used with
  | new k => exact fun _ _ _ h => nomatch h
  | native _ ok ih => exact (spendNative_good ih _ _ _ _).2 _ ok |>.1
  | asset _ ok ih => exact (spendNonNative_good ih _ _ _ _ _).2 _ ok |>.1
  | other _ _ ih => exact ih

theorem Spec.UsedFreezer.good {d : Fin 256} {f : CachingFreezer} (used : UsedFreezer d f) : GoodFreezeKeys d f.keys := by
  induction used with
  | new f => exact fun _ _ h => nomatch h
  | freeze _ ok ih => exact (freezeUser_good ih _ _ _ _ _).2 _ ok |>.1
  | other _ _ ih => exact ih

/-- **C79, payments in native coins.** Whatever a wallet has done before, a payment with its cache of keys comes out as the
same payment with a key computed anew: the same note, memos and signature, the same wallet, or the same error. -/
theorem C79_native {b : Build} {d : Fin 256} {w : CachingWallet} (used : Used b d w) (s : LedgerState)
    (rng : PaymentRand) (recipients : List (UserPubKey × Amount)) (fee : Amount) :
    (w.spendNative b d s rng recipients fee).map (fun r => (r.1.wallet, r.2)) =
      w.wallet.spendNative b d s rng recipients fee :=
  (spendNative_good used.good s rng recipients fee).1

/-- **C79, payments in other assets.** -/
theorem C79_asset {b : Build} {d : Fin 256} {w : CachingWallet} (used : Used b d w) (s : LedgerState)
    (rng : PaymentRand) (ad : AssetDefinition) (recipients : List (UserPubKey × Amount)) (fee : Amount) :
    (w.spendNonNative b d s rng ad recipients fee).map (fun r => (r.1.wallet, r.2)) =
      w.wallet.spendNonNative b d s rng ad recipients fee :=
  (spendNonNative_good used.good s rng ad recipients fee).1

/-- **C79, freezing and releasing.** -/
theorem C79_freezer {d : Fin 256} {f : CachingFreezer} (used : UsedFreezer d f) (s : LedgerState)
    (rng : FreezerRand) (flag : FreezeFlag) (user : Pt) (fee : Amount) :
    (f.freezeUser d s rng flag user fee).map (fun r => (r.1.freezer, r.2)) = f.freezer.freezeUser d s rng flag user fee :=
  (freezeUser_good used.good s rng flag user fee).1

end Cap

/-! ### Examples -/

namespace Cap.Examples
open Toy Spec

/-- different shapes have different descriptions, also where the digits run together -/
example : xfrDescription 1 11 ≠ xfrDescription 11 1 ∧ xfrDescription 2 3 = "Xfr_2_3" := by
  exact ⟨by decide, by decide⟩

theorem mapped {α β : Type} {x : Res α} {f : α → β} {y : β} (h : x.map f = .ok y) : ∃ a, x = .ok a ∧ f a = y := by
  cases x with
  | error e => cases h
  | ok a => exact ⟨a, rfl, Except.ok.inj h⟩

/-- a note is accepted before and after its key is in the cache, and refused on the ledger it has been entered in -/
example : ∃ e,
    answers (fun _ => [1]) 2 (Validator.new bob) [.notes led0 [txn1.note] 700, .notes led0 [txn1.note] 700,
      .notes led1 [txn1.note] 700] = [.ok (), .ok (), .error e] := by
  rw [C79_validator]
  simp only [List.map_cons, List.map_nil, Request.answer, valid1]
  cases h : validateTxnsBatch 2 led1 [txn1.note] 700 with
  | ok u => exact absurd h led1_refuses
  | error e => exact ⟨e, rfl⟩

/-- Alice pays twice, the second time with a cache that is not empty. -/
example : ∃ w' r w'' r', CachingWallet.spendNative .debug ⟨walletA, []⟩ 2 led0 payRng [(bob.pubKey, 60)] 3 = .ok (w', r) ∧
    w'.keys ≠ [] ∧ Used .debug 2 w' ∧ w'.spendNative .debug 2 led0 payRng [(bob.pubKey, 20)] 3 = .ok (w'', r') := by
  have used : Used .debug 2 ⟨walletA, []⟩ := .other (.new alice) walletA
  obtain ⟨w1, note, memos, sig, h1, -⟩ := alicePays worldA
    (by simpa using coin_only (more := []) (by simp)) walletA_holds 60 (by decide)
  obtain ⟨coins, chg, -, -, h3, h4⟩ := C61_payment worldA h1
  obtain ⟨w2, note', memos', sig', h5, -⟩ := alicePays h3
    (by
      rw [List.append_assoc]
      refine coin_only (fun e he => ?_)
      rcases List.mem_append.1 he with he | he
      · obtain ⟨x, -, rfl⟩ := List.mem_map.1 he
        exact .inl ⟨x, rfl⟩
      · rw [List.mem_singleton] at he
        exact .inr ⟨_, he⟩)
    (fun x => (h4 x).trans (walletA_holds x)) 20 (by decide)
  obtain ⟨⟨w', r⟩, k1, k2⟩ := mapped ((C79_native used led0 payRng [(bob.pubKey, 60)] 3).trans h1)
  obtain ⟨e1, -⟩ := Prod.mk.inj k2
  dsimp only at e1
  rw [← e1] at h5
  have used' := Used.native used k1
  obtain ⟨⟨w'', r'⟩, k3, -⟩ := mapped ((C79_native used' led0 payRng [(bob.pubKey, 20)] 3).trans h5)
  exact ⟨w', r, w'', r', k1, ((spendNative_good used.good _ _ _ _).2 _ k1).2, used', k3⟩

/-- a freezer freezes (or releases) with a cache -/
example (flag : FreezeFlag) : ∃ f' r, CachingFreezer.freezeUser ⟨freezer1, []⟩ 2 ledF frzRand flag (frzUser flag) 7 = .ok (f', r) ∧
    f'.keys ≠ [] ∧ UsedFreezer 2 f' := by
  obtain ⟨f', note, memos, sig, h1, -⟩ := freezer1_frz flag
  have used : UsedFreezer 2 ⟨freezer1, []⟩ := .new freezer1
  obtain ⟨⟨f', r⟩, k1, -⟩ := mapped ((C79_freezer used ledF frzRand flag (frzUser flag) 7).trans h1)
  exact ⟨f', r, k1, ((freezeUser_good used.good _ _ _ _ _).2 _ k1).2, .freeze used k1⟩

end Cap.Examples
