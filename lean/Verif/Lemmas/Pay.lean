/-
What the payment functions of the reference wallet do.
-/
import Verif.Lemmas.World
import Verif.Props.C56

namespace Cap

open Spec

variable [E : CapEnv]

namespace Wallet

/-! ### Finding records -/

theorem collectRecords_ok {b : Build} {amount : Amount} : ∀ {l : List (RecordOpening × U64)} {cur : Amount}
    {acc r : List (RecordOpening × U64)} {c : Amount}, collectRecords b amount l cur acc = .ok (r, c) →
    ∃ x pre post, l = x :: pre ++ post ∧ r = acc ++ x :: pre
  | [], _, _, _, _, h => by cases h
  | y :: l, cur, acc, r, c, h => by
    rw [collectRecords, bind_ok_iff] at h
    obtain ⟨cur', -, h⟩ := h
    dsimp only at h
    split at h
    · cases h
      exact ⟨y, [], l, rfl, rfl⟩
    · obtain ⟨x, pre, post, rfl, rfl⟩ := collectRecords_ok h
      exact ⟨y, x :: pre, post, by simp, by simp⟩

theorem collectRecords_enough {b : Build} {amount : Amount} : ∀ {l : List (RecordOpening × U64)} {cur : Amount}
    {acc : List (RecordOpening × U64)}, l ≠ [] → cur.val + total (l.map (·.1)) < 2 ^ 128 →
    amount.val ≤ cur.val + total (l.map (·.1)) →
    ∃ pre post c, pre ≠ [] ∧ l = pre ++ post ∧ collectRecords b amount l cur acc = .ok (acc ++ pre, c) ∧
      amount.val ≤ cur.val + total (pre.map (·.1)) ∧ c.val = cur.val + total (pre.map (·.1)) - amount.val
  | [], _, _, h, _, _ => absurd rfl h
  | y :: l, cur, acc, _, small, enough => by
    rw [List.map_cons, total_cons] at small enough
    have h1 : addU128 b cur y.1.amount = .ok ⟨cur.val + y.1.amount.val, by omega⟩ := by
      unfold addU128
      exact dif_pos (by omega)
    rw [collectRecords, h1, res_ok_bind]
    dsimp only
    split
    · next hle =>
      have hle' : amount.val ≤ cur.val + y.1.amount.val := hle
      refine ⟨[y], l, _, by simp, rfl, rfl, ?_, ?_⟩
      · simpa [total] using hle'
      · rw [Fin.sub_val_of_le hle]
        simp [total]
    · next hle =>
      have hle' : ¬ amount.val ≤ cur.val + y.1.amount.val := hle
      have hl : l ≠ [] := by
        rintro rfl
        simp [total] at enough
        omega
      obtain ⟨pre, post, c, g1, rfl, g3, g4, g5⟩ := collectRecords_enough (b := b) (amount := amount) (l := l)
        (cur := ⟨cur.val + y.1.amount.val, by omega⟩) (acc := acc ++ [y]) hl (by show _ + _ + _ < _; omega)
        (by show _ ≤ _ + _ + _; omega)
      refine ⟨y :: pre, post, c, by simp, rfl, by rw [g3]; simp, ?_, ?_⟩
      · rw [List.map_cons, total_cons]
        dsimp only at g4
        omega
      · rw [List.map_cons, total_cons]
        dsimp only at g5
        omega

theorem findRecords_ok {b : Build} {w : Wallet} {code : AssetCode} {amount : Amount} {r : List (RecordOpening × U64)}
    {c : Amount} (h : w.findRecords b code amount = .ok (r, c)) :
    ∃ x pre post, mapGet code w.unspent = some (x :: pre ++ post) ∧ r = x :: pre := by
  unfold findRecords at h
  split at h
  · cases h
  · next l hl =>
    obtain ⟨x, pre, post, rfl, rfl⟩ := collectRecords_ok h
    exact ⟨x, pre, post, hl, by simp⟩

/-! ### Inputs -/

/-- the input made of a record -/
def inputOf (w : Wallet) (d : ℕ) (s : LedgerState) (cred : Option ExpirableCredential) (dummy_key : UserKeyPair)
    (x : RecordOpening × U64) : TransferNoteInput :=
  if x.1.isDummy then ⟨x.1, dummyWitness d, dummy_key, none⟩ else ⟨x.1, lookup d s x.2, w.keypair, cred⟩

theorem prepareInputs_ok {w : Wallet} {d : ℕ} {s : LedgerState} {cred : Option ExpirableCredential} {key : UserKeyPair} :
    ∀ {l : List (RecordOpening × U64)} {is : List TransferNoteInput}, prepareInputs w d s cred key l = .ok is →
      is = l.map (inputOf w d s cred key)
  | [], is, h => by cases h; rfl
  | x :: l, is, h => by
    rw [prepareInputs] at h
    rw [List.map_cons, inputOf]
    split at h
    · next hd =>
      simp only [bind_ok_iff] at h
      obtain ⟨i, h1, is', h2, h⟩ := h
      cases h1
      cases h
      rw [if_pos hd, ← prepareInputs_ok h2]
    · next hd =>
      simp only [bind_ok_iff] at h
      obtain ⟨acc, h3, i, h1, is', h2, h⟩ := h
      cases h1
      cases h
      rw [if_neg hd, ← prepareInputs_ok h2]
      unfold lookupFromTree at h3
      split at h3
      · cases h3
        rfl
      · cases h3

theorem prepareInputs_intro {w : Wallet} {d : ℕ} {s : LedgerState} {cred : Option ExpirableCredential} {key : UserKeyPair} :
    ∀ {l : List (RecordOpening × U64)}, (∀ x ∈ l, x.1.isDummy = false → x.2.val < s.leaves.length) →
      prepareInputs w d s cred key l = .ok (l.map (inputOf w d s cred key))
  | [], _ => rfl
  | x :: l, h => by
    have ih := prepareInputs_intro (w := w) (d := d) (cred := cred) (key := key) (l := l)
      (fun y hy => h y (List.mem_cons_of_mem _ hy))
    rw [prepareInputs, ih]
    unfold inputOf
    by_cases hd : x.1.isDummy = true
    · rw [if_pos hd, List.map_cons, if_pos hd]
      rfl
    · rw [if_neg hd, List.map_cons, if_neg hd]
      unfold lookupFromTree
      rw [if_pos (h x List.mem_cons_self (by simpa using hd))]
      rfl

/-! ### Marking -/

theorem markAll_rest (w : Wallet) : ∀ (l : List (RecordOpening × U64)), (w.markAll l).unspent = w.unspent ∧
    (w.markAll l).keypair = w.keypair ∧ (w.markAll l).changes = w.changes ∧ (w.markAll l).credential = w.credential := by
  intro l
  induction l generalizing w with
  | nil => exact ⟨rfl, rfl, rfl, rfl⟩
  | cons x l ih =>
    unfold markAll
    split
    · exact ih w
    · exact ih (w.markUnconfirmedSpent (w.nullify x) x.1 x.2)

variable [S : CapExt]

theorem payMemos_ok {memos : ℕ → ℕ} : ∀ {l : List RecordOpening} {i : ℕ} {cs : List E.AeadCt}, payMemos memos i l = .ok cs →
    cs.length = l.length ∧ ∀ (j : ℕ) ro, l[j]? = some ro → ∃ c, cs[j]? = some c ∧ ReceiverMemo.fromRo (memos (i + j)) ro [] = .ok c
  | [], _, _, h => by cases h; exact ⟨rfl, fun j ro hj => by simp at hj⟩
  | ro :: l, i, cs, h => by
    rw [payMemos, bind_ok_iff] at h
    obtain ⟨c, h1, h⟩ := h
    rw [bind_ok_iff] at h
    obtain ⟨cs', h2, h⟩ := h
    cases h
    obtain ⟨g1, g2⟩ := payMemos_ok h2
    refine ⟨by simp [g1], fun j r hj => ?_⟩
    cases j with
    | zero =>
      simp only [List.getElem?_cons_zero, Option.some.injEq] at hj
      subst hj
      exact ⟨c, rfl, h1⟩
    | succ j =>
      obtain ⟨c', g3, g4⟩ := g2 j r (by simpa using hj)
      exact ⟨c', by simpa using g3, by rw [show i + (j + 1) = i + 1 + j by omega]; exact g4⟩

theorem payMemos_intro {memos : ℕ → ℕ} : ∀ {l : List RecordOpening} {i : ℕ},
    (∀ (j : ℕ) ro, l[j]? = some ro → ∃ c, ReceiverMemo.fromRo (memos (i + j)) ro [] = .ok c) →
    ∃ cs, payMemos memos i l = .ok cs
  | [], _, _ => ⟨[], rfl⟩
  | ro :: l, i, h => by
    obtain ⟨c, hc⟩ := h 0 ro rfl
    obtain ⟨cs, hcs⟩ := payMemos_intro (memos := memos) (l := l) (i := i + 1) (fun j r hj => by
      rw [show i + 1 + j = i + (j + 1) by omega]
      exact h (j + 1) r (by simpa using hj))
    exact ⟨c :: cs, bind_ok_iff.2 ⟨c, hc, bind_ok_iff.2 ⟨cs, hcs, rfl⟩⟩⟩

theorem markAll_world {d : Fin 256} {b : Build} {k : UserKeyPair} {s : LedgerState} : ∀ (l : List (RecordOpening × U64))
    {h : List Seen} {w : Wallet}, World d b k h s w → (∀ x ∈ l, w.Holds x) →
    World d b k (h ++ (l.filter (fun x => !x.1.isDummy)).map Seen.spending) s (w.markAll l)
  | [], h, w, world, _ => by simpa [markAll] using world
  | x :: l, h, w, world, holds => by
    unfold markAll
    split
    · next hd =>
      rw [List.filter_cons_of_neg (by simp [hd])]
      exact markAll_world l world (fun y hy => holds y (List.mem_cons_of_mem _ hy))
    · next hd =>
      rw [List.filter_cons_of_pos (by simpa using hd), List.map_cons]
      have := markAll_world l (world.spending (holds x List.mem_cons_self))
        (fun y hy => holds y (List.mem_cons_of_mem _ hy))
      rwa [List.append_assoc] at this

theorem markAll_append_dummy {w : Wallet} {x : RecordOpening × U64} (hx : x.1.isDummy = true) :
    ∀ (l : List (RecordOpening × U64)), w.markAll (l ++ [x]) = w.markAll l := by
  intro l
  induction l generalizing w with
  | nil => simp [markAll, hx]
  | cons y l ih =>
    rw [List.cons_append]
    unfold markAll
    split
    · exact ih
    · exact ih

/-- Everything a successful `spend_native` went through. -/
structure NativeSpend (b : Build) (w : Wallet) (d : Fin 256) (s : LedgerState) (rng : PaymentRand)
    (recipients : List (UserPubKey × Amount)) (fee : Amount) (w' : Wallet) (note : TransferNote) (memos : List E.AeadCt)
    (sig : E.Sig) (sk : Fr) (chg : RecordOpening) (x : RecordOpening × U64) (pre post : List (RecordOpening × U64))
    (inputs : List TransferNoteInput) (keys : TransferProvingKey × TransferVerifyingKey) : Prop where
  shelf : mapGet nativeCode w.unspent = some (x :: pre ++ post)
  inputs_eq : inputs = (x :: pre ++ [(RecordOpening.newDummy rng.dummy_key rng.dummy_blind .unfrozen, 0)]).map
    (inputOf w d.val s none rng.dummy_key)
  keys_ok : transferPreprocess inputs.length (recipients.length + 1) d = .ok keys
  gen : TransferNote.generateNative b rng.chg_blind rng.note inputs (payOutputs rng.blinds AssetDefinition.native recipients)
    fee unexpiredValidUntil keys.1 = .ok (note, sk, chg)
  memos_ok : payMemos rng.memos 0 (payOutputs rng.blinds AssetDefinition.native recipients) = .ok memos
  sig_ok : signReceiverMemos sk memos = .ok sig
  wallet : w' = { w.markAll (x :: pre) with changes := setInsert chg (w.markAll (x :: pre)).changes }

theorem unwrap_ok {α : Type} {x : Res α} {a : α} (h : unwrapRes x = .ok a) : x = .ok a := by
  cases x with
  | ok b => exact h
  | error e => cases h

theorem payOutputs_length (blinds : ℕ → F) (ad : AssetDefinition) (recipients : List (UserPubKey × Amount)) :
    (payOutputs blinds ad recipients).length = recipients.length := List.length_mapIdx

theorem spendNative_ok {b : Build} {w : Wallet} {d : Fin 256} {s : LedgerState} {rng : PaymentRand}
    {recipients : List (UserPubKey × Amount)} {fee : Amount} {w' : Wallet} {note : TransferNote} {memos : List E.AeadCt}
    {sig : E.Sig} (h : w.spendNative b d s rng recipients fee = .ok (w', note, memos, sig)) :
    ∃ sk chg x pre post inputs keys,
      NativeSpend b w d s rng recipients fee w' note memos sig sk chg x pre post inputs keys := by
  unfold spendNative at h
  simp only [bind_ok_iff] at h
  obtain ⟨t1, -, t2, -, ⟨records, c⟩, h3, inputs, h4, keys, h5, ⟨n, sk, chg⟩, h6, ms, h7, sg, h8, h9⟩ := h
  obtain ⟨x, pre, post, h10, rfl⟩ := findRecords_ok h3
  cases h9
  have hd : (RecordOpening.newDummy rng.dummy_key rng.dummy_blind .unfrozen).isDummy = true :=
    (RecordOpening.isDummy_iff _).2 rfl
  refine ⟨sk, chg, x, pre, post, inputs, keys, h10, prepareInputs_ok h4, ?_, h6, h7, h8, ?_⟩
  · have := unwrap_ok h5
    rwa [payOutputs_length] at this
  · rw [markAll_append_dummy hd]

end Wallet

end Cap
