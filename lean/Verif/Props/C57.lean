/-
C57: whatever is submitted, only existing records are spent.

status: proved
note: Histories of the reference ledger in which anybody submits any notes; the only thing known about a note is that the ledger accepted it. C57_opened: behind every note of an accepted history there is an assignment that satisfies its circuit (soundness of the proof system, batch verification). C57_spends: every record that such a note spends was created earlier on this ledger, at the position the assignment names, with all committed values equal (asset, amount, owner, policy, freeze flag, blinding). C57_tree: the tree of the ledger is the list of the commitments of all created records. Hypothesis on hashes: no collision among the hash evaluations of this very history (NoCollisionV). What accepted notes may do with the amounts is C58.
-/
import Verif.Lemmas.AnyoneHonest
import Verif.Props.C51
import Verif.Props.C44

namespace Cap

open Spec

variable [E : CapEnv] [S : CapExt]

/-- an accepted note is opened by an assignment -/
theorem checked_opened (sound : SnarkSound) {d : Fin 256} {t : TransactionNote} {time : U64}
    {k : TransactionVerifyingKey} (hk : keyForNote d t = .ok k) (hc : CheckedInBatch time t t.merkleRoot k) :
    ∃ o : Opening, o.note = t ∧ o.Satisfied d.val := by
  have unwrap : ∀ {α : Type} {x : Res α} {a : α}, unwrapRes x = .ok a → x = .ok a := by
    intro α x a h
    cases x with
    | ok b => exact h
    | error e => cases h
  cases t with
  | transfer n =>
    rw [keyForNote, bind_ok_iff] at hk
    obtain ⟨⟨pk, vk⟩, h1, h2⟩ := hk
    cases h2
    have hv : VerifiesAlone time (.transfer n) n.aux_info.merkle_root (.transfer vk) :=
      checked_alone.2 ⟨hc, trivial, trivial⟩
    obtain ⟨w, hw⟩ := transfer_opened sound (unwrap h1) hv rfl rfl
    exact ⟨.transfer n w, rfl, hw⟩
  | mint n =>
    rw [keyForNote, bind_ok_iff] at hk
    obtain ⟨⟨pk, vk⟩, h1, h2⟩ := hk
    cases h2
    obtain ⟨x, hx, hv⟩ := hc
    simp only [TransactionNote.publicScalars, bind_ok_iff, MintNote.checkInstance_ok, Except.ok.injEq] at hx
    obtain ⟨_, ⟨-, rfl⟩, rfl⟩ := hx
    obtain ⟨w, hw⟩ := mint_proof_opened sound (unwrap h1) hv
    exact ⟨.mint n w, rfl, hw⟩
  | freeze n =>
    rw [keyForNote, bind_ok_iff] at hk
    obtain ⟨⟨pk, vk⟩, h1, h2⟩ := hk
    cases h2
    have hv : VerifiesAlone time (.freeze n) n.aux_info.merkle_root (.freeze vk) :=
      checked_alone.2 ⟨hc, trivial, trivial⟩
    obtain ⟨w, hw⟩ := freeze_opened sound (unwrap h1) hv rfl
    exact ⟨.freeze n w, rfl, hw⟩

theorem block_opened (sound : SnarkSound) (batch : SnarkBatch) {d : Fin 256} {s : LedgerState}
    {txns : List TransactionNote} {time : U64} (ok : validateTxnsBatch d s txns time = .ok ()) :
    ∃ os : List Opening, os.map Opening.note = txns ∧ ∀ o ∈ os, o.Satisfied d.val := by
  by_cases ne : txns = []
  · subst ne
    exact ⟨[], rfl, by simp⟩
  obtain ⟨-, -, -, h4⟩ := (C51_any batch ne).1 ok
  clear ok ne
  induction txns with
  | nil => exact ⟨[], rfl, by simp⟩
  | cons t ts ih =>
    obtain ⟨os, h1, h2⟩ := ih (fun t' h' => h4 t' (List.mem_cons_of_mem _ h'))
    obtain ⟨k, hk, hc⟩ := h4 t List.mem_cons_self
    obtain ⟨o, ho, hs⟩ := checked_opened sound hk hc
    refine ⟨o :: os, by rw [List.map_cons, ho, h1], ?_⟩
    intro o' ho'
    rcases List.mem_cons.1 ho' with rfl | ho'
    · exact hs
    · exact h2 o' ho'

/-- the ledger cannot tell the two apart -/
theorem sameNotes_apply {d : Fin 256} {s : LedgerState} {e : Event} {e' : Step} (h : SameNotes e e') :
    e'.event.apply d s = e.apply d s := by
  cases e with
  | grant ro =>
    cases e' with
    | grant ro' => cases h; rfl
    | block => exact h.elim
  | block txns blind who time =>
    cases e' with
    | grant => exact h.elim
    | block os blind' who' time' =>
      obtain ⟨h1, rfl, rfl, rfl⟩ := h
      have : (os.map (fun o => (⟨o.note, [], []⟩ : Txn))).map (·.note) = txns.map (·.note) := by
        rw [← h1, List.map_map]; rfl
      simp only [Step.event, Event.apply, this]

theorem sameNotes_run {d : Fin 256} {h : List Event} {h' : List Step} (same : List.Forall₂ SameNotes h h') :
    run d (h'.map Step.event) = run d h := by
  unfold run
  generalize LedgerState.new d.val = s0
  induction same generalizing s0 with
  | nil => rfl
  | cons h1 _ ih =>
    rw [List.map_cons, runFrom, runFrom, sameNotes_apply h1]
    exact bind_congr (fun s => ih s)

/-- the same from any state of the ledger -/
theorem opened_from (sound : SnarkSound) (batch : SnarkBatch) {d : Fin 256} {h : List Event} {s0 s : LedgerState}
    (ok : runFrom d s0 h = .ok s) :
    ∃ h' : List Step, List.Forall₂ SameNotes h h' ∧ AllSatisfied d h' ∧ runFrom d s0 (h'.map Step.event) = .ok s := by
  induction h generalizing s0 with
  | nil => exact ⟨[], .nil, by simp [AllSatisfied], ok⟩
  | cons e h ih =>
    rw [runFrom, bind_ok_iff] at ok
    obtain ⟨s1, h1, h2⟩ := ok
    obtain ⟨h', i1, i2, i3⟩ := ih h2
    have : ∃ e' : Step, SameNotes e e' ∧ ∀ o ∈ e'.txns, o.Satisfied d.val := by
      cases e with
      | grant ro => exact ⟨.grant ro, rfl, by simp [Step.txns]⟩
      | block txns blind who time =>
        rw [Event.apply, bind_ok_iff] at h1
        obtain ⟨_, hv, -⟩ := h1
        obtain ⟨os, j1, j2⟩ := block_opened sound batch hv
        exact ⟨.block os blind who time, ⟨j1, rfl, rfl, rfl⟩, j2⟩
    obtain ⟨e', j1, j2⟩ := this
    refine ⟨e' :: h', .cons j1 i1, ?_, ?_⟩
    · intro x hx
      rcases List.mem_cons.1 hx with rfl | hx
      · exact j2
      · exact i2 x hx
    · rw [List.map_cons, runFrom, bind_ok_iff]
      exact ⟨s1, by rw [sameNotes_apply j1]; exact h1, i3⟩

/-- **Behind every accepted note there is a satisfying assignment.** -/
theorem C57_opened (sound : SnarkSound) (batch : SnarkBatch) {d : Fin 256} {h : List Event} {s : LedgerState}
    (ok : run d h = .ok s) :
    ∃ h' : List Step, List.Forall₂ SameNotes h h' ∧ AllSatisfied d h' ∧ run d (h'.map Step.event) = .ok s :=
  opened_from sound batch ok

/-- **Only existing records are spent.**  In an accepted history, whatever the assignments behind the notes, every record
a note spends was created by an earlier event, and stands at the position the assignment names. -/
theorem C57_spends {d : Fin 256} {before after : List Step} {e : Step} {s : LedgerState}
    (ok : run d ((before ++ e :: after).map Step.event) = .ok s) (sat : AllSatisfied d (before ++ e :: after))
    (hashes : NoCollisionV d (everCreated (before ++ e :: after)) (everSpent (before ++ e :: after))) :
    ∀ o ∈ e.txns, ∀ x ∈ o.spends, x.ro.asset_code ≠ dummyCode → x.Of (everCreated before) := by
  intro o ho x hx hd
  have hm : ∀ y ∈ everSpent before, y ∈ everSpent (before ++ e :: after) := by
    intro y hy
    simp only [everSpent, List.flatMap_append, List.mem_append] at hy ⊢
    exact Or.inl hy
  have hc : everCreated (before ++ e :: after) = everCreated before ++ everCreated (e :: after) := by
    simp [everCreated]
  rw [hc] at hashes
  have hr : ∃ s1 s2, run d (before.map Step.event) = .ok s1 ∧ e.event.apply d s1 = .ok s2 := by
    rw [show before ++ e :: after = (before ++ [e]) ++ after by simp] at ok
    clear sat hm hc hashes
    induction after using List.reverseRecOn generalizing s with
    | nil =>
      rw [List.append_nil] at ok
      obtain ⟨s1, h1, h2⟩ := event_append ok
      exact ⟨s1, s, h1, h2⟩
    | append_singleton l a ih =>
      rw [← List.append_assoc] at ok
      obtain ⟨s1, h1, -⟩ := event_append ok
      exact ih h1
  obtain ⟨s1, s2, h1, h2⟩ := hr
  have i := inv0_run before h1 (fun e' he' => sat e' (List.mem_append_left _ he')) (hashes.mono hm)
  cases e with
  | grant ro => simp [Step.txns] at ho
  | block os blind who time =>
    have hsat := sat (.block os blind who time) (List.mem_append_right _ List.mem_cons_self)
    refine i.found_block hsat (hashes.mono ?_) (block_facts hsat h2).1 x ?_
    · intro y hy
      simp only [everSpent, List.flatMap_append, List.flatMap_cons, List.mem_append]
      exact Or.inr (Or.inl hy)
    · exact List.mem_flatMap.2 ⟨o, ho, List.mem_filter.2 ⟨hx, by simpa using hd⟩⟩

/-- **The tree is the list of created records.** -/
theorem C57_tree {d : Fin 256} {h : List Step} {s : LedgerState} (ok : run d (h.map Step.event) = .ok s)
    (sat : AllSatisfied d h) (hashes : NoCollisionV d (everCreated h) (everSpent h)) :
    s.leaves = (everCreated h).map RecordV.commitment :=
  (inv0_run h ok sat hashes).leaves

/-- **Everything together, for a history of which only acceptance is known.**  Assignments exist such that, unless the
hash evaluations of the history collide, every spent record exists on the ledger. -/
theorem C57_accepted (sound : SnarkSound) (batch : SnarkBatch) {d : Fin 256} {h : List Event} {s : LedgerState}
    (ok : run d h = .ok s) :
    ∃ h' : List Step, List.Forall₂ SameNotes h h' ∧ AllSatisfied d h' ∧
      (NoCollisionV d (everCreated h') (everSpent h') →
        s.leaves = (everCreated h').map RecordV.commitment ∧ ∀ x ∈ everSpent h', x.Of (everCreated h')) := by
  obtain ⟨h', h1, h2, h3⟩ := C57_opened sound batch ok
  exact ⟨h', h1, h2, fun nc => ⟨(inv0_run h' h3 h2 nc).leaves, (inv0_run h' h3 h2 nc).found⟩⟩

end Cap

namespace Cap.Examples
open Toy Spec

/-! The history of C44 (two grants, a payment, a mint), with the assignments behind its two notes. -/

theorem hist_opened : ∃ o1 o2, OpensTxn 2 txn1 o1 ∧ OpensTxn 2 txn2 o2 := by
  obtain ⟨o1, h1⟩ := made1.opens (fun n hn => nomatch hn)
  obtain ⟨o2, h2⟩ := made2.opens (fun n hn => by
    cases hn
    rw [(C18_fields note2_eq).1]
    decide)
  exact ⟨o1, o2, h1, h2⟩

/-- the assignment behind the payment -/
noncomputable def open1 : Opening := hist_opened.choose
/-- the assignment behind the mint -/
noncomputable def open2 : Opening := hist_opened.choose_spec.choose
theorem open1_ok : OpensTxn 2 txn1 open1 := hist_opened.choose_spec.choose_spec.1
theorem open2_ok : OpensTxn 2 txn2 open2 := hist_opened.choose_spec.choose_spec.2

/-- the history with the assignments -/
noncomputable def steps : List Step :=
  [.grant feeRec, .grant assetRec, .block [open1] 47 bob.pubKey 700] ++ .block [open2] 49 bob.pubKey 701 :: []

theorem steps_same : List.Forall₂ SameNotes hist steps :=
  .cons rfl (.cons rfl (.cons ⟨congrArg (· :: []) open1_ok.note, rfl, rfl, rfl⟩
    (.cons ⟨congrArg (· :: []) open2_ok.note, rfl, rfl, rfl⟩ .nil)))

theorem steps_run : run 2 (steps.map Step.event) = .ok led2 := (sameNotes_run steps_same).trans hist_run

theorem steps_mem {P : Opening → Prop} (h1 : P open1) (h2 : P open2) : ∀ e ∈ steps, ∀ o ∈ e.txns, P o := by
  intro e he o ho
  simp only [steps, List.cons_append, List.nil_append, List.mem_cons, List.not_mem_nil, or_false] at he
  rcases he with rfl | rfl | rfl | rfl
  · simp [Step.txns] at ho
  · simp [Step.txns] at ho
  · simp only [Step.txns, List.mem_singleton] at ho; subst ho; exact h1
  · simp only [Step.txns, List.mem_singleton] at ho; subst ho; exact h2

theorem steps_satisfied : AllSatisfied 2 steps := steps_mem open1_ok.satisfied open2_ok.satisfied

theorem steps_created : everCreated steps = (created hist).map RecordOpening.toV := by
  have h1 : collected [⟨open1.note, [], []⟩] = collected [txn1] := by rw [open1_ok.note]; rfl
  have h2 : collected [⟨open2.note, [], []⟩] = collected [txn2] := by rw [open2_ok.note]; rfl
  show [feeRec.toV] ++ ([assetRec.toV] ++ ((open1.creates ++ [] ++
    [(feeRecord bob.pubKey (collected [⟨open1.note, [], []⟩]) 47).toV]) ++ ((open2.creates ++ [] ++
    [(feeRecord bob.pubKey (collected [⟨open2.note, [], []⟩]) 49).toV]) ++ []))) = _
  rw [h1, h2, open1_ok.creates, open2_ok.creates]
  rfl

theorem steps_spends : (everSpent steps).map (fun s => (s.ro, s.acc)) = (spends hist).map (fun x => (x.1.toV, x.2.toV)) := by
  show (open1.realSpends ++ [] ++ (open2.realSpends ++ [] ++ [])).map _ =
    (txn1.realSpends ++ [] ++ (txn2.realSpends ++ [] ++ [])).map _
  simp only [List.append_nil, List.map_append, open1_ok.real, open2_ok.real]

theorem steps_noCollision : NoCollisionV 2 (everCreated steps) (everSpent steps) := by
  rw [steps_created]
  exact noCollision_toV steps_spends hist_noCollision

/-- the history is accepted -/
example : SnarkSound ∧ SnarkBatch ∧ run 2 hist = .ok led2 := ⟨Toy.sound, Toy.batch, hist_run⟩

/-- the hypotheses of `C57_spends` and `C57_tree` hold for it, the last step being the mint, which spends the record of
60 units at position 3 -/
example : run 2 (steps.map Step.event) = .ok led2 ∧ AllSatisfied 2 steps ∧
    NoCollisionV 2 (everCreated steps) (everSpent steps) ∧
    ∃ x ∈ open2.spends, x.ro.asset_code ≠ dummyCode ∧ x.acc.uid = 3 ∧ x.ro.amount = 60 := by
  refine ⟨steps_run, steps_satisfied, steps_noCollision, ?_⟩
  have h := open2_ok.spends
  have hm : (bobs.toV, (⟨treePath 2 tree2 3, treeRoot 2 tree2, 3⟩ : AccMemberWitness).toV) ∈
      open2.spends.map (fun s => (s.ro, s.acc)) := by
    rw [h]
    exact List.mem_cons_self
  obtain ⟨x, hx, he⟩ := List.mem_map.1 hm
  rw [Prod.mk.injEq] at he
  refine ⟨x, hx, ?_, ?_, ?_⟩
  · rw [he.1]; decide +kernel
  · rw [he.2]; decide +kernel
  · rw [he.1]; decide +kernel

end Cap.Examples
