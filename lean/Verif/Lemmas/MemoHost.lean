/-
Helper lemmas: the message the library encrypts for the viewer.
-/
import Verif.Lemmas.AssetDef
import Verif.Lemmas.Memo
import Verif.Lemmas.GenerateMintFreeze

namespace Cap

open Spec

variable [E : CapEnv]

theorem shown_eq (b : Bool) (v : F) : shown b v = boolF b * v := by
  cases b <;> simp [shown, boolF]

theorem memoInput_eq {m : RevealMap} {ro : RecordOpening} {c : ExpirableCredential} (h : c.attrs.length = 8) :
    memoInput m ro c = .ok (plainInput m ro c.attrs) := by
  unfold memoInput plainInput RevealMap.hadamard
  obtain ⟨a, b, c', d, e, f, g, j, he⟩ := list8 h
  rw [if_neg (by rw [h]; decide), he, RevealMap.bits]
  simp only [List.cons_append, List.nil_append, List.length_cons, List.length_nil, Nat.zero_add, Nat.reduceAdd,
    VIEWABLE_DATA_LEN, REVEAL_MAP_LEN, ATTRS_LEN, le_refl, if_true, bind, Except.bind, List.zipWith_cons_cons,
    List.zipWith_nil_left, List.drop_succ_cons, List.drop_zero, RecordOpening.isDummy, AssetDefinition.isDummy_iff]
  split <;> rfl

theorem memoInput_ok {m : RevealMap} {ro : RecordOpening} {c : ExpirableCredential} {l : List F} :
    memoInput m ro c = .ok l ↔ c.attrs.length = 8 ∧ l = plainInput m ro c.attrs := by
  by_cases h : c.attrs.length = 8
  · rw [memoInput_eq h]
    simp [h, eq_comm]
  · unfold memoInput
    rw [if_pos (by simpa [ATTRS_LEN] using h)]
    simp [h]

theorem memoOutput_eq (ro : RecordOpening) :
    memoOutput ro = .ok (plainOutput ro.asset_def.policy.reveal_map ro) := by
  unfold memoOutput plainOutput RevealMap.hadamard
  rw [RevealMap.bits]
  rfl

omit E in
theorem forall₂_eq_map {α β : Type} {f : α → β} {l : List α} {m : List β} :
    List.Forall₂ (fun a b => b = f a) l m ↔ m = l.map f := by
  constructor
  · intro h
    induction h with
    | nil => rfl
    | cons h1 _ ih => rw [h1, ih, List.map_cons]
  · rintro rfl
    rw [List.forall₂_map_right_iff]
    exact List.forall₂_same.2 (fun _ _ => rfl)

theorem forall₂_and_map {α β : Type} {P : α → Prop} {f : α → β} {l : List α} {m : List β} :
    List.Forall₂ (fun a b => P a ∧ b = f a) l m ↔ (∀ a ∈ l, P a) ∧ m = l.map f := by
  constructor
  · intro h
    refine ⟨?_, forall₂_eq_map.1 (h.imp (fun _ _ h => h.2))⟩
    intro a ha
    obtain ⟨b, -, hb⟩ := forall₂_mem_right h.flip a ha
    exact hb.1
  · rintro ⟨h, rfl⟩
    rw [List.forall₂_map_right_iff]
    exact List.forall₂_same.2 (fun a ha => ⟨h a ha, rfl⟩)

/-- the library's message -/
theorem memoMessage_ok {ad : AssetDefinition} {ss : List InputSecret} {outs : List RecordOpening} {msg : List F}
    (ho : ∀ o ∈ outs.tail, o.asset_def = ad) :
    memoMessage ad (ss.map (·.ro)) outs (ss.map (·.cred)) = .ok msg ↔
      (∀ s ∈ ss.tail, s.cred.attrs.length = 8) ∧
      msg = ad.code :: (ss.tail.flatMap (fun s => plainInput ad.policy.reveal_map s.ro s.cred.attrs) ++
        outs.tail.flatMap (plainOutput ad.policy.reveal_map)) := by
  unfold memoMessage
  rw [List.zip_map', ← List.map_tail]
  simp only [bind_ok_iff, mapM_ok_forall₂, List.forall₂_map_left_iff, memoInput_ok, memoOutput_eq]
  have hout : ∀ {b : List (List F)}, List.Forall₂ (fun a b => (Except.ok (plainOutput a.asset_def.policy.reveal_map a) :
      Res (List F)) = .ok b) outs.tail b ↔ b = outs.tail.map (plainOutput ad.policy.reveal_map) := by
    intro b
    rw [← forall₂_eq_map]
    constructor
    · intro h
      refine (List.forall₂_and_left _ _ |>.2 ⟨fun a ha => ha, h⟩).imp ?_
      intro a b hab
      rw [← ho a hab.1]
      exact (Except.ok.inj hab.2).symm
    · intro h
      refine (List.forall₂_and_left _ _ |>.2 ⟨fun a ha => ha, h⟩).imp ?_
      intro a b hab
      rw [ho a hab.1, hab.2]
  simp only [hout, forall₂_and_map]
  constructor
  · rintro ⟨a, ⟨h1, rfl⟩, b, rfl, h⟩
    refine ⟨h1, ?_⟩
    rw [← Except.ok.inj h]
    simp [List.flatMap]
  · rintro ⟨h1, rfl⟩
    exact ⟨_, ⟨h1, rfl⟩, _, rfl, by simp [List.flatMap]⟩

/-- the credential of an input without credential policy -/
theorem dummyUnexpired_eq : ∃ s, (ExpirableCredential.dummyUnexpired : Res ExpirableCredential) = .ok
    ⟨0, List.replicate 8 0, Fin.ofNat (2 ^ 64) (2 ^ 20 - 1), s, smulFr 0 E.gen⟩ := ⟨_, rfl⟩

theorem attrsOf_secret {i : TransferNoteInput} {s : InputSecret} (h : inputSecretOf i = .ok s) :
    attrsOf i = s.cred.attrs := by
  obtain ⟨-, -, -, h4⟩ := inputSecretOf_ok.1 h
  unfold attrsOf
  split at h4
  · rename_i hc
    rw [if_pos hc]
    obtain ⟨sg, hs⟩ := dummyUnexpired_eq
    rw [hs] at h4
    rw [← Except.ok.inj h4]
  · rename_i hc
    rw [if_neg hc, h4]

/-- in terms of the inputs -/
theorem flatMap_secrets {m : RevealMap} {inputs : List TransferNoteInput} {ss : List InputSecret}
    (h : List.Forall₂ (fun a b => inputSecretOf a = .ok b) inputs ss) :
    ss.flatMap (fun s => plainInput m s.ro s.cred.attrs) = inputs.flatMap (fun i => plainInput m i.ro (attrsOf i)) := by
  induction h with
  | nil => rfl
  | cons h1 _ ih =>
    rw [List.flatMap_cons, List.flatMap_cons, ih, attrsOf_secret h1, (inputSecretOf_ok.1 h1).2.1]

omit E in
theorem forall₂_tail {α β : Type} {R : α → β → Prop} {l : List α} {m : List β} (h : List.Forall₂ R l m) :
    List.Forall₂ R l.tail m.tail := by
  cases h with
  | nil => exact .nil
  | cons _ h => exact h

theorem memoTransferAmount_some {ins : List RecordOpening} {amt : Amount} (h : memoTransferAmount ins = some amt) :
    amt.val = total (real ins.tail) := by
  unfold memoTransferAmount at h
  rw [← real_eq] at h
  rw [← map_amount_val]
  exact ((safeSumAmount_eq_some _ _).1 h).symm

end Cap
