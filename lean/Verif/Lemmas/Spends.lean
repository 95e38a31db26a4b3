/-
The records an opened note spends, as one list for the three kinds of notes, with their nullifiers.
-/
import Verif.Lemmas.Opened

namespace Cap

open Spec

variable [E : CapEnv]

/-- one spent record: its opening, position, the secret used, and who spends it -/
structure Spend where
  ro : RecordV
  acc : AccV
  sk : F
  who : Spender

/-- the nullifier published for it -/
def Spend.nullifier (s : Spend) : F := spendNullifier s.ro s.acc s.sk s.who

/-- the inputs of a transfer -/
def TransferWit.spends (w : TransferWit) : List Spend := w.inputs.map fun i => ⟨i.ro, i.acc, i.addr_secret, .user⟩
/-- the fee input of a mint -/
def MintWit.spends (w : MintWit) : List Spend := [⟨w.fee_ro, w.acc, w.creator_sk, .user⟩]
/-- the fee input and the records frozen or released -/
def FreezeWit.spends (w : FreezeWit) : List Spend :=
  ⟨w.fee_ro, w.fee_acc, w.fee_sk, .user⟩ :: w.inputs.map fun i => ⟨i.ro, i.acc, i.sk, .freezer⟩

/-- what the circuits guarantee for every spent record -/
structure Spend.Valid (s : Spend) (root : F) : Prop where
  /-- the secret belongs to the key -/
  spend : SpendOk s.ro s.sk s.who
  /-- the record is under the root -/
  root_ok : s.ro.asset_code ≠ dummyCode → spendRoot s.ro s.acc = root
  /-- a freezer exists if a freezer spends -/
  freezer : s.who = .freezer → s.ro.asset_code ≠ dummyCode → s.ro.policy.freezer_pk ≠ neutral

theorem isDummy_iff {v : RecordV} : v.isDummy = true ↔ v.asset_code = dummyCode := by
  simp [RecordV.isDummy]

variable [S : CapExt]

theorem transfer_spends {a b d : ℕ} {n : TransferNote} {w : TransferWit} (h : OpensTransfer a b d n w) :
    n.inputs_nullifiers = w.spends.map Spend.nullifier ∧ ∀ s ∈ w.spends, s.Valid n.aux_info.merkle_root := by
  obtain ⟨i0, is, o0, os, nl, nls, c, cs, P⟩ := h.sat.parts h.shape
  have hn : n.inputs_nullifiers = nl :: nls := P.nullifiers
  constructor
  · rw [hn, TransferWit.spends, P.inputs, List.map_cons, List.map_cons, ← P.in0.2.2.2.2.1, List.map_map]
    congr 1
    have := P.ins
    clear P hn
    induction this with
    | nil => rfl
    | cons hx _ ih => rw [List.map_cons, ← ih, ← hx.2.2.2.2.1]; rfl
  · intro s hs
    obtain ⟨i, hi, rfl⟩ := List.mem_map.1 hs
    have : ∃ b x, InputOk w n.pub.toV b i x := by
      rw [P.inputs] at hi
      rcases List.mem_cons.1 hi with rfl | hi
      · exact ⟨_, _, P.in0⟩
      · obtain ⟨x, -, hx⟩ := P.mem_in hi
        exact ⟨_, x, hx⟩
    obtain ⟨b, x, hx⟩ := this
    exact ⟨hx.2.2.2.1, fun hd => hx.2.2.2.2.2.1.resolve_left (fun h => hd (isDummy_iff.1 h)), fun h => by cases h⟩

theorem mint_spends {d : ℕ} {n : MintNote} {w : MintWit} (h : OpensMint d n w) :
    [n.input_nullifier] = w.spends.map Spend.nullifier ∧ ∀ s ∈ w.spends, s.Valid n.aux_info.merkle_root := by
  constructor
  · rw [MintWit.spends, List.map_cons, List.map_nil]
    exact congrArg (fun x => [x]) h.sat.nullifier.symm
  · intro s hs
    simp only [MintWit.spends, List.mem_cons, List.not_mem_nil, or_false] at hs
    subst hs
    exact ⟨h.sat.spend, fun _ => h.sat.root, fun h => by cases h⟩

theorem freeze_spends {m d : ℕ} {n : FreezeNote} {w : FreezeWit} (h : OpensFreeze m d n w) :
    n.input_nullifiers = w.spends.map Spend.nullifier ∧ ∀ s ∈ w.spends, s.Valid n.aux_info.merkle_root := by
  obtain ⟨v, hv, hsh, hs⟩ := h
  have hv' : v.root = n.aux_info.merkle_root ∧ n.input_nullifiers = v.fee_nullifier :: v.nullifiers := by
    simp only [FreezePublicInput.toV, FreezeNote.pub] at hv
    split at hv
    · rename_i hns _
      cases hv
      exact ⟨rfl, hns⟩
    · cases hv
  have hl : w.inputs.length = v.nullifiers.length := by
    have := hsh.inputs_len; have := hsh.nullifiers_len; omega
  have hz : ∀ k (h1 : k < w.inputs.length) (h2 : k < v.nullifiers.length),
      FreezeSpendOk v w.inputs[k] v.nullifiers[k] := fun k h1 h2 =>
    hs.spends (_, _) (List.mem_iff_getElem.2 ⟨k, by simp; omega, by simp⟩)
  constructor
  · rw [hv'.2, FreezeWit.spends, List.map_cons, ← hs.nullifier, List.map_map]
    congr 1
    refine List.ext_getElem (by simp [hl]) fun k h1 h2 => ?_
    rw [List.getElem_map]
    exact (hz k (by omega) h1).2.2.2.symm
  · intro s hsm
    rcases List.mem_cons.1 hsm with rfl | hsm
    · exact ⟨hs.spend, fun _ => hv'.1 ▸ hs.root, fun h => by cases h⟩
    · obtain ⟨i, hi, rfl⟩ := List.mem_map.1 hsm
      obtain ⟨k, hk, rfl⟩ := List.mem_iff_getElem.1 hi
      obtain ⟨h1, h2, h3, -⟩ := hz k hk (by omega)
      refine ⟨h2, fun hd => ?_, fun _ hd => ?_⟩
      · rw [← hv'.1]
        exact h3.resolve_right fun h => hd (isDummy_iff.1 h)
      · have := h1.resolve_right fun h => hd (isDummy_iff.1 h)
        simpa [PolicyV.isDummyFreezerPk] using this

/-- the note is opened by an assignment in which `s` is one of the spent records -/
inductive NoteSpends : TransactionNote → Spend → Prop
  | transfer {a b d : ℕ} {n : TransferNote} {w : TransferWit} {s : Spend} (h : OpensTransfer a b d n w)
      (hs : s ∈ w.spends) : NoteSpends (.transfer n) s
  | mint {d : ℕ} {n : MintNote} {w : MintWit} {s : Spend} (h : OpensMint d n w) (hs : s ∈ w.spends) :
      NoteSpends (.mint n) s
  | freeze {m d : ℕ} {n : FreezeNote} {w : FreezeWit} {s : Spend} (h : OpensFreeze m d n w) (hs : s ∈ w.spends) :
      NoteSpends (.freeze n) s

/-- The nullifier is published and the circuits' guarantees hold. -/
theorem NoteSpends.valid {n : TransactionNote} {s : Spend} (h : NoteSpends n s) :
    s.nullifier ∈ n.nullifiers ∧ s.Valid n.merkleRoot := by
  cases h with
  | transfer h hs =>
    obtain ⟨h1, h2⟩ := transfer_spends h
    refine ⟨?_, h2 _ hs⟩
    show s.nullifier ∈ TransferNote.inputs_nullifiers _
    rw [h1]; exact List.mem_map_of_mem hs
  | mint h hs =>
    obtain ⟨h1, h2⟩ := mint_spends h
    refine ⟨?_, h2 _ hs⟩
    show s.nullifier ∈ [MintNote.input_nullifier _]
    rw [h1]; exact List.mem_map_of_mem hs
  | freeze h hs =>
    obtain ⟨h1, h2⟩ := freeze_spends h
    refine ⟨?_, h2 _ hs⟩
    show s.nullifier ∈ FreezeNote.input_nullifiers _
    rw [h1]; exact List.mem_map_of_mem hs

end Cap
