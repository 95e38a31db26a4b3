/-
Helper lemmas: the asset check of `generate` and the asset definitions picked by the memo builder and the witness.
-/
import Verif.Lemmas.GenerateTransfer

namespace Cap

open Spec

variable [E : CapEnv]

/-- what the asset check establishes, but for the policies -/
structure AssetsAgree (ad : AssetDefinition) (inputs outputs : List RecordOpening) : Prop where
  fee_in : ∃ i0 is, inputs = i0 :: is ∧ i0.asset_def = AssetDefinition.native
  fee_out : ∃ o0 os, outputs = o0 :: os ∧ o0.asset_def = AssetDefinition.native
  ins : ∀ r ∈ inputs.tail, r.asset_def = AssetDefinition.dummy ∨ r.asset_def = ad
  outs : ∀ r ∈ outputs.tail, r.asset_def = ad
  none : (∀ r ∈ inputs.tail, r.asset_def = AssetDefinition.dummy) → ad = AssetDefinition.native
  not_dummy : ad ≠ AssetDefinition.dummy

/-- what the asset check establishes -/
structure AssetsOk (ad : AssetDefinition) (inputs outputs : List RecordOpening) : Prop
    extends AssetsAgree ad inputs outputs where
  freezer : ∀ r ∈ inputs ++ outputs, r.asset_def.policy.freezer_pk ≠ 0 → r.asset_def.policy.viewer_pk ≠ 0

theorem xfrAssetDef_ne (rest : List RecordOpening) : xfrAssetDef rest ≠ AssetDefinition.dummy := by
  unfold xfrAssetDef
  split
  · rename_i r h
    simpa using List.find?_some h
  · exact nativeDef_ne_dummyDef

theorem xfrAssetDef_none {rest : List RecordOpening} (h : ∀ r ∈ rest, r.asset_def = AssetDefinition.dummy) :
    xfrAssetDef rest = AssetDefinition.native := by
  unfold xfrAssetDef
  split
  · rename_i r hr
    have h1 := List.find?_some hr
    have h2 := h r (List.mem_of_find?_eq_some hr)
    simp [h2] at h1
  · rfl

/-- the definition picked is the only one it could be -/
theorem xfrAssetDef_unique {rest : List RecordOpening} {ad : AssetDefinition}
    (h1 : ∀ r ∈ rest, r.asset_def = AssetDefinition.dummy ∨ r.asset_def = ad)
    (h2 : (∀ r ∈ rest, r.asset_def = AssetDefinition.dummy) → ad = AssetDefinition.native) :
    xfrAssetDef rest = ad := by
  unfold xfrAssetDef
  split
  · rename_i r hr
    have h3 := List.find?_some hr
    rcases h1 r (List.mem_of_find?_eq_some hr) with h | h
    · simp [h] at h3
    · exact h
  · rename_i hn
    rw [List.find?_eq_none] at hn
    exact (h2 (fun r hr => by simpa using hn r hr)).symm

theorem transferCheckAssetDef_ok {inputs outputs : List RecordOpening} :
    transferCheckAssetDef inputs outputs = .ok () ↔ ∃ ad, AssetsOk ad inputs outputs := by
  constructor
  · intro h
    unfold transferCheckAssetDef at h
    split at h
    · rename_i i0 is o0 os
      simp only [bind_ok_iff, ensure_ok_iff, decide_eq_true_eq] at h
      obtain ⟨-, h1, -, h2, -, h3, -, h4, h5⟩ := h
      simp only [Bool.not_eq_true', List.any_eq_false, decide_eq_true_eq, not_and, not_not] at h3 h4 h5
      refine ⟨xfrAssetDef is, ⟨⟨i0, is, rfl, h1⟩, ⟨o0, os, rfl, h2⟩, ?_, h4, xfrAssetDef_none, xfrAssetDef_ne is⟩, h5⟩
      intro r hr
      by_cases hd : r.asset_def = AssetDefinition.dummy
      · exact Or.inl hd
      · exact Or.inr (h3 r hr hd)
    · cases h
  · rintro ⟨ad, ⟨⟨i0, is, rfl, h1⟩, ⟨o0, os, rfl, h2⟩, h3, h4, h5, -⟩, h6⟩
    have hx := xfrAssetDef_unique h3 h5
    simp only [List.tail_cons] at h3 h4 hx
    simp only [transferCheckAssetDef, bind_ok_iff, ensure_ok_iff, decide_eq_true_eq, Bool.not_eq_true',
      List.any_eq_false, decide_eq_true_eq, not_and, not_not, hx]
    refine ⟨(), h1, (), h2, (), ?_, (), h4, h6⟩
    intro r hr hd
    exact (h3 r hr).resolve_left hd

theorem getAssetDef_eq {ad : AssetDefinition} {inputs outputs : List RecordOpening} (h : AssetsAgree ad inputs outputs) :
    getAssetDefInTransferTxn inputs = .ok ad := by
  obtain ⟨i0, is, rfl, h0⟩ := h.fee_in
  have hx := xfrAssetDef_unique h.ins h.none
  simp only [List.tail_cons] at hx
  have hp : (fun r : RecordOpening => !r.asset_def.isDummy) =
      fun r => decide (r.asset_def ≠ AssetDefinition.dummy) := by
    funext r
    rw [Bool.eq_iff_iff]
    simp [← AssetDefinition.isDummy_iff]
  unfold getAssetDefInTransferTxn
  dsimp only
  rw [if_neg (by simp [AssetDefinition.isNative_iff.2 h0]), hp]
  unfold xfrAssetDef at hx
  split at hx
  · rename_i r hr
    rw [hr]
    exact congrArg _ hx
  · rename_i hr
    rw [hr]
    exact congrArg _ (h0.trans hx)

theorem witnessAssetDef_fold {ad : AssetDefinition} (hd : ad ≠ AssetDefinition.dummy) :
    ∀ {l : List TransferNoteInput} {acc : AssetDefinition},
      (∀ i ∈ l, i.ro.asset_def = AssetDefinition.dummy ∨ i.ro.asset_def = ad) →
      (acc = ad ∨ acc = AssetDefinition.native) →
      l.foldl (fun acc i =>
        if !i.ro.asset_def.isNative && !i.ro.asset_def.isDummy then i.ro.asset_def else acc) acc = ad ∨
      (l.foldl (fun acc i =>
        if !i.ro.asset_def.isNative && !i.ro.asset_def.isDummy then i.ro.asset_def else acc) acc = acc ∧
        ((∀ i ∈ l, i.ro.asset_def = AssetDefinition.dummy) ∨ ad = AssetDefinition.native))
  | [], acc, _, _ => Or.inr ⟨rfl, Or.inl (by simp)⟩
  | i :: l, acc, h, ha => by
    have h' : ∀ j ∈ l, j.ro.asset_def = AssetDefinition.dummy ∨ j.ro.asset_def = ad :=
      fun j hj => h j (List.mem_cons_of_mem _ hj)
    rw [List.foldl_cons]
    rcases h i (by simp) with hi | hi
    · rw [if_neg (by simp [AssetDefinition.isDummy_iff.2 hi])]
      rcases witnessAssetDef_fold hd h' ha with h1 | ⟨h1, h2⟩
      · exact Or.inl h1
      · refine Or.inr ⟨h1, h2.imp_left (fun h2 => ?_)⟩
        intro j hj
        rcases List.mem_cons.1 hj with rfl | hj
        · exact hi
        · exact h2 j hj
    · by_cases hn : ad = AssetDefinition.native
      · rw [if_neg (by simp [AssetDefinition.isNative_iff.2 (hi.trans hn)])]
        rcases witnessAssetDef_fold hd h' ha with h1 | ⟨h1, -⟩
        · exact Or.inl h1
        · exact Or.inr ⟨h1, Or.inr hn⟩
      · rw [if_pos (by
          rw [Bool.and_eq_true, Bool.not_eq_true', Bool.not_eq_true', ← Bool.not_eq_true, ← Bool.not_eq_true,
            AssetDefinition.isNative_iff, AssetDefinition.isDummy_iff, hi]
          exact ⟨hn, hd⟩), hi]
        rcases witnessAssetDef_fold hd h' (Or.inl rfl) with h1 | ⟨h1, -⟩
        · exact Or.inl h1
        · exact Or.inl h1

theorem witnessAssetDef_eq {ad : AssetDefinition} {inputs : List TransferNoteInput} {outputs : List RecordOpening}
    (h : AssetsAgree ad (inputs.map (·.ro)) outputs) : witnessAssetDef inputs = ad := by
  obtain ⟨r0, rs, hr, h0⟩ := h.fee_in
  obtain ⟨i0, is, rfl, hi0, his⟩ := List.map_eq_cons_iff.1 hr
  unfold witnessAssetDef
  rw [List.foldl_cons, if_neg (by rw [hi0]; simp [AssetDefinition.isNative_iff.2 h0])]
  have hin : ∀ i ∈ is, i.ro.asset_def = AssetDefinition.dummy ∨ i.ro.asset_def = ad := by
    intro i hi
    exact h.ins i.ro (List.mem_map_of_mem (f := (·.ro)) hi)
  rcases witnessAssetDef_fold h.not_dummy hin (Or.inr rfl) with h1 | ⟨h1, h2⟩
  · exact h1
  · rw [h1]
    rcases h2 with h2 | h2
    · refine (h.none ?_).symm
      intro r hr'
      rw [List.map_cons, List.tail_cons, List.mem_map] at hr'
      obtain ⟨i, hi, rfl⟩ := hr'
      exact h2 i hi
    · exact h2.symm

end Cap
