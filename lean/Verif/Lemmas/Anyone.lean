/-
Satisfied assignments, one transaction at a time: nullifiers, commitments, paths, amounts.
-/
import Verif.SpecAnyone
import Verif.Lemmas.Left
import Verif.Props.C01
import Verif.Props.C03
import Verif.Props.C10
import Verif.Lemmas.LedgerHistory

namespace Cap.Spec

open Cap

variable [E : CapEnv] [S : CapExt]

omit S in
theorem scalarsV_inj {r s : RecordV} (h : (r.scalars, r.blind) = (s.scalars, s.blind)) :
    r.amount = s.amount ∧ r.asset_code = s.asset_code ∧ r.owner_addr = s.owner_addr ∧
      r.policy.freezer_pk = s.policy.freezer_pk ∧ r.commitment = s.commitment := by
  have h1 : r.scalars = s.scalars := congrArg Prod.fst h
  have h2 : r.blind = s.blind := congrArg Prod.snd h
  have hc : r.commitment = s.commitment := by unfold RecordV.commitment; rw [h1, h2]
  simp only [RecordV.scalars, List.cons.injEq, and_true] at h1
  obtain ⟨a1, a2, a3, a4, -, -, -, -, a5, a6, -⟩ := h1
  exact ⟨a1, a2, Prod.ext a3 a4, Prod.ext a5 a6, hc⟩

namespace Opening

theorem Satisfied.nullifiers {d : ℕ} {o : Opening} (h : o.Satisfied d) :
    o.note.nullifiers = o.spends.map Spend.nullifier ∧ ∀ s ∈ o.spends, s.Valid o.note.merkleRoot := by
  cases o with
  | transfer n w => exact transfer_spends h
  | mint n w => exact mint_spends h
  | freeze n w => exact freeze_spends h

theorem Satisfied.path {d : ℕ} {o : Opening} (h : o.Satisfied d) : ∀ s ∈ o.spends, s.acc.path.length = d := by
  intro s hs
  cases o with
  | transfer n w =>
    obtain ⟨i, hi, rfl⟩ := List.mem_map.1 hs
    exact h.shape.path_len i hi
  | mint n w =>
    obtain rfl := List.mem_singleton.1 hs
    exact h.shape.path_len
  | freeze n w =>
    obtain ⟨v, -, hsh, -⟩ := h
    rcases List.mem_cons.1 hs with rfl | hs
    · exact hsh.fee_path_len
    · obtain ⟨i, hi, rfl⟩ := List.mem_map.1 hs
      exact hsh.path_len i hi

/-- the public values of a freeze note, and the outputs next to their commitments -/
theorem freeze_pub {m d : ℕ} {n : FreezeNote} {w : FreezeWit} (h : OpensFreeze m d n w) :
    w.chg_ro.amount + Amount.toF n.aux_info.fee = w.fee_ro.amount ∧
      n.output_commitments = (w.chg_ro :: w.inputs.map (·.out)).map RecordV.commitment ∧
      ∀ i ∈ w.inputs, i.ro.amount = i.out.amount ∧ i.ro.asset_code = i.out.asset_code := by
  obtain ⟨v, hv, hsh, hs⟩ := h
  have hv' : v.fee = Amount.toF n.aux_info.fee ∧ n.output_commitments = v.chg_commitment :: v.commitments := by
    simp only [FreezePublicInput.toV, FreezeNote.pub] at hv
    split at hv
    · rename_i _ hcs
      cases hv
      exact ⟨rfl, hcs⟩
    · cases hv
  refine ⟨hv'.1 ▸ hs.balance, ?_, fun i hi => ⟨(hs.pairs i hi).2.1, (hs.pairs i hi).2.2.2.1⟩⟩
  rw [hv'.2, List.map_cons, hs.chg_commitment, List.map_map]
  have hl : w.inputs.length = v.commitments.length := by
    have := hsh.inputs_len; have := hsh.commitments_len; omega
  congr 1
  refine List.ext_getElem (by simp [hl]) fun k h1 h2 => ?_
  rw [List.getElem_map]
  exact (hs.out_commitments (_, _) (List.mem_iff_getElem.2 ⟨k, by simp; omega, by simp⟩)).symm

theorem Satisfied.commitments {d : ℕ} {o : Opening} (h : o.Satisfied d) :
    o.note.outputCommitments = o.creates.map RecordV.commitment := by
  cases o with
  | transfer n w =>
    obtain ⟨i0, is, o0, os, nl, nls, c, cs, P⟩ := OpensTransfer.sat h |>.parts h.shape
    have hc : n.output_commitments = c :: cs := P.commitments
    show n.output_commitments = w.outputs.map RecordV.commitment
    rw [hc, P.outputs, List.map_cons, P.out0.2.2.1]
    congr 1
    have := P.outs
    clear P hc
    induction this with
    | nil => rfl
    | cons hx _ ih => rw [List.map_cons, ← ih, hx.2.2.1]
  | mint n w =>
    show [n.chg_comm, n.mint_comm] = [w.chg_ro.commitment, w.mint_ro.commitment]
    rw [h.sat.chg_rc, h.sat.mint_rc]
    rfl
  | freeze n w => exact (freeze_pub h).2.1

/-! ### Amounts -/

omit S in
theorem valueOf_cons (c : F) (r : RecordV) (l : List RecordV) :
    valueOf c (r :: l) = (if r.asset_code = c then r.amount.val else 0) + valueOf c l := by
  simp [valueOf]

omit S in
theorem valueOf_append (c : F) (l m : List RecordV) : valueOf c (l ++ m) = valueOf c l + valueOf c m := by
  simp [valueOf]

omit S in
theorem valueOf_same {c : F} {l : List RecordV} (h : ∀ r ∈ l, r.asset_code = c) :
    valueOf c l = (l.map (·.amount.val)).sum := by
  induction l with
  | nil => rfl
  | cons r l ih =>
    rw [valueOf_cons, if_pos (h r List.mem_cons_self), ih (fun r' hr' => h r' (List.mem_cons_of_mem _ hr')),
      List.map_cons, List.sum_cons]

omit S in
theorem valueOf_none {c : F} {l : List RecordV} (h : ∀ r ∈ l, r.asset_code ≠ c) : valueOf c l = 0 := by
  induction l with
  | nil => rfl
  | cons r l ih =>
    rw [valueOf_cons, if_neg (h r List.mem_cons_self), ih (fun r' hr' => h r' (List.mem_cons_of_mem _ hr'))]

omit S in
/-- records of another code only count if they hold nothing -/
theorem valueOf_mixed {c : F} {l : List RecordV} (h : ∀ r ∈ l, r.asset_code = c ∨ r.amount = 0) :
    valueOf c l = (l.map (·.amount.val)).sum := by
  induction l with
  | nil => rfl
  | cons r l ih =>
    rw [valueOf_cons, ih (fun r' hr' => h r' (List.mem_cons_of_mem _ hr')), List.map_cons, List.sum_cons]
    rcases h r List.mem_cons_self with e | e
    · rw [if_pos e]
    · rw [e]; simp

omit S in
theorem valueOf_filter {c : F} (hc : c ≠ dummyCode) (l : List Spend) :
    valueOf c ((l.filter (fun s => s.ro.asset_code ≠ dummyCode)).map (·.ro)) = valueOf c (l.map (·.ro)) := by
  induction l with
  | nil => rfl
  | cons s l ih =>
    rw [List.filter_cons, List.map_cons, valueOf_cons]
    by_cases h : s.ro.asset_code = dummyCode
    · rw [if_neg (by simpa using h), ih, if_neg (fun e => hc (e.symm.trans h)), Nat.zero_add]
    · rw [if_pos (by simpa using h), List.map_cons, valueOf_cons, ih]

/-- what a mint note publishes as minted -/
def minted (c : F) (o : Opening) : ℕ := Txn.minted c ⟨o.note, [], []⟩

/-- **An accepted transaction balances**, for every asset but the dummy, if the missing checks are made. -/
theorem Satisfied.balance {d : ℕ} {o : Opening} (h : o.Satisfied d) (ok : o.Checked)
    (held : ∀ s ∈ o.realSpends, s.ro.amount.val < 2 ^ 128) (few : o.creates.length < 2 ^ 64) {c : F}
    (hc : c ≠ dummyCode) :
    valueOf c (o.realSpends.map (·.ro)) + o.minted c =
      valueOf c o.creates + (if c = nativeCode then o.note.fee.val else 0) := by
  unfold realSpends at held ⊢
  rw [valueOf_filter hc]
  cases o with
  | transfer n w =>
    have hw : OpensTransfer n.inputs_nullifiers.length n.output_commitments.length d n w := h
    obtain ⟨i0', is', o0', os', nl, nls, c0, cs, P⟩ := hw.sat.parts hw.shape
    have hdummy : ∀ i ∈ w.inputs, i.ro.asset_code = dummyCode → i.ro.amount = 0 := by
      intro i hi hd
      have : ∃ b x, InputOk w n.pub.toV b i x := by
        rw [P.inputs] at hi
        rcases List.mem_cons.1 hi with rfl | hi
        · exact ⟨_, _, P.in0⟩
        · obtain ⟨x, -, hx⟩ := P.mem_in hi
          exact ⟨_, x, hx⟩
      obtain ⟨b, x, hx⟩ := this
      exact hx.2.1.resolve_left (by rw [isDummy_iff.2 hd]; simp)
    have hheld : ∀ i ∈ w.inputs, i.ro.amount.val < 2 ^ 128 := by
      intro i hi
      by_cases hd : i.ro.asset_code = dummyCode
      · rw [hdummy i hi hd]; simp
      · exact held ⟨i.ro, i.acc, i.addr_secret, .user⟩
          (List.mem_filter.2 ⟨List.mem_map.2 ⟨i, hi, rfl⟩, by simpa using hd⟩)
    obtain ⟨i0, is, o0, os, e1, e2, hcode, hi0, ho0, b1, b2, -⟩ := C01_balance hw ok.short
      (by rw [← hw.shape.outputs_len]; exact few) hheld
    have hsame : ∀ i ∈ is, i.ro.asset_code = dummyCode ∨ i.ro.asset_code = w.asset_code := by
      intro i hi
      by_cases hd : i.ro.asset_code = dummyCode
      · exact Or.inl hd
      · exact Or.inr (ok.same_code i (by rw [e1]; exact hi) hd)
    have hins : (Opening.transfer n w).spends.map (·.ro) = i0.ro :: is.map (·.ro) := by
      simp only [spends, TransferWit.spends, e1, List.map_cons, List.map_map]
      rfl
    have hsum : ((is.map (·.ro)).map (·.amount.val)).sum = (is.map (·.ro.amount.val)).sum := by
      rw [List.map_map]; rfl
    have hcr : (Opening.transfer n w).creates = o0 :: os := e2
    rw [hins, hcr, valueOf_cons, valueOf_cons, hi0, ho0]
    show _ + 0 = _ + (if c = nativeCode then n.aux_info.fee.val else 0)
    -- the inputs after the first one
    have hin : valueOf c (is.map (·.ro)) = if c = w.asset_code then (is.map (·.ro.amount.val)).sum else 0 := by
      split
      · rename_i hcw
        rw [← hsum]
        refine valueOf_mixed ?_
        intro r hr
        obtain ⟨i, hi, rfl⟩ := List.mem_map.1 hr
        rcases hsame i hi with e | e
        · exact Or.inr (hdummy i (by rw [e1]; exact List.mem_cons_of_mem _ hi) e)
        · exact Or.inl (e.trans hcw.symm)
      · rename_i hcw
        refine valueOf_none ?_
        intro r hr
        obtain ⟨i, hi, rfl⟩ := List.mem_map.1 hr
        rcases hsame i hi with e | e
        · rw [e]; exact hc.symm
        · rw [e]; exact fun h => hcw h.symm
    have hout : valueOf c os = if c = w.asset_code then (os.map (·.amount.val)).sum else 0 := by
      split
      · rename_i hcw
        exact valueOf_same (fun r hr => (hcode r hr).trans hcw.symm)
      · rename_i hcw
        exact valueOf_none (fun r hr e => hcw (e.symm.trans (hcode r hr)))
    rw [hin, hout]
    by_cases hn : c = nativeCode
    · subst hn
      by_cases hw' : w.asset_code = nativeCode
      · have := b2 hw'
        simp only [hw', if_true]
        omega
      · have := b1 hw'
        have hw'' : ¬ nativeCode = w.asset_code := fun h => hw' h.symm
        simp only [if_neg hw'', if_true]
        omega
    · have hn' : ¬ nativeCode = c := fun h => hn h.symm
      simp only [if_neg hn, if_neg hn']
      by_cases hw' : c = w.asset_code
      · have := (b1 (fun h => hn (hw'.trans h))).2
        simp only [if_pos hw']
        omega
      · simp only [if_neg hw']
  | mint n w =>
    have hw : OpensMint d n w := h
    obtain ⟨h1, h2, h3, -⟩ := C03_mint_partial hw ok.change_fits
    have hm : w.mint_ro.amount.val = n.mint_amount.val := by
      rw [hw.sat.mint_amount]
      exact Amount.toF_val _
    have hcd : w.mint_ro.asset_code = n.mint_asset_def.code := hw.sat.mint_code
    show valueOf c [w.fee_ro] + (if n.mint_asset_def.code = c then n.mint_amount.val else 0) =
      valueOf c [w.chg_ro, w.mint_ro] + (if c = nativeCode then n.aux_info.fee.val else 0)
    simp only [valueOf_cons, h2, h3, hcd, hm]
    by_cases hn : nativeCode = c
    · simp only [if_pos hn, if_pos hn.symm]; omega
    · have hn' : ¬ c = nativeCode := fun h => hn h.symm
      simp only [if_neg hn, if_neg hn']; omega
  | freeze n w =>
    have hw : OpensFreeze n.input_nullifiers.length d n w := h
    obtain ⟨h1, h2, h3⟩ := C03_freeze_partial hw ok.change_fits
    obtain ⟨-, -, hp⟩ := freeze_pub hw
    have hv : valueOf c (w.inputs.map (·.ro)) = valueOf c (w.inputs.map (·.out)) := by
      unfold valueOf
      rw [List.map_map, List.map_map]
      congr 1
      refine List.map_congr_left fun i hi => ?_
      obtain ⟨e1, e2⟩ := hp i hi
      simp only [Function.comp_apply, e1, e2]
    have hins : (Opening.freeze n w).spends.map (·.ro) = w.fee_ro :: w.inputs.map (·.ro) := by
      simp only [spends, FreezeWit.spends, List.map_cons, List.map_map]
      rfl
    rw [hins]
    show valueOf c (w.fee_ro :: w.inputs.map (·.ro)) + 0 =
      valueOf c (w.chg_ro :: w.inputs.map (·.out)) + (if c = nativeCode then n.aux_info.fee.val else 0)
    simp only [valueOf_cons, h2, h3, hv]
    by_cases hn : nativeCode = c
    · simp only [if_pos hn, if_pos hn.symm]; omega
    · have hn' : ¬ c = nativeCode := fun h => hn h.symm
      simp only [if_neg hn, if_neg hn']

/-- what is created fits in 128 bits -/
theorem Satisfied.fits {d : ℕ} {o : Opening} (h : o.Satisfied d) (ok : o.Checked)
    (held : ∀ s ∈ o.realSpends, s.ro.amount.val < 2 ^ 128) :
    ∀ r ∈ o.creates, r.asset_code ≠ dummyCode → r.amount.val < 2 ^ 128 := by
  intro r hr hd
  have h127 : (2 : ℕ) ^ 127 < 2 ^ 128 := by norm_num
  cases o with
  | transfer n w =>
    have hw : OpensTransfer n.inputs_nullifiers.length n.output_commitments.length d n w := h
    obtain ⟨i0, is, o0, os, nl, nls, c, cs, hp⟩ := hw.sat.parts hw.shape
    have hr : r ∈ w.outputs := hr
    rw [hp.outputs, List.mem_cons] at hr
    rcases hr with rfl | hr
    · exact lt_trans hp.out0.2.2.2 h127
    · obtain ⟨x, -, hx⟩ := hp.mem_out hr
      exact lt_trans hx.2.2.2 h127
  | mint n w =>
    have hw : OpensMint d n w := h
    have hr : r ∈ [w.chg_ro, w.mint_ro] := hr
    simp only [List.mem_cons, List.not_mem_nil, or_false] at hr
    rcases hr with rfl | rfl
    · exact ok.change_fits
    · exact lt_trans hw.sat.mint_range h127
  | freeze n w =>
    have hr : r ∈ w.chg_ro :: w.inputs.map (·.out) := hr
    rcases List.mem_cons.1 hr with rfl | hr
    · exact ok.change_fits
    · obtain ⟨i, hi, rfl⟩ := List.mem_map.1 hr
      obtain ⟨e1, e2⟩ := (freeze_pub h).2.2 i hi
      rw [← e1]
      refine held ⟨i.ro, i.acc, i.sk, .freezer⟩ (List.mem_filter.2 ⟨?_, ?_⟩)
      · exact List.mem_cons_of_mem _ (List.mem_map.2 ⟨i, hi, rfl⟩)
      · rw [← e2] at hd; simpa using hd

end Opening

/-! ### Nullifiers -/

omit S in
theorem canonical_eq {a b : F} (ha : a.val < E.r) (hb : b.val < E.r) (h : E.xy (a.val • E.gen) = E.xy (b.val • E.gen)) :
    a = b := by
  have hm := smul_gen_inj (xy_inj h)
  rw [Nat.mod_eq_of_lt ha, Nat.mod_eq_of_lt hb] at hm
  exact ZMod.val_injective _ hm

omit S in
/-- Two valid spends of the same record at the same position have the same nullifier. -/
theorem same_nullifier {s1 s2 : Spend} {r1 r2 : F} (v1 : s1.Valid r1) (v2 : s2.Valid r2)
    (commitment : s1.ro.commitment = s2.ro.commitment) (owner : s1.ro.owner_addr = s2.ro.owner_addr)
    (freezer : s1.ro.policy.freezer_pk = s2.ro.policy.freezer_pk) (code : s1.ro.asset_code = s2.ro.asset_code)
    (position : s1.acc.uid = s2.acc.uid) (not_dummy : s1.ro.asset_code ≠ dummyCode)
    (c1 : s1.sk.val < E.r ∧ s1.ro.owner_addr ≠ neutral) (c2 : s2.sk.val < E.r ∧ s2.ro.owner_addr ≠ neutral) :
    s1.nullifier = s2.nullifier := by
  obtain ⟨ro1, acc1, sk1, who1⟩ := s1
  obtain ⟨ro2, acc2, sk2, who2⟩ := s2
  have e1 := v1.spend.2
  have e2 := v2.spend.2
  have f1 := v1.freezer
  have f2 := v2.freezer
  simp only [Spend.nullifier] at *
  unfold spendNullifier nullifyV
  rw [commitment, position]
  congr 1
  cases who1 <;> cases who2 <;> simp only [spendPk, spendOtherPk, deriveUserAddressV] at e1 e2 f1 f2 ⊢
  · rw [canonical_eq c1.1 c2.1 (e1.trans (owner.trans e2.symm)), freezer]
  · have hf := f2 trivial (code ▸ not_dummy)
    unfold deriveNullifierKeyV
    rw [if_neg c2.2, freezer, if_neg hf, ← owner, ← e1, ← e2, E.ecMul_xy, E.ecMul_xy, ← mul_nsmul, ← mul_nsmul,
      Nat.mul_comm]
  · have hf := f1 trivial not_dummy
    unfold deriveNullifierKeyV
    rw [if_neg c1.2, ← freezer, if_neg hf, owner, ← e1, ← e2, E.ecMul_xy, E.ecMul_xy, ← mul_nsmul, ← mul_nsmul,
      Nat.mul_comm]
  · rw [canonical_eq c1.1 c2.1 (e1.trans (freezer.trans e2.symm)), owner]

end Cap.Spec
