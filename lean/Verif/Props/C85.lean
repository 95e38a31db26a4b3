/-
C85 The circuits enforce the relations of the specification document
status: partial
note: Proved for all assignments: the freeze circuit is the documented relation; the transfer circuit and the mint circuit together with exactly the conditions of TransferGap and MintGap are the documented relations. Generated notes satisfy the documented relations if credentials are by the policy's issuer for the owner and expire before 2^20, and the change of a mint is below 2^127; accepted freeze notes satisfy theirs outright. Negations: accepted transfers for which nobody has a documented witness; accepted mints that violate the relation; and the documented freeze relation itself permits a fee larger than the record that pays it.
-/
import Verif.Lemmas.Doc
import Verif.Props.C02
import Verif.Props.C03
import Verif.Props.C18
import Verif.Props.C19
import Verif.Props.C38
import Verif.Props.C46
import Verif.Lemmas.Opened

namespace Cap

open Spec

variable [E : CapEnv] [S : CapExt]

omit S in
theorem doc_time {t e : F} (h1 : t.val ≤ e.val) (h2 : e.val < 2 ^ 20) : InRange (e - t) MAX_TIMESTAMP_LEN := by
  have : (e - t).val = e.val - t.val := ZMod.val_sub h1
  show (e - t).val < 2 ^ 20
  omega

omit S in
theorem doc_inputOk {w : TransferWit} {x : TransferPub} {first : Bool} {i : InputV} {nl : F}
    (pos : InputPosOk w x first i) (zero : i.ro.asset_code ≠ dummyCode ∨ i.ro.amount = 0)
    (unfrozen : i.ro.freeze_flag = false) (burn : Doc.PoB x.root nl i.acc i.ro i.addr_secret true)
    (key : okScalar i.addr_secret) (attrs : i.cred.attrs.length = 8)
    (time : x.valid_until.val ≤ i.cred.expiry.val ∧ i.cred.expiry.val < 2 ^ 20)
    (cred : i.ro.policy.cred_pk = Doc.bot ∨
      (i.cred.creator_pk = i.ro.policy.cred_pk ∧ i.cred.user_addr = i.ro.owner_addr ∧
        Doc.vfyAc i.ro.policy.cred_pk i.cred.cred
          ([i.cred.expiry, i.ro.owner_addr.1, i.ro.owner_addr.2] ++ i.cred.attrs))) :
    InputOk w x first i nl := by
  obtain ⟨b1, b2, b3⟩ := (doc_burn key).1 burn
  refine ⟨unfrozen, ?_, pos, b1, b2, b3, attrs, doc_time time.1 time.2, ?_⟩
  · simpa [RecordV.isDummy] using zero
  · rcases cred with h | ⟨h1, h2, h3⟩
    · exact Or.inl (by simpa [PolicyV.isDummyCredPk, doc_bot] using h)
    · right
      rw [CredV.sigValid, CredV.msg, h1, h2]
      exact h3

omit S in
theorem doc_of_inputOk {w : TransferWit} {x : TransferPub} {first : Bool} {i : InputV} {nl : F}
    (h : InputOk w x first i nl) :
    (i.ro.asset_code ≠ dummyCode ∨ i.ro.amount = 0) ∧ i.ro.freeze_flag = false ∧
    Doc.PoB x.root nl i.acc i.ro i.addr_secret true ∧ okScalar i.addr_secret ∧ i.cred.attrs.length = 8 ∧
    (i.ro.policy.cred_pk = Doc.bot ∨ i.cred.sigValid = true) := by
  obtain ⟨h1, h2, -, h3, h4, h5, h6, -, h7⟩ := h
  refine ⟨by simpa [RecordV.isDummy] using h2, h1, (doc_burn h3.1).2 ⟨h3, h4, h5⟩, h3.1, h6, ?_⟩
  simpa [PolicyV.isDummyCredPk, doc_bot] using h7

omit S in
/-- **Transfers.**  The documented relation (for values that can be represented) is what the circuit enforces and the
five conditions of `TransferGap`, no more and no less. -/
theorem C85_transfer {a b d : ℕ} {w : TransferWit} {x : TransferPub} (shape : TransferShape a b d w x)
    (native : x.native_asset_code ≠ dummyCode) :
    Doc.Transfer w x ∧ Doc.TransferEncoded w x ↔ TransferSat w x ∧ Doc.TransferGap w x := by
  constructor
  · rintro ⟨D, N⟩
    obtain ⟨i0, is, hi⟩ := List.exists_cons_of_ne_nil D.some_in
    obtain ⟨o0, os, ho⟩ := List.exists_cons_of_ne_nil D.some_out
    have hb := D.burn
    have hc := D.created
    rw [hi] at hb
    rw [ho] at hc
    obtain ⟨nl, nls, b0, bs, hnl⟩ := List.forall₂_cons_left_iff.1 hb
    obtain ⟨c, cs, c0, ccs, hcs⟩ := List.forall₂_cons_left_iff.1 hc
    have m0 : i0 ∈ w.inputs := by rw [hi]; simp
    have ms : ∀ i ∈ is, i ∈ w.inputs := by rw [hi]; exact fun i h => List.mem_cons_of_mem _ h
    have n0 : o0 ∈ w.outputs := by rw [ho]; simp
    have ns : ∀ o ∈ os, o ∈ w.outputs := by rw [ho]; exact fun o h => List.mem_cons_of_mem _ h
    have f1 := D.first_in i0 (by rw [hi]; rfl)
    have f2 := D.first_out o0 (by rw [ho]; rfl)
    have t1 := D.other_in
    have t2 := D.other_out
    have t3 := D.dummy_in
    rw [hi, List.tail_cons] at t1 t3
    rw [ho, List.tail_cons] at t2
    refine ⟨⟨?_, ?_, ?_, D.map_range, N.rand, ?_, ?_⟩, ⟨?_, ?_, ?_, D.unexpired, D.map_even⟩⟩
    · rw [hi, hnl]
      refine ⟨doc_inputOk ?_ (Or.inl (by rw [f1.1]; exact native)) (D.unfrozen_in i0 m0) b0 (N.keys i0 m0)
        (N.attrs i0 m0) (D.unexpired i0 m0) (D.cred i0 m0), (AllPos.forall₂ bs.length_eq).2 ?_⟩
      · simp only [InputPosOk, if_true]
        exact ⟨f1.1, doc_noPolicy.2 f1.2⟩
      · refine List.Forall₂.imp (fun i nl h => ?_) ((List.forall₂_and_left _ _).2 ⟨fun i h => h, bs⟩)
        obtain ⟨hm, hburn⟩ := h
        refine doc_inputOk ?_ ?_ (D.unfrozen_in i (ms i hm)) hburn (N.keys i (ms i hm))
          (N.attrs i (ms i hm)) (D.unexpired i (ms i hm)) (D.cred i (ms i hm))
        · simp only [InputPosOk, Bool.false_eq_true, if_false, RecordV.isDummy, decide_eq_false_iff_not,
            decide_eq_true_eq, doc_check]
          refine ⟨?_, ?_⟩
          · rcases t3 i hm with h | h
            · exact Or.inl h
            · right
              rw [h.2]
              simp [PolicyV.isDummyPolicy, Doc.noPolicy, PolicyV.isDummyViewingPk, PolicyV.isDummyCredPk,
                PolicyV.isDummyFreezerPk, doc_bot]
          · exact (t1 i hm).imp id And.right
        · exact (t3 i hm).imp id And.left
    · rw [ho, hcs]
      refine ⟨⟨D.unfrozen_out o0 n0, ?_, c0.1.symm, c0.2⟩, (AllPos.forall₂ ccs.length_eq).2 ?_⟩
      · simp only [if_true]
        exact ⟨f2.1, doc_noPolicy.2 f2.2⟩
      · refine List.Forall₂.imp (fun o c h => ?_) ((List.forall₂_and_left _ _).2 ⟨fun i h => h, ccs⟩)
        obtain ⟨hm, hcom⟩ := h
        refine ⟨D.unfrozen_out o (ns o hm), ?_, hcom.1.symm, hcom.2⟩
        simp only [Bool.false_eq_true, if_false]
        exact ⟨(t2 o hm).1, doc_equal.2 (t2 o hm).2⟩
    · have := D.balance
      simp only [BalanceOk]
      rw [hi, ho] at this ⊢
      exact doc_balance.1 this
    · rw [doc_message N.attrs D.map_even, N.memo]
    · rcases D.memo with h | h | h
      · exact Or.inl (Or.inr (by simpa [PolicyV.isDummyViewingPk, doc_bot] using h))
      · refine Or.inl (Or.inl ?_)
        simp only [underLimit, decide_eq_true_eq, sumTail, ← List.map_tail]
        exact h
      · right
        rw [correctMemoV, decide_eq_true_eq, h, doc_enc, doc_message N.attrs D.map_even]
    · intro i h
      exact (D.other_in i h).imp id And.left
    · intro i h hd
      rcases D.dummy_in i h with h' | h'
      · exact absurd hd h'
      · rw [h'.2]; rfl
    · intro i h hk
      rcases D.cred i h with h' | h'
      · exact absurd h' hk
      · exact ⟨h'.1, h'.2.1⟩
  · rintro ⟨T, G⟩
    obtain ⟨i0, is, o0, os, nl, nls, c, cs, P⟩ := T.parts shape
    have hin : ∀ i ∈ w.inputs, ∃ first nl, InputOk w x first i nl := by
      intro i hi
      rw [P.inputs, List.mem_cons] at hi
      rcases hi with rfl | hi
      · exact ⟨_, _, P.in0⟩
      · obtain ⟨y, -, hy⟩ := P.mem_in hi
        exact ⟨_, _, hy⟩
    have hout : ∀ o ∈ w.outputs, ∃ first rc, OutputOk w x first o rc := by
      intro o ho
      rw [P.outputs, List.mem_cons] at ho
      rcases ho with rfl | ho
      · exact ⟨_, _, P.out0⟩
      · obtain ⟨y, -, hy⟩ := P.mem_out ho
        exact ⟨_, _, hy⟩
    have hattrs : ∀ i ∈ w.inputs, i.cred.attrs.length = 8 := by
      intro i hi
      obtain ⟨_, _, h⟩ := hin i hi
      exact (doc_of_inputOk h).2.2.2.2.1
    have htail : ∀ i ∈ w.inputs.tail, ∃ nl, InputOk w x false i nl := by
      intro i hi
      rw [P.inputs, List.tail_cons] at hi
      obtain ⟨y, -, hy⟩ := P.mem_in hi
      exact ⟨_, hy⟩
    refine ⟨⟨?_, ?_, ?_, ?_, ?_, ?_, ?_, ?_, ?_, ?_, G.time, ?_, ?_, ?_, T.map_range, G.map, ?_⟩, ⟨?_, T.rand_ok, hattrs, ?_⟩⟩
    · rw [P.inputs]; simp
    · rw [P.outputs]; simp
    · rw [P.inputs]
      intro i hi
      obtain rfl : i0 = i := by simpa using hi
      have := P.in0.2.2.1
      simp only [InputPosOk, if_true] at this
      exact ⟨this.1, doc_noPolicy.1 this.2⟩
    · rw [P.outputs]
      intro o ho
      obtain rfl : o0 = o := by simpa using ho
      have := P.out0.2.1
      simp only [if_true] at this
      exact ⟨this.1, doc_noPolicy.1 this.2⟩
    · intro i hi
      obtain ⟨_, h⟩ := htail i hi
      have := h.2.2.1
      simp only [InputPosOk, Bool.false_eq_true, if_false, RecordV.isDummy, decide_eq_false_iff_not,
        decide_eq_true_eq, doc_check] at this
      rcases G.code i hi with hd | hd
      · exact Or.inl hd
      · rcases this.2 with h' | h'
        · exact Or.inl h'
        · exact Or.inr ⟨hd, h'⟩
    · intro o ho
      rw [P.outputs, List.tail_cons] at ho
      obtain ⟨y, -, hy⟩ := P.mem_out ho
      have := hy.2.1
      simp only [Bool.false_eq_true, if_false] at this
      exact ⟨this.1, doc_equal.1 this.2⟩
    · intro i hi
      obtain ⟨_, h⟩ := htail i hi
      by_cases hd : i.ro.asset_code = dummyCode
      · right
        have h1 := (doc_of_inputOk h).1
        have := h.2.2.1
        simp only [InputPosOk, Bool.false_eq_true, if_false, RecordV.isDummy, decide_eq_false_iff_not,
          decide_eq_true_eq, hd, not_true, false_or, true_or, and_true] at this
        refine ⟨h1.resolve_left (by simp [hd]), ?_⟩
        have hm := G.dummy i hi hd
        simp only [PolicyV.isDummyPolicy, Bool.and_eq_true, decide_eq_true_eq, PolicyV.isDummyViewingPk,
          PolicyV.isDummyCredPk, PolicyV.isDummyFreezerPk, hm, zero_add] at this
        rw [← doc_noPolicy]
        exact ⟨this.1.1.1, this.1.1.2, this.1.2, hm, this.2⟩
      · exact Or.inl hd
    · intro i hi
      obtain ⟨_, _, h⟩ := hin i hi
      exact h.1
    · intro o ho
      obtain ⟨_, _, h⟩ := hout o ho
      exact h.1
    · rw [P.inputs, P.nullifiers]
      refine List.Forall₂.cons (doc_of_inputOk P.in0).2.2.1 (List.Forall₂.imp (fun i nl h => ?_) P.ins)
      exact (doc_of_inputOk h).2.2.1
    · intro i hi
      obtain ⟨_, _, h⟩ := hin i hi
      by_cases hk : i.ro.policy.cred_pk = Doc.bot
      · exact Or.inl hk
      · obtain ⟨g1, g2⟩ := G.cred i hi hk
        have := (doc_of_inputOk h).2.2.2.2.2.resolve_left hk
        rw [CredV.sigValid, CredV.msg, g1, g2] at this
        exact Or.inr ⟨g1, g2, this⟩
    · rw [P.outputs, P.commitments]
      refine List.Forall₂.cons ⟨P.out0.2.2.1.symm, P.out0.2.2.2⟩ (List.Forall₂.imp (fun i nl h => ?_) P.outs)
      exact ⟨h.2.2.1.symm, h.2.2.2⟩
    · have := P.balance
      rw [P.inputs, P.outputs] at this ⊢
      exact doc_balance.2 this
    · rcases T.memo with (h | h) | h
      · simp only [underLimit, decide_eq_true_eq, sumTail, ← List.map_tail] at h
        exact Or.inr (Or.inl h)
      · exact Or.inl (by simpa [PolicyV.isDummyViewingPk, doc_bot] using h)
      · rw [correctMemoV, decide_eq_true_eq, doc_message hattrs G.map, ← doc_enc] at h
        exact Or.inr (Or.inr h)
    · intro i hi
      obtain ⟨_, _, h⟩ := hin i hi
      exact (doc_of_inputOk h).2.2.2.1
    · rw [T.memo_len, doc_message hattrs G.map]

omit S in
/-- **Mints.**  The documented relation is what the circuit enforces, the range of the change, and the validator's check
of the asset type. -/
theorem C85_mint {w : MintWit} {x : MintPub} (native : x.native_asset_code ≠ dummyCode) :
    Doc.Mint w x ∧ Doc.MintEncoded w x ↔ MintSat w x ∧ Doc.MintGap w x := by
  constructor
  · rintro ⟨D, N⟩
    obtain ⟨b1, b2, b3⟩ := (doc_burn N.key).1 D.burn
    have hnd : w.fee_ro.isDummy = false := by
      simp [RecordV.isDummy, D.fee_native.1, native]
    refine ⟨⟨N.memo, D.minted.symm, D.change.symm, D.seed.symm, D.balance.symm, b1, ?_, b2, D.unfrozen.1, D.unfrozen.2.1,
      D.unfrozen.2.2, D.mint_range, D.opening.1, D.opening.2.1, doc_equal.2 D.opening.2.2.symm, D.chg_native.1,
      D.fee_native.1, doc_noPolicy.2 D.chg_native.2, doc_noPolicy.2 D.fee_native.2, D.same_owner.symm, N.rand, ?_⟩,
      ⟨D.chg_range, D.type⟩⟩
    · rcases b3 with h | h
      · rw [hnd] at h; cases h
      · exact h
    · rcases D.memo with h | h
      · left
        rw [← D.opening.2.2]
        simpa [PolicyV.isDummyViewingPk, doc_bot] using h
      · right
        rw [mintCorrectMemoV, decide_eq_true_eq, h, doc_enc]
  · rintro ⟨T, G⟩
    refine ⟨⟨T.mint_rc.symm, T.chg_rc.symm, ⟨T.mint_amount, T.mint_code, (doc_equal.1 T.mint_policy).symm⟩,
      ⟨T.fee_code, doc_noPolicy.1 T.fee_policy⟩, ⟨T.chg_code, doc_noPolicy.1 T.chg_policy⟩, T.same_owner.symm,
      T.internal.symm, G.type, T.balance.symm, (doc_burn T.spend.1).2 ⟨T.spend, T.nullifier, Or.inr T.root⟩, T.mint_range,
      G.change, ⟨T.mint_unfrozen, T.fee_unfrozen, T.chg_unfrozen⟩, ?_⟩, ⟨T.spend.1, T.rand_ok, T.memo_len⟩⟩
    rcases T.memo with h | h
    · left
      rw [← doc_equal.1 T.mint_policy]
      simpa [PolicyV.isDummyViewingPk, doc_bot] using h
    · right
      rw [mintCorrectMemoV, decide_eq_true_eq] at h
      rw [h, doc_enc]

omit S in
/-- **Freezes.**  The documented relation is what the circuit enforces. -/
theorem C85_freeze {k d : ℕ} {w : FreezeWit} {x : FreezePub} (shape : FreezeShape k d w x)
    (native : x.native_asset_code ≠ dummyCode) :
    Doc.Freeze w x ∧ Doc.FreezeEncoded w ↔ FreezeSat w x := by
  have l1 : w.inputs.length = x.nullifiers.length := by
    have := shape.inputs_len; have := shape.nullifiers_len; omega
  have l2 : w.inputs.length = x.commitments.length := by
    have := shape.inputs_len; have := shape.commitments_len; omega
  constructor
  · rintro ⟨D, N⟩
    obtain ⟨b1, b2, b3⟩ := (doc_burn N.key).1 D.fee_burn
    have hnd : w.fee_ro.isDummy = false := by
      simp [RecordV.isDummy, D.fee_native.1, native]
    refine ⟨D.fee_native.1, doc_noPolicy.2 D.fee_native.2, D.chg_native.1, doc_noPolicy.2 D.chg_native.2, D.unfrozen.1,
      D.unfrozen.2, D.balance.symm, b1, ?_, b2, ?_, D.change.symm, ?_, ?_⟩
    · rcases b3 with h | h
      · rw [hnd] at h; cases h
      · exact h
    · intro i hi
      obtain ⟨k1, k2, k3, k4⟩ := D.kept i hi
      refine ⟨?_, k1, k3, k2, doc_equal.2 k4⟩
      rw [D.flipped i hi]
      cases i.ro.freeze_flag <;> simp [boolF]
    · intro y hy
      exact ((List.forall₂_iff_zip.1 D.created).2 hy).symm
    · intro y hy
      have hm : y.1 ∈ w.inputs := (List.of_mem_zip (a := y.1) (b := y.2) hy).1
      obtain ⟨c1, c2, c3⟩ := (doc_burn_freezer (N.keys _ hm)).1 ((List.forall₂_iff_zip.1 D.burn).2 hy)
      refine ⟨?_, c1, c3.symm, c2⟩
      simpa [PolicyV.isDummyFreezerPk, RecordV.isDummy, doc_bot] using D.freezer _ hm
  · intro T
    have hsp : ∀ i ∈ w.inputs, ∃ nl, FreezeSpendOk x i nl := by
      intro i hi
      obtain ⟨n, hn, rfl⟩ := List.getElem_of_mem hi
      refine ⟨x.nullifiers[n]'(l1 ▸ hn), T.spends (w.inputs[n], x.nullifiers[n]'(l1 ▸ hn)) ?_⟩
      rw [List.mem_iff_getElem]
      exact ⟨n, by simp only [List.length_zip]; omega, by simp⟩
    refine ⟨⟨⟨T.fee_code, doc_noPolicy.1 T.fee_policy⟩, ⟨T.chg_code, doc_noPolicy.1 T.chg_policy⟩,
      ⟨T.fee_unfrozen, T.chg_unfrozen⟩, T.balance.symm, (doc_burn T.spend.1).2 ⟨T.spend, T.nullifier, Or.inr T.root⟩, ?_, ?_,
      ?_, ?_, T.chg_commitment.symm, ?_⟩, ⟨T.spend.1, ?_⟩⟩
    · intro i hi
      have := (T.pairs i hi).1
      cases h1 : i.ro.freeze_flag <;> cases h3 : i.out.freeze_flag <;> rw [h1, h3] at this <;>
        simp [boolF] at this ⊢
    · intro i hi
      obtain ⟨-, h1, h2, h3, h4⟩ := T.pairs i hi
      exact ⟨h1, h3, h2, doc_equal.1 h4⟩
    · intro i hi
      obtain ⟨nl, h⟩ := hsp i hi
      simpa [PolicyV.isDummyFreezerPk, RecordV.isDummy, doc_bot] using h.1
    · refine List.forall₂_iff_zip.2 ⟨l1, fun {i nl} h => ?_⟩
      obtain ⟨-, h2, h3, h4⟩ := T.spends (i, nl) h
      exact (doc_burn_freezer h2.1).2 ⟨h2, h4, h3.symm⟩
    · refine List.forall₂_iff_zip.2 ⟨l2, fun {i nl} h => ?_⟩
      exact (T.out_commitments (i, nl) h).symm
    · intro i hi
      obtain ⟨nl, h⟩ := hsp i hi
      exact h.2.1.1

/-! ### What the documented relations give -/

omit S in
theorem held_cons (c : F) (o : RecordV) (l : List RecordV) :
    Doc.held c (o :: l) = (if o.asset_code = c then o.amount.val else 0) + Doc.held c l := by
  by_cases h : o.asset_code = c <;> simp [Doc.held, h]

omit S in
theorem held_tail {a c : F} : ∀ {l : List RecordV},
    (∀ o ∈ l, o.asset_code = a ∨ o.amount = 0) →
    Doc.held c l = if c = a then (l.map (·.amount.val)).sum else 0 := by
  intro l
  induction l with
  | nil => intro; simp [Doc.held]
  | cons o l ih =>
    intro h
    rw [held_cons, ih fun x hx => h x (List.mem_cons_of_mem _ hx)]
    rcases h o (by simp) with ho | ho
    · rw [ho]
      by_cases hc : c = a
      · simp [hc]
      · simp [hc, Ne.symm hc]
    · simp [ho]

/-- **The documented relation preserves every asset**: counted in natural numbers, what a transfer spends of each type it
creates, except for the fee in the native one. -/
theorem C85_conserves {n : TransferNote} {w : TransferWit} (h : Doc.Transfer w n.pub.toV)
    (small : ∀ i ∈ w.inputs, i.ro.amount.val < 2 ^ 128) (li : w.inputs.length < 2 ^ 64) (lo : w.outputs.length < 2 ^ 64)
    (c : F) :
    Doc.held c (w.inputs.map (·.ro)) =
      Doc.held c w.outputs + (if c = nativeCode then n.aux_info.fee.val else 0) := by
  obtain ⟨i0, is, hi⟩ := List.exists_cons_of_ne_nil h.some_in
  obtain ⟨o0, os, ho⟩ := List.exists_cons_of_ne_nil h.some_out
  have f1 := (h.first_in i0 (by rw [hi]; rfl)).1
  have f2 := (h.first_out o0 (by rw [ho]; rfl)).1
  have t1 := h.other_in
  have t2 := h.other_out
  have t3 := h.dummy_in
  have hb := h.balance
  have hr : ∀ o ∈ w.outputs, o.amount.val < 2 ^ 127 := by
    intro o hm
    obtain ⟨y, -, hy⟩ := forall₂_mem_right (List.Forall₂.flip (R := fun a b => a = Doc.com b ∧ Doc.inRange b.amount 127)
      h.created) o hm
    exact hy.2
  rw [hi, List.tail_cons] at t1 t3
  rw [ho, List.tail_cons] at t2
  rw [hi] at small li
  rw [hi, ho] at hb
  rw [ho] at lo hr
  have hb' : PreserveBalance nativeCode w.asset_code (Amount.toF n.aux_info.fee) i0.ro.amount o0.amount
      (i0.ro.amount :: is.map (·.ro.amount)) (o0.amount :: os.map (·.amount)) := doc_balance.1 hb
  have hn := balance_nat hb'
    (by
      intro x hx
      rcases List.mem_cons.1 hx with rfl | hx
      · exact small _ (by simp)
      · obtain ⟨i, hm, rfl⟩ := List.mem_map.1 hx
        exact small _ (List.mem_cons_of_mem _ hm))
    (by
      intro x hx
      rcases List.mem_cons.1 hx with rfl | hx
      · exact hr _ (by simp)
      · obtain ⟨o, hm, rfl⟩ := List.mem_map.1 hx
        exact hr _ (List.mem_cons_of_mem _ hm))
    (by rw [List.length_map]; simp only [List.length_cons] at li; omega)
    (by rw [List.length_map]; simp only [List.length_cons] at lo; omega)
  have e1 : natSum (is.map (·.ro.amount)) = ((is.map (·.ro)).map (·.amount.val)).sum := by
    simp only [natSum, List.map_map]; rfl
  have e2 : natSum (os.map (·.amount)) = (os.map (·.amount.val)).sum := by
    simp only [natSum, List.map_map]; rfl
  rw [e1, e2] at hn
  have g1 : Doc.held c (is.map (·.ro)) = if c = w.asset_code then ((is.map (·.ro)).map (·.amount.val)).sum else 0 := by
    apply held_tail
    intro o hm
    obtain ⟨i, hk, rfl⟩ := List.mem_map.1 hm
    rcases t1 i hk with hd | hd
    · rcases t3 i hk with h' | h'
      · exact absurd hd h'
      · exact Or.inr h'.1
    · exact Or.inl hd.1
  have g2 : Doc.held c os = if c = w.asset_code then (os.map (·.amount.val)).sum else 0 :=
    held_tail fun o hm => Or.inl (t2 o hm).1
  have f1' : i0.ro.asset_code = nativeCode := f1
  have f2' : o0.asset_code = nativeCode := f2
  rw [hi, ho, List.map_cons, held_cons, held_cons, g1, g2, f1', f2']
  by_cases hx : (nativeCode : F) = w.asset_code
  · have := hn.2 hx
    rw [← hx]
    by_cases hc : c = nativeCode
    · simp only [hc, if_true]
      omega
    · simp [hc, Ne.symm hc]
  · obtain ⟨h1, h2⟩ := hn.1 hx
    rw [h2]
    by_cases hc : c = nativeCode
    · subst hc
      simp only [if_true, if_neg hx]
      omega
    · simp [hc, Ne.symm hc]

/-- **The documented relation bounds the fee of a mint.** -/
theorem C85_mint_fee {n : MintNote} {w : MintWit} (h : Doc.Mint w n.pub.toV) :
    w.fee_ro.amount.val = w.chg_ro.amount.val + n.aux_info.fee.val ∧ n.aux_info.fee.val ≤ w.fee_ro.amount.val := by
  have hs : w.chg_ro.amount.val < 2 ^ 127 := h.chg_range
  have := fee_nat (spent := w.fee_ro.amount) (chg := w.chg_ro.amount) (fee := n.aux_info.fee) h.balance.symm
    (by omega)
  exact ⟨this, by omega⟩

/-! ### Accepted notes -/

/-- **Accepted transfers.**  Whoever made the note knew an assignment which satisfies the documented relation, unless it
violates one of the conditions of `TransferGap`. -/
theorem C85_transfer_partial (sound : SnarkSound) {a b : ℕ} {d : Fin 256} {pk : TransferProvingKey}
    {vk : TransferVerifyingKey} (keys : transferPreprocess a b d = .ok (pk, vk)) {n : TransferNote} {root : F}
    {t : U64} (ok : n.verify vk root t = .ok ()) (hn : n.inputs_nullifiers.length = a)
    (hc : n.output_commitments.length = b) :
    ∃ w, OpensTransfer a b d.val n w ∧ (Doc.Transfer w n.pub.toV ↔ Doc.TransferGap w n.pub.toV) := by
  obtain ⟨w, h⟩ := transfer_opened sound keys ok hn hc
  refine ⟨w, h, fun D => ?_, fun G => ((C85_transfer h.shape native_ne_dummy).2 ⟨h.sat, G⟩).1⟩
  refine ⟨fun i hi => (D.other_in i hi).imp_right And.left, fun i hi hd => ?_, fun i hi hb => ?_, D.unexpired, D.map_even⟩
  · rcases D.dummy_in i hi with h | h
    · exact absurd hd h
    · rw [h.2]; rfl
  · rcases D.cred i hi with h | h
    · exact absurd h hb
    · exact ⟨h.1, h.2.1⟩

/-- **Accepted mints.**  The same, and of `MintGap` only the range of the change is left. -/
theorem C85_mint_partial (sound : SnarkSound) {d : Fin 256} {pk : MintProvingKey} {vk : MintVerifyingKey}
    (keys : mintPreprocess d = .ok (pk, vk)) {n : MintNote} {root : F} (ok : n.verify vk root = .ok ()) :
    ∃ w, OpensMint d.val n w ∧ (Doc.Mint w n.pub.toV ↔ w.chg_ro.amount.val < 2 ^ 127) := by
  obtain ⟨w, h⟩ := mint_opened sound keys ok
  exact ⟨w, h, fun D => D.chg_range, fun hr =>
    ((C85_mint native_ne_dummy).2 ⟨h.sat, hr, (MintNote.verify_ok.1 ok).2.1⟩).1⟩

theorem freeze_pub_native {n : FreezeNote} {x : FreezePub} (h : n.pub.toV = some x) :
    x.native_asset_code ≠ dummyCode := by
  unfold FreezePublicInput.toV at h
  split at h
  · cases h; exact native_ne_dummy
  · cases h

/-- **Accepted freezes.**  The documented relation holds. -/
theorem C85_freeze_accepted (sound : SnarkSound) {k : ℕ} {d : Fin 256} {pk : FreezeProvingKey}
    {vk : FreezeVerifyingKey} (keys : freezePreprocess k d = .ok (pk, vk)) {n : FreezeNote} {root : F}
    (ok : n.verify vk root = .ok ()) (hn : n.input_nullifiers.length = k) :
    ∃ w x, OpensFreeze k d.val n w ∧ n.pub.toV = some x ∧ Doc.Freeze w x := by
  obtain ⟨w, h⟩ := freeze_opened sound keys ok hn
  obtain ⟨x, hx, hs, ht⟩ := h
  refine ⟨w, x, ⟨x, hx, hs, ht⟩, hx, ((C85_freeze hs (freeze_pub_native hx)).2 ht).1⟩

/-! ### Generated notes -/

omit S in
theorem default_map : (AssetPolicy.default.toV : PolicyV).reveal_map = 0 := by
  show ((RevealMap.toNat RevealMap.default : ℕ) : F) = 0
  rw [show RevealMap.toNat RevealMap.default = 0 by decide, Nat.cast_zero]

/-- **Generated transfers** satisfy the documented relation if the credentials are by the issuer of the asset for the
owner of the record and expire before 2^20, and the policies reveal addresses as a whole. -/
theorem C85_transfer_generated {b : Build} {rng : TransferRand} {inputs : List TransferNoteInput}
    {outputs : List RecordOpening} {pk : TransferProvingKey} {valid_until : U64} {extra : List Byte}
    {n : TransferNote} {sk : Fr} (gen : TransferNote.generate b rng inputs outputs pk valid_until extra = .ok (n, sk))
    (creds : ∀ i ∈ inputs, i.ro.asset_def.policy.cred_pk ≠ 0 → ∀ c, i.cred = some c →
      c.creator_pk = i.ro.asset_def.policy.cred_pk ∧ c.user_addr = i.ro.pub_key.address ∧ c.expiry.val < 2 ^ 20)
    (maps : ∀ i ∈ inputs, i.ro.asset_def.policy.reveal_map[0] = i.ro.asset_def.policy.reveal_map[1]) :
    ∃ w : TransferWitness, OpensTransfer pk.n_inputs pk.n_outputs pk.tree_depth.val n w.toV ∧
      w.toV.inputs.map (·.ro) = inputs.map (·.ro.toV) ∧ w.toV.outputs = outputs.map RecordOpening.toV ∧ Doc.Transfer w.toV n.pub.toV := by
  obtain ⟨w, pub, h⟩ := TransferNote.generate_ok.1 gen
  obtain ⟨h1, h2, h3, h4⟩ := newUnchecked_ok.1 h.witness
  obtain ⟨ad, ha⟩ := transferCheckAssetDef_ok.1 h.asset
  have had : w.asset_def = ad := h1.trans (witnessAssetDef_eq ha.toAssetsAgree)
  have hro := secrets_ro h4
  have hshape := h.shape h.sat
  have hsat := h.sat
  rw [← h.pub_note] at hshape hsat
  have hmem : ∀ v ∈ w.toV.inputs, ∃ s i, i ∈ inputs ∧ v = s.toV ∧ inputSecretOf i = .ok s := by
    intro v hv
    simp only [TransferWitness.toV, List.mem_map] at hv
    obtain ⟨s, hs, rfl⟩ := hv
    obtain ⟨x, hx, hxs⟩ := forall₂_mem_right h4 s hs
    exact ⟨s, x, hx, rfl, hxs⟩
  have htail : ∀ v ∈ w.toV.inputs.tail, ∃ ro : RecordOpening, v.ro = ro.toV ∧
      (ro.asset_def = AssetDefinition.dummy ∨ ro.asset_def = ad) := by
    intro v hv
    simp only [TransferWitness.toV, ← List.map_tail, List.mem_map] at hv
    obtain ⟨s, hs, rfl⟩ := hv
    refine ⟨s.ro, rfl, ha.ins _ ?_⟩
    rw [← hro, ← List.map_tail]
    exact List.mem_map_of_mem hs
  refine ⟨w, ⟨hshape, hsat⟩, ?_, ?_, ((C85_transfer hshape native_ne_dummy).2 ⟨hsat, ⟨?_, ?_, ?_, ?_, ?_⟩⟩).1⟩
  · have := congrArg (List.map RecordOpening.toV) hro
    simp only [List.map_map] at this
    simp only [TransferWitness.toV, List.map_map]
    exact this
  · simp only [TransferWitness.toV, h2]
  · intro v hv
    obtain ⟨ro, hr, h | h⟩ := htail v hv
    · left; rw [hr]; simp only [RecordOpening.toV, h]; rfl
    · right; rw [hr]; simp only [RecordOpening.toV, h, TransferWitness.toV, had]
  · intro v hv hd
    obtain ⟨ro, hr, -⟩ := htail v hv
    obtain ⟨-, -, -, -, -, h⟩ := C46_partial ⟨hshape, hsat⟩ (List.mem_of_mem_tail hv) hd
    rw [hr] at h ⊢
    have h' : ro.asset_def.policy = AssetPolicy.default := (isDummyPolicy_host _).1 h
    simp only [RecordOpening.toV, h']
    exact default_map
  · intro v hv hb
    obtain ⟨s, i, hi, rfl, hs⟩ := hmem v hv
    obtain ⟨-, e2, -, e4⟩ := inputSecretOf_ok.1 hs
    have hne : i.ro.asset_def.policy.cred_pk ≠ 0 := by
      intro h0
      refine hb ?_
      simp only [InputSecret.toV, RecordOpening.toV, AssetPolicy.toV, e2, h0]
      exact E.xy_zero
    rw [if_neg hne] at e4
    obtain ⟨c1, c2, -⟩ := creds i hi hne _ e4
    simp only [InputSecret.toV, ExpirableCredential.toV, RecordOpening.toV, AssetPolicy.toV, e2, c1, c2]
    exact ⟨trivial, trivial⟩
  · intro v hv
    obtain ⟨s, i, hi, rfl, hs⟩ := hmem v hv
    obtain ⟨-, -, -, e4⟩ := inputSecretOf_ok.1 hs
    have h5 : (n.pub.toV.valid_until).val = valid_until.val := by
      show ((n.aux_info.valid_until.val : ℕ) : F).val = _
      rw [h.note_valid]
      exact natF_val (by have := valid_until.isLt; omega)
    have h6 : s.toV.cred.expiry.val = s.cred.expiry.val := by
      show ((s.cred.expiry.val : ℕ) : F).val = _
      exact natF_val (by have := s.cred.expiry.isLt; omega)
    rw [h5, h6]
    by_cases h0 : i.ro.asset_def.policy.cred_pk = 0
    · rw [if_pos h0] at e4
      obtain ⟨sg, hsg⟩ := @dummyUnexpired_eq E
      rw [hsg] at e4
      have hcr : (s.cred.expiry).val = 2 ^ 20 - 1 := by
        rw [← Except.ok.inj e4]; rfl
      have := C38_window gen
      omega
    · rw [if_neg h0] at e4
      exact ⟨(C38_fresh gen hi h0 e4).1, (creds i hi h0 _ e4).2.2⟩
  · show Doc.bit w.asset_def.policy.reveal_map.toScalar 0 = Doc.bit w.asset_def.policy.reveal_map.toScalar 1
    simp only [Doc.bit, RevealMap.toScalar_val]
    rw [had, RevealMap.toNat_testBit _ 0 (by omega), RevealMap.toNat_testBit _ 1 (by omega)]
    by_cases hall : ∀ r ∈ (inputs.map (·.ro)).tail, r.asset_def = AssetDefinition.dummy
    · rw [ha.none hall]; rfl
    · push Not at hall
      obtain ⟨r, hr, hne⟩ := hall
      obtain ⟨i, hi, rfl⟩ := List.mem_map.1 (List.mem_of_mem_tail hr)
      rcases ha.ins _ hr with h | h
      · exact absurd h hne
      · rw [← h]; exact maps i hi

/-- **Generated mints** of a mintable amount satisfy the documented relation if the change is in the range. -/
theorem C85_mint_generated {rng : TransferRand} {mint_ro : RecordOpening} {ac_seed : F} {desc : List Byte}
    {fee : TxnFeeInfo} {pk : MintProvingKey} {n : MintNote} {sk : Fr}
    (gen : MintNote.generate rng mint_ro ac_seed desc fee pk = .ok (n, sk)) (hr : mint_ro.amount.val < 2 ^ 127)
    (hc : fee.fee_chg_ro.amount.val < 2 ^ 127) :
    Doc.Mint (mintWitnessOf rng.enc_rand mint_ro ac_seed desc fee).toV n.pub.toV := by
  have h := mint_generated gen hr
  refine ((C85_mint native_ne_dummy).2 ⟨h.sat, ?_, ?_⟩).1
  · show (Amount.toF fee.fee_chg_ro.amount).val < 2 ^ 127
    rw [Amount.toF_val]; exact hc
  · rw [(MintNote.generate_ok.1 gen).pub]; rfl

/-- **Generated freezes** satisfy the documented relation. -/
theorem C85_freeze_generated {rng : FreezeRand} {inputs : List FreezeNoteInput} {fee : TxnFeeInfo} {pk : FreezeProvingKey}
    {n : FreezeNote} {sk : Fr} {outs : List RecordOpening}
    (gen : FreezeNote.generate rng inputs fee pk = .ok (n, sk, outs))
    (hf : fee.fee_input.acc.path.length = pk.tree_depth.val)
    (hi : ∀ i ∈ inputs, i.acc.path.length = pk.tree_depth.val) :
    ∃ x, n.pub.toV = some x ∧ Doc.Freeze (freezeWitV rng.blinds inputs fee) x := by
  obtain ⟨x, hx, hs, ht⟩ := freeze_generated gen hf hi
  refine ⟨x, hx, ((C85_freeze hs (freeze_pub_native hx)).2 ht).1⟩

/-! ### Where code and document differ -/

/-- **Negation, transfers.**  There is an accepted transfer note whose statement has no witness at all in the documented
relation, whatever is assumed about the hash functions: the circuit compares times by their difference and puts no bound
on them. -/
theorem C85_transfer_false (complete : SnarkComplete) {d : Fin 256}
    {pk : TransferProvingKey} {vk : TransferVerifyingKey} (keys : transferPreprocess 2 2 d = .ok (pk, vk)) :
    ∃ n : TransferNote, (∀ t, n.verify vk n.aux_info.merkle_root t = .ok ()) ∧ ∀ w, ¬ Doc.Transfer w n.pub.toV := by
  obtain ⟨n, w, -, hv, -⟩ := C46_policy_false complete keys
  refine ⟨n, hv, fun w D => ?_⟩
  have h1 := (TransferNote.verify_ok.1 (hv (Fin.last _))).2.1
  have h2 : n.aux_info.valid_until = Fin.last _ := le_antisymm (Fin.le_last _) h1
  obtain ⟨i, is, hi⟩ := List.exists_cons_of_ne_nil D.some_in
  have h3 := D.unexpired i (by rw [hi]; simp)
  have h4 : n.pub.toV.valid_until.val = 2 ^ 64 - 1 := by
    show ((n.aux_info.valid_until.val : ℕ) : F).val = _
    rw [h2, natF_val (by simp [Fin.last])]
    rfl
  omega

/-- **Negation, mints.**  An accepted mint can be made from records that violate the documented relation: the change is
not in the range, and the fee is more than what was paid. -/
theorem C85_mint_false (complete : SnarkComplete) {d : Fin 256} {pk : MintProvingKey} {vk : MintVerifyingKey}
    (keys : mintPreprocess d = .ok (pk, vk)) {fee_ro : RecordOpening} {k : UserKeyPair}
    (fee_asset : fee_ro.asset_def = AssetDefinition.native) (fee_unfrozen : fee_ro.freeze_flag = .unfrozen)
    (fee_owner : fee_ro.pub_key.address = k.address) (fee : Amount) (too_much : fee_ro.amount < fee) :
    ∃ n w, OpensMint d.val n w ∧ n.verify vk n.aux_info.merkle_root = .ok () ∧ n.aux_info.fee = fee ∧
      w.fee_ro = fee_ro.toV ∧ ¬ Doc.Mint w n.pub.toV := by
  obtain ⟨n, w, h1, h2, h3, h4, h5⟩ := C03_mint_false complete keys fee_asset fee_unfrozen fee_owner fee too_much
  refine ⟨n, w, h1, h2, h3, h4, fun D => ?_⟩
  have h6 := (C85_mint_fee D).2
  rw [h3, h4] at h6
  have h7 : (fee_ro.toV).amount.val = fee_ro.amount.val := Amount.toF_val _
  have : fee_ro.amount.val < fee.val := too_much
  omega

/-- **The document's freeze relation is too weak.**  It holds of an accepted freeze note whose fee is larger than the
record that pays it: the relation does not ask for a range of the change. -/
theorem C85_freeze_fee_false (complete : SnarkComplete) {m : ℕ} {d : Fin 256} {pk : FreezeProvingKey}
    {vk : FreezeVerifyingKey} (keys : freezePreprocess m d = .ok (pk, vk)) {fee_ro : RecordOpening} {k : UserKeyPair}
    (fee_asset : fee_ro.asset_def = AssetDefinition.native) (fee_unfrozen : fee_ro.freeze_flag = .unfrozen)
    (fee_owner : fee_ro.pub_key.address = k.address) (fee : Amount) (too_much : fee_ro.amount < fee) :
    ∃ (n : FreezeNote) (w : FreezeWit) (x : FreezePub), n.pub.toV = some x ∧ n.verify vk n.aux_info.merkle_root = .ok () ∧ n.aux_info.fee = fee ∧
      w.fee_ro = fee_ro.toV ∧ Doc.Freeze w x := by
  obtain ⟨n, w, ⟨x, hx, hs, ht⟩, h2, h3, h4, -⟩ := C03_freeze_false complete keys fee_asset fee_unfrozen fee_owner fee too_much
  refine ⟨n, w, x, hx, h2, h3, h4, ((C85_freeze hs (freeze_pub_native hx)).2 ht).1⟩

end Cap

namespace Cap.Examples

open Toy Spec

/-- the example transfer (three inputs with a dummy, a credential, a viewer) satisfies the documented relation -/
theorem xfr_doc : ∃ w : TransferWitness, OpensTransfer 3 3 1 xfrNote w.toV ∧ w.toV.inputs.map (·.ro) = xfrInputs.map (·.ro.toV) ∧
    w.toV.outputs = xfrOutputs.map RecordOpening.toV ∧ Doc.Transfer w.toV xfrNote.pub.toV :=
  C85_transfer_generated xfrNote_eq
    (by
      intro i hi hc c he
      simp only [xfrInputs, List.mem_cons, List.not_mem_nil, or_false] at hi
      rcases hi with rfl | rfl | rfl
      · exact absurd (by decide +kernel) hc
      · obtain rfl : cred = c := by simpa using he
        decide +kernel
      · exact absurd (by decide +kernel) hc)
    (by
      intro i hi
      simp only [xfrInputs, List.mem_cons, List.not_mem_nil, or_false] at hi
      rcases hi with rfl | rfl | rfl <;> decide +kernel)

/-- the example mint and the example freeze satisfy the documented relations -/
example : Doc.Mint (mintWitnessOf rng.enc_rand mintRec seed desc feeInfo).toV mintNote.pub.toV :=
  C85_mint_generated mintNote_eq (by decide +kernel) (by decide +kernel)

example : ∃ x, frzNote.pub.toV = some x ∧ Doc.Freeze (freezeWitV frzRng.blinds frzInputs feeInfo) x :=
  C85_freeze_generated frzNote_eq (by decide +kernel) (by decide +kernel)

/-- accepted notes -/
example : ∃ w, OpensTransfer 3 3 1 xfrNote w ∧ (Doc.Transfer w xfrNote.pub.toV ↔ Doc.TransferGap w xfrNote.pub.toV) :=
  C85_transfer_partial Toy.sound xfrKeys_eq (xfrNote_verify 5 (by decide)) (by decide +kernel) (by decide +kernel)

example : ∃ w, OpensMint 1 mintNote w ∧ (Doc.Mint w mintNote.pub.toV ↔ w.chg_ro.amount.val < 2 ^ 127) :=
  C85_mint_partial Toy.sound mintKeys_eq (C18_generate mintKeys_eq Toy.complete mintNote_eq (by decide +kernel))

example : ∃ w x, OpensFreeze 4 1 frzNote w ∧ frzNote.pub.toV = some x ∧ Doc.Freeze w x :=
  C85_freeze_accepted Toy.sound frzKeys_eq frzNote_verify (by decide +kernel)

/-- the example transfer conserves the asset, of which it moves some -/
example : ∃ w : TransferWit, Doc.Transfer w xfrNote.pub.toV ∧
    Doc.held asset.code (w.inputs.map (·.ro)) = Doc.held asset.code w.outputs + 0 ∧
    Doc.held asset.code w.outputs = 50 := by
  obtain ⟨w, o, h1, h2, h⟩ := xfr_doc
  refine ⟨w.toV, h, ?_, ?_⟩
  · refine (C85_conserves h ?_ ?_ ?_ asset.code).trans ?_
    · intro i hi
      have : i.ro ∈ xfrInputs.map (·.ro.toV) := by rw [← h1]; exact List.mem_map_of_mem (f := (·.ro)) hi
      obtain ⟨j, -, hj⟩ := List.mem_map.1 this
      rw [← hj]
      show (Amount.toF _).val < _
      rw [Amount.toF_val]; exact Fin.isLt _
    · rw [o.shape.inputs_len]; norm_num
    · rw [o.shape.outputs_len]; norm_num
    · rw [if_neg (by decide +kernel)]
  · rw [h2]; decide +kernel

/-- the negations in the toy instantiation: no witness for an accepted transfer; a fee of 1000 from a record of 100 -/
example : ∃ n : TransferNote, ∀ w, ¬ Doc.Transfer w n.pub.toV := by
  obtain ⟨pk, vk, keys⟩ : ∃ pk vk, transferPreprocess 2 2 1 = .ok (pk, vk) := ⟨_, _, rfl⟩
  obtain ⟨n, -, h⟩ := C85_transfer_false Toy.complete keys
  exact ⟨n, h⟩
example : ∃ n w, OpensMint 1 n w ∧ ¬ Doc.Mint w n.pub.toV := by
  obtain ⟨pk, vk, keys⟩ : ∃ pk vk, mintPreprocess 1 = .ok (pk, vk) := ⟨_, _, rfl⟩
  obtain ⟨n, w, h, -, -, -, h'⟩ := C85_mint_false Toy.complete keys (fee_ro := feeRec) (k := alice) rfl rfl rfl 1000
    (by decide +kernel)
  exact ⟨n, w, h, h'⟩
example : ∃ (n : FreezeNote) (w : FreezeWit) (x : FreezePub), n.pub.toV = some x ∧ n.aux_info.fee = 1000 ∧
    w.fee_ro.amount = 100 ∧ Doc.Freeze w x := by
  obtain ⟨pk, vk, keys⟩ : ∃ pk vk, freezePreprocess 3 1 = .ok (pk, vk) := ⟨_, _, rfl⟩
  obtain ⟨n, w, x, h1, -, h3, h4, h5⟩ := C85_freeze_fee_false Toy.complete keys (fee_ro := feeRec) (k := alice) rfl rfl
    rfl 1000 (by decide +kernel)
  exact ⟨n, w, x, h1, h3, by rw [h4]; decide +kernel, h5⟩

end Cap.Examples
