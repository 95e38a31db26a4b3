/-
The three circuits as a whole.
-/
import Verif.Lemmas.CircuitRead

namespace Cap.Plonk

variable [E : CapEnv]

/-- Making the witness variables, the public variables and the gates, in this order. -/
def build3 {α β : Type} (mw : Prog α) (mp : Prog β) (mg : α → β → Prog Unit) : Prog (α × β) := do
  let wv ← mw
  let pv ← mp
  mg wv pv
  pure (wv, pv)

section build
variable {α β : Type} {mw : Prog α} {mp : Prog β} {mg : α → β → Prog Unit} {wv : α} {pv : β} {t : Circ}

theorem build3_run (h : (build3 mw mp mg).run Circ.init = some ((wv, pv), t)) :
    ∃ s1 s2, mw.run Circ.init = some (wv, s1) ∧ mp.run s1 = some (pv, s2) ∧ (mg wv pv).run s2 = some ((), t) := by
  obtain ⟨w, s1, h1, h⟩ := run_bind_some h
  obtain ⟨p, s2, h2, h⟩ := run_bind_some h
  obtain ⟨u, s3, h3, h⟩ := run_bind_some h
  cases h
  exact ⟨s1, s2, h1, h2, h3⟩

/-- in any assignment -/
theorem build3_den (h : (build3 mw mp mg).run Circ.init = some ((wv, pv), t)) {a : Asg} {W : α → Prop} {P : β → Prop}
    (hW : Den a mw W True) (hP : Den a mp P True) (hF : Fun a t.gates) :
    Consts a ∧ W wv ∧ P pv ∧ ∀ A, Den a (mg wv pv) (fun _ => True) A → ((∀ g ∈ t.gates, g.Holds a) ↔ A) := by
  obtain ⟨s1, s2, h1, h2, h3⟩ := build3_run h
  obtain ⟨g1, e1, f1⟩ := hW _ _ _ h1
  obtain ⟨g2, e2, f2⟩ := hP _ _ _ h2
  obtain ⟨-, -, ⟨g3, e3⟩, -⟩ := run_ext h3
  rw [← e3, e2, e1, Fun.append, Fun.append, Fun.append] at hF
  obtain ⟨⟨⟨hc, hF1⟩, hF2⟩, hF3⟩ := hF
  obtain ⟨w1, a1⟩ := f1 hF1
  obtain ⟨p1, a2⟩ := f2 hF2
  have c : Consts a := by
    have z := hc (.op (.const 0) [] [] [0]) (by simp [Circ.init]) rfl
    have o := hc (.op (.const 1) [] [] [1]) (by simp [Circ.init]) rfl
    exact ⟨by simpa [Gate.Holds, Op.eval] using z, by simpa [Gate.Holds, Op.eval] using o⟩
  refine ⟨c, w1, p1, fun A hA => ?_⟩
  obtain ⟨g3', e3', f3⟩ := hA _ _ _ h3
  rw [← e3, List.append_cancel_left_eq] at e3'
  subst e3'
  rw [← e3, e2, e1, holds_iff]
  simp only [Fun.append, Asserts.append]
  have a0 : Asserts a Circ.init.gates := by
    intro g hg hm
    simp only [Circ.init, List.mem_cons, List.not_mem_nil, or_false] at hg
    rcases hg with rfl | rfl <;> cases hm
  have := (f3 hF3).2
  tauto

/-- with the values that were given -/
theorem build3_vals (h : (build3 mw mp mg).run Circ.init = some ((wv, pv), t)) {W : Asg → α → Prop} {P : Asg → β → Prop}
    (hW : Vals mw W) (hP : Vals mp P) : Fun t.asg t.gates ∧ W t.asg wv ∧ P t.asg pv := by
  obtain ⟨s1, s2, h1, h2, h3⟩ := build3_run h
  obtain ⟨-, -, -, -, g1⟩ := run_ext h1
  obtain ⟨v2, k2, -, -, g2⟩ := run_ext h2
  obtain ⟨v3, k3, -, -, g3⟩ := run_ext h3
  refine ⟨fun g hg hm => ?_, hW _ _ _ h1 t (v2.trans v3) (k2.trans k3), hP _ _ _ h2 t v3 k3⟩
  exact (g3 (g2 (g1 Circ.init_good)) g hg).holds hm

end build

/-! ### Transfer -/

theorem transferBuild_eq {w : TransferWit} {p : TransferPub} (hi : w.inputs ≠ []) (ho : w.outputs ≠ []) :
    transferBuild w p = build3 (TransferWitVar.new w) (TransferPubVar.new p) transferGates := by
  rw [transferBuild, if_neg (by simp [hi, ho])]
  rfl

theorem transferBuild_ne {w : TransferWit} {p : TransferPub} {x : (TransferWitVar × TransferPubVar) × Circ}
    (h : (transferBuild w p).run Circ.init = some x) : w.inputs ≠ [] ∧ w.outputs ≠ [] := by
  rw [transferBuild] at h
  split at h
  · cases h
  · next hn => simpa [List.isEmpty_iff] using hn

/-- the circuit of a witness of the right size can be built -/
theorem transferBuild_ok {n m d : ℕ} {w : TransferWit} {p : TransferPub} (h : TransferShape n m d w p) (hn : 0 < n)
    (hm : 0 < m) (h8 : ∀ i ∈ w.inputs, i.cred.attrs.length = ATTRS_LEN) :
    ∃ wv pv t, (transferBuild w p).run Circ.init = some ((wv, pv), t) ∧ t.pubs = pv.vars ∧ wv.Len n m d ∧
      pv.Len n m ((n - 1) * VIEWABLE_DATA_LEN + (m - 1) * 4 + 1) := by
  have ni : w.inputs ≠ [] := by rw [← List.length_pos_iff_ne_nil, h.inputs_len]; exact hn
  have no : w.outputs ≠ [] := by rw [← List.length_pos_iff_ne_nil, h.outputs_len]; exact hm
  rw [transferBuild_eq ni no]
  have wp : SafeP (build3 (TransferWitVar.new w) (TransferPubVar.new p) transferGates) 2 0 [] fun x _ _ ps =>
      ps = x.2.vars ∧ x.1.Len n m d ∧ x.2.Len n m ((n - 1) * VIEWABLE_DATA_LEN + (m - 1) * 4 + 1) := by
    refine SafeP.bind ((Safe.transferWitNew w h.inputs_len h.outputs_len h.path_len h8).pubs []) fun wv n1 k1 p1 hn1 _ h1 =>
      SafeP.bind (SafeP.transferPubNew p) fun pv n2 k2 p2 hn2 hk2 h2 => ?_
    obtain ⟨i1, c1, l1⟩ := h1
    obtain ⟨i2, c2, l2⟩ := h2
    rw [h.nullifiers_len, h.commitments_len, h.memo_len] at l2
    refine SafeP.bind ((Safe.transferGates (c1.mono hn2 hk2) i2 (by omega) ?_ ?_ ?_).pubs p2) fun _ n3 k3 p3 _ _ h3 =>
      SafeP.pure ⟨by rw [h3.1, c2, i1]; rfl, l1, l2⟩
    · rw [← List.length_pos_iff_ne_nil, l1.inputs]; exact hn
    · rw [← List.length_pos_iff_ne_nil, l1.outputs]; exact hm
    · rw [l2.memo, List.length_tail, List.length_tail, l1.inputs, l1.outputs, ASSET_TRACING_MAP_LEN]
      omega
  obtain ⟨x, t, hr, hq⟩ := Wp.run (s := Circ.init) wp
  exact ⟨x.1, x.2, t, hr, hq.2.2.1, hq.2.2.2.1, hq.2.2.2.2⟩

/-- the calls depend only on the sizes -/
theorem transferBuild_same {n m d : ℕ} {w w' : TransferWit} {p p' : TransferPub} (h : TransferShape n m d w p)
    (h' : TransferShape n m d w' p') (h8 : ∀ i ∈ w.inputs, i.cred.attrs.length = ATTRS_LEN)
    (h8' : ∀ i ∈ w'.inputs, i.cred.attrs.length = ATTRS_LEN) : Same (transferBuild w p) (transferBuild w' p') := by
  have ei : w'.inputs.isEmpty = w.inputs.isEmpty := by
    rw [Bool.eq_iff_iff, List.isEmpty_iff_length_eq_zero, List.isEmpty_iff_length_eq_zero, h.inputs_len, h'.inputs_len]
  have eo : w'.outputs.isEmpty = w.outputs.isEmpty := by
    rw [Bool.eq_iff_iff, List.isEmpty_iff_length_eq_zero, List.isEmpty_iff_length_eq_zero, h.outputs_len, h'.outputs_len]
  rw [transferBuild, transferBuild, ei, eo]
  split
  · exact Same.refl _
  · exact (Same.transferWitNew (h.inputs_len.trans h'.inputs_len.symm) (h.outputs_len.trans h'.outputs_len.symm)
      fun x hx y hy => ⟨(h.path_len x hx).trans (h'.path_len y hy).symm, (h8 x hx).trans (h8' y hy).symm⟩).bind fun _ =>
      (Same.transferPubNew (h.nullifiers_len.trans h'.nullifiers_len.symm) (h.commitments_len.trans h'.commitments_len.symm)
        (h.memo_len.trans h'.memo_len.symm)).bind fun _ => Same.refl _

/-- with the given values, the gates hold exactly if the relation does -/
theorem transferBuild_sat {w : TransferWit} {p : TransferPub} {wv : TransferWitVar} {pv : TransferPubVar} {t : Circ}
    (h : (transferBuild w p).run Circ.init = some ((wv, pv), t)) :
    ((∀ g ∈ t.gates, g.Holds t.asg) ↔ TransferSat w p) ∧ pv.vars.map t.asg.f = p.toScalars := by
  have ne := transferBuild_ne h
  rw [transferBuild_eq ne.1 ne.2] at h
  obtain ⟨hF, hw, hp⟩ := build3_vals h (Vals.transferWitNew w) (Vals.transferPubNew p)
  obtain ⟨hc, -, -, hA⟩ := build3_den h (Den.transferWitNew w) (Den.transferPubNew p) hF
  exact ⟨hA _ (Den.transferGates hc hw hp), hp.pub⟩

/-- an assignment for which the gates hold is one of the relation -/
theorem transferBuild_read {w : TransferWit} {p : TransferPub} {wv : TransferWitVar} {pv : TransferPubVar} {t : Circ}
    (h : (transferBuild w p).run Circ.init = some ((wv, pv), t)) {a : Asg} (ha : ∀ g ∈ t.gates, g.Holds a) :
    TransferSat (wv.read a) (pv.read a) ∧ pv.vars.map a.f = (pv.read a).toScalars := by
  have ne := transferBuild_ne h
  rw [transferBuild_eq ne.1 ne.2] at h
  obtain ⟨hc, hw, -, hA⟩ := build3_den h (Den.transferWitNew w) (Den.transferPubNew p) fun g hg _ => ha g hg
  have hr := pv.reads (a := a)
  exact ⟨(hA _ (Den.transferGates hc (TransferWitVar.reads hw.1 hw.2) hr)).1 ha, hr.pub⟩

theorem transferRead_shape {n m d : ℕ} {wv : TransferWitVar} {pv : TransferPubVar} {a : Asg} (hw : wv.Len n m d)
    (hp : pv.Len n m ((n - 1) * VIEWABLE_DATA_LEN + (m - 1) * 4 + 1)) : TransferShape n m d (wv.read a) (pv.read a) := by
  refine ⟨?_, ?_, ?_, ?_, ?_, ?_⟩
  · simpa [TransferWitVar.read] using hw.inputs
  · simpa [TransferWitVar.read] using hw.outputs
  · simpa [TransferPubVar.read] using hp.nullifiers
  · simpa [TransferPubVar.read] using hp.commitments
  · intro i hi
    obtain ⟨v, hv, rfl⟩ := List.mem_map.1 hi
    exact (pathOf_length _).trans (hw.path v hv)
  · simpa [TransferPubVar.read, MemoVar.read] using hp.memo

omit E in
theorem allPos_left {α β : Type} {P : Bool → α → β → Prop} {R : α → Prop} (hP : ∀ b x y, P b x y → R x) :
    ∀ (b : Bool) (l : List α) (m : List β), l.length = m.length → AllPos P b l m → ∀ x ∈ l, R x
  | _, [], _, _, _, x, hx => absurd hx List.not_mem_nil
  | b, y :: l, z :: m, hl, h, x, hx => by
    rcases List.mem_cons.1 hx with rfl | hx
    · exact hP _ _ _ h.1
    · exact allPos_left hP false l m (by simpa using hl) h.2 x hx

/-- a satisfied transfer has credentials of the right length, and inputs and outputs -/
theorem transferSat_wf {n m d : ℕ} {w : TransferWit} {p : TransferPub} (hs : TransferShape n m d w p) (h : TransferSat w p) :
    0 < n ∧ 0 < m ∧ ∀ i ∈ w.inputs, i.cred.attrs.length = ATTRS_LEN := by
  refine ⟨?_, ?_, allPos_left (fun _ _ _ h => h.2.2.2.2.2.2.1) _ _ _ (hs.inputs_len.trans hs.nullifiers_len.symm) h.inputs⟩
  · rw [← hs.inputs_len]
    have := h.balance
    rw [BalanceOk] at this
    split at this
    · next e _ => rw [e]; simp
    · exact this.elim
  · rw [← hs.outputs_len]
    have := h.balance
    rw [BalanceOk] at this
    split at this
    · next _ e => rw [e]; simp
    · exact this.elim

/-! ### Mint -/

theorem mintBuild_ok {d : ℕ} {w : MintWit} {p : MintPub} (h : MintShape d w p) :
    ∃ wv pv t, (mintBuild w p).run Circ.init = some ((wv, pv), t) ∧ t.pubs = pv.vars ∧ wv.acc.path.length = d ∧
      pv.memo.symm_ctxts.length = 3 := by
  have wp : SafeP (mintBuild w p) 2 0 [] fun x _ _ ps =>
      ps = x.2.vars ∧ x.1.acc.path.length = d ∧ x.2.memo.symm_ctxts.length = 3 := by
    refine SafeP.bind ((Safe.mintWitNew w).pubs []) fun wv n1 k1 p1 hn1 _ h1 =>
      SafeP.bind (SafeP.mintPubNew p) fun pv n2 k2 p2 hn2 hk2 h2 => ?_
    obtain ⟨i1, c1, l1⟩ := h1
    obtain ⟨i2, c2, l2⟩ := h2
    rw [h.memo_len] at l2
    rw [h.path_len] at l1
    refine SafeP.bind ((Safe.mintGates ?_ i2 (by omega) l2).pubs p2) fun _ n3 k3 p3 _ _ h3 =>
      SafeP.pure ⟨by rw [h3.1, c2, i1]; rfl, l1, l2⟩
    obtain ⟨w1, w2, w3, w4, w5, w6, w7, w8⟩ := c1
    exact ⟨w1.mono hn2, lt_of_lt_of_le w2 hn2, w3.mono hn2, w4.mono hn2, w5.mono hn2, lt_of_lt_of_le w6 hn2,
      lt_of_lt_of_le w7 hn2, lt_of_lt_of_le w8 hn2⟩
  obtain ⟨x, t, hr, hq⟩ := Wp.run (s := Circ.init) wp
  exact ⟨x.1, x.2, t, hr, hq.2.2.1, hq.2.2.2.1, hq.2.2.2.2⟩

theorem mintBuild_same {d : ℕ} {w w' : MintWit} {p p' : MintPub} (h : MintShape d w p) (h' : MintShape d w' p') :
    Same (mintBuild w p) (mintBuild w' p') :=
  (Same.mintWitNew (h.path_len.trans h'.path_len.symm)).bind fun _ =>
    (Same.mintPubNew (h.memo_len.trans h'.memo_len.symm)).bind fun _ => Same.refl _

theorem mintBuild_sat {w : MintWit} {p : MintPub} {wv : MintWitVar} {pv : MintPubVar} {t : Circ}
    (h : (mintBuild w p).run Circ.init = some ((wv, pv), t)) :
    ((∀ g ∈ t.gates, g.Holds t.asg) ↔ MintSat w p) ∧ pv.vars.map t.asg.f = p.toScalars := by
  change (build3 (MintWitVar.new w) (MintPubVar.new p) mintGates).run _ = _ at h
  obtain ⟨hF, hw, hp⟩ := build3_vals h (Vals.mintWitNew w) (Vals.mintPubNew p)
  obtain ⟨hc, -, -, hA⟩ := build3_den h (Den.mintWitNew w) (Den.mintPubNew p) hF
  exact ⟨hA _ (Den.mintGates hc hw hp), hp.pub⟩

theorem mintBuild_read {w : MintWit} {p : MintPub} {wv : MintWitVar} {pv : MintPubVar} {t : Circ}
    (h : (mintBuild w p).run Circ.init = some ((wv, pv), t)) {a : Asg} (ha : ∀ g ∈ t.gates, g.Holds a) :
    MintSat (wv.read a) (pv.read a) ∧ pv.vars.map a.f = (pv.read a).toScalars := by
  change (build3 (MintWitVar.new w) (MintPubVar.new p) mintGates).run _ = _ at h
  obtain ⟨hc, hw, -, hA⟩ := build3_den h (Den.mintWitNew w) (Den.mintPubNew p) fun g hg _ => ha g hg
  have hr := pv.reads (a := a)
  exact ⟨(hA _ (Den.mintGates hc (MintWitVar.reads hw.1 hw.2.1 hw.2.2) hr)).1 ha, hr.pub⟩

theorem mintRead_shape {d : ℕ} {wv : MintWitVar} {pv : MintPubVar} {a : Asg} (hw : wv.acc.path.length = d)
    (hp : pv.memo.symm_ctxts.length = 3) : MintShape d (wv.read a) (pv.read a) :=
  ⟨(pathOf_length _).trans hw, by simpa [MintPubVar.read, MemoVar.read] using hp⟩

/-! ### Freeze -/

theorem freezeBuild_ok {n d : ℕ} {w : FreezeWit} {p : FreezePub} (h : FreezeShape n d w p) :
    ∃ wv pv t, (freezeBuild w p).run Circ.init = some ((wv, pv), t) ∧ t.pubs = pv.vars ∧ wv.Len n d ∧
      pv.nullifiers.length = n ∧ pv.commitments.length = n := by
  have hn : 0 < n := by have := h.inputs_len; omega
  have wp : SafeP (freezeBuild w p) 2 0 [] fun x _ _ ps =>
      ps = x.2.vars ∧ x.1.Len n d ∧ x.2.nullifiers.length = n ∧ x.2.commitments.length = n := by
    refine SafeP.bind ((Safe.freezeWitNew w h.inputs_len h.fee_path_len h.path_len).pubs []) fun wv n1 k1 p1 hn1 _ h1 =>
      SafeP.bind (SafeP.freezePubNew p) fun pv n2 k2 p2 hn2 hk2 h2 => ?_
    obtain ⟨i1, c1, l1⟩ := h1
    obtain ⟨i2, c2, l2, l3⟩ := h2
    rw [h.nullifiers_len] at l2
    rw [h.commitments_len] at l3
    refine SafeP.bind ((Safe.freezeGates ?_ i2 (by omega) ?_ ?_ ?_ ?_).pubs p2) fun _ n3 k3 p3 _ _ h3 =>
      SafeP.pure ⟨by rw [h3.1, c2, i1]; rfl, l1, l2, l3⟩
    · obtain ⟨w1, w2, w3, w4, w5⟩ := c1
      exact ⟨fun r hr => (w1 r hr).mono hn2, fun r hr => (w2 r hr).mono hn2, fun r hr => (w3 r hr).mono hn2,
        lt_of_lt_of_le w4 hn2, w5.mono hn2⟩
    · rw [← List.length_pos_iff_ne_nil, l1.ros]; exact hn
    · rw [← List.length_pos_iff_ne_nil, l1.accs]; exact hn
    · rw [← List.length_pos_iff_ne_nil, l1.outs]; exact hn
    · rw [← List.length_pos_iff_ne_nil, l2]; exact hn
  obtain ⟨x, t, hr, hq⟩ := Wp.run (s := Circ.init) wp
  exact ⟨x.1, x.2, t, hr, hq.2.2.1, hq.2.2.2.1, hq.2.2.2.2.1, hq.2.2.2.2.2⟩

theorem freezeBuild_same {n d : ℕ} {w w' : FreezeWit} {p p' : FreezePub} (h : FreezeShape n d w p) (h' : FreezeShape n d w' p') :
    Same (freezeBuild w p) (freezeBuild w' p') := by
  have h1 := h.inputs_len
  have h1' := h'.inputs_len
  have h2 := h.nullifiers_len
  have h2' := h'.nullifiers_len
  have h3 := h.commitments_len
  have h3' := h'.commitments_len
  exact (Same.freezeWitNew (by omega) (h.fee_path_len.trans h'.fee_path_len.symm)
    (fun x hx => (h.path_len x hx).trans h.fee_path_len.symm)
    fun x hx => (h'.path_len x hx).trans h'.fee_path_len.symm).bind fun _ =>
    (Same.freezePubNew (by omega) (by omega)).bind fun _ => Same.refl _

theorem freezeBuild_sat {w : FreezeWit} {p : FreezePub} {wv : FreezeWitVar} {pv : FreezePubVar} {t : Circ}
    (h : (freezeBuild w p).run Circ.init = some ((wv, pv), t)) :
    ((∀ g ∈ t.gates, g.Holds t.asg) ↔ FreezeSat w p) ∧ pv.vars.map t.asg.f = p.toScalars := by
  change (build3 (FreezeWitVar.new w) (FreezePubVar.new p) freezeGates).run _ = _ at h
  obtain ⟨hF, hw, hp⟩ := build3_vals h (Vals.freezeWitNew w) (Vals.freezePubNew p)
  obtain ⟨hc, -, -, hA⟩ := build3_den h (Den.freezeWitNew w) (Den.freezePubNew p) hF
  exact ⟨hA _ (Den.freezeGates hc hw hp), hp.pub⟩

theorem freezeBuild_read {n d : ℕ} {w : FreezeWit} {p : FreezePub} {wv : FreezeWitVar} {pv : FreezePubVar} {t : Circ}
    (h : (freezeBuild w p).run Circ.init = some ((wv, pv), t)) (hn : 0 < n) (hl : wv.Len n d) (h2 : pv.nullifiers.length = n)
    (h3 : pv.commitments.length = n) {a : Asg} (ha : ∀ g ∈ t.gates, g.Holds a) :
    ∃ w' p', FreezeShape n d w' p' ∧ FreezeSat w' p' ∧ pv.vars.map a.f = p'.toScalars := by
  change (build3 (FreezeWitVar.new w) (FreezePubVar.new p) freezeGates).run _ = _ at h
  obtain ⟨hc, hw, -, hA⟩ := build3_den h (Den.freezeWitNew w) (Den.freezePubNew p) fun g hg _ => ha g hg
  obtain ⟨w', hw', l1, l2, l3⟩ := freezeWit_exists hl hn hw.1 hw.2
  obtain ⟨p', hp', l4, l5⟩ := freezePub_exists (a := a) (v := pv) (n := n - 1) (m := n - 1) (by omega) (by omega)
  exact ⟨w', p', ⟨l1, by omega, by omega, l2, l3⟩, (hA _ (Den.freezeGates hc hw' hp')).1 ha, hp'.pub⟩

end Cap.Plonk
