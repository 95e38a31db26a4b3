/-
The functions of `Model/Circuit/Build.lean` that make the variables of a circuit: the variables exist, have the given values,
are laid out in a way that depends only on sizes, and can be read back from any assignment.
-/
import Verif.Lemmas.CircuitGates
import Verif.Lemmas.CircuitSafeGates

namespace Cap.Plonk

variable [E : CapEnv]

/-! ### The variables exist -/

section safe
variable {n k : ℕ}

omit E in
theorem forall₂_right {α β : Type} {P : β → Prop} {l : List α} {m : List β} (h : List.Forall₂ (fun _ y => P y) l m) :
    (∀ y ∈ m, P y) ∧ m.length = l.length := by
  refine ⟨?_, h.length_eq.symm⟩
  induction h with
  | nil => simp
  | cons h _ ih => exact List.forall_mem_cons.2 ⟨h, ih⟩

theorem Safe.vars (l : List F) : Safe (Plonk.collect Plonk.createVariable l) n k fun r n' _ => In r n' ∧ r.length = l.length :=
  (Safe.collect (P := fun _ _ _ => True) (Q := fun _ y n _ => y < n) (fun x _ _ _ => Safe.createVariable x)
    (fun _ _ _ _ _ _ _ h => h) (fun _ _ _ _ _ _ _ _ _ => by som) l n k fun _ _ => trivial).mono
    fun _ _ _ _ _ h => forall₂_right h

theorem Safe.policyNew (p : PolicyV) : Safe (PolicyVar.new p) n k fun v n' _ => v.In n' := by
  sb (Safe.createVariable _)
  sb (Safe.createPoint _)
  sb (Safe.createPoint _)
  sb (Safe.createPoint _)
  sb (Safe.createVariable _)
  exact Safe.pure (by som)

theorem Safe.recordNew (r : RecordV) : Safe (RecordVar.new r) n k fun v n' _ => v.In n' := by
  sb (Safe.createVariable _)
  sb (Safe.createVariable _)
  sb (Safe.createPoint _)
  sb (Safe.policyNew _)
  sb (Safe.createBoolean _)
  sb (Safe.createVariable _)
  exact Safe.pure (by som)

theorem Safe.records (l : List RecordV) :
    Safe (Plonk.collect RecordVar.new l) n k fun r n' _ => (∀ v ∈ r, v.In n') ∧ r.length = l.length :=
  (Safe.collect (P := fun _ _ _ => True) (Q := fun _ y n _ => y.In n) (fun x _ _ _ => Safe.recordNew x)
    (fun _ _ _ _ _ _ _ h => h) (fun _ _ _ _ _ _ hn _ h => h.mono hn) l n k fun _ _ => trivial).mono
    fun _ _ _ _ _ h => forall₂_right h

theorem Safe.credNew (c : CredV) (h : c.attrs.length = ATTRS_LEN) : Safe (CredVar.new c) n k fun v n' k' => v.In n' k' := by
  refine Safe.bind (Safe.createVariable _) fun _ _ _ _ _ _ => Safe.bind (Safe.createSignature _) fun _ _ _ _ _ _ =>
    Safe.bind (Safe.createPoint _) fun _ _ _ _ _ _ => Safe.bind (Safe.createPoint _) fun _ _ _ _ _ _ =>
    Safe.bind (Safe.vars _) fun _ _ _ _ _ h5 => Safe.pure ⟨h5.1, ?_, ?_, ?_, ?_, h5.2.trans h⟩
  · som
  · som
  · som
  · som

abbrev NodeVar.In (v : NodeVar) (n : ℕ) : Prop := v.sibling1 < n ∧ v.sibling2 < n ∧ v.is_left < n ∧ v.is_right < n

theorem Safe.nodeNew (x : PathNode) : Safe (NodeVar.new x) n k fun v n' _ => v.In n' := by
  sb (Safe.createVariable _)
  sb (Safe.createVariable _)
  intro ps
  refine ⟨?_, le_rfl, rfl, ?_⟩
  · exact Nat.le_add_right _ _
  · dsimp only [NodeVar.In] at *
    omega

theorem Safe.accNew (c : AccV) : Safe (AccVar.new c) n k fun v n' _ => v.In n' ∧ v.path.length = c.path.length := by
  refine Safe.bind (Safe.createVariable _) fun _ _ _ _ _ h1 => Safe.bind (Safe.collect (P := fun _ _ _ => True)
    (Q := fun _ y n _ => y.In n) (fun x _ _ _ => Safe.nodeNew x) (fun _ _ _ _ _ _ _ h => h)
    (fun _ _ _ _ _ _ _ _ h => by dsimp only [NodeVar.In] at *; omega) c.path _ _ fun _ _ => trivial) fun p _ _ hn _ h2 =>
      Safe.pure ⟨⟨lt_of_lt_of_le h1 hn, fun v hv => ?_⟩, h2.length_eq.symm⟩
  obtain ⟨x, hx, hv⟩ := List.mem_flatMap.1 hv
  obtain ⟨h3, h4, h5, h6⟩ := (forall₂_right h2).1 x hx
  simp only [List.mem_cons, List.not_mem_nil, or_false] at hv
  rcases hv with rfl | rfl | rfl | rfl <;> assumption

theorem Safe.memoNew (m : MemoV) : Safe (MemoVar.new m) n k fun v n' _ => v.In n' ∧ v.symm_ctxts.length = m.data.length :=
  Safe.bind (Safe.createPoint _) fun _ _ _ _ _ h1 => Safe.bind (Safe.vars _) fun _ _ _ hn _ h2 =>
    Safe.pure ⟨⟨h1.mono hn, h2.1⟩, h2.2⟩

theorem Safe.inputNew (i : InputV) (h : i.cred.attrs.length = ATTRS_LEN) :
    Safe (InputVar.new i) n k fun v n' k' => v.In n' k' ∧ v.acc.path.length = i.acc.path.length :=
  Safe.bind (Safe.createVariable _) fun _ _ _ _ _ _ => Safe.bind (Safe.recordNew _) fun _ _ _ _ _ h2 =>
    Safe.bind (Safe.credNew _ h) fun _ _ _ _ _ h3 => Safe.bind (Safe.accNew _) fun _ _ _ hn hk h4 =>
      Safe.pure ⟨⟨by som, by som, h4.1, h3.mono hn hk⟩, h4.2⟩

/-- the lengths of the lists of a witness -/
structure TransferWitVar.Len (v : TransferWitVar) (n m d : ℕ) : Prop where
  inputs : v.inputs.length = n
  outputs : v.outputs.length = m
  path : ∀ i ∈ v.inputs, i.acc.path.length = d

theorem Safe.transferWitNew (w : TransferWit) {i o d : ℕ} (hi : w.inputs.length = i) (ho : w.outputs.length = o)
    (hd : ∀ x ∈ w.inputs, x.acc.path.length = d) (h8 : ∀ x ∈ w.inputs, x.cred.attrs.length = ATTRS_LEN) :
    Safe (TransferWitVar.new w) n k fun v n' k' => v.In n' k' ∧ v.Len i o d := by
  refine Safe.bind (Safe.createVariable _) fun _ _ _ _ _ _ => Safe.bind (Safe.policyNew _) fun _ _ _ _ _ _ => Safe.bind
    ((Safe.collect (P := fun (x : InputV) _ _ => x.acc.path.length = d ∧ x.cred.attrs.length = ATTRS_LEN)
      (Q := fun _ (y : InputVar) n k => y.In n k ∧ y.acc.path.length = d)
      (fun x _ _ hx => (Safe.inputNew x hx.2).mono fun _ _ _ _ _ h => ⟨h.1, h.2.trans hx.1⟩)
      (fun _ _ _ _ _ _ _ h => h) (fun _ _ _ _ _ _ hn hk h => ⟨h.1.mono hn hk, h.2⟩) w.inputs _ _ fun x hx =>
        ⟨hd x hx, h8 x hx⟩).mono fun _ _ _ _ _ h => forall₂_right h) fun _ _ _ _ _ h3 => Safe.bind (Safe.records _)
    fun _ _ _ hn hk h4 => Safe.bind (Safe.createVariable _) fun _ _ _ hn' hk' _ => Safe.pure
      ⟨⟨?_, ?_, fun x hx => (h3.1 x hx).1.mono (hn.trans hn') (hk.trans hk'), fun x hx => (h4.1 x hx).mono hn', ?_⟩,
        ⟨h3.2.trans hi, h4.2.trans ho, fun x hx => (h3.1 x hx).2⟩⟩
  · som
  · som
  · som

theorem Safe.mintWitNew (w : MintWit) :
    Safe (MintWitVar.new w) n k fun v n' _ => v.In n' ∧ v.acc.path.length = w.acc.path.length := by
  refine Safe.bind (Safe.recordNew _) fun _ _ _ _ _ h1 => Safe.bind (Safe.createVariable _) fun _ _ _ _ _ _ =>
    Safe.bind (Safe.recordNew _) fun _ _ _ _ _ h1 => Safe.bind (Safe.accNew _) fun _ _ _ _ _ h =>
    Safe.bind (Safe.recordNew _) fun _ _ _ _ _ h1 => Safe.bind (Safe.createVariable _) fun _ _ _ _ _ _ =>
    Safe.bind (Safe.createVariable _) fun _ _ _ _ _ _ => Safe.bind (Safe.createVariable _) fun _ _ _ _ _ _ =>
    Safe.pure ⟨⟨?_, ?_, ?_, h.1.mono ?_, ?_, ?_, ?_, ?_⟩, h.2⟩
  all_goals som

structure FreezeWitVar.Len (v : FreezeWitVar) (n d : ℕ) : Prop where
  ros : v.input_ros.length = n
  accs : v.accs.length = n
  outs : v.output_ros.length = n
  sks : v.freezing_sks.length + 1 = n
  path : ∀ c ∈ v.accs, c.path.length = d

theorem Safe.freezeWitNew (w : FreezeWit) {i d : ℕ} (hi : w.inputs.length + 1 = i) (h0 : w.fee_acc.path.length = d)
    (hd : ∀ x ∈ w.inputs, x.acc.path.length = d) :
    Safe (FreezeWitVar.new w) n k fun v n' _ => v.In n' ∧ v.Len i d := by
  refine Safe.bind (Safe.records _) fun _ _ _ _ _ h1 => Safe.bind
    ((Safe.collect (P := fun (x : AccV) _ _ => x.path.length = d) (Q := fun _ (y : AccVar) n _ => y.In n ∧ y.path.length = d)
      (fun x _ _ hx => (Safe.accNew x).mono fun _ _ _ _ _ h => ⟨h.1, h.2.trans hx⟩)
      (fun _ _ _ _ _ _ _ h => h) (fun _ _ _ _ _ _ hn _ h => ⟨h.1.mono hn, h.2⟩) (w.fee_acc :: w.inputs.map (·.acc)) _ _
        fun x hx => ?_).mono fun _ _ _ _ _ h => forall₂_right h) fun _ _ _ hn1 _ h2 => Safe.bind (Safe.records _)
    fun _ _ _ hn2 _ h3 => Safe.bind (Safe.createVariable _) fun _ _ _ hn3 _ h4 => Safe.bind (Safe.vars _) fun _ _ _ hn4 _ h5 =>
      Safe.pure ⟨⟨fun x hx => (h1.1 x hx).mono ?_, fun x hx => (h2.1 x hx).1.mono ?_, fun x hx => (h3.1 x hx).mono ?_, ?_, h5.1⟩,
        ⟨?_, ?_, ?_, ?_, fun x hx => (h2.1 x hx).2⟩⟩
  · rcases List.mem_cons.1 hx with rfl | hx
    · exact h0
    · obtain ⟨y, hy, rfl⟩ := List.mem_map.1 hx
      exact hd y hy
  all_goals first
    | som
    | exact h1.2.trans (by simpa using hi)
    | exact h2.2.trans (by simpa using hi)
    | exact h3.2.trans (by simpa using hi)
    | exact (congrArg (· + 1) h5.2).trans (by simpa using hi)

/-! ### The public variables -/

/-- As `Safe`, with the public variables. -/
def SafeP {α : Type} (m : Prog α) (n k : ℕ) (ps : List Var) (Q : α → ℕ → ℕ → List Var → Prop) : Prop :=
  Wp m ⟨n, k, ps⟩ fun x z => n ≤ z.n ∧ k ≤ z.k ∧ Q x z.n z.k z.pubs

theorem SafeP.bind {α β : Type} {m : Prog α} {f : α → Prog β} {ps : List Var} {Q : α → ℕ → ℕ → List Var → Prop}
    {R : β → ℕ → ℕ → List Var → Prop} (h : SafeP m n k ps Q)
    (hf : ∀ x n' k' ps', n ≤ n' → k ≤ k' → Q x n' k' ps' → SafeP (f x) n' k' ps' R) : SafeP (m >>= f) n k ps R :=
  Wp.bind (h.mono fun x z hz => (hf x z.n z.k z.pubs hz.1 hz.2.1 hz.2.2).mono fun _ _ hz' =>
    ⟨hz.1.trans hz'.1, hz.2.1.trans hz'.2.1, hz'.2.2⟩)

theorem SafeP.pure {α : Type} {x : α} {ps : List Var} {Q : α → ℕ → ℕ → List Var → Prop} (h : Q x n k ps) :
    SafeP (Pure.pure x) n k ps Q := ⟨le_rfl, le_rfl, h⟩

theorem Safe.pubs {α : Type} {m : Prog α} {Q : α → ℕ → ℕ → Prop} (h : Safe m n k Q) (ps : List Var) :
    SafeP m n k ps fun x n' k' ps' => ps' = ps ∧ Q x n' k' := (h ps).mono fun _ _ hz => hz

theorem SafeP.setVariablePublic {v : Var} {ps : List Var} (h : v < n) :
    SafeP (setVariablePublic v) n k ps fun _ n' _ ps' => n' = n ∧ ps' = ps ++ [v] := ⟨h, le_rfl, le_rfl, rfl, rfl⟩

theorem SafeP.createPublic (x : F) {ps : List Var} :
    SafeP (createPublic x) n k ps fun v n' _ ps' => v < n' ∧ ps' = ps ++ [v] := by
  refine SafeP.bind ((Safe.createVariable x).pubs ps) fun v n' k' ps' _ _ hv => ?_
  obtain ⟨rfl, hv⟩ := hv
  refine SafeP.bind (SafeP.setVariablePublic hv) fun _ n'' _ ps'' hn _ h => ?_
  exact SafeP.pure ⟨lt_of_lt_of_le hv hn, h.2⟩

theorem SafeP.publics : ∀ (l : List F) (n k : ℕ) (ps : List Var),
    SafeP (collect Plonk.createPublic l) n k ps fun r n' _ ps' => In r n' ∧ r.length = l.length ∧ ps' = ps ++ r
  | [], _, _, _ => SafeP.pure ⟨In.nil, rfl, by simp⟩
  | x :: l, n, k, ps => by
    refine SafeP.bind (SafeP.createPublic x) fun v n' k' ps' _ _ hv => SafeP.bind (SafeP.publics l n' k' ps')
      fun r n'' _ ps'' hn _ hr => SafeP.pure ⟨List.forall_mem_cons.2 ⟨lt_of_lt_of_le hv.1 hn, hr.1⟩, by simp [hr.2.1], ?_⟩
    rw [hr.2.2, hv.2, List.append_assoc]
    rfl

theorem SafeP.setPublics : ∀ (l : List Var) (n k : ℕ) (ps : List Var), In l n →
    SafeP (forEach Plonk.setVariablePublic l) n k ps fun _ _ _ ps' => ps' = ps ++ l
  | [], _, _, _, _ => SafeP.pure (by simp)
  | x :: l, n, k, ps, h => by
    refine SafeP.bind (SafeP.setVariablePublic (h x (by simp))) fun _ n' k' ps' hn _ hv => ?_
    obtain ⟨rfl, rfl⟩ := hv
    refine (SafeP.setPublics l n' k' (ps ++ [x]) fun v hv => h v (by simp [hv])).mono fun _ _ hz => ⟨hz.1, hz.2.1, ?_⟩
    rw [hz.2.2, List.append_assoc]
    rfl

def MemoVar.vars (v : MemoVar) : List Var := [v.ephemeral.x, v.ephemeral.y] ++ v.symm_ctxts
def PolicyVar.vars (v : PolicyVar) : List Var :=
  [v.reveal_map, v.viewer_pk.x, v.viewer_pk.y, v.cred_pk.x, v.cred_pk.y, v.freezer_pk.x, v.freezer_pk.y, v.reveal_threshold]

theorem SafeP.memoSetPublic {m : MemoVar} {ps : List Var} (h : m.In n) :
    SafeP m.setPublic n k ps fun _ _ _ ps' => ps' = ps ++ m.vars := by
  obtain ⟨h1, h2⟩ := h
  refine SafeP.bind (SafeP.setVariablePublic h1.1) fun _ n1 _ _ hn1 _ p1 => SafeP.bind (SafeP.setVariablePublic (by som))
    fun _ n2 k2 p2 hn2 _ h2' => ?_
  refine (SafeP.setPublics _ n2 k2 p2 (h2.mono (by som))).mono fun _ _ hz => ⟨hz.1, hz.2.1, ?_⟩
  rw [hz.2.2, h2'.2, p1.2]
  simp [MemoVar.vars]

theorem SafeP.policySetPublic {p : PolicyVar} {ps : List Var} (h : p.In n) :
    SafeP p.setPublic n k ps fun _ _ _ ps' => ps' = ps ++ p.vars := by
  refine SafeP.bind (SafeP.setVariablePublic (by som)) fun _ _ _ _ _ _ h1 => SafeP.bind (SafeP.setVariablePublic (by som))
    fun _ _ _ _ _ _ h2 => SafeP.bind (SafeP.setVariablePublic (by som)) fun _ _ _ _ _ _ h3 => SafeP.bind
    (SafeP.setVariablePublic (by som)) fun _ _ _ _ _ _ h4 => SafeP.bind (SafeP.setVariablePublic (by som)) fun _ _ _ _ _ _ h5 =>
    SafeP.bind (SafeP.setVariablePublic (by som)) fun _ _ _ _ _ _ h6 => SafeP.bind (SafeP.setVariablePublic (by som))
    fun _ n7 k7 _ _ _ h7 => ?_
  refine (SafeP.setVariablePublic (n := n7) (k := k7) (by som)).mono fun _ _ hz => ⟨hz.1, hz.2.1, ?_⟩
  rw [hz.2.2.2, h7.2, h6.2, h5.2, h4.2, h3.2, h2.2, h1.2]
  simp [PolicyVar.vars]

/-- the public variables of a transfer in their order -/
def TransferPubVar.vars (v : TransferPubVar) : List Var :=
  [v.root, v.native_asset_code, v.valid_until, v.fee] ++ v.nullifiers ++ v.commitments ++ v.memo.vars

structure TransferPubVar.Len (v : TransferPubVar) (i o m : ℕ) : Prop where
  nullifiers : v.nullifiers.length = i
  commitments : v.commitments.length = o
  memo : v.memo.symm_ctxts.length = m

theorem SafeP.transferPubNew (p : TransferPub) {ps : List Var} :
    SafeP (TransferPubVar.new p) n k ps fun v n' _ ps' =>
      v.In n' ∧ ps' = ps ++ v.vars ∧ v.Len p.nullifiers.length p.commitments.length p.memo.data.length := by
  refine SafeP.bind (SafeP.createPublic _) fun _ _ _ _ _ _ h1 => SafeP.bind (SafeP.createPublic _) fun _ _ _ _ _ _ h2 =>
    SafeP.bind (SafeP.createPublic _) fun _ _ _ _ _ _ h3 => SafeP.bind (SafeP.createPublic _) fun _ n4 k4 p4 _ _ h4 =>
    SafeP.bind (SafeP.publics _ n4 k4 p4) fun _ n5 k5 p5 hn5 _ h5 => SafeP.bind (SafeP.publics _ n5 k5 p5)
    fun _ n6 k6 p6 hn6 _ h6 => SafeP.bind ((Safe.memoNew _).pubs p6) fun m n7 k7 p7 hn7 _ h7 =>
    SafeP.bind (SafeP.memoSetPublic h7.2.1) fun _ n8 k8 p8 hn8 _ h8 => SafeP.pure ⟨⟨?_, ?_, ?_, ?_, h5.1.mono ?_, h6.1.mono ?_,
      h7.2.1.mono ?_⟩, ?_, ⟨h5.2.1, h6.2.1, h7.2.2⟩⟩
  · som
  · som
  · som
  · som
  · som
  · som
  · som
  · rw [h8, h7.1, h6.2.2, h5.2.2, h4.2, h3.2, h2.2, h1.2]
    simp [TransferPubVar.vars]

/-- the public variables of a mint in their order -/
def MintPubVar.vars (v : MintPubVar) : List Var :=
  [v.root, v.native_asset_code, v.input_nullifier, v.fee, v.mint_rc, v.chg_rc, v.mint_amount, v.mint_ac, v.mint_internal_ac]
    ++ v.mint_policy.vars ++ v.memo.vars

theorem SafeP.mintPubNew (p : MintPub) {ps : List Var} :
    SafeP (MintPubVar.new p) n k ps fun v n' _ ps' =>
      v.In n' ∧ ps' = ps ++ v.vars ∧ v.memo.symm_ctxts.length = p.memo.data.length := by
  refine SafeP.bind (SafeP.createPublic _) fun _ _ _ _ _ _ h1 => SafeP.bind (SafeP.createPublic _) fun _ _ _ _ _ _ h2 =>
    SafeP.bind (SafeP.createPublic _) fun _ _ _ _ _ _ h3 => SafeP.bind (SafeP.createPublic _) fun _ _ _ _ _ _ h4 =>
    SafeP.bind (SafeP.createPublic _) fun _ _ _ _ _ _ h5 => SafeP.bind (SafeP.createPublic _) fun _ _ _ _ _ _ h6 =>
    SafeP.bind (SafeP.createPublic _) fun _ _ _ _ _ _ h7 => SafeP.bind (SafeP.createPublic _) fun _ _ _ _ _ _ h8 =>
    SafeP.bind (SafeP.createPublic _) fun _ n9 k9 p9 hn9 _ h9 =>
    SafeP.bind ((Safe.policyNew _).pubs p9) fun q n10 k10 p10 hn10 _ h10 =>
    SafeP.bind (SafeP.policySetPublic h10.2) fun _ n11 k11 p11 hn11 _ h11 =>
    SafeP.bind ((Safe.memoNew _).pubs p11) fun m n12 k12 p12 hn12 _ h12 =>
    SafeP.bind (SafeP.memoSetPublic h12.2.1) fun _ n13 k13 p13 hn13 _ h13 => SafeP.pure ⟨⟨?_, ?_, ?_, ?_, ?_, h10.2.mono ?_, ?_, ?_,
      ?_, ?_, h12.2.1.mono ?_⟩, ?_, h12.2.2⟩
  · som
  · som
  · som
  · som
  · som
  · som
  · som
  · som
  · som
  · som
  · som
  · rw [h13, h12.1, h11, h10.1, h9.2, h8.2, h7.2, h6.2, h5.2, h4.2, h3.2, h2.2, h1.2]
    simp [MintPubVar.vars]

/-- the public variables of a freeze in their order -/
def FreezePubVar.vars (v : FreezePubVar) : List Var := [v.root, v.native_asset_code, v.fee] ++ v.nullifiers ++ v.commitments

theorem SafeP.freezePubNew (p : FreezePub) {ps : List Var} :
    SafeP (FreezePubVar.new p) n k ps fun v n' _ ps' =>
      v.In n' ∧ ps' = ps ++ v.vars ∧ v.nullifiers.length = p.nullifiers.length + 1 ∧
        v.commitments.length = p.commitments.length + 1 := by
  refine SafeP.bind (SafeP.createPublic _) fun _ _ _ _ _ _ h1 => SafeP.bind (SafeP.createPublic _) fun _ _ _ _ _ _ h2 =>
    SafeP.bind (SafeP.createPublic _) fun _ n4 k4 p4 _ _ h4 =>
    SafeP.bind (SafeP.publics _ n4 k4 p4) fun _ n5 k5 p5 hn5 _ h5 => SafeP.bind (SafeP.publics _ n5 k5 p5)
    fun _ n6 k6 p6 hn6 _ h6 => SafeP.pure ⟨⟨?_, ?_, ?_, h5.1.mono ?_, h6.1⟩, ?_, h5.2.1, h6.2.1⟩
  · som
  · som
  · som
  · som
  · rw [h6.2.2, h5.2.2, h4.2, h2.2, h1.2]
    simp [FreezePubVar.vars]

end safe

end Cap.Plonk
