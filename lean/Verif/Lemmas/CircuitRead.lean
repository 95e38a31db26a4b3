/-
The variables made by the `new` functions: what they read in any assignment, their honest values, and that which calls are
made depends only on sizes.
-/
import Verif.Lemmas.CircuitNew

namespace Cap.Plonk

variable [E : CapEnv]

/-! ### No gate is an assertion, and flags are Boolean -/

section den
variable {a : Asg}

theorem Den.step {α β : Type} {m : Prog α} {f : α → Prog β} {Q : α → Prop} {R : β → Prop}
    (h : Den a m Q True) (hf : ∀ x, Q x → Den a (f x) R True) : Den a (m >>= f) R True := (h.bind hf).iff (by simp)

theorem Den.createPoint (c : PtV) : Den a (createPoint c) (fun _ => True) True :=
  (Den.createVariable (Q := fun _ => True) _ (fun _ => trivial)).step fun _ _ =>
    (Den.createVariable (Q := fun _ => True) _ (fun _ => trivial)).step fun _ _ => Den.pure trivial

theorem Den.var (v : F) : Den a (Plonk.createVariable v) (fun _ => True) True := Den.createVariable _ fun _ => trivial

theorem Den.createPublic (v : F) : Den a (createPublic v) (fun _ => True) True :=
  (Den.var v).step fun _ _ => (Den.setVariablePublic _).step fun _ _ => Den.pure trivial

theorem Den.vars (l : List F) : Den a (Plonk.collect Plonk.createVariable l) (fun _ => True) True :=
  (Den.collect (Q := fun _ _ => True) fun x _ => Den.var x).post fun _ _ => trivial

theorem Den.publics (l : List F) : Den a (Plonk.collect Plonk.createPublic l) (fun _ => True) True :=
  (Den.collect (Q := fun _ _ => True) fun x _ => Den.createPublic x).post fun _ _ => trivial

theorem Den.setPublics (l : List Var) : Den a (Plonk.forEach Plonk.setVariablePublic l) (fun _ => True) True :=
  (Den.forEach (A := fun _ => True) fun x _ => Den.setVariablePublic x).iff (by simp)

theorem Den.policyNew (p : PolicyV) : Den a (PolicyVar.new p) (fun _ => True) True :=
  (Den.var _).step fun _ _ => (Den.createPoint _).step fun _ _ => (Den.createPoint _).step fun _ _ =>
    (Den.createPoint _).step fun _ _ => (Den.var _).step fun _ _ => Den.pure trivial

/-- the flag of a record is a Boolean -/
def RecordVar.Flag (a : Asg) (v : RecordVar) : Prop := a.f v.freeze_flag.v = 0 ∨ a.f v.freeze_flag.v = 1

theorem Den.recordNew (r : RecordV) : Den a (RecordVar.new r) (RecordVar.Flag a) True :=
  (Den.var _).step fun _ _ => (Den.var _).step fun _ _ => (Den.createPoint _).step fun _ _ =>
    (Den.policyNew _).step fun _ _ => (Den.createBoolean _).step fun _ h => (Den.var _).step fun _ _ => Den.pure h

theorem Den.records (l : List RecordV) : Den a (Plonk.collect RecordVar.new l) (fun r => ∀ v ∈ r, v.Flag a) True :=
  (Den.collect (Q := fun _ v => RecordVar.Flag a v) fun x _ => Den.recordNew x).post fun _ h => (forall₂_right h).1

theorem Den.credNew (c : CredV) : Den a (CredVar.new c) (fun _ => True) True :=
  (Den.var _).step fun _ _ => (Den.createSignature (Q := fun _ => True) _ fun _ => trivial).step fun _ _ =>
    (Den.createPoint _).step fun _ _ => (Den.createPoint _).step fun _ _ => (Den.vars _).step fun _ _ => Den.pure trivial

theorem Den.nodeNew (x : PathNode) : Den a (NodeVar.new x) (fun _ => True) True :=
  (Den.var _).step fun _ _ => (Den.var _).step fun _ _ => (Den.newPos _ _).post fun _ _ => trivial

theorem Den.accNew (c : AccV) : Den a (AccVar.new c) (fun _ => True) True :=
  (Den.var _).step fun _ _ => (Den.collect (Q := fun _ _ => True) fun x _ => Den.nodeNew x).step fun _ _ => Den.pure trivial

theorem Den.memoNew (m : MemoV) : Den a (MemoVar.new m) (fun _ => True) True :=
  (Den.createPoint _).step fun _ _ => (Den.vars _).step fun _ _ => Den.pure trivial

theorem Den.memoSetPublic (m : MemoVar) : Den a m.setPublic (fun _ => True) True :=
  (Den.setVariablePublic _).step fun _ _ => (Den.setVariablePublic _).step fun _ _ => Den.setPublics _

theorem Den.policySetPublic (p : PolicyVar) : Den a p.setPublic (fun _ => True) True :=
  (Den.setVariablePublic _).step fun _ _ => (Den.setVariablePublic _).step fun _ _ => (Den.setVariablePublic _).step fun _ _ =>
    (Den.setVariablePublic _).step fun _ _ => (Den.setVariablePublic _).step fun _ _ => (Den.setVariablePublic _).step fun _ _ =>
    (Den.setVariablePublic _).step fun _ _ => Den.setVariablePublic _

theorem Den.inputNew (i : InputV) : Den a (InputVar.new i) (fun v => v.ro.Flag a) True :=
  (Den.var _).step fun _ _ => (Den.recordNew _).step fun _ h => (Den.credNew _).step fun _ _ => (Den.accNew _).step fun _ _ =>
    Den.pure h

theorem Den.transferWitNew (w : TransferWit) :
    Den a (TransferWitVar.new w) (fun v => (∀ i ∈ v.inputs, i.ro.Flag a) ∧ ∀ o ∈ v.outputs, o.Flag a) True :=
  (Den.var _).step fun _ _ => (Den.policyNew _).step fun _ _ => (Den.collect (Q := fun _ v => InputVar.ro v |>.Flag a)
    fun x _ => Den.inputNew x).step fun _ h1 => (Den.records _).step fun _ h2 => (Den.var _).step fun _ _ =>
      Den.pure ⟨(forall₂_right h1).1, h2⟩

theorem Den.transferPubNew (p : TransferPub) : Den a (TransferPubVar.new p) (fun _ => True) True :=
  (Den.createPublic _).step fun _ _ => (Den.createPublic _).step fun _ _ => (Den.createPublic _).step fun _ _ =>
    (Den.createPublic _).step fun _ _ => (Den.publics _).step fun _ _ => (Den.publics _).step fun _ _ =>
    (Den.memoNew _).step fun _ _ => (Den.memoSetPublic _).step fun _ _ => Den.pure trivial

theorem Den.mintWitNew (w : MintWit) :
    Den a (MintWitVar.new w) (fun v => v.mint_ro.Flag a ∧ v.fee_ro.Flag a ∧ v.chg_ro.Flag a) True :=
  (Den.recordNew _).step fun _ h1 => (Den.var _).step fun _ _ => (Den.recordNew _).step fun _ h2 =>
    (Den.accNew _).step fun _ _ => (Den.recordNew _).step fun _ h3 => (Den.var _).step fun _ _ => (Den.var _).step fun _ _ =>
    (Den.var _).step fun _ _ => Den.pure ⟨h1, h2, h3⟩

theorem Den.mintPubNew (p : MintPub) : Den a (MintPubVar.new p) (fun _ => True) True :=
  (Den.createPublic _).step fun _ _ => (Den.createPublic _).step fun _ _ => (Den.createPublic _).step fun _ _ =>
    (Den.createPublic _).step fun _ _ => (Den.createPublic _).step fun _ _ => (Den.createPublic _).step fun _ _ =>
    (Den.createPublic _).step fun _ _ => (Den.createPublic _).step fun _ _ => (Den.createPublic _).step fun _ _ =>
    (Den.policyNew _).step fun _ _ => (Den.policySetPublic _).step fun _ _ => (Den.memoNew _).step fun _ _ =>
    (Den.memoSetPublic _).step fun _ _ => Den.pure trivial

theorem Den.freezeWitNew (w : FreezeWit) :
    Den a (FreezeWitVar.new w) (fun v => (∀ r ∈ v.input_ros, r.Flag a) ∧ ∀ r ∈ v.output_ros, r.Flag a) True :=
  (Den.records _).step fun _ h1 => (Den.collect (Q := fun _ _ => True) fun x _ => Den.accNew x).step fun _ _ =>
    (Den.records _).step fun _ h2 => (Den.var _).step fun _ _ => (Den.vars _).step fun _ _ => Den.pure ⟨h1, h2⟩

theorem Den.freezePubNew (p : FreezePub) : Den a (FreezePubVar.new p) (fun _ => True) True :=
  (Den.createPublic _).step fun _ _ => (Den.createPublic _).step fun _ _ => (Den.createPublic _).step fun _ _ =>
    (Den.publics _).step fun _ _ => (Den.publics _).step fun _ _ => Den.pure trivial

end den

/-! ### Reading an assignment back -/

section read
variable (a : Asg)

def PVar.read (P : PVar) : PtV := (a.f P.x, a.f P.y)
def PolicyVar.read (v : PolicyVar) : PolicyV :=
  ⟨v.viewer_pk.read a, v.cred_pk.read a, v.freezer_pk.read a, a.f v.reveal_map, a.f v.reveal_threshold⟩
def RecordVar.read (v : RecordVar) : RecordV :=
  ⟨a.f v.amount, a.f v.asset_code, v.owner_addr.read a, v.policy.read a, decide (a.f v.freeze_flag.v = 1), a.f v.blind⟩
def CredVar.read (v : CredVar) : CredV :=
  ⟨v.attrs.map a.f, a.f v.expiry, a.s v.cred, v.user_addr.read a, v.creator_pk.read a⟩
def AccVar.read (v : AccVar) : AccV := ⟨a.f v.uid, pathOf ((pathVars v.path).map a.f)⟩
def MemoVar.read (v : MemoVar) : MemoV := ⟨v.ephemeral.read a, v.symm_ctxts.map a.f⟩
def InputVar.read (v : InputVar) : InputV := ⟨a.f v.addr_secret, v.ro.read a, v.acc.read a, v.cred.read a⟩
def TransferWitVar.read (v : TransferWitVar) : TransferWit :=
  ⟨a.f v.asset_code, v.policy.read a, v.inputs.map (·.read a), v.outputs.map (·.read a), a.f v.enc_rand⟩
def TransferPubVar.read (v : TransferPubVar) : TransferPub :=
  ⟨a.f v.root, a.f v.native_asset_code, a.f v.valid_until, a.f v.fee, v.nullifiers.map a.f, v.commitments.map a.f, v.memo.read a⟩
def MintWitVar.read (v : MintWitVar) : MintWit :=
  ⟨v.mint_ro.read a, a.f v.creator_sk, v.fee_ro.read a, v.acc.read a, v.chg_ro.read a, a.f v.ac_seed, a.f v.ac_digest,
    a.f v.enc_rand⟩
def MintPubVar.read (v : MintPubVar) : MintPub :=
  ⟨a.f v.root, a.f v.native_asset_code, a.f v.input_nullifier, a.f v.fee, a.f v.mint_rc, a.f v.chg_rc, a.f v.mint_amount,
    a.f v.mint_ac, a.f v.mint_internal_ac, v.mint_policy.read a, v.memo.read a⟩

variable {a}

theorem PVar.reads (P : PVar) : RP a P (P.read a) := rfl
theorem PolicyVar.reads (v : PolicyVar) : PolicyReads a v (v.read a) := ⟨rfl, rfl, rfl, rfl, rfl⟩
theorem RecordVar.Flag.reads {v : RecordVar} (h : v.Flag a) : RecordReads a v (v.read a) := by
  refine ⟨rfl, rfl, rfl, v.policy.reads, ?_, rfl⟩
  show a.f v.freeze_flag.v = boolF (decide (a.f v.freeze_flag.v = 1))
  rcases h with h | h
  · rw [h]; simp [boolF, one_ne_zero_F.symm]
  · rw [h]; simp [boolF]
theorem CredVar.reads (v : CredVar) : CredReads a v (v.read a) := ⟨rfl, rfl, rfl, rfl, rfl⟩
theorem AccVar.reads (v : AccVar) : AccReads a v (v.read a) := ⟨rfl, rfl⟩
theorem MemoVar.reads (v : MemoVar) : MemoReads a v (v.read a) := ⟨rfl, rfl⟩
theorem InputVar.reads {v : InputVar} (h : v.ro.Flag a) : InputReads a v (v.read a) := ⟨rfl, h.reads, v.acc.reads, v.cred.reads⟩

omit E in
theorem forall₂_map_self {α β : Type} {P : α → β → Prop} {f : α → β} : ∀ {l : List α}, (∀ x ∈ l, P x (f x)) →
    List.Forall₂ P l (l.map f)
  | [], _ => .nil
  | x :: l, h => .cons (h x (by simp)) (forall₂_map_self fun y hy => h y (by simp [hy]))

theorem TransferWitVar.reads {v : TransferWitVar} (hi : ∀ i ∈ v.inputs, i.ro.Flag a) (ho : ∀ o ∈ v.outputs, o.Flag a) :
    TransferWitReads a v (v.read a) :=
  ⟨rfl, v.policy.reads, forall₂_map_self fun i h => InputVar.reads (hi i h), forall₂_map_self fun o h => (ho o h).reads, rfl⟩
theorem TransferPubVar.reads (v : TransferPubVar) : TransferPubReads a v (v.read a) :=
  ⟨rfl, rfl, rfl, rfl, rfl, rfl, v.memo.reads⟩
theorem MintWitVar.reads {v : MintWitVar} (h1 : v.mint_ro.Flag a) (h2 : v.fee_ro.Flag a) (h3 : v.chg_ro.Flag a) :
    MintWitReads a v (v.read a) := ⟨h1.reads, rfl, h2.reads, v.acc.reads, h3.reads, rfl, rfl, rfl⟩
theorem MintPubVar.reads (v : MintPubVar) : MintPubReads a v (v.read a) :=
  ⟨rfl, rfl, rfl, rfl, rfl, rfl, rfl, rfl, rfl, v.mint_policy.reads, v.memo.reads⟩

theorem pathOf_length : ∀ l : List NodeVar, (pathOf ((pathVars l).map a.f)).length = l.length
  | [] => rfl
  | x :: l => congrArg (· + 1) (pathOf_length l)

theorem freezeInputs_exist : ∀ (rs : List RecordVar) (cs : List AccVar) (ss : List Var) (os : List RecordVar),
    cs.length = rs.length → ss.length = rs.length → os.length = rs.length → (∀ r ∈ rs, r.Flag a) → (∀ r ∈ os, r.Flag a) →
    ∃ l : List FreezeInputV, List.Forall₂ (RecordReads a) rs (l.map (·.ro)) ∧ List.Forall₂ (AccReads a) cs (l.map (·.acc)) ∧
      ss.map a.f = l.map (·.sk) ∧ List.Forall₂ (RecordReads a) os (l.map (·.out)) ∧ l.length = rs.length
  | [], [], [], [], _, _, _, _, _ => ⟨[], .nil, .nil, rfl, .nil, rfl⟩
  | r :: rs, c :: cs, s :: ss, o :: os, h1, h2, h3, h4, h5 => by
    obtain ⟨l, l1, l2, l3, l4, l5⟩ := freezeInputs_exist rs cs ss os (by simpa using h1) (by simpa using h2) (by simpa using h3)
      (fun x hx => h4 x (by simp [hx])) fun x hx => h5 x (by simp [hx])
    exact ⟨⟨r.read a, c.read a, a.f s, o.read a⟩ :: l, .cons (h4 r (by simp)).reads l1, .cons c.reads l2,
      by simpa using l3, .cons (h5 o (by simp)).reads l4, by simpa using l5⟩

theorem freezeWit_exists {v : FreezeWitVar} {n d : ℕ} (hl : v.Len n d) (hn : 0 < n) (h1 : ∀ r ∈ v.input_ros, r.Flag a)
    (h2 : ∀ r ∈ v.output_ros, r.Flag a) : ∃ w, FreezeWitReads a v w ∧ w.inputs.length + 1 = n ∧ w.fee_acc.path.length = d ∧
      ∀ i ∈ w.inputs, i.acc.path.length = d := by
  obtain ⟨rs, cs, os, sk, ss⟩ := v
  obtain ⟨l1, l2, l3, l4, l5⟩ := hl
  dsimp only at *
  obtain ⟨r, rs, rfl⟩ := List.exists_cons_of_length_pos (by omega : 0 < rs.length)
  obtain ⟨c, cs, rfl⟩ := List.exists_cons_of_length_pos (by omega : 0 < cs.length)
  obtain ⟨o, os, rfl⟩ := List.exists_cons_of_length_pos (by omega : 0 < os.length)
  simp only [List.length_cons] at l1 l2 l3
  obtain ⟨l, e1, e2, e3, e4, e5⟩ := freezeInputs_exist rs cs ss os (by omega) (by omega) (by omega)
    (fun x hx => h1 x (by simp [hx])) fun x hx => h2 x (by simp [hx])
  have len : ∀ c : AccVar, (c.read a).path.length = c.path.length := fun c => pathOf_length _
  refine ⟨⟨r.read a, c.read a, a.f sk, o.read a, l⟩, ⟨.cons (h1 r (by simp)).reads e1, .cons c.reads e2,
    .cons (h2 o (by simp)).reads e4, rfl, e3⟩, by simp only; omega, (len c).trans (l5 c (by simp)), fun i hi => ?_⟩
  have : i.acc ∈ l.map (·.acc) := List.mem_map_of_mem hi
  obtain ⟨j, hj, e⟩ := List.mem_iff_getElem.1 this
  have hj' : j < cs.length := by rw [e2.length_eq]; exact hj
  have := (List.forall₂_iff_get.1 e2).2 j hj' hj
  rw [← e, ← l5 (cs.get ⟨j, hj'⟩) (by simp)]
  have hp : pathOf _ = _ := this.path
  rw [List.get_eq_getElem] at hp
  rw [List.get_eq_getElem] at hp
  rw [← hp, pathOf_length]
  rfl

theorem freezePub_exists {v : FreezePubVar} {n m : ℕ} (h1 : v.nullifiers.length = n + 1) (h2 : v.commitments.length = m + 1) :
    ∃ p, FreezePubReads a v p ∧ p.nullifiers.length = n ∧ p.commitments.length = m := by
  obtain ⟨r, c, f, nl, rc⟩ := v
  dsimp only at *
  obtain ⟨x, nl, rfl⟩ := List.exists_cons_of_length_eq_add_one h1
  obtain ⟨y, rc, rfl⟩ := List.exists_cons_of_length_eq_add_one h2
  exact ⟨⟨a.f r, a.f c, a.f f, a.f x, nl.map a.f, a.f y, rc.map a.f⟩, ⟨rfl, rfl, rfl, rfl, rfl⟩, by simpa using h1,
    by simpa using h2⟩

/-! the public values -/

theorem MemoReads.pub {v : MemoVar} {m : MemoV} (h : MemoReads a v m) : v.vars.map a.f = m.toScalars := by
  simp [MemoVar.vars, MemoV.toScalars, h.ephemeral.x, h.ephemeral.y, h.data]

theorem PolicyReads.pub {v : PolicyVar} {m : PolicyV} (h : PolicyReads a v m) : v.vars.map a.f = m.toScalars := by
  simp [PolicyVar.vars, PolicyV.toScalars, h.viewer.x, h.viewer.y, h.cred.x, h.cred.y, h.freezer.x, h.freezer.y, h.map,
    h.threshold]

theorem TransferPubReads.pub {v : TransferPubVar} {p : TransferPub} (h : TransferPubReads a v p) :
    v.vars.map a.f = p.toScalars := by
  simp only [TransferPubVar.vars, TransferPub.toScalars, List.map_append, h.memo.pub, h.nullifiers, h.commitments, List.map_cons,
    List.map_nil, h.root, h.native, h.valid, h.fee]

theorem MintPubReads.pub {v : MintPubVar} {p : MintPub} (h : MintPubReads a v p) : v.vars.map a.f = p.toScalars := by
  simp only [MintPubVar.vars, MintPub.toScalars, List.map_append, h.memo.pub, h.policy.pub, List.map_cons, List.map_nil, h.root,
    h.native, h.nullifier, h.fee, h.mint_rc, h.chg_rc, h.amount, h.ac, h.internal]

theorem FreezePubReads.pub {v : FreezePubVar} {p : FreezePub} (h : FreezePubReads a v p) : v.vars.map a.f = p.toScalars := by
  simp only [FreezePubVar.vars, FreezePub.toScalars, List.map_append, h.nullifiers, h.commitments, List.map_cons, List.map_nil,
    h.root, h.native, h.fee]

end read

/-! ### Honest values -/

theorem Vals.createPoint (c : PtV) : Vals (createPoint c) fun a P => RP a P c :=
  (Vals.createVariable _).seq fun _ => (Vals.createVariable _).seq fun _ => Vals.pure fun _ h2 h1 => Prod.ext h1 h2

theorem Vals.createPublic (v : F) : Vals (createPublic v) fun a x => a.f x = v :=
  (Vals.createVariable _).seq fun _ => (Vals.setVariablePublic _).seq fun _ => Vals.pure fun _ _ h => h

omit E in
theorem forall₂_values {α β : Type} {f : β → α} {l : List α} {m : List β} (h : List.Forall₂ (fun x y => f y = x) l m) :
    m.map f = l := by
  induction h with
  | nil => rfl
  | cons h _ ih => rw [List.map_cons, h, ih]

theorem Vals.vars (l : List F) : Vals (Plonk.collect Plonk.createVariable l) fun a r => r.map a.f = l :=
  (Vals.collect (Q := fun a x y => a.f y = x) (fun x => Vals.createVariable x) l).mono fun _ _ h => forall₂_values h

theorem Vals.publics (l : List F) : Vals (Plonk.collect Plonk.createPublic l) fun a r => r.map a.f = l :=
  (Vals.collect (Q := fun a x y => a.f y = x) (fun x => Vals.createPublic x) l).mono fun _ _ h => forall₂_values h

theorem Vals.policyNew (p : PolicyV) : Vals (PolicyVar.new p) fun a v => PolicyReads a v p :=
  (Vals.createVariable _).seq fun _ => (Vals.createPoint _).seq fun _ => (Vals.createPoint _).seq fun _ =>
    (Vals.createPoint _).seq fun _ => (Vals.createVariable _).seq fun _ => Vals.pure fun _ h5 h4 h3 h2 h1 => ⟨h2, h3, h4, h1, h5⟩

theorem Vals.recordNew (r : RecordV) : Vals (RecordVar.new r) fun a v => RecordReads a v r :=
  (Vals.createVariable _).seq fun _ => (Vals.createVariable _).seq fun _ => (Vals.createPoint _).seq fun _ =>
    (Vals.policyNew _).seq fun _ => (Vals.createBoolean _).seq fun _ => (Vals.createVariable _).seq fun _ =>
    Vals.pure fun _ h6 h5 h4 h3 h2 h1 => ⟨h1, h2, h3, h4, h5, h6⟩

omit E in
theorem forall₂_swap {α β : Type} {P : α → β → Prop} {l : List α} {m : List β} (h : List.Forall₂ (fun x y => P x y) l m) :
    List.Forall₂ (fun y x => P x y) m l := h.flip

theorem Vals.records (l : List RecordV) : Vals (Plonk.collect RecordVar.new l) fun a r => List.Forall₂ (RecordReads a) r l :=
  (Vals.collect (Q := fun a x y => RecordReads a y x) (fun x => Vals.recordNew x) l).mono fun _ _ h => forall₂_swap h

theorem Vals.credNew (c : CredV) : Vals (CredVar.new c) fun a v => CredReads a v c :=
  (Vals.createVariable _).seq fun _ => (Vals.createSignature _).seq fun _ => (Vals.createPoint _).seq fun _ =>
    (Vals.createPoint _).seq fun _ => (Vals.vars _).seq fun _ => Vals.pure fun _ h5 h4 h3 h2 h1 => ⟨h5, h1, h2, h3, h4⟩

/-- the four variables of a node have the values of the node -/
def NodeReads (a : Asg) (v : NodeVar) (x : PathNode) : Prop :=
  a.f v.sibling1 = x.sibling1 ∧ a.f v.sibling2 = x.sibling2 ∧ a.f v.is_left = boolF (decide (x.pos = .left)) ∧
    a.f v.is_right = boolF (decide (x.pos = .right))

theorem Vals.nodeNew (x : PathNode) : Vals (NodeVar.new x) fun a v => NodeReads a v x := by
  refine (Vals.createVariable _).seq fun _ => (Vals.createVariable _).seq fun _ => (Vals.newPos _ _).mono fun a v h h2 h1 => ?_
  obtain ⟨l, r, rfl, h3, h4⟩ := h
  exact ⟨h1, h2, h3, h4⟩

theorem pathOf_reads {a : Asg} {l : List NodeVar} {m : List PathNode} (h : List.Forall₂ (NodeReads a) l m) :
    pathOf ((pathVars l).map a.f) = m := by
  induction h with
  | nil => rfl
  | @cons v x l m h _ ih =>
    obtain ⟨h1, h2, h3, h4⟩ := h
    obtain ⟨s1, s2, pos⟩ := x
    show (⟨a.f v.sibling1, a.f v.sibling2, if a.f v.is_left = 1 then .left else if a.f v.is_right = 1 then .right else .middle⟩
      : PathNode) :: pathOf ((pathVars l).map a.f) = _
    rw [ih, h1, h2, h3, h4]
    cases pos <;> simp [boolF, one_ne_zero_F.symm]

theorem Vals.accNew (c : AccV) : Vals (AccVar.new c) fun a v => AccReads a v c :=
  (Vals.createVariable _).seq fun _ => (Vals.collect (Q := fun a x y => NodeReads a y x) (fun x => Vals.nodeNew x) _).seq fun _ =>
    Vals.pure fun _ h2 h1 => ⟨h1, pathOf_reads (forall₂_swap h2)⟩

theorem Vals.memoNew (m : MemoV) : Vals (MemoVar.new m) fun a v => MemoReads a v m :=
  (Vals.createPoint _).seq fun _ => (Vals.vars _).seq fun _ => Vals.pure fun _ h2 h1 => ⟨h1, h2⟩

theorem Vals.inputNew (i : InputV) : Vals (InputVar.new i) fun a v => InputReads a v i :=
  (Vals.createVariable _).seq fun _ => (Vals.recordNew _).seq fun _ => (Vals.credNew _).seq fun _ => (Vals.accNew _).seq fun _ =>
    Vals.pure fun _ h4 h3 h2 h1 => ⟨h1, h2, h4, h3⟩

theorem Vals.transferWitNew (w : TransferWit) : Vals (TransferWitVar.new w) fun a v => TransferWitReads a v w :=
  (Vals.createVariable _).seq fun _ => (Vals.policyNew _).seq fun _ => (Vals.collect (Q := fun a x y => InputReads a y x)
    (fun x => Vals.inputNew x) _).seq fun _ => (Vals.records _).seq fun _ => (Vals.createVariable _).seq fun _ =>
    Vals.pure fun _ h5 h4 h3 h2 h1 => ⟨h1, h2, forall₂_swap h3, h4, h5⟩

theorem Vals.transferPubNew (p : TransferPub) : Vals (TransferPubVar.new p) fun a v => TransferPubReads a v p :=
  (Vals.createPublic _).seq fun _ => (Vals.createPublic _).seq fun _ => (Vals.createPublic _).seq fun _ =>
    (Vals.createPublic _).seq fun _ => (Vals.publics _).seq fun _ => (Vals.publics _).seq fun _ => (Vals.memoNew _).seq fun _ =>
    (Vals.trivial _).seq fun _ => Vals.pure fun _ _ h7 h6 h5 h4 h3 h2 h1 => ⟨h1, h2, h3, h4, h5, h6, h7⟩

theorem Vals.mintWitNew (w : MintWit) : Vals (MintWitVar.new w) fun a v => MintWitReads a v w :=
  (Vals.recordNew _).seq fun _ => (Vals.createVariable _).seq fun _ => (Vals.recordNew _).seq fun _ => (Vals.accNew _).seq fun _ =>
    (Vals.recordNew _).seq fun _ => (Vals.createVariable _).seq fun _ => (Vals.createVariable _).seq fun _ =>
    (Vals.createVariable _).seq fun _ => Vals.pure fun _ h8 h7 h6 h5 h4 h3 h2 h1 => ⟨h1, h2, h3, h4, h5, h6, h7, h8⟩

theorem Vals.mintPubNew (p : MintPub) : Vals (MintPubVar.new p) fun a v => MintPubReads a v p :=
  (Vals.createPublic _).seq fun _ => (Vals.createPublic _).seq fun _ => (Vals.createPublic _).seq fun _ =>
    (Vals.createPublic _).seq fun _ => (Vals.createPublic _).seq fun _ => (Vals.createPublic _).seq fun _ =>
    (Vals.createPublic _).seq fun _ => (Vals.createPublic _).seq fun _ => (Vals.createPublic _).seq fun _ =>
    (Vals.policyNew _).seq fun _ => (Vals.trivial _).seq fun _ => (Vals.memoNew _).seq fun _ => (Vals.trivial _).seq fun _ =>
    Vals.pure fun _ _ h11 _ h10 h9 h8 h7 h6 h5 h4 h3 h2 h1 => ⟨h1, h2, h3, h4, h5, h6, h7, h8, h9, h10, h11⟩

theorem Vals.freezeWitNew (w : FreezeWit) : Vals (FreezeWitVar.new w) fun a v => FreezeWitReads a v w :=
  (Vals.records _).seq fun _ => (Vals.collect (Q := fun a x y => AccReads a y x) (fun x => Vals.accNew x) _).seq fun _ =>
    (Vals.records _).seq fun _ => (Vals.createVariable _).seq fun _ => (Vals.vars _).seq fun _ =>
    Vals.pure fun _ h5 h4 h3 h2 h1 => ⟨h1, forall₂_swap h2, h3, h4, h5⟩

theorem Vals.freezePubNew (p : FreezePub) : Vals (FreezePubVar.new p) fun a v => FreezePubReads a v p :=
  (Vals.createPublic _).seq fun _ => (Vals.createPublic _).seq fun _ => (Vals.createPublic _).seq fun _ =>
    (Vals.publics _).seq fun _ => (Vals.publics _).seq fun _ => Vals.pure fun _ h5 h4 h3 h2 h1 => ⟨h1, h2, h3, h4, h5⟩

/-! ### The calls depend only on sizes -/

theorem Same.createVariable (v w : F) : Same (createVariable v) (createVariable w) := fun _ => rfl
theorem Same.createBoolean (v w : Bool) : Same (createBoolean v) (createBoolean w) := fun _ => rfl
theorem Same.createSignature (v w : E.Sig) : Same (createSignature v) (createSignature w) := fun _ => rfl
theorem Same.createPoint (v w : PtV) : Same (createPoint v) (createPoint w) :=
  (Same.createVariable _ _).bind fun _ => (Same.createVariable _ _).bind fun _ => Same.refl _
theorem Same.createPublic (v w : F) : Same (createPublic v) (createPublic w) :=
  (Same.createVariable _ _).bind fun _ => Same.refl _

omit E in
theorem forall₂_len {α β : Type} {P : α → β → Prop} : ∀ {l : List α} {m : List β}, l.length = m.length →
    (∀ x ∈ l, ∀ y ∈ m, P x y) → List.Forall₂ P l m
  | [], [], _, _ => .nil
  | _ :: _, _ :: _, h, hp => .cons (hp _ (by simp) _ (by simp))
      (forall₂_len (by simpa using h) fun x hx y hy => hp x (by simp [hx]) y (by simp [hy]))

theorem Same.vars {l m : List F} (h : l.length = m.length) :
    Same (Plonk.collect Plonk.createVariable l) (Plonk.collect Plonk.createVariable m) :=
  Same.collect (forall₂_len h fun _ _ _ _ => Same.createVariable _ _)
theorem Same.publics {l m : List F} (h : l.length = m.length) :
    Same (Plonk.collect Plonk.createPublic l) (Plonk.collect Plonk.createPublic m) :=
  Same.collect (forall₂_len h fun _ _ _ _ => Same.createPublic _ _)

theorem Same.policyNew (p q : PolicyV) : Same (PolicyVar.new p) (PolicyVar.new q) :=
  (Same.createVariable _ _).bind fun _ => (Same.createPoint _ _).bind fun _ => (Same.createPoint _ _).bind fun _ =>
    (Same.createPoint _ _).bind fun _ => (Same.createVariable _ _).bind fun _ => Same.refl _

theorem Same.recordNew (p q : RecordV) : Same (RecordVar.new p) (RecordVar.new q) :=
  (Same.createVariable _ _).bind fun _ => (Same.createVariable _ _).bind fun _ => (Same.createPoint _ _).bind fun _ =>
    (Same.policyNew _ _).bind fun _ => (Same.createBoolean _ _).bind fun _ => (Same.createVariable _ _).bind fun _ => Same.refl _

theorem Same.records {l m : List RecordV} (h : l.length = m.length) :
    Same (Plonk.collect RecordVar.new l) (Plonk.collect RecordVar.new m) :=
  Same.collect (forall₂_len h fun _ _ _ _ => Same.recordNew _ _)

theorem Same.credNew {c d : CredV} (h : c.attrs.length = d.attrs.length) : Same (CredVar.new c) (CredVar.new d) :=
  (Same.createVariable _ _).bind fun _ => (Same.createSignature _ _).bind fun _ => (Same.createPoint _ _).bind fun _ =>
    (Same.createPoint _ _).bind fun _ => (Same.vars h).bind fun _ => Same.refl _

theorem Same.nodeNew (x y : PathNode) : Same (NodeVar.new x) (NodeVar.new y) :=
  (Same.createVariable _ _).bind fun _ => (Same.createVariable _ _).bind fun _ => fun _ _ => rfl

theorem Same.accNew {c d : AccV} (h : c.path.length = d.path.length) : Same (AccVar.new c) (AccVar.new d) :=
  (Same.createVariable _ _).bind fun _ => (Same.collect (forall₂_len h fun _ _ _ _ => Same.nodeNew _ _)).bind fun _ => Same.refl _

theorem Same.memoNew {c d : MemoV} (h : c.data.length = d.data.length) : Same (MemoVar.new c) (MemoVar.new d) :=
  (Same.createPoint _ _).bind fun _ => (Same.vars h).bind fun _ => Same.refl _

theorem Same.inputNew {c d : InputV} (h : c.acc.path.length = d.acc.path.length) (h' : c.cred.attrs.length = d.cred.attrs.length) :
    Same (InputVar.new c) (InputVar.new d) :=
  (Same.createVariable _ _).bind fun _ => (Same.recordNew _ _).bind fun _ => (Same.credNew h').bind fun _ =>
    (Same.accNew h).bind fun _ => Same.refl _

theorem Same.transferWitNew {w v : TransferWit} (hi : w.inputs.length = v.inputs.length) (ho : w.outputs.length = v.outputs.length)
    (hd : ∀ x ∈ w.inputs, ∀ y ∈ v.inputs, x.acc.path.length = y.acc.path.length ∧ x.cred.attrs.length = y.cred.attrs.length) :
    Same (TransferWitVar.new w) (TransferWitVar.new v) :=
  (Same.createVariable _ _).bind fun _ => (Same.policyNew _ _).bind fun _ => (Same.collect (forall₂_len hi fun x hx y hy =>
    Same.inputNew (hd x hx y hy).1 (hd x hx y hy).2)).bind fun _ => (Same.records ho).bind fun _ =>
    (Same.createVariable _ _).bind fun _ => Same.refl _

theorem Same.transferPubNew {p q : TransferPub} (hi : p.nullifiers.length = q.nullifiers.length)
    (ho : p.commitments.length = q.commitments.length) (hm : p.memo.data.length = q.memo.data.length) :
    Same (TransferPubVar.new p) (TransferPubVar.new q) :=
  (Same.createPublic _ _).bind fun _ => (Same.createPublic _ _).bind fun _ => (Same.createPublic _ _).bind fun _ =>
    (Same.createPublic _ _).bind fun _ => (Same.publics hi).bind fun _ => (Same.publics ho).bind fun _ =>
    (Same.memoNew hm).bind fun _ => Same.refl _

theorem Same.mintWitNew {w v : MintWit} (h : w.acc.path.length = v.acc.path.length) : Same (MintWitVar.new w) (MintWitVar.new v) :=
  (Same.recordNew _ _).bind fun _ => (Same.createVariable _ _).bind fun _ => (Same.recordNew _ _).bind fun _ =>
    (Same.accNew h).bind fun _ => (Same.recordNew _ _).bind fun _ => (Same.createVariable _ _).bind fun _ =>
    (Same.createVariable _ _).bind fun _ => (Same.createVariable _ _).bind fun _ => Same.refl _

theorem Same.mintPubNew {p q : MintPub} (h : p.memo.data.length = q.memo.data.length) : Same (MintPubVar.new p) (MintPubVar.new q) :=
  (Same.createPublic _ _).bind fun _ => (Same.createPublic _ _).bind fun _ => (Same.createPublic _ _).bind fun _ =>
    (Same.createPublic _ _).bind fun _ => (Same.createPublic _ _).bind fun _ => (Same.createPublic _ _).bind fun _ =>
    (Same.createPublic _ _).bind fun _ => (Same.createPublic _ _).bind fun _ => (Same.createPublic _ _).bind fun _ =>
    (Same.policyNew _ _).bind fun _ => (Same.refl _).bind fun _ => (Same.memoNew h).bind fun _ => Same.refl _

theorem Same.freezeWitNew {w v : FreezeWit} (h : w.inputs.length = v.inputs.length)
    (h0 : w.fee_acc.path.length = v.fee_acc.path.length)
    (hd : ∀ x ∈ w.inputs, x.acc.path.length = w.fee_acc.path.length)
    (hd' : ∀ x ∈ v.inputs, x.acc.path.length = v.fee_acc.path.length) : Same (FreezeWitVar.new w) (FreezeWitVar.new v) := by
  refine (Same.records (by simp [h])).bind fun _ => (Same.collect (.cons (Same.accNew h0) (forall₂_len (by simp [h])
    fun x hx y hy => Same.accNew ?_))).bind fun _ => (Same.records (by simp [h])).bind fun _ =>
    (Same.createVariable _ _).bind fun _ => (Same.vars (by simp [h])).bind fun _ => Same.refl _
  obtain ⟨x', hx', rfl⟩ := List.mem_map.1 hx
  obtain ⟨y', hy', rfl⟩ := List.mem_map.1 hy
  rw [hd x' hx', hd' y' hy', h0]

theorem Same.freezePubNew {p q : FreezePub} (h : p.nullifiers.length = q.nullifiers.length)
    (h' : p.commitments.length = q.commitments.length) : Same (FreezePubVar.new p) (FreezePubVar.new q) :=
  (Same.createPublic _ _).bind fun _ => (Same.createPublic _ _).bind fun _ => (Same.createPublic _ _).bind fun _ =>
    (Same.publics (by simp [h])).bind fun _ => (Same.publics (by simp [h'])).bind fun _ => Same.refl _

end Cap.Plonk
