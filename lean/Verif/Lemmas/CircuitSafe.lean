/-
The functions in `Model/Circuit/Build.lean` succeed: every variable they use exists.
-/
import Verif.Lemmas.Prog
import Verif.Model.Circuit.Build

namespace Cap.Plonk

variable [E : CapEnv]

/-- From `n` variables and `k` signatures on the run succeeds, makes nothing public, and the result is in `Q`. -/
def Safe {α : Type} (m : Prog α) (n k : ℕ) (Q : α → ℕ → ℕ → Prop) : Prop :=
  ∀ ps, Wp m ⟨n, k, ps⟩ fun x z => n ≤ z.n ∧ k ≤ z.k ∧ z.pubs = ps ∧ Q x z.n z.k

theorem Safe.bind {α β : Type} {m : Prog α} {f : α → Prog β} {n k : ℕ} {Q : α → ℕ → ℕ → Prop} {R : β → ℕ → ℕ → Prop}
    (h : Safe m n k Q) (hf : ∀ x n' k', n ≤ n' → k ≤ k' → Q x n' k' → Safe (f x) n' k' R) : Safe (m >>= f) n k R := by
  intro ps
  refine Wp.bind ((h ps).mono fun x z hz => ?_)
  obtain ⟨h1, h2, h3, h4⟩ := hz
  subst h3
  exact (hf x z.n z.k h1 h2 h4 z.pubs).mono fun y z' hz' => ⟨h1.trans hz'.1, h2.trans hz'.2.1, hz'.2.2.1, hz'.2.2.2⟩

theorem Safe.pure {α : Type} {x : α} {n k : ℕ} {Q : α → ℕ → ℕ → Prop} (h : Q x n k) : Safe (Pure.pure x) n k Q :=
  fun _ => ⟨le_rfl, le_rfl, rfl, h⟩

theorem Safe.mono {α : Type} {m : Prog α} {n k : ℕ} {Q R : α → ℕ → ℕ → Prop} (h : Safe m n k Q)
    (hQ : ∀ x n' k', n ≤ n' → k ≤ k' → Q x n' k' → R x n' k') : Safe m n k R :=
  fun ps => (h ps).mono fun _ _ hz => ⟨hz.1, hz.2.1, hz.2.2.1, hQ _ _ _ hz.1 hz.2.1 hz.2.2.2⟩

/-- all these variables exist -/
abbrev In (l : List Var) (n : ℕ) : Prop := ∀ v ∈ l, v < n

omit E in
theorem In.nil {n : ℕ} : In [] n := fun _ h => absurd h List.not_mem_nil

omit E in
theorem In.mono {l : List Var} {n n' : ℕ} (h : In l n) (hn : n ≤ n') : In l n' := fun v hv => lt_of_lt_of_le (h v hv) hn

abbrev PVar.In (P : PVar) (n : ℕ) : Prop := P.x < n ∧ P.y < n
abbrev PolicyVar.In (p : PolicyVar) (n : ℕ) : Prop :=
  p.viewer_pk.In n ∧ p.cred_pk.In n ∧ p.freezer_pk.In n ∧ p.reveal_map < n ∧ p.reveal_threshold < n
abbrev RecordVar.In (r : RecordVar) (n : ℕ) : Prop :=
  r.amount < n ∧ r.asset_code < n ∧ r.owner_addr.In n ∧ r.policy.In n ∧ r.freeze_flag.v < n ∧ r.blind < n
/-- linear arithmetic about variables -/
macro "som" : tactic =>
  `(tactic| ((try dsimp only [PVar.In, PolicyVar.In, RecordVar.In, neutralPoint, zero, one] at *); omega))

structure CredVar.In (c : CredVar) (n k : ℕ) : Prop where
  attrs : Plonk.In c.attrs n
  expiry : c.expiry < n
  cred : c.cred < k
  user : c.user_addr.In n
  creator : c.creator_pk.In n
  len : c.attrs.length = ATTRS_LEN
structure AccVar.In (c : AccVar) (n : ℕ) : Prop where
  uid : c.uid < n
  path : Plonk.In (pathVars c.path) n
structure MemoVar.In (m : MemoVar) (n : ℕ) : Prop where
  ephemeral : m.ephemeral.In n
  data : Plonk.In m.symm_ctxts n
structure InputVar.In (i : InputVar) (n k : ℕ) : Prop where
  sk : i.addr_secret < n
  ro : i.ro.In n
  acc : i.acc.In n
  cred : i.cred.In n k

omit E in
theorem PVar.In.mono {P : PVar} {n n' : ℕ} (h : P.In n) (hn : n ≤ n') : P.In n' := by omega
omit E in
theorem PolicyVar.In.mono {p : PolicyVar} {n n' : ℕ} (h : p.In n) (hn : n ≤ n') : p.In n' := by omega
omit E in
theorem RecordVar.In.mono {r : RecordVar} {n n' : ℕ} (h : r.In n) (hn : n ≤ n') : r.In n' := by omega
omit E in
theorem CredVar.In.mono {c : CredVar} {n k n' k' : ℕ} (h : c.In n k) (hn : n ≤ n') (hk : k ≤ k') : c.In n' k' :=
  ⟨h.attrs.mono hn, lt_of_lt_of_le h.expiry hn, lt_of_lt_of_le h.cred hk, h.user.mono hn, h.creator.mono hn, h.len⟩
omit E in
theorem AccVar.In.mono {c : AccVar} {n n' : ℕ} (h : c.In n) (hn : n ≤ n') : c.In n' :=
  ⟨lt_of_lt_of_le h.uid hn, h.path.mono hn⟩
omit E in
theorem MemoVar.In.mono {m : MemoVar} {n n' : ℕ} (h : m.In n) (hn : n ≤ n') : m.In n' :=
  ⟨h.ephemeral.mono hn, h.data.mono hn⟩
omit E in
theorem InputVar.In.mono {i : InputVar} {n k n' k' : ℕ} (h : i.In n k) (hn : n ≤ n') (hk : k ≤ k') : i.In n' k' :=
  ⟨lt_of_lt_of_le h.sk hn, h.ro.mono hn, h.acc.mono hn, h.cred.mono hn hk⟩

/-! ### Single calls -/

/-- a list of given variables -/
macro "scp" : tactic =>
  `(tactic| first
    | som
    | (simp only [List.forall_mem_cons, List.not_mem_nil, false_imp_iff, implies_true, and_true]; omega)
    | assumption)

section calls
variable {n k : ℕ}

theorem Safe.createVariable (v : F) : Safe (createVariable v) n k fun x n' _ => x < n' :=
  fun _ => ⟨Nat.le_succ _, le_rfl, rfl, Nat.lt_succ_self _⟩

theorem Safe.createBoolean (b : Bool) : Safe (createBoolean b) n k fun x n' _ => x.v < n' :=
  fun _ => ⟨Nat.le_succ _, le_rfl, rfl, Nat.lt_succ_self _⟩

theorem Safe.createSignature (g : E.Sig) : Safe (createSignature g) n k fun x _ k' => x < k' :=
  fun _ => ⟨le_rfl, Nat.le_succ _, rfl, Nat.lt_succ_self _⟩

theorem Safe.createPoint (c : PtV) : Safe (createPoint c) n k fun P n' _ => P.In n' := by
  refine Safe.bind (Safe.createVariable _) fun _ _ _ _ _ _ => Safe.bind (Safe.createVariable _) fun _ _ _ _ _ _ =>
    Safe.pure ?_
  som

theorem Safe.assertG (c : Assertion) (ins : List Var) (h : In ins n := by scp) : Safe (assertG c ins) n k fun _ _ _ => True :=
  fun _ => ⟨h, le_rfl, le_rfl, rfl, trivial⟩

theorem Safe.emits (o : Op) (ins sigs : List Var) (h : In ins n) (h' : In sigs k) :
    Safe (emits o ins sigs) n k fun l n' _ => In l n' ∧ l.length = o.arity ins.length sigs.length := by
  intro ps
  refine ⟨⟨h, h'⟩, by simp, le_rfl, rfl, ?_, by simp⟩
  intro v hv
  rw [List.mem_range'_1] at hv
  simpa using hv.2

theorem Safe.emit1 (o : Op) (ins sigs : List Var) (h : In ins n) (h' : In sigs k)
    (hl : o.arity ins.length sigs.length = 1) : Safe (emit1 o ins sigs) n k fun x n' _ => x < n' := by
  refine Safe.bind (Safe.emits o ins sigs h h') fun l _ _ _ _ hx => ?_
  rw [hl, List.length_eq_one_iff] at hx
  obtain ⟨h1, x, rfl⟩ := hx
  exact Safe.pure (h1 x (by simp))

theorem Safe.emitB (o : Op) (ins sigs : List Var) (h : In ins n) (h' : In sigs k)
    (hl : o.arity ins.length sigs.length = 1) : Safe (emitB o ins sigs) n k fun x n' _ => x.v < n' :=
  Safe.bind (Safe.emit1 o ins sigs h h' hl) fun _ _ _ _ _ hx => Safe.pure hx

theorem Safe.emitP (o : Op) (ins : List Var) (h : In ins n) (hl : o.arity ins.length 0 = 2) :
    Safe (emitP o ins) n k fun x n' _ => x.In n' := by
  refine Safe.bind (Safe.emits o ins [] h In.nil) fun l _ _ _ _ hx => ?_
  rw [List.length_nil, hl, List.length_eq_two] at hx
  obtain ⟨h1, x, y, rfl⟩ := hx
  exact Safe.pure ⟨h1 x (by simp), h1 y (by simp)⟩

theorem Safe.enforceConstant {v : Var} (c : F) (h : v < n := by som) :
    Safe (enforceConstant v c) n k fun _ _ _ => True := Safe.assertG _ _
theorem Safe.enforceEqual {v w : Var} (h : v < n ∧ w < n := by som) :
    Safe (enforceEqual v w) n k fun _ _ _ => True := Safe.assertG _ _
theorem Safe.addGate {u v w : Var} (h : u < n ∧ v < n ∧ w < n := by som) :
    Safe (addGate u v w) n k fun _ _ _ => True := Safe.assertG _ _
theorem Safe.mulGate {u v w : Var} (h : u < n ∧ v < n ∧ w < n := by som) :
    Safe (mulGate u v w) n k fun _ _ _ => True := Safe.assertG _ _
theorem Safe.mulAddGate {u v w x y : Var} {q q' : F} (h : u < n ∧ v < n ∧ w < n ∧ x < n ∧ y < n := by som) :
    Safe (mulAddGate u v w x y q q') n k fun _ _ _ => True := Safe.assertG _ _
theorem Safe.logicOrGate {v w : BVar} (h : v.v < n ∧ w.v < n := by som) :
    Safe (logicOrGate v w) n k fun _ _ _ => True := Safe.assertG _ _
theorem Safe.enforceInRange {v : Var} {b : ℕ} (h : v < n := by som) :
    Safe (enforceInRange v b) n k fun _ _ _ => True := Safe.assertG _ _
theorem Safe.enforcePointEqual {P Q : PVar} (h : P.In n ∧ Q.In n := by som) :
    Safe (enforcePointEqual P Q) n k fun _ _ _ => True := Safe.assertG _ _

theorem Safe.add {v w : Var} (h : v < n ∧ w < n := by som) : Safe (add v w) n k fun x n' _ => x < n' :=
  Safe.emit1 _ _ _ (by scp) In.nil rfl
theorem Safe.sub {v w : Var} (h : v < n ∧ w < n := by som) : Safe (sub v w) n k fun x n' _ => x < n' :=
  Safe.emit1 _ _ _ (by scp) In.nil rfl
theorem Safe.mul {v w : Var} (h : v < n ∧ w < n := by som) : Safe (mul v w) n k fun x n' _ => x < n' :=
  Safe.emit1 _ _ _ (by scp) In.nil rfl
theorem Safe.addConstant {v : Var} (c : F) (h : v < n := by som) : Safe (addConstant v c) n k fun x n' _ => x < n' :=
  Safe.emit1 _ _ _ (by scp) In.nil rfl
theorem Safe.sum {l : List Var} (h : In l n) : Safe (sum l) n k fun x n' _ => x < n' :=
  Safe.emit1 _ _ _ h In.nil (by simp [Op.arity, Op.eval])
theorem Safe.lc {u v w x : Var} {q1 q2 q3 q4 : F} (h : u < n ∧ v < n ∧ w < n ∧ x < n := by som) :
    Safe (lc u v w x q1 q2 q3 q4) n k fun x n' _ => x < n' := Safe.emit1 _ _ _ (by scp) In.nil rfl
theorem Safe.isZero {v : Var} (h : v < n := by som) : Safe (isZero v) n k fun x n' _ => x.v < n' :=
  Safe.emitB _ _ _ (by scp) In.nil rfl
theorem Safe.isEqual {v w : Var} (h : v < n ∧ w < n := by som) : Safe (isEqual v w) n k fun x n' _ => x.v < n' :=
  Safe.emitB _ _ _ (by scp) In.nil rfl
theorem Safe.logicNeg {v : BVar} (h : v.v < n := by som) : Safe (logicNeg v) n k fun x n' _ => x.v < n' :=
  Safe.emitB _ _ _ (by scp) In.nil rfl
theorem Safe.logicOr {v w : BVar} (h : v.v < n ∧ w.v < n := by som) : Safe (logicOr v w) n k fun x n' _ => x.v < n' :=
  Safe.emitB _ _ _ (by scp) In.nil rfl
theorem Safe.logicAnd {v w : BVar} (h : v.v < n ∧ w.v < n := by som) : Safe (logicAnd v w) n k fun x n' _ => x.v < n' :=
  Safe.emitB _ _ _ (by scp) In.nil rfl
theorem Safe.logicAndAll {l : List BVar} (h : In (l.map (·.v)) n) : Safe (logicAndAll l) n k fun x n' _ => x.v < n' :=
  Safe.emitB _ _ _ h In.nil (by simp [Op.arity, Op.eval])
theorem Safe.conditionalSelect {b : BVar} {v w : Var} (h : b.v < n ∧ v < n ∧ w < n := by som) :
    Safe (conditionalSelect b v w) n k fun x n' _ => x < n' := Safe.emit1 _ _ _ (by scp) In.nil rfl
theorem Safe.isInRange {v : Var} {b : ℕ} (h : v < n := by som) : Safe (isInRange v b) n k fun x n' _ => x.v < n' :=
  Safe.emitB _ _ _ (by scp) In.nil rfl
theorem Safe.isPointEqual {P Q : PVar} (h : P.In n ∧ Q.In n := by som) :
    Safe (isPointEqual P Q) n k fun x n' _ => x.v < n' := Safe.emitB _ _ _ (by scp) In.nil rfl
theorem Safe.isNeutralPoint {P : PVar} (h : P.In n := by som) :
    Safe (isNeutralPoint P) n k fun x n' _ => x.v < n' := Safe.emitB _ _ _ (by scp) In.nil rfl

theorem Safe.unpack {v : Var} {b : ℕ} (h : v < n := by som) :
    Safe (unpack v b) n k fun l n' _ => In (l.map (·.v)) n' ∧ l.length = b := by
  refine Safe.bind Safe.enforceInRange fun _ n' _ _ _ _ => Safe.bind (Safe.emits _ _ _ ?_ In.nil) fun l _ _ _ _ hl =>
    Safe.pure ?_
  · scp
  · refine ⟨by simpa [Function.comp_def] using hl.1, ?_⟩
    rw [List.length_map, hl.2]
    simp [Op.arity, Op.eval]

theorem Safe.fixedBaseScalarMul {v : Var} (h : v < n := by som) :
    Safe (fixedBaseScalarMul v) n k fun P n' _ => P.In n' :=
  Safe.bind (Safe.assertG _ _) fun _ _ _ _ _ _ => Safe.emitP _ _ (by scp) rfl

theorem Safe.variableBaseScalarMul {v : Var} {P : PVar} (h : v < n ∧ P.In n := by som) :
    Safe (variableBaseScalarMul v P) n k fun P n' _ => P.In n' :=
  Safe.bind (Safe.assertG _ _) fun _ _ _ _ _ _ => Safe.emitP _ _ (by scp) rfl

theorem Safe.sponge3 {u v w : Var} (h : u < n ∧ v < n ∧ w < n := by som) : Safe (sponge3 u v w) n k fun x n' _ => x < n' :=
  Safe.emit1 _ _ _ (by scp) In.nil rfl

theorem Safe.evalPrf {v : Var} {l : List Var} (h : v < n) (h' : In l n) : Safe (evalPrf v l) n k fun x n' _ => x < n' :=
  Safe.emit1 _ _ _ (List.forall_mem_cons.2 ⟨h, h'⟩) In.nil (by simp [Op.arity, Op.eval, List.replicate_succ])

theorem Safe.commit {v : Var} {l : List Var} (h : v < n) (h' : In l n) : Safe (commit l v) n k fun x n' _ => x < n' :=
  Safe.emit1 _ _ _ (List.forall_mem_cons.2 ⟨h, h'⟩) In.nil (by simp [Op.arity, Op.eval, List.replicate_succ])

theorem Safe.checkSignature {P : PVar} {l : List Var} {g : Var} (h : P.In n) (h' : In l n) (hg : g < k) :
    Safe (checkSignature P l g) n k fun x n' _ => x.v < n' :=
  Safe.emitB _ _ _ (List.forall_mem_cons.2 ⟨h.1, List.forall_mem_cons.2 ⟨h.2, h'⟩⟩) (List.forall_mem_cons.2 ⟨hg, In.nil⟩)
    (by simp [Op.arity, Op.eval, List.replicate_succ])

theorem Safe.computeMerkleRoot {u e : Var} {path : List NodeVar} (h : u < n ∧ e < n) (h' : In (pathVars path) n) :
    Safe (computeMerkleRoot u e path) n k fun x n' _ => x < n' :=
  Safe.emit1 _ _ _ (List.forall_mem_cons.2 ⟨h.1, List.forall_mem_cons.2 ⟨h.2, h'⟩⟩) In.nil
    (by simp [Op.arity, Op.eval, List.replicate_succ])

theorem Safe.elgamalEncrypt {P : PVar} {l : List Var} {r : Var} (h : P.In n) (h' : In l n) (hr : r < n) :
    Safe (elgamalEncrypt P l r) n k fun m n' _ => m.In n' ∧ m.symm_ctxts.length = l.length := by
  refine Safe.bind (Safe.assertG _ _) fun _ n' _ hn _ _ => Safe.bind (Safe.emits _ _ _ (List.forall_mem_cons.2
    ⟨lt_of_lt_of_le h.1 hn, List.forall_mem_cons.2 ⟨lt_of_lt_of_le h.2 hn, List.forall_mem_cons.2 ⟨lt_of_lt_of_le hr hn,
      In.mono h' hn⟩⟩⟩) In.nil) fun m _ _ _ _ hm => ?_
  have hl := hm.2
  simp only [Op.arity, Op.eval, List.length_cons, List.replicate_succ, derive_len, List.length_replicate] at hl
  rcases m with _ | ⟨x, _ | ⟨y, m⟩⟩
  · simp at hl
  · simp at hl
  · exact Safe.pure ⟨⟨⟨hm.1 x (by simp), hm.1 y (by simp)⟩, fun v hv => hm.1 v (by simp [hv])⟩, by simpa using hl⟩

theorem Safe.collect {α β : Type} {f : α → Prog β} {P : α → ℕ → ℕ → Prop} {Q : α → β → ℕ → ℕ → Prop}
    (hf : ∀ x n k, P x n k → Safe (f x) n k (Q x))
    (hP : ∀ x n k n' k', n ≤ n' → k ≤ k' → P x n k → P x n' k')
    (hQ : ∀ x y n k n' k', n ≤ n' → k ≤ k' → Q x y n k → Q x y n' k') :
    ∀ (l : List α) (n k : ℕ), (∀ x ∈ l, P x n k) → Safe (collect f l) n k fun m n' k' => List.Forall₂ (Q · · n' k') l m
  | [], n, k, _ => Safe.pure .nil
  | x :: l, n, k, h => by
    refine Safe.bind (hf x n k (h x (by simp))) fun y n' k' hn hk hy => Safe.bind (Safe.collect hf hP hQ l n' k' fun x' hx' =>
      hP _ _ _ _ _ hn hk (h x' (by simp [hx']))) fun ys n'' k'' hn' hk' hys => Safe.pure (.cons ?_ hys)
    exact hQ _ _ _ _ _ _ hn' hk' hy

theorem Safe.forEach {α : Type} {f : α → Prog Unit} {P : α → ℕ → ℕ → Prop}
    (hf : ∀ x n k, P x n k → Safe (f x) n k fun _ _ _ => True)
    (hP : ∀ x n k n' k', n ≤ n' → k ≤ k' → P x n k → P x n' k') :
    ∀ (l : List α) (n k : ℕ), (∀ x ∈ l, P x n k) → Safe (forEach f l) n k fun _ _ _ => True
  | [], n, k, _ => Safe.pure trivial
  | x :: l, n, k, h =>
    Safe.bind (hf x n k (h x (by simp))) fun _ n' k' hn hk _ => Safe.forEach hf hP l n' k' fun x' hx' =>
      hP _ _ _ _ _ hn hk (h x' (by simp [hx']))

theorem Safe.forPos {α : Type} {f : Bool → α → Var → Prog Unit} {P : α → ℕ → ℕ → Prop}
    (hf : ∀ b x v n k, P x n k → v < n → Safe (f b x v) n k fun _ _ _ => True)
    (hP : ∀ x n k n' k', n ≤ n' → k ≤ k' → P x n k → P x n' k') :
    ∀ (b : Bool) (l : List α) (m : List Var) (n k : ℕ), (∀ x ∈ l, P x n k) → In m n →
      Safe (forPos f b l m) n k fun _ _ _ => True
  | _, [], _, n, k, _, _ => Safe.pure trivial
  | _, _ :: _, [], n, k, _, _ => Safe.pure trivial
  | b, x :: l, v :: m, n, k, h, hm =>
    Safe.bind (hf b x v n k (h x (by simp)) (hm v (by simp))) fun _ n' k' hn hk _ => Safe.forPos hf hP false l m n' k'
      (fun x' hx' => hP _ _ _ _ _ hn hk (h x' (by simp [hx']))) fun v' hv' => lt_of_lt_of_le (hm v' (by simp [hv'])) hn

end calls

/-- the next call -/
macro "sb " t:term : tactic => `(tactic| refine Safe.bind $t fun _ _ _ _ _ _ => ?_)

section functions
variable {n k : ℕ}

theorem Safe.checkEqualFrom : ∀ (l : List (Var × Var)) (b : BVar) (n k : ℕ), b.v < n → (∀ x ∈ l, x.1 < n ∧ x.2 < n) →
    Safe (checkEqualFrom b l) n k fun x n' _ => x.v < n'
  | [], _, _, _, h, _ => Safe.pure h
  | (x, y) :: l, b, n, k, h, hl => by
    have hxy := hl (x, y) (by simp)
    refine Safe.bind (Safe.isEqual) fun c n' _ hn _ hc => Safe.bind (Safe.logicAnd) fun d n'' _ hn' _ hd =>
      Safe.checkEqualFrom l d n'' _ hd fun x hx => ?_
    have := hl x (by simp [hx])
    som

theorem Safe.memoCheckEqual {m m' : MemoVar} (h : m.In n) (h' : m'.In n) (hl : m'.symm_ctxts.length = m.symm_ctxts.length) :
    Safe (m.checkEqual m') n k fun x n' _ => x.v < n' := by
  obtain ⟨h1, h2⟩ := h
  obtain ⟨h1', h2'⟩ := h'
  rw [MemoVar.checkEqual, if_neg (by simp [hl])]
  refine Safe.bind Safe.isPointEqual fun c n' _ hn _ hc => Safe.checkEqualFrom _ _ _ _ hc fun x hx => ?_
  have := h2 _ (List.of_mem_zip hx).1
  have := h2' _ (List.of_mem_zip hx).2
  som

theorem Safe.enforceDummy {p : PolicyVar} (h : p.In n) (h2 : 2 ≤ n) : Safe p.enforceDummy n k fun _ _ _ => True := by
  sb Safe.enforcePointEqual
  sb Safe.enforcePointEqual
  sb Safe.enforcePointEqual
  sb Safe.enforceConstant _
  exact Safe.enforceConstant _

theorem Safe.isDummyPolicy {p : PolicyVar} (h : p.In n) : Safe p.isDummyPolicy n k fun x n' _ => x.v < n' := by
  sb Safe.isNeutralPoint
  sb Safe.isNeutralPoint
  sb Safe.isNeutralPoint
  sb Safe.add
  sb Safe.isZero
  refine Safe.logicAndAll ?_
  simp only [List.map_cons, List.map_nil]
  scp

theorem Safe.policyEnforceEqual {p q : PolicyVar} (h : p.In n) (h' : q.In n) : Safe (p.enforceEqual q) n k fun _ _ _ => True := by
  sb Safe.enforceEqual
  sb Safe.enforceEqual
  sb Safe.enforcePointEqual
  sb Safe.enforcePointEqual
  exact Safe.enforcePointEqual

theorem Safe.policyCheckEqual {p q : PolicyVar} (h : p.In n) (h' : q.In n) :
    Safe (p.checkEqual q) n k fun x n' _ => x.v < n' := by
  sb Safe.isEqual
  sb Safe.isPointEqual
  sb Safe.isPointEqual
  sb Safe.isPointEqual
  sb Safe.isEqual
  refine Safe.logicAndAll ?_
  simp only [List.map_cons, List.map_nil]
  scp

theorem Safe.commitment {r : RecordVar} (h : r.In n := by som) (h2 : 2 ≤ n := by som) :
    Safe r.commitment n k fun x n' _ => x < n' := by
  sb Safe.lc
  exact Safe.commit (by som) (by scp)

theorem Safe.isDummy {r : RecordVar} (h : r.In n := by som) : Safe r.isDummy n k fun x n' _ => x.v < n' := by
  sb Safe.addConstant _
  exact Safe.isZero

theorem Safe.credVerify {c : CredVar} {v : Var} (h : c.In n k) (hv : v < n) :
    Safe (c.verify v) n k fun x n' _ => x.v < n' := by
  obtain ⟨h1, h2, h3, h4, h5, h6⟩ := h
  rw [CredVar.verify, if_neg (by simp [h6])]
  sb Safe.sub
  sb Safe.enforceInRange
  refine Safe.checkSignature (by som) (fun v hv => ?_) (by som)
  rcases List.mem_append.1 hv with hv | hv
  · simp only [List.mem_cons, List.not_mem_nil, or_false] at hv
    rcases hv with rfl | rfl | rfl <;> som
  · have := h1 v hv
    som

theorem Safe.deriveNullifierKey {sk : Var} {P : PVar} (h : sk < n ∧ P.In n ∧ 2 ≤ n := by som) :
    Safe (deriveNullifierKey sk P) n k fun x n' _ => x < n' := by
  sb Safe.variableBaseScalarMul
  sb Safe.sponge3
  sb Safe.isNeutralPoint
  exact Safe.conditionalSelect

theorem Safe.nullify {x y z : Var} (h : x < n ∧ y < n ∧ z < n := by som) : Safe (nullify x y z) n k fun x n' _ => x < n' :=
  Safe.evalPrf (by som) (by scp)

theorem Safe.proveSpend {r : RecordVar} {c : AccVar} {sk : Var} (who : Spender) (hr : r.In n) (hc : c.In n) (hs : sk < n)
    (h2 : 2 ≤ n) : Safe (proveSpend r c sk who) n k fun x n' _ => x.1 < n' ∧ x.2 < n' := by
  obtain ⟨hu, hp⟩ := hc
  cases who
  all_goals
    simp only [Plonk.proveSpend, reduceCtorEq, if_true, if_false]
    sb (Safe.fixedBaseScalarMul)
    sb Safe.enforcePointEqual
    sb Safe.commitment
    sb Safe.deriveNullifierKey
    sb Safe.nullify
    sb (Safe.computeMerkleRoot (by som) (hp.mono (by som)))
    exact Safe.pure (by som)

theorem Safe.sumRest {l : List Var} (h : In l n) (h2 : 2 ≤ n) : Safe (sumRest l) n k fun x n' _ => x < n' := by
  unfold Plonk.sumRest
  split
  · exact Safe.pure (by som)
  · exact Safe.sum fun v hv => h v (List.mem_of_mem_tail hv)

theorem Safe.preserveBalance {a b c : Var} {l m : List Var} (h : a < n ∧ b < n ∧ c < n) (hl : In l n) (hm : In m n)
    (h2 : 2 ≤ n) (nel : l ≠ []) (nem : m ≠ []) : Safe (preserveBalance a b c l m) n k fun x n' _ => x < n' := by
  obtain ⟨x, l, rfl⟩ := List.exists_cons_of_ne_nil nel
  obtain ⟨y, m, rfl⟩ := List.exists_cons_of_ne_nil nem
  have hx := hl x (by simp)
  have hy := hm y (by simp)
  unfold Plonk.preserveBalance
  sb (Safe.sumRest hl h2)
  sb (Safe.sumRest (hm.mono (by som)) (by som))
  sb Safe.sub
  sb Safe.lc
  sb Safe.isEqual
  sb Safe.mulAddGate
  sb Safe.mulGate
  sb Safe.mulGate
  exact Safe.pure (by som)

theorem Safe.hadamard {l m : List Var} (hl : In l n) (hm : In m n) (h : l.length = m.length) :
    Safe (hadamard l m) n k fun r n' _ => In r n' ∧ r.length = m.length := by
  rw [Plonk.hadamard, if_neg (by simp [h])]
  refine (Safe.collect (P := fun x n _ => x.1 < n ∧ x.2 < n) (Q := fun _ y n _ => y < n) (fun x n k hx => Safe.mul)
    (fun _ _ _ _ _ _ _ _ => by som) (fun _ _ _ _ _ _ _ _ _ => by som) _ n k fun x hx => ?_).mono fun r n' k' _ _ hr => ?_
  · exact ⟨hl _ (List.of_mem_zip hx).1, hm _ (List.of_mem_zip hx).2⟩
  · refine ⟨fun v hv => ?_, ?_⟩
    · obtain ⟨i, hi, rfl⟩ := List.mem_iff_getElem.1 hv
      have := hr.length_eq
      exact (List.forall₂_iff_get.1 hr).2 i (by omega) hi
    · rw [← hr.length_eq]
      simp [h]

end functions

end Cap.Plonk
