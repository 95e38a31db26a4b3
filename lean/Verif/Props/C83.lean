/-
C83: a universal parameter of the computed size is enough.

status: proved
note: For the size that compute_universal_param_size returns: a universal parameter of this size or more gives keys (C83_transfer, C83_mint, C83_freeze), and the circuit of every witness of the same numbers of inputs and outputs and the same depth needs exactly this size and has the number of gates of the key, so that proving never needs a larger one. C83_error: where no size is returned no parameter of any size gives keys, and both calls fail with the same error. C83_verifying_key: the verifying key taken from a transfer proving key is the one preprocessing returned with it. Assumed of jf-plonk: SrsSuffices, and that a proving key contains its verifying key.
-/
import Verif.Model.Circuit.Size
import Verif.Props.C82

namespace Cap

open Spec Plonk

variable [E : CapEnv] [Z : SizedPlonk]

/-- The circuit needs a parameter of this size, and has this many gates. -/
def Spec.Needs (size gates : ℕ) (c : Circ) : Prop :=
  (∃ n, Z.domain c.layout = some n ∧ n + 2 = size) ∧ Z.numGates c.layout = gates

theorem universalParamSize_ok {enc : E.AeadSk} {freezer : Fr} {kind : NoteType} {n m size : ℕ} {d : Fin 256}
    (h : universalParamSize enc freezer kind n m d = .ok size) :
    ∃ c k, universalParamCircuit enc freezer kind n m d = .ok c ∧ Z.domain c.layout = some k ∧ k + 2 = size := by
  unfold universalParamSize at h
  obtain ⟨c, h1, h2⟩ := bind_ok_iff.1 h
  obtain ⟨k, h3, h4⟩ := bind_ok_iff.1 h2
  cases h4
  exact ⟨c, k, h1, orFailedSnark_ok.1 h3, rfl⟩

/-- **Transfers.** -/
theorem C83_transfer (enough : SrsSuffices) {enc : E.AeadSk} {freezer : Fr} {n m size : ℕ} {d : Fin 256}
    (computed : universalParamSize enc freezer .transfer n m d = .ok size) :
    (∀ s : Z.Srs, size ≤ Z.degree s → ∃ keys, @transferPreprocessGates E (Z.snark s) n m d = .ok keys) ∧
    ∃ gates, ∀ w p, TransferShape n m d.val w p → (∀ i ∈ w.inputs, i.cred.attrs.length = 8) →
      ∃ c, built (transferBuild w p) = .ok c ∧ Needs size gates c := by
  obtain ⟨c, k, h1, h2, h3⟩ := universalParamSize_ok computed
  have h1 : transferForKeys n m d enc = .ok c := h1
  by_cases h0 : n = 0 ∨ m = 0
  · rw [(C82_transfer n m d enc).1 h0] at h1; cases h1
  obtain ⟨hn, hm⟩ := not_or.1 h0
  obtain ⟨c', e1, e2, -⟩ := (C82_transfer n m d enc).2 (by omega) (by omega)
  cases h1.symm.trans e1
  constructor
  · intro s hs
    obtain ⟨c', w, p, f1, f2, f3, f4⟩ := transferForKeys_ok (by omega : 0 < n) (by omega : 0 < m) d (Z.snark s).defaultDec
    obtain ⟨c'', g1, g2⟩ := e2 w p f3 f4
    cases f2.symm.trans g1
    obtain ⟨key, hk⟩ := (enough s c'.layout).1 k (by rw [g2]; exact h2) (by omega)
    unfold transferPreprocessGates
    rw [f1, res_ok_bind, hk]
    exact ⟨_, rfl⟩
  · refine ⟨Z.numGates c.layout, fun w p shape attrs => ?_⟩
    obtain ⟨c', g1, g2⟩ := e2 w p shape attrs
    exact ⟨c', g1, ⟨k, by rw [g2]; exact h2, h3⟩, by rw [g2]⟩

/-- **Mints.** -/
theorem C83_mint (enough : SrsSuffices) {enc : E.AeadSk} {freezer : Fr} {n m size : ℕ} {d : Fin 256}
    (computed : universalParamSize enc freezer .mint n m d = .ok size) :
    (∀ s : Z.Srs, size ≤ Z.degree s → ∃ keys, @mintPreprocessGates E (Z.snark s) d = .ok keys) ∧
    ∃ gates, ∀ w p, MintShape d.val w p → ∃ c, built (mintBuild w p) = .ok c ∧ Needs size gates c := by
  obtain ⟨c, k, h1, h2, h3⟩ := universalParamSize_ok computed
  have h1 : mintForKeys d enc = .ok c := h1
  obtain ⟨c', e1, e2, -⟩ := C82_mint d enc
  cases h1.symm.trans e1
  constructor
  · intro s hs
    obtain ⟨c', w, p, f1, f2, f3⟩ := mintForKeys_ok d (Z.snark s).defaultDec
    obtain ⟨c'', g1, g2⟩ := e2 w p f3
    cases f2.symm.trans g1
    obtain ⟨key, hk⟩ := (enough s c'.layout).1 k (by rw [g2]; exact h2) (by omega)
    unfold mintPreprocessGates
    rw [f1, res_ok_bind, hk]
    exact ⟨_, rfl⟩
  · refine ⟨Z.numGates c.layout, fun w p shape => ?_⟩
    obtain ⟨c', g1, g2⟩ := e2 w p shape
    exact ⟨c', g1, ⟨k, by rw [g2]; exact h2, h3⟩, by rw [g2]⟩

/-- **Freezes.** -/
theorem C83_freeze (enough : SrsSuffices) {enc : E.AeadSk} {freezer : Fr} {n m size : ℕ} {d : Fin 256}
    (computed : universalParamSize enc freezer .freeze n m d = .ok size) :
    (∀ s : Z.Srs, size ≤ Z.degree s → ∃ keys, @freezePreprocessGates E (Z.snark s) n d = .ok keys) ∧
    ∃ gates, ∀ w p, FreezeShape n d.val w p → ∃ c, built (freezeBuild w p) = .ok c ∧ Needs size gates c := by
  obtain ⟨c, k, h1, h2, h3⟩ := universalParamSize_ok computed
  have h1 : freezeForKeys n d enc freezer = .ok c := h1
  have hf : ¬(3 ^ d.val < n ∨ 2 ^ 64 ≤ n) := fun hf => by
    rw [freezeForKeys_full hf] at h1
    cases h1
  rw [not_or, not_lt, not_le] at hf
  obtain ⟨i0, i1, i2⟩ := C82_freeze hf.2 d enc freezer
  have hn : 2 ≤ n := by
    by_contra hn
    rcases (by omega : n = 0 ∨ n = 1) with hn | hn
    · rw [i0.2 (.inl hn)] at h1; cases h1
    · rw [i1.2 hn] at h1; cases h1
  obtain ⟨c', e1, e2, -⟩ := i2 hn hf.1
  cases h1.symm.trans e1
  constructor
  · intro s hs
    obtain ⟨c', w, p, f1, f2, f3⟩ := freezeForKeys_ok hn hf.1 hf.2 (Z.snark s).defaultDec (Z.snark s).zeroSeedFreezer
    obtain ⟨c'', g1, g2⟩ := e2 w p f3
    cases f2.symm.trans g1
    obtain ⟨key, hk⟩ := (enough s c'.layout).1 k (by rw [g2]; exact h2) (by omega)
    unfold freezePreprocessGates
    rw [f1, res_ok_bind, hk]
    exact ⟨_, rfl⟩
  · refine ⟨Z.numGates c.layout, fun w p shape => ?_⟩
    obtain ⟨c', g1, g2⟩ := e2 w p shape
    exact ⟨c', g1, ⟨k, by rw [g2]; exact h2, h3⟩, by rw [g2]⟩

/-- A size is missing because the circuit is, or because the circuit has no domain. -/
theorem universalParamSize_error {enc : E.AeadSk} {freezer : Fr} {kind : NoteType} {n m : ℕ} {d : Fin 256} {e : Err}
    (h : universalParamSize enc freezer kind n m d = .error e) :
    universalParamCircuit enc freezer kind n m d = .error e ∨
      ∃ c, universalParamCircuit enc freezer kind n m d = .ok c ∧ Z.domain c.layout = none ∧ e = .failedSnark := by
  unfold universalParamSize at h
  cases hc : universalParamCircuit enc freezer kind n m d with
  | error e' => rw [hc] at h; cases h; exact .inl rfl
  | ok c =>
    rw [hc, res_ok_bind] at h
    cases hd : Z.domain c.layout with
    | none => rw [hd] at h; cases h; exact .inr ⟨c, rfl, hd, rfl⟩
    | some k => rw [hd] at h; cases h

/-- **No size**: where no size is computed there are no keys from any parameter, and the error is the same. -/
theorem C83_error (enough : SrsSuffices) {enc : E.AeadSk} {freezer : Fr} {n m : ℕ} {d : Fin 256} {e : Err} (s : Z.Srs) :
    (universalParamSize enc freezer .transfer n m d = .error e → @transferPreprocessGates E (Z.snark s) n m d = .error e) ∧
    (universalParamSize enc freezer .mint n m d = .error e → @mintPreprocessGates E (Z.snark s) d = .error e) ∧
    (universalParamSize enc freezer .freeze n m d = .error e → @freezePreprocessGates E (Z.snark s) n d = .error e) := by
  refine ⟨fun h => ?_, fun h => ?_, fun h => ?_⟩
  · unfold transferPreprocessGates
    by_cases h0 : n = 0 ∨ m = 0
    · rcases universalParamSize_error h with h | ⟨c, h, -⟩
      · rw [transferForKeys_error h0, ← h.symm.trans (transferForKeys_error h0 d enc)]
        rfl
      · cases h.symm.trans (transferForKeys_error h0 d enc)
    obtain ⟨hn, hm⟩ := not_or.1 h0
    obtain ⟨c, e1, e2, -⟩ := (C82_transfer n m d enc).2 (by omega) (by omega)
    rcases universalParamSize_error h with h' | ⟨c', h', h2, rfl⟩
    · cases h'.symm.trans e1
    cases h'.symm.trans e1
    obtain ⟨c'', w, p, f1, f2, f3, f4⟩ := transferForKeys_ok (by omega : 0 < n) (by omega : 0 < m) d (Z.snark s).defaultDec
    obtain ⟨c3, g1, g2⟩ := e2 w p f3 f4
    cases f2.symm.trans g1
    rw [f1, res_ok_bind, g2, (enough s _).2 h2]
    rfl
  · unfold mintPreprocessGates
    obtain ⟨c, e1, e2, -⟩ := C82_mint d enc
    rcases universalParamSize_error h with h' | ⟨c', h', h2, rfl⟩
    · cases h'.symm.trans e1
    cases h'.symm.trans e1
    obtain ⟨c'', w, p, f1, f2, f3⟩ := mintForKeys_ok d (Z.snark s).defaultDec
    obtain ⟨c3, g1, g2⟩ := e2 w p f3
    cases f2.symm.trans g1
    rw [f1, res_ok_bind, g2, (enough s _).2 h2]
    rfl
  · unfold freezePreprocessGates
    have fails : ∀ e', (∀ enc freezer, freezeForKeys n d enc freezer = .error e') →
        (do
          let c ← freezeForKeys n d (Z.snark s).defaultDec (Z.snark s).zeroSeedFreezer
          let (pk, vk) ← orFailedSnark ((Z.snark s).preprocess c.layout)
          (.ok (@FreezeProvingKey.mk E (@capExt E (Z.snark s)) pk d n, @FreezeVerifyingKey.mk E (@capExt E (Z.snark s)) vk d n) :
            Res _)) = .error e := by
      intro e' he
      rcases universalParamSize_error h with h | ⟨c, h, -⟩
      · rw [he]
        cases h.symm.trans (he enc freezer)
        rfl
      · cases h.symm.trans (he enc freezer)
    by_cases hf : 3 ^ d.val < n ∨ 2 ^ 64 ≤ n
    · exact fails _ fun enc freezer => freezeForKeys_full hf enc freezer
    rw [not_or, not_lt, not_le] at hf
    by_cases h0 : n = 0
    · subst h0; exact fails _ fun enc freezer => freezeForKeys_zero d enc freezer
    by_cases h1 : n = 1
    · subst h1; exact fails _ fun enc freezer => freezeForKeys_one d enc freezer
    have hn : 2 ≤ n := by omega
    obtain ⟨c, e1, e2, -⟩ := (C82_freeze hf.2 d enc freezer).2.2 hn hf.1
    rcases universalParamSize_error h with h' | ⟨c', h', h2, rfl⟩
    · cases h'.symm.trans e1
    cases h'.symm.trans e1
    obtain ⟨c'', w, p, f1, f2, f3⟩ := freezeForKeys_ok hn hf.1 hf.2 (Z.snark s).defaultDec (Z.snark s).zeroSeedFreezer
    obtain ⟨c3, g1, g2⟩ := e2 w p f3
    cases f2.symm.trans g1
    rw [f1, res_ok_bind, g2, (enough s _).2 h2]
    rfl

omit Z in
/-- **The verifying key inside a proving key** is the one that was made with it, and both say the numbers asked for. -/
theorem C83_verifying_key [P : PlonkSnark] {inside : P.Pk → P.Vk}
    (own : ∀ l pk vk, P.preprocess l = some (pk, vk) → inside pk = vk) {n m : ℕ} {d : Fin 256}
    {pk : @TransferProvingKey E capExt} {vk : @TransferVerifyingKey E capExt} (made : transferPreprocessGates n m d = .ok (pk, vk)) :
    @transferVerifyingKeyOf E capExt inside pk = vk ∧
      @TransferVerifyingKey.n_inputs E capExt vk = n ∧ @TransferVerifyingKey.n_outputs E capExt vk = m ∧
      @TransferVerifyingKey.tree_depth E capExt vk = d := by
  unfold transferPreprocessGates at made
  obtain ⟨c, h1, h2⟩ := bind_ok_iff.1 made
  obtain ⟨⟨k1, k2⟩, h3, h4⟩ := bind_ok_iff.1 h2
  cases h4
  refine ⟨?_, rfl, rfl, rfl⟩
  unfold transferVerifyingKeyOf
  rw [← own _ _ _ (orFailedSnark_ok.1 h3)]

end Cap

namespace Cap.Examples

open Toy Spec Plonk

/-- parameters are numbers; a circuit needs the least power of two that is not less than its number of gates -/
@[instance_reducible]
noncomputable def sized83 : @SizedPlonk Toy.E where
  Srs := ℕ
  degree s := s
  domain l := some (2 ^ Nat.clog 2 l.gates.length)
  numGates l := l.gates.length
  snark s :=
    { ideal82 (E := Toy.E) alice.encSk with
      preprocess := fun l => if 2 ^ Nat.clog 2 l.gates.length + 2 ≤ s then some (l, l) else none }

theorem sized83_law : @SrsSuffices Toy.E sized83 := by
  intro s l
  refine ⟨fun n h hn => ?_, fun h => by cases h⟩
  cases h
  exact ⟨(l, l), if_pos hn⟩

/-- a size is computed for three inputs, three outputs and depth 20, and keys can be made from the parameter of this size -/
example : let _ := sized83
    ∃ size, universalParamSize alice.encSk 7 .transfer 3 3 20 = .ok size ∧
      ∃ keys, @transferPreprocessGates Toy.E (sized83.snark size) 3 3 20 = .ok keys := by
  intro _
  obtain ⟨c, hc, -⟩ := (C82_transfer 3 3 20 alice.encSk).2 (by decide) (by decide)
  have h : universalParamSize alice.encSk 7 .transfer 3 3 20 = .ok (2 ^ Nat.clog 2 c.layout.gates.length + 2) := by
    unfold universalParamSize universalParamCircuit
    rw [hc]
    rfl
  exact ⟨_, h, (C83_transfer sized83_law h).1 _ le_rfl⟩

/-- the same for mints and for freezes of five inputs -/
example : let _ := sized83
    (∃ size, universalParamSize alice.encSk 7 .mint 0 0 20 = .ok size ∧
      ∃ keys, @mintPreprocessGates Toy.E (sized83.snark size) 20 = .ok keys) ∧
    ∃ size, universalParamSize alice.encSk 7 .freeze 5 0 20 = .ok size ∧
      ∃ keys, @freezePreprocessGates Toy.E (sized83.snark size) 5 20 = .ok keys := by
  intro _
  obtain ⟨c, hc, -⟩ := C82_mint 20 alice.encSk
  obtain ⟨c', hc', -⟩ := (C82_freeze (by norm_num : 5 < 2 ^ 64) 20 alice.encSk 7).2.2 (by decide) (by decide)
  have h : universalParamSize alice.encSk 7 .mint 0 0 20 = .ok (2 ^ Nat.clog 2 c.layout.gates.length + 2) := by
    unfold universalParamSize universalParamCircuit
    rw [hc]
    rfl
  have h' : universalParamSize alice.encSk 7 .freeze 5 0 20 = .ok (2 ^ Nat.clog 2 c'.layout.gates.length + 2) := by
    unfold universalParamSize universalParamCircuit
    rw [hc']
    rfl
  exact ⟨⟨_, h, (C83_mint sized83_law h).1 _ le_rfl⟩, _, h', (C83_freeze sized83_law h').1 _ le_rfl⟩

/-- no inputs: no size, and no keys from any parameter -/
example : let _ := sized83
    universalParamSize alice.encSk 7 .transfer 0 3 20 = .error .invalidParameter ∧
      ∀ s, @transferPreprocessGates Toy.E (sized83.snark s) 0 3 20 = .error .invalidParameter := by
  intro _
  have h : universalParamSize alice.encSk 7 .transfer 0 3 20 = .error .invalidParameter := by
    unfold universalParamSize universalParamCircuit
    rw [(C82_transfer 0 3 20 alice.encSk).1 (.inl rfl)]
    rfl
  exact ⟨h, fun s => (C83_error sized83_law s).1 h⟩

/-- with the ideal proof system a proving key is its verifying key -/
example : ∃ pk vk, @transferPreprocessGates Toy.E (ideal82 alice.encSk) 3 3 20 = .ok (pk, vk) ∧
    @transferVerifyingKeyOf Toy.E (@capExt _ (ideal82 alice.encSk)) id pk = vk := by
  let P := ideal82 (E := Toy.E) alice.encSk
  obtain ⟨c, hc, -⟩ := (C82_transfer 3 3 20 P.defaultDec).2 (by decide) (by decide)
  have h : @transferPreprocessGates Toy.E P 3 3 20 =
      .ok (@TransferProvingKey.mk _ (@capExt _ P) c.layout 3 3 20, @TransferVerifyingKey.mk _ (@capExt _ P) c.layout 3 3 20) := by
    unfold transferPreprocessGates
    rw [hc]
    rfl
  exact ⟨_, _, h, (C83_verifying_key (P := P) (fun _ _ _ h => by cases h; rfl) h).1⟩

end Cap.Examples
