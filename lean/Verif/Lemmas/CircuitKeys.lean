/-
The circuits of the dummy witnesses have the layout of every circuit of their size.
-/
import Verif.Lemmas.CircuitBuild
import Verif.Lemmas.Builders
import Verif.Lemmas.GenerateMintFreeze
import Verif.Model.Circuit.Keys

namespace Cap.Plonk

open Spec

variable [E : CapEnv]

theorem built_ok {α : Type} {m : Prog α} {c : Circ} : built m = .ok c ↔ ∃ x, m.run Circ.init = some (x, c) := by
  unfold built
  split
  · next x c' h =>
    rw [h]
    constructor
    · intro h; cases h; exact ⟨x, rfl⟩
    · rintro ⟨y, h⟩; cases h; rfl
  · next h => rw [h]; simp

theorem Same.built {α : Type} {m m' : Prog α} (h : Same m m') {c : Circ} (hc : built m = .ok c) :
    ∃ c', Plonk.built m' = .ok c' ∧ c.layout = c'.layout := by
  obtain ⟨x, hx⟩ := built_ok.1 hc
  obtain ⟨t', h1, h2⟩ := h.run rfl hx
  exact ⟨t', built_ok.2 ⟨x, h1⟩, h2⟩

theorem list_shape {α β : Type} (f : α → β) (n : ℕ) (x : α) : (List.map f (List.replicate n x)) = List.replicate n (f x) := by
  simp

theorem treeOf_one (d : ℕ) (x : F) : treeOf d [x] = .ok ⟨[x], [], []⟩ :=
  treeOf_intro (by simpa using Nat.one_le_pow _ _ (by norm_num)) (by simp)

theorem real_natives (n : ℕ) : real (List.replicate n (nativeRecord : RecordOpening)) = List.replicate n nativeRecord := by
  rw [real_eq, List.filter_eq_self]
  intro r hr
  rw [List.eq_of_mem_replicate hr]
  rw [Bool.not_eq_true', ← Bool.not_eq_true, AssetDefinition.isDummy_iff]
  exact nativeDef_ne_dummyDef

theorem natives_memo (n m : ℕ) (outs : List RecordOpening) (ho : outs.length = m + 1) (creds : List ExpirableCredential) :
    ∃ memo, ViewableMemo.newForTransferNote (List.replicate (n + 1) nativeRecord) outs creds 0 = .ok memo ∧
      memo.data.length = n * VIEWABLE_DATA_LEN + m * 4 + 1 := by
  have hnd : AssetDefinition.isDummy (AssetDefinition.native : AssetDefinition) = false := by
    rw [← Bool.not_eq_true, AssetDefinition.isDummy_iff]
    exact nativeDef_ne_dummyDef
  have h1 : getAssetDefInTransferTxn (List.replicate (n + 1) (nativeRecord : RecordOpening)) = .ok AssetDefinition.native := by
    rw [List.replicate_succ, getAssetDefInTransferTxn, if_neg (by simp [nativeRecord, AssetDefinition.isNative])]
    split
    · next r hr =>
      rw [List.eq_of_mem_replicate (List.mem_of_find?_eq_some hr)]
      rfl
    · rfl
  have h2 : memoTransferAmount (List.replicate (n + 1) (nativeRecord : RecordOpening)) = some 0 := by
    rw [memoTransferAmount, safeSumAmount_eq_some, List.sum_eq_zero]
    · rfl
    · intro x hx
      simp only [List.mem_map, List.mem_filter] at hx
      obtain ⟨a, ⟨r, ⟨hr, -⟩, rfl⟩, rfl⟩ := hx
      rw [List.eq_of_mem_replicate (List.mem_of_mem_tail hr)]
      rfl
  refine ⟨viewerEncrypt (E.randViewerPk 0) 0 (List.replicate (n * VIEWABLE_DATA_LEN + m * 4 + 1) 0), ?_, ?_⟩
  · unfold ViewableMemo.newForTransferNote
    rw [h1]
    simp only [bind, Except.bind, hnd, h2]
    rw [if_neg (by simp), if_neg (by simp [AssetDefinition.native, AssetPolicy.default]), ViewableMemo.dummyForTransferNote,
      if_neg (by simp [ho]), List.length_replicate, ho]
    rfl
  · rw [viewerEncrypt_length, List.length_replicate]

/-- the dummy witness of a transfer and its public inputs -/
theorem transferDummy_ok {n m : ℕ} (hn : 0 < n) (hm : 0 < m) (d : Fin 256) (user : UserKeyPair) :
    ∃ w p, transferDummy n m d user = .ok w ∧ TransferPublicInput.fromWitness w 0 = .ok p ∧
      TransferShape n m d.val w.toV p.toV ∧ ∀ i ∈ w.toV.inputs, i.cred.attrs.length = ATTRS_LEN := by
  obtain ⟨s, hs⟩ := dummyUnexpired_eq
  obtain ⟨n, rfl⟩ : ∃ k, n = k + 1 := ⟨n - 1, by omega⟩
  obtain ⟨m, rfl⟩ : ∃ k, m = k + 1 := ⟨m - 1, by omega⟩
  generalize hc : (⟨0, List.replicate 8 0, Fin.ofNat (2 ^ 64) (2 ^ 20 - 1), s, smulFr 0 E.gen⟩ : ExpirableCredential) = cred at hs
  have h8 : cred.attrs.length = ATTRS_LEN := by rw [← hc]; rfl
  obtain ⟨memo, hmemo, hlen⟩ := natives_memo n m (List.replicate (m + 1) TransferBuilder.defaultRecord) (by simp)
    (List.replicate (n + 1) cred)
  have ht : ∀ k, total (List.replicate k (nativeRecord : RecordOpening)) = 0 := by
    intro k; simp [total, nativeRecord, TransferBuilder.defaultRecord]
  have ht' : ∀ k, total (List.replicate k (TransferBuilder.defaultRecord : RecordOpening)) = 0 := by
    intro k; simp [total, TransferBuilder.defaultRecord]
  refine ⟨_, ⟨_, _, 0, 0, _, _, memo⟩, bind_ok_iff.2 ⟨_, treeOf_one _ _, bind_ok_iff.2 ⟨cred, by rw [hs]; rfl, rfl⟩⟩,
    fromWitness_ok.2 ⟨_, _, _, _, rfl, rfl, ?_, ?_, ?_, rfl, rfl, rfl, rfl, rfl⟩, ⟨?_, ?_, ?_, ?_, ?_, ?_⟩, ?_⟩
  · dsimp only
    rw [list_shape, real_natives, ht, ht']; rfl
  · dsimp only
    rw [list_shape, real_natives, ht]; norm_num
  · dsimp only
    rw [list_shape, list_shape]; exact hmemo
  · simp [TransferWitness.toV]
  · simp [TransferWitness.toV]
  · simp [TransferPublicInput.toV]
  · simp [TransferPublicInput.toV]
  · intro i hi
    rw [TransferWitness.toV, list_shape] at hi
    rw [List.eq_of_mem_replicate hi]
    simp [InputSecret.toV, AccMemberWitness.toV]
  · simpa [TransferPublicInput.toV, ViewableMemo.toV] using hlen
  · intro i hi
    rw [TransferWitness.toV, list_shape] at hi
    rw [List.eq_of_mem_replicate hi]
    exact h8

/-- the dummy witness of a mint and its public inputs -/
theorem mintDummy_ok (d : Fin 256) (user : UserKeyPair) :
    ∃ w p, mintDummy d user = .ok w ∧ MintPublicInput.fromWitness w = .ok p ∧ MintShape d.val w.toV p.toV := by
  have key : ∀ w : MintWitness, w.fee_ro = nativeRecord → w.chg_ro = nativeRecord → ∃ p, MintPublicInput.fromWitness w = .ok p ∧
      p.viewing_memo.data.length = 3 := by
    intro w h1 h2
    rw [MintPublicInput.fromWitness, if_neg (by simp [h1, h2]), if_neg (by simp [h2, nativeRecord]),
      if_neg (by simp [h1, nativeRecord])]
    refine ⟨_, rfl, ?_⟩
    dsimp only [ViewableMemo.newForMintNote]
    rw [viewerEncrypt_length]
    split <;> rfl
  obtain ⟨p, h1, h2⟩ := key ⟨user, ⟨treePath d.val [(nativeRecord : RecordOpening).commitment] 0,
    treeRoot d.val [(nativeRecord : RecordOpening).commitment], 0⟩, nativeRecord, TransferBuilder.defaultRecord, nativeRecord,
    0, 0, 0⟩ rfl rfl
  exact ⟨_, p, bind_ok_iff.2 ⟨_, treeOf_one _ _, bind_ok_iff.2 ⟨_, if_pos (by simp), rfl⟩⟩, h1,
    ⟨treePath_length _ _ _, h2⟩⟩

theorem treeOf_full {d : ℕ} {l : List F} (h : 3 ^ d < l.length ∨ 2 ^ 64 ≤ l.length) : treeOf d l = .error .panic := by
  unfold treeOf
  suffices ∀ (l : List F) (s : LedgerState), 3 ^ d < s.leaves.length + l.length ∨ 2 ^ 64 ≤ s.leaves.length + l.length →
      s.leaves.length ≤ 3 ^ d → s.leaves.length < 2 ^ 64 → LedgerState.insertRecords d s l = .error .panic from
    this l _ (by simpa using h) (by simp) (by simp)
  intro l
  induction l with
  | nil => intro s h1 h2 h3; simp at h1; omega
  | cons x l ih =>
    intro s h1 h2 h3
    rw [LedgerState.insertRecords, LedgerState.insertRecord]
    split
    · next hs =>
      rw [res_ok_bind]
      exact ih _ (by simp at h1 ⊢; omega) (by simp; omega) (by simp; omega)
    · rfl

/-- the dummy witness of a freeze and its public inputs -/
theorem freezeDummy_ok {n : ℕ} {d : Fin 256} (h2 : 2 ≤ n) (fits : n ≤ 3 ^ d.val) (small : n < 2 ^ 64) (user : UserKeyPair)
    (k : FreezerKeyPair) :
    ∃ w p wv pv, freezeDummy d n user k = .ok w ∧ FreezePublicInput.fromWitness w = .ok p ∧ w.toV = some wv ∧
      p.toV = some pv ∧ FreezeShape n d.val wv pv := by
  have ht := treeOf_intro (d := d.val) (l := List.replicate n (TransferBuilder.defaultRecord : RecordOpening).commitment)
    (by simpa using fits) (by simpa using small)
  obtain ⟨accs, ha, hl, hp⟩ := lookupFrom_intro (d := d.val)
    (tree := ⟨List.replicate n (TransferBuilder.defaultRecord : RecordOpening).commitment, [], []⟩) (by simpa using fits)
    (by simpa using small) (ros := List.replicate n TransferBuilder.defaultRecord) (offset := 0) (fun j ro hj => by
      rw [List.getElem?_replicate] at hj
      split at hj <;> cases hj
      next hj => simp [hj])
  rw [List.length_replicate] at ha hl
  have hpath : ∀ a ∈ accs, a.path.length = d.val := by
    intro a h
    obtain ⟨j, hj⟩ := List.mem_iff_getElem?.1 h
    have : j < n := by rw [← hl]; exact (List.getElem?_eq_some_iff.1 hj).1
    exact (hp j TransferBuilder.defaultRecord a (by simp [this]) hj).1
  obtain ⟨n, rfl⟩ : ∃ k, n = k + 1 := ⟨n - 1, by omega⟩
  obtain ⟨a0, as, rfl⟩ : ∃ a0 as, accs = a0 :: as := by
    cases accs with
    | nil => simp at hl
    | cons a as => exact ⟨a, as, rfl⟩
  simp only [List.length_cons, Nat.add_right_cancel_iff] at hl
  have gen : ∀ (n : ℕ) (as : List AccMemberWitness), as.length = n → (∀ a ∈ as, a.path.length = d.val) → ∀ r : RecordOpening,
      (freezeNullifiers (List.replicate n k) (List.replicate n r) as).length = n ∧
      (freezeInputsV (List.replicate n r) as (List.replicate n k) (List.replicate n r)).length = n ∧
      ∀ i ∈ freezeInputsV (List.replicate n r) as (List.replicate n k) (List.replicate n r), i.acc.path.length = d.val := by
    intro n as hl hpath r
    subst hl
    induction as with
    | nil => simp [freezeNullifiers, freezeInputsV]
    | cons a as ih =>
      obtain ⟨i1, i2, i3⟩ := ih fun a h => hpath a (List.mem_cons_of_mem _ h)
      simp only [List.length_cons, List.replicate_succ, freezeNullifiers, freezeInputsV, List.mem_cons, i1, i2, true_and]
      rintro i (rfl | hi)
      · exact hpath a (by simp)
      · exact i3 i hi
  obtain ⟨g1, g2, g3⟩ := gen n as hl (fun a h => hpath a (List.mem_cons_of_mem _ h)) TransferBuilder.defaultRecord
  have hd : freezeDummy d (n + 1) user k = .ok ⟨List.replicate (n + 1) TransferBuilder.defaultRecord, a0 :: as,
      List.replicate (n + 1) TransferBuilder.defaultRecord, user, List.replicate n k⟩ :=
    bind_ok_iff.2 ⟨_, ht, bind_ok_iff.2 ⟨_, ha, rfl⟩⟩
  have hp : FreezePublicInput.fromWitness ⟨List.replicate (n + 1) TransferBuilder.defaultRecord, a0 :: as,
      List.replicate (n + 1) TransferBuilder.defaultRecord, user, List.replicate n k⟩ = .ok
      ⟨a0.root, nativeCode, (TransferBuilder.defaultRecord : RecordOpening).amount - TransferBuilder.defaultRecord.amount,
        user.nullify 0 a0.uid (TransferBuilder.defaultRecord : RecordOpening).commitment ::
          freezeNullifiers (List.replicate n k) (List.replicate n TransferBuilder.defaultRecord) as,
        (List.replicate (n + 1) TransferBuilder.defaultRecord).map RecordOpening.commitment⟩ := by
    rw [FreezePublicInput.fromWitness, if_neg (by simp; omega), if_neg (by simp), if_neg (by simp)]
    simp only [List.replicate_succ]
    rw [if_neg (by simp), if_neg (by simp [hl])]
  refine ⟨_, _, _, _, hd, hp, rfl, rfl, ?_⟩
  refine ⟨?_, ?_, ?_, ?_, ?_⟩
  · rw [g2]
  · rw [g1]
  · simp
  · exact hpath a0 (by simp)
  · exact g3

theorem freezeDummy_full {n : ℕ} {d : Fin 256} (h : 3 ^ d.val < n ∨ 2 ^ 64 ≤ n) (user : UserKeyPair) (k : FreezerKeyPair) :
    freezeDummy d n user k = .error .panic := by
  rw [freezeDummy, treeOf_full (by simpa using h)]
  rfl

/-! ### Building fails -/

theorem elgamalEncrypt_run {pk : PVar} {msg : List Var} {r : Var} {s t : Circ} {m : MemoVar}
    (h : (elgamalEncrypt pk msg r).run s = some (m, t)) : m.symm_ctxts.length = msg.length := by
  obtain ⟨_, s1, -, h⟩ := run_bind_some h
  obtain ⟨l, s2, h1, h⟩ := run_bind_some h
  unfold emits at h1
  rw [Prog.run] at h1
  split at h1
  · rw [Prog.run] at h1
    cases h1
    split at h
    · next x y l' he =>
      cases h
      have := congrArg List.length he
      simp [Op.eval, derive_len] at this
      exact this.symm
    · cases h
  · cases h1

theorem memoCheckEqual_run {m m' : MemoVar} {s t : Circ} {b : BVar} (h : (m.checkEqual m').run s = some (b, t)) :
    m'.symm_ctxts.length = m.symm_ctxts.length := by
  rw [MemoVar.checkEqual] at h
  split at h
  · cases h
  · next hn => exact not_not.1 hn

theorem mintBuild_memo {w : MintWit} {p : MintPub} {c : Circ} (h : built (mintBuild w p) = .ok c) : p.memo.data.length = 3 := by
  obtain ⟨x, h⟩ := built_ok.1 h
  obtain ⟨wv, s1, -, h⟩ := run_bind_some h
  obtain ⟨pv, s2, hp, h⟩ := run_bind_some h
  obtain ⟨_, s3, hg, _⟩ := run_bind_some h
  unfold mintGates at hg
  iterate 23 obtain ⟨_, _, -, hg⟩ := run_bind_some hg
  obtain ⟨_, _, hm, -⟩ := run_bind_some hg
  obtain ⟨_, _, hd, he⟩ := run_bind_some hm
  have h1 := elgamalEncrypt_run hd
  have h2 := memoCheckEqual_run he
  obtain ⟨pv', t, hp', -, -, -, -, h3⟩ := Wp.run (s := s1) (SafeP.mintPubNew p (n := s1.vals.length) (k := s1.sigs.length)
    (ps := s1.pubs))
  cases hp.symm.trans hp'
  rw [← h3, ← h2, h1]
  rfl

/-! ### Building for preprocessing -/

theorem transferForKeys_ok {n m : ℕ} (hn : 0 < n) (hm : 0 < m) (d : Fin 256) (enc : E.AeadSk) :
    ∃ c w p, transferForKeys n m d enc = .ok c ∧ built (transferBuild w p) = .ok c ∧ TransferShape n m d.val w p ∧
      ∀ i ∈ w.inputs, i.cred.attrs.length = ATTRS_LEN := by
  obtain ⟨w, p, h1, h2, h3, h4⟩ := transferDummy_ok hn hm d (defaultUser enc)
  obtain ⟨wv, pv, t, ht, -⟩ := transferBuild_ok h3 hn hm h4
  have hb := built_ok.2 ⟨_, ht⟩
  exact ⟨t, _, _, bind_ok_iff.2 ⟨w, h1, bind_ok_iff.2 ⟨p, h2, hb⟩⟩, hb, h3, h4⟩

theorem transferForKeys_error {n m : ℕ} (h : n = 0 ∨ m = 0) (d : Fin 256) (enc : E.AeadSk) :
    transferForKeys n m d enc = .error .invalidParameter := by
  obtain ⟨s, hs⟩ := dummyUnexpired_eq
  rw [transferForKeys, transferDummy, treeOf_one, res_ok_bind, hs]
  rcases h with rfl | rfl
  · rfl
  · cases n with
    | zero => rfl
    | succ n => rfl

theorem mintForKeys_ok (d : Fin 256) (enc : E.AeadSk) :
    ∃ c w p, mintForKeys d enc = .ok c ∧ built (mintBuild w p) = .ok c ∧ MintShape d.val w p := by
  obtain ⟨w, p, h1, h2, h3⟩ := mintDummy_ok d (defaultUser enc)
  obtain ⟨wv, pv, t, ht, -⟩ := mintBuild_ok h3
  have hb := built_ok.2 ⟨_, ht⟩
  exact ⟨t, _, _, bind_ok_iff.2 ⟨w, h1, bind_ok_iff.2 ⟨p, h2, hb⟩⟩, hb, h3⟩

theorem freezeForKeys_ok {n : ℕ} {d : Fin 256} (h2 : 2 ≤ n) (fits : n ≤ 3 ^ d.val) (small : n < 2 ^ 64) (enc : E.AeadSk)
    (freezer : Fr) :
    ∃ c w p, freezeForKeys n d enc freezer = .ok c ∧ built (freezeBuild w p) = .ok c ∧ FreezeShape n d.val w p := by
  obtain ⟨w, p, wv, pv, h1, h2, h3, h4, h5⟩ := freezeDummy_ok h2 fits small (defaultUser enc) (FreezerKeyPair.generate freezer)
  obtain ⟨wv', pv', t, ht, -⟩ := freezeBuild_ok h5
  have hb := built_ok.2 ⟨_, ht⟩
  refine ⟨t, wv, pv, bind_ok_iff.2 ⟨w, h1, bind_ok_iff.2 ⟨p, h2, ?_⟩⟩, hb, h5⟩
  simp only [h3, h4]
  exact hb

theorem freezeForKeys_full {n : ℕ} {d : Fin 256} (h : 3 ^ d.val < n ∨ 2 ^ 64 ≤ n) (enc : E.AeadSk) (freezer : Fr) :
    freezeForKeys n d enc freezer = .error .panic := by
  rw [freezeForKeys, freezeDummy_full h]
  rfl

theorem freezeForKeys_zero (d : Fin 256) (enc : E.AeadSk) (freezer : Fr) :
    freezeForKeys 0 d enc freezer = .error .panic := rfl

theorem freezeForKeys_one (d : Fin 256) (enc : E.AeadSk) (freezer : Fr) :
    freezeForKeys 1 d enc freezer = .error .invalidParameter := by
  rw [freezeForKeys, freezeDummy, List.replicate_one, treeOf_one]
  rfl

end Cap.Plonk
