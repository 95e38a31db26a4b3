/-
C82: a key that is made from a dummy witness proves and accepts exactly the relation of its size.

status: proved
note: C82_transfer, C82_mint, C82_freeze: the circuit that is built from the dummy witness during preprocessing has the layout of the circuit of every witness of its size, and preprocessing fails exactly for the sizes listed (no inputs, no outputs, a freeze of fewer than two records, a freeze of more records than the tree has leaves, which panics). C82_sound, C82_complete, C82_batch, C82_refuses: the laws of the proof system for the three relations that C01-C80 assume (SnarkSound, SnarkComplete, SnarkBatch, SnarkRefuses) follow from the laws of a proof system for circuits made of gates, which knows nothing about CAP. C82_prove_*: prove, as the library composes it from building, checking satisfiability and proving, is the prove of the model. Left as an assumption about the relations: SnarkSized, used in C19_generate_any only.
-/
import Verif.Props.C81

namespace Cap

open Spec Plonk

variable [E : CapEnv]

/-- **Transfer keys** exist for every depth and at least one input and one output, and fit every witness of this size. -/
theorem C82_transfer (n m : ℕ) (d : Fin 256) (enc : E.AeadSk) :
    (n = 0 ∨ m = 0 → transferForKeys n m d enc = .error .invalidParameter) ∧
    (0 < n → 0 < m → ∃ c, transferForKeys n m d enc = .ok c ∧
      (∀ w p, TransferShape n m d.val w p → (∀ i ∈ w.inputs, i.cred.attrs.length = 8) →
        ∃ c', built (transferBuild w p) = .ok c' ∧ c'.layout = c.layout) ∧
      ∀ pub, (∃ a, c.layout.Holds a ∧ c.layout.pub a = pub) ↔
        ∃ w p, TransferShape n m d.val w p ∧ TransferSat w p ∧ p.toScalars = pub) := by
  refine ⟨fun h => transferForKeys_error h d enc, fun hn hm => ?_⟩
  obtain ⟨c, w, p, h1, h2, h3, h4⟩ := transferForKeys_ok hn hm d enc
  obtain ⟨c', e1, e2, -, -, e3⟩ := C81_transfer hn hm h3 h4
  cases h2.symm.trans e1
  exact ⟨c, h1, e2, e3⟩

/-- **Mint keys** exist for every depth. -/
theorem C82_mint (d : Fin 256) (enc : E.AeadSk) :
    ∃ c, mintForKeys d enc = .ok c ∧
      (∀ w p, MintShape d.val w p → ∃ c', built (mintBuild w p) = .ok c' ∧ c'.layout = c.layout) ∧
      ∀ pub, (∃ a, c.layout.Holds a ∧ c.layout.pub a = pub) ↔
        ∃ w p, MintShape d.val w p ∧ MintSat w p ∧ p.toScalars = pub := by
  obtain ⟨c, w, p, h1, h2, h3⟩ := mintForKeys_ok d enc
  obtain ⟨c', e1, e2, -, -, e3⟩ := C81_mint h3
  cases h2.symm.trans e1
  exact ⟨c, h1, e2, e3⟩

/-- **Freeze keys** exist for two inputs or more, the fee included, but not more than the tree has leaves. -/
theorem C82_freeze {n : ℕ} (small : n < 2 ^ 64) (d : Fin 256) (enc : E.AeadSk) (freezer : Fr) :
    (freezeForKeys n d enc freezer = .error .panic ↔ n = 0 ∨ 3 ^ d.val < n) ∧
    (freezeForKeys n d enc freezer = .error .invalidParameter ↔ n = 1) ∧
    (2 ≤ n → n ≤ 3 ^ d.val → ∃ c, freezeForKeys n d enc freezer = .ok c ∧
      (∀ w p, FreezeShape n d.val w p → ∃ c', built (freezeBuild w p) = .ok c' ∧ c'.layout = c.layout) ∧
      ∀ pub, (∃ a, c.layout.Holds a ∧ c.layout.pub a = pub) ↔
        ∃ w p, FreezeShape n d.val w p ∧ FreezeSat w p ∧ p.toScalars = pub) := by
  have key : 2 ≤ n → n ≤ 3 ^ d.val → ∃ c, freezeForKeys n d enc freezer = .ok c ∧
      (∀ w p, FreezeShape n d.val w p → ∃ c', built (freezeBuild w p) = .ok c' ∧ c'.layout = c.layout) ∧
      ∀ pub, (∃ a, c.layout.Holds a ∧ c.layout.pub a = pub) ↔
        ∃ w p, FreezeShape n d.val w p ∧ FreezeSat w p ∧ p.toScalars = pub := by
    intro h2 fits
    obtain ⟨c, w, p, h1, h2, h3⟩ := freezeForKeys_ok h2 fits small enc freezer
    obtain ⟨c', e1, e2, -, -, e3⟩ := C81_freeze h3
    cases h2.symm.trans e1
    exact ⟨c, h1, e2, e3⟩
  have one : 1 ≤ 3 ^ d.val := Nat.one_le_pow _ _ (by norm_num)
  refine ⟨⟨fun h => ?_, ?_⟩, ⟨fun h => ?_, ?_⟩, key⟩
  · by_contra hn
    rw [not_or, not_lt] at hn
    by_cases h1 : n = 1
    · subst h1
      rw [freezeForKeys_one] at h
      cases h
    · obtain ⟨c, hc, -⟩ := key (by omega) hn.2
      rw [hc] at h
      cases h
  · rintro (rfl | h)
    · exact freezeForKeys_zero d enc freezer
    · exact freezeForKeys_full (.inl h) enc freezer
  · by_contra hn
    by_cases h1 : n = 0 ∨ 3 ^ d.val < n
    · have : freezeForKeys n d enc freezer = .error .panic := by
        rcases h1 with rfl | h1
        · exact freezeForKeys_zero d enc freezer
        · exact freezeForKeys_full (.inl h1) enc freezer
      rw [this] at h
      cases h
    · rw [not_or, not_lt] at h1
      obtain ⟨c, hc, -⟩ := key (by omega) h1.2
      rw [hc] at h
      cases h
  · rintro rfl
    exact freezeForKeys_one d enc freezer

variable [P : PlonkSnark]

attribute [local instance] Plonk.capExt

/-- what preprocessing of a size knows about the circuit -/
theorem circuitForKeys_spec {sh : Shape} {c : Circ} (h : circuitForKeys sh = .ok c) :
    (∀ inst : CircuitInst, inst.HasShape sh → inst.AttrsFit → ∃ c', circuitOf inst = .ok c' ∧ c'.layout = c.layout ∧
      (c.layout.Holds c'.asg ↔ inst.Sat) ∧ c.layout.pub c'.asg = inst.pub) ∧
    ∀ a, c.layout.Holds a → ∃ inst : CircuitInst, inst.HasShape sh ∧ inst.Sat ∧ inst.pub = c.layout.pub a := by
  cases sh with
  | transfer n m d =>
    rw [circuitForKeys] at h
    split at h
    · next hd =>
      obtain ⟨h1, h2⟩ := C82_transfer n m ⟨d, hd⟩ P.defaultDec
      by_cases h0 : n = 0 ∨ m = 0
      · rw [h1 h0] at h; cases h
      · obtain ⟨hn, hm⟩ := not_or.1 h0
        obtain ⟨c', e1, e2, e3⟩ := h2 (by omega) (by omega)
        cases h.symm.trans e1
        constructor
        · intro inst hs h8
          cases inst <;> first | exact hs.elim | skip
          next w p =>
          obtain ⟨c', f1, f2⟩ := e2 w p hs h8
          obtain ⟨c'', g1, -, g2, g3, -⟩ := C81_transfer (by omega) (by omega) hs h8
          cases f1.symm.trans g1
          exact ⟨c', f1, f2, by rw [← f2]; exact g2, by rw [← f2]; exact g3⟩
        · intro a ha
          obtain ⟨w, p, f1, f2, f3⟩ := (e3 _).1 ⟨a, ha, rfl⟩
          exact ⟨.transfer w p, f1, f2, f3⟩
    · cases h
  | mint d =>
    rw [circuitForKeys] at h
    split at h
    · next hd =>
      obtain ⟨c', e1, e2, e3⟩ := C82_mint ⟨d, hd⟩ P.defaultDec
      cases h.symm.trans e1
      constructor
      · intro inst hs fit
        cases inst <;> first | exact hs.elim | skip
        next w p =>
        obtain ⟨c', f1, f2⟩ := e2 w p hs
        obtain ⟨c'', g1, -, g2, g3, -⟩ := C81_mint hs
        cases f1.symm.trans g1
        exact ⟨c', f1, f2, by rw [← f2]; exact g2, by rw [← f2]; exact g3⟩
      · intro a ha
        obtain ⟨w, p, f1, f2, f3⟩ := (e3 _).1 ⟨a, ha, rfl⟩
        exact ⟨.mint w p, f1, f2, f3⟩
    · cases h
  | freeze n d =>
    rw [circuitForKeys] at h
    split at h
    · next hd =>
      have hf : ¬(3 ^ d < n ∨ 2 ^ 64 ≤ n) := fun hf => by
        rw [freezeForKeys_full (d := ⟨d, hd⟩) hf] at h
        cases h
      rw [not_or, not_lt, not_le] at hf
      obtain ⟨h0, h1, h2⟩ := C82_freeze hf.2 ⟨d, hd⟩ P.defaultDec P.zeroSeedFreezer
      have hn : 2 ≤ n := by
        by_contra hn
        rcases (by omega : n = 0 ∨ n = 1) with hn | hn
        · rw [h0.2 (.inl hn)] at h; cases h
        · rw [h1.2 hn] at h; cases h
      obtain ⟨c', e1, e2, e3⟩ := h2 hn hf.1
      cases h.symm.trans e1
      constructor
      · intro inst hs fit
        cases inst <;> first | exact hs.elim | skip
        next w p =>
        obtain ⟨c', f1, f2⟩ := e2 w p hs
        obtain ⟨c'', g1, -, g2, g3, -⟩ := C81_freeze hs
        cases f1.symm.trans g1
        exact ⟨c', f1, f2, by rw [← f2]; exact g2, by rw [← f2]; exact g3⟩
      · intro a ha
        obtain ⟨w, p, f1, f2, f3⟩ := (e3 _).1 ⟨a, ha, rfl⟩
        exact ⟨.freeze w p, f1, f2, f3⟩
    · cases h

omit P in
/-- a satisfied transfer has eight attributes in every credential -/
theorem attrsFit_of_sat {sh : Shape} {inst : CircuitInst} (hs : inst.HasShape sh) (sat : inst.Sat) : inst.AttrsFit := by
  cases inst <;> cases sh <;> first | exact hs.elim | skip
  · exact (transferSat_wf hs sat).2.2
  all_goals trivial

/-- **Soundness** for the relations follows from soundness for gates. -/
theorem C82_sound (sound : GateSound) : @SnarkSound E capExt := by
  intro sh pk vk h pub π ext hv
  change (match circuitForKeys sh with | .ok c => P.preprocess c.layout | .error _ => none) = some (pk, vk) at h
  split at h
  · next c hc =>
    obtain ⟨a, ha, rfl⟩ := sound _ _ _ h _ _ _ hv
    exact (circuitForKeys_spec hc).2 a ha
  · cases h

/-- **Completeness** for the relations follows from completeness for gates. -/
theorem C82_complete (complete : GateComplete) : @SnarkComplete E capExt := by
  intro sh pk vk h inst hs sat ext seed
  change (match circuitForKeys sh with | .ok c => P.preprocess c.layout | .error _ => none) = some (pk, vk) at h
  split at h
  · next c hc =>
    obtain ⟨c', h1, h2, h3, h4⟩ := (circuitForKeys_spec hc).1 inst hs (attrsFit_of_sat hs sat)
    obtain ⟨π, h5, h6⟩ := complete _ _ _ h c' h2 (h3.2 sat) ext seed
    refine ⟨π, ?_, ?_⟩
    · change (match circuitOf inst with | .ok c => P.prove pk c ext seed | .error _ => none) = some π
      rw [h1]
      exact h5
    · rw [← h4]
      exact h6
  · cases h

/-- **Batches.** -/
theorem C82_batch (batch : GateBatch) : @SnarkBatch E capExt := batch

/-- **Refusal**: that the prover fails on circuits whose values do not satisfy the gates carries over to the relations. -/
theorem C82_refuses (refuses : GateRefuses) : @SnarkRefuses E capExt := by
  intro sh pk vk h inst ext seed π hs fit hp
  change (match circuitForKeys sh with | .ok c => P.preprocess c.layout | .error _ => none) = some (pk, vk) at h
  split at h
  · next c hc =>
    obtain ⟨c', h1, h2, h3, -⟩ := (circuitForKeys_spec hc).1 inst hs fit
    change (match circuitOf inst with | .ok c => P.prove pk c ext seed | .error _ => none) = some π at hp
    rw [h1] at hp
    exact h3.1 (refuses _ _ _ h c' h2 _ _ _ hp)
  · cases h

/-- **Preprocessing**, composed from building the circuit of the dummy witness and the proof system, is the preprocessing
that the other properties speak about; for freezes, as long as the tree has a leaf for every input. -/
theorem C82_preprocess :
    (∀ n m d, transferPreprocessGates n m d = @transferPreprocess E capExt n m d) ∧
    (∀ d, mintPreprocessGates d = @mintPreprocess E capExt d) ∧
    (∀ n d, n ≤ 3 ^ d.val → n < 2 ^ 64 → freezePreprocessGates n d = @freezePreprocess E capExt n d) ∧
    ∀ n d, 3 ^ d.val < n → freezePreprocessGates n d = .error .panic := by
  refine ⟨fun n m d => ?_, fun d => ?_, fun n d fits small => ?_, fun n d full => ?_⟩
  · by_cases h : n = 0 ∨ m = 0
    · rw [transferPreprocessGates, transferForKeys_error h, transferPreprocess, if_pos h]
      rfl
    · obtain ⟨hn, hm⟩ := not_or.1 h
      obtain ⟨c, hc, -⟩ := (C82_transfer n m d P.defaultDec).2 (by omega) (by omega)
      have : (@CapExt.preprocess E capExt (.transfer n m d.val)) = P.preprocess c.layout := by
        show (match circuitForKeys (.transfer n m d.val) with | .ok c => P.preprocess c.layout | .error _ => none) = _
        rw [circuitForKeys, dif_pos d.isLt]
        simp only [Fin.eta, hc]
      rw [transferPreprocessGates, hc, transferPreprocess, if_neg h, this, res_ok_bind]
      cases P.preprocess c.layout <;> rfl
  · obtain ⟨c, hc, -⟩ := C82_mint d P.defaultDec
    have : (@CapExt.preprocess E capExt (.mint d.val)) = P.preprocess c.layout := by
      show (match circuitForKeys (.mint d.val) with | .ok c => P.preprocess c.layout | .error _ => none) = _
      rw [circuitForKeys, dif_pos d.isLt]
      simp only [Fin.eta, hc]
    rw [mintPreprocessGates, hc, mintPreprocess, this, res_ok_bind]
    cases P.preprocess c.layout <;> rfl
  · obtain ⟨h0, h1, h2⟩ := C82_freeze small d P.defaultDec P.zeroSeedFreezer
    rw [freezePreprocess]
    by_cases hz : n = 0
    · rw [if_pos hz, freezePreprocessGates, h0.2 (.inl hz)]
      rfl
    · rw [if_neg hz]
      by_cases ho : n ≤ 1
      · rw [if_pos ho, freezePreprocessGates, h1.2 (by omega)]
        rfl
      · obtain ⟨c, hc, -⟩ := h2 (by omega) fits
        have : (@CapExt.preprocess E capExt (.freeze n d.val)) = P.preprocess c.layout := by
          show (match circuitForKeys (.freeze n d.val) with | .ok c => P.preprocess c.layout | .error _ => none) = _
          rw [circuitForKeys, dif_pos d.isLt]
          simp only [Fin.eta, hc]
        rw [if_neg ho, freezePreprocessGates, hc, this, res_ok_bind]
        cases P.preprocess c.layout <;> rfl
  · rw [freezePreprocessGates, freezeForKeys_full (.inl full)]
    rfl

/-- **Proving a transfer**: building the circuit, checking that it is satisfied and proving is the `prove` that the other
properties speak about. -/
theorem C82_prove_transfer {n m d : ℕ} (hn : 0 < n) (hm : 0 < m) {w : TransferWitness} {p : TransferPublicInput}
    (shape : TransferShape n m d w.toV p.toV) (attrs : ∀ i ∈ w.toV.inputs, i.cred.attrs.length = 8)
    (pk : @TransferProvingKey E capExt) (ver_key : Pt) (extra : List Byte) (seed : ℕ) :
    transferProveGates pk w p ver_key extra seed = @transferProve E capExt pk w p ver_key extra seed := by
  obtain ⟨c, h1, -, h2, h3, -⟩ := C81_transfer hn hm shape attrs
  have hp : ∀ ext, @CapExt.prove E capExt (@TransferProvingKey.key E capExt pk) (.transfer w.toV p.toV) ext seed =
      P.prove (@TransferProvingKey.key E capExt pk) c ext seed := by
    intro ext
    show (match built (transferBuild w.toV p.toV) with | .ok c => P.prove _ c ext seed | .error _ => none) = _
    rw [h1]
  rw [transferProveGates, h1, res_ok_bind, transferProve, checkSatisfiability, h3, hp]
  by_cases hs : TransferSat w.toV p.toV ∧ p.toV.toScalars = p.toScalars
  · rw [if_pos hs, decide_eq_true (show c.layout.Holds c.asg ∧ _ from ⟨h2.2 hs.1, hs.2⟩)]
    rfl
  · rw [if_neg hs, decide_eq_false (fun h => hs ⟨h2.1 h.1, h.2⟩)]
    rfl

/-- **Proving a mint**, whatever its sizes. -/
theorem C82_prove_mint (pk : @MintProvingKey E capExt) (w : MintWitness) (p : MintPublicInput) (ver_key : Pt) (seed : ℕ) :
    mintProveGates pk w p ver_key seed = @mintProve E capExt pk w p ver_key seed := by
  rw [mintProveGates, mintProve]
  have hp : @CapExt.prove E capExt (@MintProvingKey.key E capExt pk) (.mint w.toV p.toV) (E.verKeyBytes ver_key) seed =
      match built (mintBuild w.toV p.toV) with
      | .ok c => P.prove (@MintProvingKey.key E capExt pk) c (E.verKeyBytes ver_key) seed
      | .error _ => none := rfl
  rw [hp]
  cases hb : built (mintBuild w.toV p.toV) with
  | ok c =>
    have h3 : p.viewing_memo.data.length = 3 := C81_memo hb
    rw [if_neg (not_not.2 h3)]
    rfl
  | error e =>
    have : e = .failedSnark := by
      unfold built at hb
      split at hb <;> cases hb
      rfl
    subst this
    split <;> rfl

/-- **Proving a freeze.** -/
theorem C82_prove_freeze {n d : ℕ} {w : FreezeWitness} {p : FreezePublicInput} {wv : FreezeWit} {pv : FreezePub}
    (hw : w.toV = some wv) (hp : p.toV = some pv) (shape : FreezeShape n d wv pv) (pk : @FreezeProvingKey E capExt)
    (ver_key : Pt) (seed : ℕ) :
    freezeProveGates pk w p ver_key seed = @freezeProve E capExt pk w p ver_key seed := by
  obtain ⟨c, h1, -, h2, h3, -⟩ := C81_freeze shape
  have he : @CapExt.prove E capExt (@FreezeProvingKey.key E capExt pk) (.freeze wv pv) (E.verKeyBytes ver_key) seed =
      P.prove (@FreezeProvingKey.key E capExt pk) c (E.verKeyBytes ver_key) seed := by
    show (match built (freezeBuild wv pv) with | .ok c => P.prove _ c _ seed | .error _ => none) = _
    rw [h1]
  rw [freezeProveGates, freezeProve, hw, hp]
  cases freezeFlagsFlipped w.input_ros.tail w.output_ros.tail with
  | false => rfl
  | true =>
    dsimp only
    rw [show ensure true Err.failedSnark = .ok () from rfl, res_ok_bind, h1, res_ok_bind, checkSatisfiability, h3, he]
    by_cases hs : FreezeSat wv pv ∧ pv.toScalars = p.toScalars
    · rw [if_pos hs, decide_eq_true (show c.layout.Holds c.asg ∧ _ from ⟨h2.2 hs.1, hs.2⟩)]
      rfl
    · rw [if_neg hs, decide_eq_false (fun h => hs ⟨h2.1 h.1, h.2⟩)]
      rfl

end Cap

namespace Cap.Examples

open Toy Spec Plonk

/-- an ideal proof system for gates: it proves a circuit if all gates hold, and accepts public inputs for which there are
values that satisfy all gates -/
noncomputable def ideal82 [E : CapEnv] (dec : E.AeadSk) : PlonkSnark where
  Proof := Unit
  Pk := Layout
  Vk := Layout
  proofDec := inferInstance
  preprocess l := some (l, l)
  prove pk c _ _ := open Classical in if c.layout = pk ∧ pk.Holds c.asg then some () else none
  verify vk pub _ _ := open Classical in decide (∃ a, vk.Holds a ∧ vk.pub a = pub)
  batchVerify l := open Classical in l.all fun x => decide (∃ a, x.1.Holds a ∧ x.1.pub a = x.2.1)
  defaultDec := dec
  zeroSeedFreezer := 7
  roBytes _ := none
  roParse _ := none
  roParse_roBytes _ _ h := by cases h

/-- the laws hold of it -/
theorem ideal82_laws [E : CapEnv] (dec : E.AeadSk) :
    @GateComplete E (ideal82 dec) ∧ @GateSound E (ideal82 dec) ∧ @GateBatch E (ideal82 dec) ∧
      @GateRefuses E (ideal82 dec) := by
  classical
  refine ⟨?_, ?_, ?_, ?_⟩
  · intro l pk vk h c hc hh ext seed
    cases h
    refine ⟨(), ?_, ?_⟩
    · exact if_pos ⟨hc, hh⟩
    · exact decide_eq_true ⟨c.asg, hh, rfl⟩
  · intro l pk vk h pub π ext hv
    cases h
    exact of_decide_eq_true hv
  · intro l _
    exact List.all_eq_true
  · intro l pk vk h c hc ext seed π hp
    cases h
    by_contra hn
    rw [show (ideal82 dec).prove l c ext seed = none from if_neg (fun h => hn h.2)] at hp
    cases hp

/-- so the relations have a proof system, and keys of every size listed in the theorems -/
example : let S := @capExt _ (ideal82 (E := Toy.E) alice.encSk)
    @SnarkSound _ S ∧ @SnarkComplete _ S ∧ @SnarkBatch _ S ∧ @SnarkRefuses _ S ∧ ∃ k, @transferPreprocess _ S 3 3 20 = .ok k := by
  let P := ideal82 (E := Toy.E) alice.encSk
  obtain ⟨h1, h2, h3, h4⟩ := ideal82_laws (E := Toy.E) alice.encSk
  refine ⟨C82_sound h2, C82_complete h1, C82_batch h3, C82_refuses h4, ?_⟩
  obtain ⟨c, hc, -⟩ := (C82_transfer 3 3 20 P.defaultDec).2 (by decide) (by decide)
  rw [← C82_preprocess.1, transferPreprocessGates, hc]
  exact ⟨_, rfl⟩

/-- freeze keys for 5 inputs: in a tree of depth 2, not in a tree of depth 1 -/
example : (∃ c, freezeForKeys 5 2 alice.encSk 7 = .ok c) ∧ freezeForKeys 5 1 alice.encSk 7 = .error .panic :=
  ⟨(C82_freeze (by norm_num) 2 alice.encSk 7).2.2 (by norm_num) (by norm_num) |>.imp fun _ h => h.1,
    (C82_freeze (by norm_num) 1 alice.encSk 7).1.2 (.inr (by norm_num))⟩

end Cap.Examples
