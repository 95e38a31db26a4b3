/-
C06: freezing changes nothing but the freeze flag.

status: partial
note: FALSE of the code as far as the reveal map is concerned: the commitment holds 2*map + flag and the freeze circuit never range-checks the map, so that a freezer can open an unfrozen record with map m as (flag 1, map m - 1/2). C06_false: for every instantiation there is an accepted freeze note that turns an unfrozen record with map m+1 into a frozen record with map m; C06_release_false: one that turns a frozen record with map m into an unfrozen one with map m+1. C06_partial (assignments): nothing but the flag changes. C06_records_partial (record openings with the same committed values): owner, amount, code, keys and threshold are the same and the flag is the opposite; the map is the same, or one step away in the direction of the two negations. C06_generated: generated notes change only the flag (and the blinding factor). C06_generated_twice: generating a second note from the first one's outputs gives back the original records.
-/
import Verif.Lemmas.ForgeMintFreeze
import Verif.Lemmas.Opened
import Verif.Props.C19

namespace Cap

open Spec

variable [E : CapEnv] [S : CapExt]

/-- **Assignments.**  Every freezing input and its output agree on owner, amount, code and policy, and have opposite
flags. -/
theorem C06_partial {m d : ℕ} {n : FreezeNote} {w : FreezeWit} (h : OpensFreeze m d n w) :
    ∀ i ∈ w.inputs, i.out.owner_addr = i.ro.owner_addr ∧ i.out.amount = i.ro.amount ∧
      i.out.asset_code = i.ro.asset_code ∧ i.out.policy = i.ro.policy ∧ i.out.freeze_flag = !i.ro.freeze_flag := by
  intro i hi
  obtain ⟨v, -, -, hs⟩ := h
  obtain ⟨h1, h2, h3, h4, h5⟩ := hs.pairs i hi
  refine ⟨h3.symm, h2.symm, h4.symm, (PolicyV.enforceEqual_iff.1 h5).symm, ?_⟩
  cases ha : i.ro.freeze_flag <;> cases hb : i.out.freeze_flag <;> simp [ha, hb, boolF] at h1 ⊢

omit E S in
theorem flag_toNat_le (f : FreezeFlag) : f.toNat ≤ 1 := by cases f <;> simp [FreezeFlag.toNat]

/-- **Records.**  Of the record openings with the committed values of an input and its output: owner, amount, code,
keys and threshold are the same, the flag is the opposite.  The map is the same, or one less (freezing), or one more
(releasing). -/
theorem C06_records_partial {m d : ℕ} {n : FreezeNote} {w : FreezeWit} (h : OpensFreeze m d n w) {i : FreezeInputV}
    (hi : i ∈ w.inputs) {before after : RecordOpening} (h1 : Reads before i.ro) (h2 : Reads after i.out) :
    after.pub_key.address = before.pub_key.address ∧ after.amount = before.amount ∧
      after.asset_def.code = before.asset_def.code ∧
      after.asset_def.policy = { before.asset_def.policy with reveal_map := after.asset_def.policy.reveal_map } ∧
      after.freeze_flag = before.freeze_flag.flip ∧
      (after.asset_def.policy.reveal_map = before.asset_def.policy.reveal_map ∨
        (before.freeze_flag = .unfrozen ∧
          before.asset_def.policy.reveal_map.toNat = after.asset_def.policy.reveal_map.toNat + 1) ∨
        (before.freeze_flag = .frozen ∧
          after.asset_def.policy.reveal_map.toNat = before.asset_def.policy.reveal_map.toNat + 1)) := by
  obtain ⟨e1, e2, e3, e4, e5⟩ := C06_partial h i hi
  obtain ⟨a1, a2, a3, a4, a5, a6, a7, a8, -⟩ := reads_iff.1 h1
  obtain ⟨b1, b2, b3, b4, b5, b6, b7, b8, -⟩ := reads_iff.1 h2
  rw [e2, ← a1] at b1
  rw [e3, ← a2] at b2
  rw [e1, ← a3] at b3
  rw [e4] at b4 b5 b6 b7 b8
  rw [← a4] at b4
  rw [← a5] at b5
  rw [← a6] at b6
  rw [← a8] at b8
  have hm1 := RevealMap.toNat_lt before.asset_def.policy.reveal_map
  have hm2 := RevealMap.toNat_lt after.asset_def.policy.reveal_map
  have hf1 := flag_toNat_le before.freeze_flag
  have hf2 := flag_toNat_le after.freeze_flag
  have hsmall : (2:ℕ) ^ 13 + 3 < 2 ^ 252 := by norm_num
  have key : 2 * before.asset_def.policy.reveal_map.toNat + before.freeze_flag.toNat =
        2 * after.asset_def.policy.reveal_map.toNat + after.freeze_flag.toNat + 1 ∨
      2 * after.asset_def.policy.reveal_map.toNat + after.freeze_flag.toNat =
        2 * before.asset_def.policy.reveal_map.toNat + before.freeze_flag.toNat + 1 := by
    cases hfl : i.ro.freeze_flag with
    | true =>
      left
      refine natF_inj (by omega) (by omega) ?_
      rw [e5, hfl] at b7
      rw [hfl] at a7
      simp only [RevealMap.toScalar, boolF, Bool.not_true, Bool.false_eq_true, if_false, if_true] at a7 b7
      push_cast
      rw [a7, b7]; ring
    | false =>
      right
      refine natF_inj (by omega) (by omega) ?_
      rw [e5, hfl] at b7
      rw [hfl] at a7
      simp only [RevealMap.toScalar, boolF, Bool.not_false, Bool.false_eq_true, if_false, if_true] at a7 b7
      push_cast
      rw [a7, b7]; ring
  refine ⟨xy_inj b3, Amount.toF_inj b1, b2, ?_, ?_⟩
  · obtain ⟨_, ⟨_, ⟨v, c, f, mm, t⟩⟩, _, _, _⟩ := before
    obtain ⟨_, ⟨_, ⟨v', c', f', mm', t'⟩⟩, _, _, _⟩ := after
    simp only at b4 b5 b6 b8 ⊢
    rw [xy_inj b4, xy_inj b5, xy_inj b6, Amount.toF_inj b8]
  · cases hb : before.freeze_flag <;> cases ha : after.freeze_flag <;>
      simp only [hb, ha, FreezeFlag.toNat] at key
    · omega
    · refine ⟨rfl, ?_⟩
      rcases key with key | key
      · exact Or.inr (Or.inl ⟨rfl, by omega⟩)
      · exact Or.inl (RevealMap.toNat_inj (by omega))
    · refine ⟨rfl, ?_⟩
      rcases key with key | key
      · exact Or.inl (RevealMap.toNat_inj (by omega))
      · exact Or.inr (Or.inr ⟨rfl, by omega⟩)
    · omega

/-- **End to end.**  An accepted freeze note is opened by an assignment whose pairs satisfy `C06_records_partial`; its
published commitments after the first are those of the outputs. -/
theorem C06_accepted_partial (sound : SnarkSound) {m : ℕ} {d : Fin 256} {pk : FreezeProvingKey}
    {vk : FreezeVerifyingKey} (keys : freezePreprocess m d = .ok (pk, vk)) {n : FreezeNote} {root : F}
    (ok : n.verify vk root = .ok ()) (hn : n.input_nullifiers.length = m) :
    ∃ w, OpensFreeze m d.val n w ∧ n.output_commitments.tail = w.inputs.map (·.out.commitment) ∧
      ∀ i ∈ w.inputs, i.out.owner_addr = i.ro.owner_addr ∧ i.out.amount = i.ro.amount ∧
      i.out.asset_code = i.ro.asset_code ∧ i.out.policy = i.ro.policy ∧ i.out.freeze_flag = !i.ro.freeze_flag := by
  obtain ⟨w, h⟩ := freeze_opened sound keys ok hn
  refine ⟨w, h, ?_, C06_partial h⟩
  obtain ⟨v, hv, hsh, hs⟩ := h
  have hc : n.output_commitments.tail = v.commitments := by
    simp only [FreezePublicInput.toV, FreezeNote.pub] at hv
    split at hv
    · rename_i hcs
      cases hv
      rw [hcs]; rfl
    · cases hv
  rw [hc]
  have hl : w.inputs.length = v.commitments.length := by
    have := hsh.inputs_len; have := hsh.commitments_len; omega
  refine List.ext_getElem (by simp [hl]) fun k h1 h2 => ?_
  have hmem : (w.inputs[k]'(by omega), v.commitments[k]) ∈ w.inputs.zip v.commitments :=
    List.mem_iff_getElem.2 ⟨k, by simp; omega, by simp⟩
  rw [List.getElem_map]
  exact (hs.out_commitments _ hmem).symm

/-! ### The negations -/

omit S in
/-- the map that is half a step below `k`: `(p + 2 k - 1) / 2` -/
def halfBelow (k : ℕ) : F := (((E.p + 2 * k - 1) / 2 : ℕ) : F)

omit S in
theorem two_halfBelow {k : ℕ} : 2 * halfBelow (E := E) (k + 1) = 2 * (k : F) + 1 := by
  have hp := E.p_odd
  have : 2 * ((E.p + 2 * (k + 1) - 1) / 2) = E.p + (2 * k + 1) := by omega
  unfold halfBelow
  have h := congrArg (fun x : ℕ => (x : F)) this
  push_cast at h
  rw [h, ZMod.natCast_self]
  ring

omit S in
/-- A freezing input that opens `before` with half a step more or less in the map, so that it becomes `after`. -/
def halfInput (before after : RecordOpening) (low : RevealMap) (s : Fr) (acc : AccV) (flag : Bool) : FreezeInputV :=
  ⟨{ before.toV with policy := { before.asset_def.policy.toV with reveal_map := halfBelow (low.toNat + 1) },
                     freeze_flag := flag }, acc, frToFq s,
   { after.toV with policy := { after.asset_def.policy.toV with reveal_map := halfBelow (low.toNat + 1) },
                    freeze_flag := !flag }⟩

omit S in
theorem halfInput_reads {before after : RecordOpening} {low high : RevealMap} (step : high.toNat = low.toNat + 1)
    {s : Fr} {acc : AccV} :
    (before.asset_def.policy.reveal_map = high → before.freeze_flag = .unfrozen →
      after.asset_def.policy.reveal_map = low → after.freeze_flag = .frozen →
      Reads before (halfInput before after low s acc true).ro ∧ Reads after (halfInput before after low s acc true).out) ∧
    (before.asset_def.policy.reveal_map = low → before.freeze_flag = .frozen →
      after.asset_def.policy.reveal_map = high → after.freeze_flag = .unfrozen →
      Reads before (halfInput before after low s acc false).ro ∧
        Reads after (halfInput before after low s acc false).out) := by
  have h2 := two_halfBelow (E := E) (k := low.toNat)
  constructor
  · intro b1 b2 a1 a2
    constructor
    · refine reads_iff.2 ⟨rfl, rfl, rfl, rfl, rfl, rfl, ?_, rfl, rfl⟩
      simp only [halfInput, h2, b1, b2, RevealMap.toScalar, step, FreezeFlag.toNat, boolF, if_true]
      push_cast; ring
    · refine reads_iff.2 ⟨rfl, rfl, rfl, rfl, rfl, rfl, ?_, rfl, rfl⟩
      simp [halfInput, h2, a1, a2, RevealMap.toScalar, FreezeFlag.toNat, boolF]
  · intro b1 b2 a1 a2
    constructor
    · refine reads_iff.2 ⟨rfl, rfl, rfl, rfl, rfl, rfl, ?_, rfl, rfl⟩
      simp [halfInput, h2, b1, b2, RevealMap.toScalar, FreezeFlag.toNat, boolF]
    · refine reads_iff.2 ⟨rfl, rfl, rfl, rfl, rfl, rfl, ?_, rfl, rfl⟩
      simp only [halfInput, h2, a1, a2, RevealMap.toScalar, step, FreezeFlag.toNat, boolF, Bool.not_false, if_true]
      push_cast; ring

omit S in
theorem reads_commitment {ro : RecordOpening} {v : RecordV} (h : Reads ro v) : v.commitment = ro.commitment := by
  unfold RecordV.commitment RecordOpening.commitment
  rw [h.1, h.2]

omit S in
/-- the same record with another flag, reveal map and blinding factor -/
def RecordOpening.remade (ro : RecordOpening) (flag : FreezeFlag) (map : RevealMap) (blind : F) : RecordOpening :=
  ⟨ro.amount, ⟨ro.asset_def.code, { ro.asset_def.policy with reveal_map := map }⟩, ro.pub_key, flag, blind⟩

/-- the common part of the two negations -/
theorem C06_forge (complete : SnarkComplete) {m : ℕ} {d : Fin 256} (hd : d.val ≠ 0) {pk : FreezeProvingKey}
    {vk : FreezeVerifyingKey} (keys : freezePreprocess m d = .ok (pk, vk)) {fee_ro : RecordOpening} {k : UserKeyPair}
    (fee_asset : fee_ro.asset_def = AssetDefinition.native) (fee_unfrozen : fee_ro.freeze_flag = .unfrozen)
    (fee_owner : fee_ro.pub_key.address = k.address) {before after : RecordOpening} {s : Fr}
    (freezer : before.asset_def.policy.freezer_pk = smulFr s E.gen) (hs : s ≠ 0)
    {low : RevealMap} {flag : Bool}
    (hr : ∀ acc, Reads before (halfInput before after low s acc flag).ro)
    (same : after.amount = before.amount ∧ after.pub_key = before.pub_key ∧
      after.asset_def.code = before.asset_def.code ∧
      { after.asset_def.policy with reveal_map := low } = { before.asset_def.policy with reveal_map := low }) :
    ∃ n w acc, OpensFreeze m d.val n w ∧
      n.verify vk (pairRoot fee_ro.commitment before.commitment (d.val - 1)) = .ok () ∧
      halfInput before after low s acc flag ∈ w.inputs := by
  obtain ⟨hm, -⟩ := freezePreprocess_key keys
  obtain ⟨e, he⟩ : ∃ e, d.val = e + 1 := ⟨d.val - 1, by omega⟩
  obtain ⟨j, rfl⟩ : ∃ j, m = (halfInput before after low s (accRight fee_ro.commitment e) flag ::
      List.replicate j (dummyFreezeInput d.val)).length + 1 := ⟨m - 2, by simp; omega⟩
  have hc : (halfInput before after low s (accRight fee_ro.commitment e) flag).ro.commitment = before.commitment :=
    reads_commitment (hr _)
  have hroot : spendRoot fee_ro.toV (accLeft before.commitment e) = pairRoot fee_ro.commitment before.commitment e := by
    rw [accLeft_root, RecordOpening.toV_commitment]
  obtain ⟨π, ho, hv⟩ := freeze_forge complete keys (fee_ro := fee_ro) (k := k) (fee := 0)
    (acc := accLeft before.commitment e) fee_asset fee_unfrozen fee_owner
    (by simp [accLeft, Forgery.edge_length, he])
    (by
      intro i hi
      rcases List.mem_cons.1 hi with rfl | hi
      · refine ⟨?_, Or.inl ?_, ?_, Or.inl ?_, by simp [halfInput, accRight, Forgery.edge_length, he]⟩
        · obtain ⟨s1, s2, s3, s4⟩ := same
          simp only [AssetPolicy.mk.injEq] at s4
          obtain ⟨p1, p2, p3, -, p5⟩ := s4
          refine ⟨by cases flag <;> simp [halfInput, boolF], ?_, ?_, ?_, PolicyV.enforceEqual_iff.2 ?_⟩
          · simp [halfInput, RecordOpening.toV, s1]
          · simp [halfInput, RecordOpening.toV, s2]
          · simp [halfInput, RecordOpening.toV, s3]
          · simp [halfInput, AssetPolicy.toV, p1, p2, p3, p5]
        · rw [Bool.eq_false_iff]
          intro h
          have : before.asset_def.policy.toV.isDummyFreezerPk = true := h
          rw [isDummyFreezerPk_host, freezer] at this
          exact hs (smulFr_gen_inj (this.trans (smulFr_zero _).symm))
        · refine ⟨frToFq_ok _, ?_⟩
          show deriveUserAddressV (frToFq s) = E.xy before.asset_def.policy.freezer_pk
          rw [deriveUserAddressV_frToFq, freezer]
        · rw [hroot]
          show spendRoot _ (accRight fee_ro.commitment e) = _
          rw [accRight_root, hc]
      · rw [List.eq_of_mem_replicate hi]
        exact dummyFreezeInput_ok _ _)
  rw [hroot] at hv
  refine ⟨_, _, _, ho, ?_, List.mem_cons_self⟩
  have : d.val - 1 = e := by omega
  rw [this]
  exact hv

/-- **Negation, freezing.**  Take a tree that holds a native record (leaf 0) and an unfrozen record (leaf 1) whose
policy names a freezer.  The freezer can make an accepted note that turns the latter into a frozen record whose reveal
map is the number one below. -/
theorem C06_false (complete : SnarkComplete) {m : ℕ} {d : Fin 256} (hd : d.val ≠ 0) {pk : FreezeProvingKey}
    {vk : FreezeVerifyingKey} (keys : freezePreprocess m d = .ok (pk, vk)) {fee_ro : RecordOpening} {k : UserKeyPair}
    (fee_asset : fee_ro.asset_def = AssetDefinition.native) (fee_unfrozen : fee_ro.freeze_flag = .unfrozen)
    (fee_owner : fee_ro.pub_key.address = k.address) {before : RecordOpening} {s : Fr}
    (freezer : before.asset_def.policy.freezer_pk = smulFr s E.gen) (hs : s ≠ 0)
    (unfrozen : before.freeze_flag = .unfrozen) {low : RevealMap}
    (step : before.asset_def.policy.reveal_map.toNat = low.toNat + 1) (blind : F) :
    ∃ n w i, OpensFreeze m d.val n w ∧
      n.verify vk (pairRoot fee_ro.commitment before.commitment (d.val - 1)) = .ok () ∧ i ∈ w.inputs ∧
      Reads before i.ro ∧
      Reads (before.remade .frozen low blind) i.out := by
  have hh := fun acc => (halfInput_reads (before := before)
    (after := before.remade .frozen low blind) step (s := s)
    (acc := acc)).1 rfl unfrozen rfl rfl
  obtain ⟨n, w, acc, h1, h2, h3⟩ := C06_forge complete hd keys fee_asset fee_unfrozen fee_owner freezer hs
    (fun acc => (hh acc).1) ⟨rfl, rfl, rfl, rfl⟩
  exact ⟨n, w, _, h1, h2, h3, (hh acc).1, (hh acc).2⟩

/-- **Negation, releasing.**  A frozen record is released with the reveal map one above. -/
theorem C06_release_false (complete : SnarkComplete) {m : ℕ} {d : Fin 256} (hd : d.val ≠ 0) {pk : FreezeProvingKey}
    {vk : FreezeVerifyingKey} (keys : freezePreprocess m d = .ok (pk, vk)) {fee_ro : RecordOpening} {k : UserKeyPair}
    (fee_asset : fee_ro.asset_def = AssetDefinition.native) (fee_unfrozen : fee_ro.freeze_flag = .unfrozen)
    (fee_owner : fee_ro.pub_key.address = k.address) {before : RecordOpening} {s : Fr}
    (freezer : before.asset_def.policy.freezer_pk = smulFr s E.gen) (hs : s ≠ 0)
    (frozen : before.freeze_flag = .frozen) {high : RevealMap}
    (step : high.toNat = before.asset_def.policy.reveal_map.toNat + 1) (blind : F) :
    ∃ n w i, OpensFreeze m d.val n w ∧
      n.verify vk (pairRoot fee_ro.commitment before.commitment (d.val - 1)) = .ok () ∧ i ∈ w.inputs ∧
      Reads before i.ro ∧
      Reads (before.remade .unfrozen high blind) i.out := by
  have hh := fun acc => (halfInput_reads (before := before)
    (after := before.remade .unfrozen high blind) step (s := s)
    (acc := acc)).2 rfl frozen rfl rfl
  obtain ⟨n, w, acc, h1, h2, h3⟩ := C06_forge complete hd keys fee_asset fee_unfrozen fee_owner freezer hs
    (fun acc => (hh acc).1) ⟨rfl, rfl, rfl, rfl⟩
  exact ⟨n, w, _, h1, h2, h3, (hh acc).1, (hh acc).2⟩

/-! ### Generated notes -/

/-- **Generated notes.**  Every output is the input with the flag turned over and another blinding factor, in the same
order, and the note commits to these outputs. -/
theorem C06_generated {rng : FreezeRand} {inputs : List FreezeNoteInput} {fee : TxnFeeInfo} {pk : FreezeProvingKey}
    {n : FreezeNote} {sk : Fr} {outs : List RecordOpening}
    (gen : FreezeNote.generate rng inputs fee pk = .ok (n, sk, outs)) :
    List.Forall₂ (fun (i : FreezeNoteInput) (o : RecordOpening) =>
      o = { i.ro with freeze_flag := i.ro.freeze_flag.flip, blind := o.blind }) inputs outs ∧
    n.output_commitments = fee.fee_chg_ro.commitment :: outs.map (·.commitment) := by
  have h := FreezeNote.generate_ok.1 gen
  constructor
  · rw [h.outs_eq, List.forall₂_iff_get]
    refine ⟨by simp [freezeGetOutputRos], fun k h1 h2 => ?_⟩
    simp [freezeGetOutputRos]
  · rw [h.outs_eq]
    exact congrArg FreezePublicInput.output_commitments h.pub

omit E S in
/-- turning the flag over twice -/
theorem flip_flip (f : FreezeFlag) : f.flip.flip = f := by cases f <;> rfl

/-- **Twice.**  A second freeze note generated from the outputs of the first one gives back the original records, up to
the blinding factors. -/
theorem C06_generated_twice {rng rng' : FreezeRand} {inputs inputs' : List FreezeNoteInput} {fee fee' : TxnFeeInfo}
    {pk pk' : FreezeProvingKey} {n n' : FreezeNote} {sk sk' : Fr} {outs outs' : List RecordOpening}
    (gen : FreezeNote.generate rng inputs fee pk = .ok (n, sk, outs))
    (gen' : FreezeNote.generate rng' inputs' fee' pk' = .ok (n', sk', outs'))
    (chain : inputs'.map (·.ro) = outs) :
    List.Forall₂ (fun (i : FreezeNoteInput) (o : RecordOpening) => o = { i.ro with blind := o.blind })
      inputs outs' := by
  have h1 := (C06_generated gen).1
  have h2 := (C06_generated gen').1
  rw [← chain] at h1
  clear chain gen gen'
  induction h2 generalizing inputs with
  | nil => simp only [List.map_nil, List.forall₂_nil_right_iff] at h1; subst h1; exact .nil
  | cons hx _ ih =>
    rw [List.map_cons, List.forall₂_cons_right_iff] at h1
    obtain ⟨i, is, hi, his, rfl⟩ := h1
    refine .cons ?_ (ih his)
    rw [hx, hi]
    simp [flip_flip]

end Cap

namespace Cap.Examples
open Toy Spec

/-- the example freeze note is opened; the first input reads as Bob's frozen record -/
example : OpensFreeze 4 1 frzNote (freezeWitV frzRng.blinds frzInputs feeInfo) ∧
    ∃ i ∈ (freezeWitV frzRng.blinds frzInputs feeInfo).inputs, Reads frozenRec i.ro ∧
      Reads { frozenRec with freeze_flag := .unfrozen, blind := frzRng.blinds 0 } i.out :=
  ⟨frz_opens, _, List.mem_cons_self, Reads.toV _, Reads.toV _⟩

/-- it is accepted -/
example : ∃ w, OpensFreeze 4 1 frzNote w :=
  (C06_accepted_partial Toy.sound frzKeys_eq frzNote_verify rfl).imp fun _ h => h.1

/-- hypotheses of the negations: Alice's asset record is unfrozen, Bob's is frozen, both have the freezer 7 and a map
with neighbours -/
example : feeRec.asset_def = AssetDefinition.native ∧ feeRec.freeze_flag = .unfrozen ∧
    feeRec.pub_key.address = alice.address ∧ assetRec.freeze_flag = .unfrozen ∧ frozenRec.freeze_flag = .frozen ∧
    assetRec.asset_def.policy.freezer_pk = smulFr (7 : ZMod r) E.gen ∧ (7 : ZMod r) ≠ 0 ∧
    (∃ low : RevealMap, assetRec.asset_def.policy.reveal_map.toNat = low.toNat + 1) ∧
    (∃ high : RevealMap, high.toNat = frozenRec.asset_def.policy.reveal_map.toNat + 1) ∧
    ∃ pk vk, freezePreprocess 2 1 = .ok (pk, vk) :=
  ⟨rfl, rfl, rfl, rfl, rfl, rfl, by decide +kernel,
    ⟨#v[true, true, true, true, false, false, true, true, true, true, true, true], by decide +kernel⟩,
    ⟨#v[true, true, true, true, false, true, false, false, false, false, false, true], by decide +kernel⟩,
    ⟨_, _, rfl⟩⟩

/-- generated notes -/
example : frzNote.output_commitments = feeInfo.fee_chg_ro.commitment :: frzOuts.map (·.commitment) :=
  (C06_generated frzNote_eq).2

end Cap.Examples
