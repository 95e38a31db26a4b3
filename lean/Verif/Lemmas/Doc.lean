/-
The building blocks of the specification document agree with the gadgets of the circuits.
-/
import Verif.SpecDoc
import Verif.Lemmas.Accepted
import Verif.Lemmas.FieldSum

namespace Cap

variable [E : CapEnv]

theorem doc_com (o : RecordV) : Doc.com o = o.commitment := rfl

theorem doc_bot : (Doc.bot : PtV) = neutral := rfl

theorem doc_above (path : List PathNode) : ∀ v : F, Doc.above v path = path.foldl PathNode.step v := by
  induction path with
  | nil => intro v; rfl
  | cons n path ih =>
    intro v
    obtain ⟨s, t, p⟩ := n
    cases p <;> simp only [Doc.above, List.foldl_cons, ih, PathNode.step]

theorem doc_accVfy {rt uid arc : F} {path : List PathNode} :
    Doc.accVfy rt path uid arc ↔ merkleRoot uid arc path = rt := by
  rw [Doc.accVfy, doc_above, merkleRoot, eq_comm]

theorem doc_mapIdx (ks : ℕ → F) (m : List F) : ∀ k, m.mapIdx (fun j x => x + ks (k + j)) = applyStream ks k m := by
  induction m with
  | nil => intro k; rfl
  | cons x m ih =>
    intro k
    rw [List.mapIdx_cons, applyStream, ← ih (k + 1)]
    congr 1
    congr 1
    funext j x
    rw [show k + (j + 1) = k + 1 + j by omega]

theorem doc_enc (pk : PtV) (m : List F) (s : F) : Doc.enc pk m s = MemoV.derive pk m s := by
  have := doc_mapIdx (E.keystream (E.ecMul s.val pk)) m 0
  simp only [Nat.zero_add] at this
  rw [Doc.enc, MemoV.derive, this]

theorem doc_noPolicy {p : PolicyV} : p.EnforceDummy ↔ p = Doc.noPolicy := by
  obtain ⟨a, b, c, d, e⟩ := p
  simp only [PolicyV.EnforceDummy, Doc.noPolicy, doc_bot, PolicyV.mk.injEq]

theorem doc_equal {p q : PolicyV} : p.EnforceEqual q ↔ p = q := by
  obtain ⟨a, b, c, d, e⟩ := p
  obtain ⟨a', b', c', d', e'⟩ := q
  simp only [PolicyV.EnforceEqual, PolicyV.mk.injEq]
  tauto

theorem doc_check {p q : PolicyV} : p.checkEqual q = true ↔ p = q := by
  rw [← doc_equal]
  simp only [PolicyV.checkEqual, PolicyV.EnforceEqual, Bool.and_eq_true, decide_eq_true_eq]
  tauto

/-- the user's proof of burn and the gates -/
theorem doc_burn {rt nl : F} {acc : AccV} {ro : RecordV} {sk : F} (hs : okScalar sk) :
    Doc.PoB rt nl acc ro sk true ↔
      SpendOk ro sk .user ∧ spendNullifier ro acc sk .user = nl ∧ (ro.isDummy = true ∨ spendRoot ro acc = rt) := by
  simp only [Doc.PoB, if_true, SpendOk, hs, true_and, doc_accVfy, RecordV.isDummy, decide_eq_true_eq, spendRoot,
    spendNullifier, nullifyV, Doc.nullify, deriveNullifierKeyV, Doc.deriveNk, doc_bot, spendPk, spendOtherPk,
    deriveUserAddressV, Doc.derivePk, doc_com]
  exact and_congr eq_comm (and_congr eq_comm Iff.rfl)

/-- the freezer's proof of burn and the gates -/
theorem doc_burn_freezer {rt nl : F} {acc : AccV} {ro : RecordV} {sk : F} (hs : okScalar sk) :
    Doc.PoB rt nl acc ro sk false ↔
      SpendOk ro sk .freezer ∧ spendNullifier ro acc sk .freezer = nl ∧ (ro.isDummy = true ∨ spendRoot ro acc = rt) := by
  simp only [Doc.PoB, Bool.false_eq_true, if_false, SpendOk, hs, true_and, doc_accVfy, RecordV.isDummy, decide_eq_true_eq, spendRoot,
    spendNullifier, nullifyV, Doc.nullify, deriveNullifierKeyV, Doc.deriveNk, doc_bot, spendPk, spendOtherPk,
    deriveUserAddressV, Doc.derivePk, doc_com]
  exact and_congr eq_comm (and_congr eq_comm Iff.rfl)

theorem doc_balance {native a fee i o : F} {is os : List F} :
    Doc.balance native a fee (i :: is) (o :: os) ↔ PreserveBalance native a fee i o (i :: is) (o :: os) := by
  rw [preserveBalance_iff]
  simp only [Doc.balance, sumTail, List.tail_cons, List.sum_cons]
  refine and_congr (imp_congr_right fun _ => ?_) (imp_congr_right fun _ => ?_)
  · constructor
    · rintro ⟨i', is', o', os', h1, h2, h3, h4⟩
      obtain ⟨rfl, rfl⟩ := List.cons.inj h1
      obtain ⟨rfl, rfl⟩ := List.cons.inj h2
      exact ⟨h3, h4⟩
    · rintro ⟨h3, h4⟩
      exact ⟨i, is, o, os, rfl, rfl, h3, h4⟩
  · exact Iff.rfl

theorem doc_times (b : Bool) (v : F) : boolF b * v = Doc.times b v := by
  cases b <;> simp [boolF, Doc.times]

theorem doc_inputPart {map : F} {i : InputV} (h : i.cred.attrs.length = 8) :
    inputMsgV map i = Doc.inputPart map i := by
  match hl : i.cred.attrs, h with
  | [a, b, c, d, e, f, g, k], _ =>
    simp only [inputMsgV, Doc.inputPart, hl, hadamardV]
    have : (List.range' 2 10) = [2, 3, 4, 5, 6, 7, 8, 9, 10, 11] := by decide
    rw [this]
    simp only [List.map_cons, List.map_nil, List.cons_append, List.nil_append, List.zipWith_cons_cons,
      List.zipWith_nil_left, doc_times, List.mapIdx_cons, List.mapIdx_nil, RecordV.isDummy, doc_bot]
    simp only [mapBit, Doc.bit]
    rw [Bool.or_comm]
    rfl

theorem doc_outputPart {map : F} (he : Doc.bit map 0 = Doc.bit map 1) (o : RecordV) :
    outputMsgV map o = Doc.outputPart map o := by
  have : List.range ASSET_TRACING_MAP_LEN = [0, 1, 2, 3] := by decide
  simp only [outputMsgV, Doc.outputPart, hadamardV, this, List.map_cons, List.map_nil, List.zipWith_cons_cons,
    List.zipWith_nil_left, doc_times]
  simp only [mapBit]
  rw [Doc.bit] at he
  simp only [Doc.bit] at he ⊢
  rw [he]

theorem doc_outputPart_length (map : F) (o : RecordV) : (outputMsgV map o).length = (Doc.outputPart map o).length := by
  have : List.range ASSET_TRACING_MAP_LEN = [0, 1, 2, 3] := by decide
  simp [outputMsgV, Doc.outputPart, hadamardV, this]

theorem doc_flatMap {α β : Type} {f g : α → List β} : ∀ {l : List α}, (∀ x ∈ l, f x = g x) → l.flatMap f = l.flatMap g := by
  intro l
  induction l with
  | nil => intro; rfl
  | cons x l ih =>
    intro h
    rw [List.flatMap_cons, List.flatMap_cons, h x (by simp), ih fun y hy => h y (List.mem_cons_of_mem _ hy)]

theorem doc_message {w : TransferWit} (ha : ∀ i ∈ w.inputs, i.cred.attrs.length = 8)
    (he : Doc.bit w.policy.reveal_map 0 = Doc.bit w.policy.reveal_map 1) : transferMsgV w = Doc.message w := by
  rw [transferMsgV, Doc.message, doc_flatMap (g := Doc.inputPart w.policy.reveal_map) fun i hi =>
    doc_inputPart (ha i (List.mem_of_mem_tail hi)), doc_flatMap (g := Doc.outputPart w.policy.reveal_map) fun o _ =>
    doc_outputPart he o]
  rfl

end Cap
