/-
The validator accepts fresh, honestly made notes.
-/
import Verif.Lemmas.LedgerHistory
import Verif.Props.C21

namespace Cap

open Spec

variable [E : CapEnv] [S : CapExt]

omit S in
theorem insertAll_intro : ∀ {l checked : List F}, l.Nodup → (∀ x ∈ l, x ∉ checked) →
    ∃ res, insertAll checked l = some res ∧ ∀ x, x ∈ res ↔ x ∈ l ∨ x ∈ checked
  | [], checked, _, _ => ⟨checked, rfl, by simp⟩
  | a :: l, checked, hn, hc => by
    rw [List.nodup_cons] at hn
    obtain ⟨res, h1, h2⟩ := insertAll_intro (checked := a :: checked) hn.2 (by
      intro x hx hm
      rcases List.mem_cons.1 hm with rfl | hm
      · exact hn.1 hx
      · exact hc x (List.mem_cons_of_mem _ hx) hm)
    refine ⟨res, by rw [insertAll, if_neg (hc a List.mem_cons_self)]; exact h1, fun x => ?_⟩
    rw [h2]
    simp only [List.mem_cons]
    tauto

omit S in
theorem checkTxnInputNullifiers_intro {s : LedgerState} {l checked : List F} (fresh : ∀ x ∈ l, x ∉ s.nullifiers)
    (hn : l.Nodup) (hc : ∀ x ∈ l, x ∉ checked) :
    ∃ res, checkTxnInputNullifiers s l checked = .ok res ∧ ∀ x, x ∈ res ↔ x ∈ l ∨ x ∈ checked := by
  obtain ⟨res, h1, h2⟩ := insertAll_intro hn hc
  refine ⟨res, ?_, h2⟩
  unfold checkTxnInputNullifiers
  rw [if_neg (by simpa using fresh), h1]

theorem validateLoop_intro {d : Fin 256} {s : LedgerState} : ∀ {ts : List TransactionNote} {checked : List F}
    {ks : List TransactionVerifyingKey}, (∀ t ∈ ts, t.merkleRoot ∈ s.roots) →
      (ts.flatMap TransactionNote.nullifiers).Nodup →
      (∀ x ∈ ts.flatMap TransactionNote.nullifiers, x ∉ s.nullifiers ∧ x ∉ checked) →
      List.Forall₂ (fun t k => keyForNote d t = .ok k) ts ks →
      validateLoop d s ts checked = .ok (ks, ts.map TransactionNote.merkleRoot)
  | [], checked, ks, _, _, _, hk => by cases hk; rfl
  | t :: ts, checked, ks, hr, hn, hc, hk => by
    cases hk with
    | cons hk hks =>
      rename_i k ks
      rw [List.flatMap_cons, List.nodup_append'] at hn
      obtain ⟨n1, n2, n3⟩ := hn
      obtain ⟨res, h1, h2⟩ := checkTxnInputNullifiers_intro (s := s) (l := t.nullifiers) (checked := checked)
        (fun x hx => (hc x (by rw [List.flatMap_cons]; exact List.mem_append_left _ hx)).1) n1
        (fun x hx => (hc x (by rw [List.flatMap_cons]; exact List.mem_append_left _ hx)).2)
      have ih := validateLoop_intro (d := d) (s := s) (ts := ts) (checked := res) (ks := ks)
        (fun t' ht' => hr t' (List.mem_cons_of_mem _ ht')) n2 (by
          intro x hx
          have := hc x (by rw [List.flatMap_cons]; exact List.mem_append_right _ hx)
          refine ⟨this.1, fun hm => ?_⟩
          rcases (h2 x).1 hm with hm | hm
          · exact n3 hm hx
          · exact this.2 hm) hks
      simp only [validateLoop, bind_ok_iff, ensure_ok_iff, decide_eq_true_eq]
      exact ⟨k, hk, res, h1, (), hr t List.mem_cons_self, _, ih, rfl⟩

/-- the note can be verified now: a transfer has not expired, a mint is below the limit of the circuit -/
def Spec.Timely (time : U64) : TransactionNote → Prop
  | .transfer n => time ≤ n.aux_info.valid_until
  | .mint n => n.mint_amount.val < 2 ^ 127
  | .freeze _ => True

/-- A made note has a key, under which it verifies. -/
theorem Spec.Made.verifies {d : Fin 256} {t : Txn} (h : Made d t) (complete : SnarkComplete) {time : U64}
    (timely : Timely time t.note) :
    ∃ k, keyForNote d t.note = .ok k ∧ VerifiesAlone time t.note t.note.merkleRoot k := by
  cases h with
  | transfer keys gen =>
    rename_i a c pk vk b rng inputs outputs valid_until extra n sk
    obtain ⟨h1, h2⟩ := C17_generate keys complete gen
    obtain ⟨-, -, h3, h4, -⟩ := C40_generate gen
    obtain ⟨-, k1, k2, -⟩ := transferPreprocess_ok keys
    refine ⟨.transfer vk, ?_, ?_⟩
    · have e1 : n.inputs_nullifiers.length = a := by
        rw [transfer_nullifiers gen, List.length_map, h3, k1]
      have e2 : n.output_commitments.length = c := by
        rw [transfer_commitments gen, List.length_map, h4, k2]
      simp only [keyForNote, e1, e2, keys, unwrapRes]
      rfl
    · exact h2 time (by rw [← h1]; exact timely)
  | mint keys gen =>
    rename_i pk vk rng mint_ro ac_seed desc n sk fee
    obtain ⟨h1, -⟩ := C18_fields gen
    refine ⟨.mint vk, ?_, ?_⟩
    · simp only [keyForNote, keys, unwrapRes]
      rfl
    · exact C18_generate keys complete gen (by rw [← h1]; exact timely)
  | freeze keys gen hf hp =>
    rename_i num pk vk rng n sk outs inputs fee
    refine ⟨.freeze vk, ?_, ?_⟩
    · have e1 : n.input_nullifiers.length = num := by
        rw [freeze_nullifiers gen, List.length_cons, List.length_map, ← (freezePreprocess_ok keys).2.1]
        exact (FreezeNote.generate_ok.1 gen).checks.num.symm
      simp only [keyForNote, e1, keys, unwrapRes]
      rfl
    · exact C19_generate keys complete gen hf hp

/-- **Fresh, honestly made notes are validated.** -/
theorem validate_made (complete : SnarkComplete) (batch : SnarkBatch) {d : Fin 256} {s : LedgerState} {ts : List Txn}
    {time : U64} (ne : ts ≠ []) (made : ∀ t ∈ ts, Made d t) (timely : ∀ t ∈ ts, Timely time t.note)
    (roots : ∀ t ∈ ts, t.note.merkleRoot ∈ s.roots)
    (distinct : (ts.flatMap (fun t => t.note.nullifiers)).Nodup)
    (fresh : ∀ t ∈ ts, ∀ x ∈ t.note.nullifiers, x ∉ s.nullifiers) :
    validateTxnsBatch d s (ts.map (·.note)) time = .ok () := by
  have hks : ∃ ks, List.Forall₂ (fun (t : Txn) k => keyForNote d t.note = .ok k ∧
      VerifiesAlone time t.note t.note.merkleRoot k) ts ks := by
    clear ne distinct
    induction ts with
    | nil => exact ⟨[], .nil⟩
    | cons t ts ih =>
      obtain ⟨k, hk⟩ := (made t List.mem_cons_self).verifies complete (timely t List.mem_cons_self)
      obtain ⟨ks, hks⟩ := ih (fun t' h' => made t' (List.mem_cons_of_mem _ h'))
        (fun t' h' => timely t' (List.mem_cons_of_mem _ h')) (fun t' h' => roots t' (List.mem_cons_of_mem _ h'))
        (fun t' h' => fresh t' (List.mem_cons_of_mem _ h'))
      exact ⟨k :: ks, .cons hk hks⟩
  obtain ⟨ks, hks⟩ := hks
  have hf : (ts.map (·.note)).flatMap TransactionNote.nullifiers = ts.flatMap (fun t => t.note.nullifiers) := by
    rw [List.flatMap_map]
  have hl := validateLoop_intro (d := d) (s := s) (ts := ts.map (·.note)) (checked := []) (ks := ks)
    (by
      intro t ht
      obtain ⟨t', ht', rfl⟩ := List.mem_map.1 ht
      exact roots t' ht')
    (by rw [hf]; exact distinct)
    (by
      intro x hx
      rw [hf] at hx
      obtain ⟨t, ht, hx⟩ := List.mem_flatMap.1 hx
      exact ⟨fresh t ht x hx, by simp⟩)
    (by
      rw [List.forall₂_map_left_iff]
      exact hks.imp (fun _ _ h => h.1))
  rw [validateTxnsBatch, bind_ok_iff]
  refine ⟨_, hl, ?_⟩
  have hlen := hks.length_eq
  refine ((C21_partial batch (by simpa using ne) ?_).2 ⟨by simp, by simpa using hlen, ?_⟩).1
  · intro k t vk ht hv
    rw [List.getElem?_map, Option.map_eq_some_iff] at ht
    obtain ⟨t, ht, rfl⟩ := ht
    have := (List.forall₂_iff_get.1 hks).2 k (List.getElem?_eq_some_iff.1 ht).1 (List.getElem?_eq_some_iff.1 hv).1
    rw [List.get_eq_getElem, List.get_eq_getElem, (List.getElem?_eq_some_iff.1 ht).2, (List.getElem?_eq_some_iff.1 hv).2]
      at this
    exact (checked_alone.1 this.2).2.1
  · intro k t root vk ht hr hv
    rw [List.map_map, List.getElem?_map, Option.map_eq_some_iff] at hr
    rw [List.getElem?_map, Option.map_eq_some_iff] at ht
    obtain ⟨t, ht, rfl⟩ := ht
    obtain ⟨t', ht', rfl⟩ := hr
    obtain rfl : t = t' := Option.some.inj (ht.symm.trans ht')
    have := (List.forall₂_iff_get.1 hks).2 k (List.getElem?_eq_some_iff.1 ht).1 (List.getElem?_eq_some_iff.1 hv).1
    rw [List.get_eq_getElem, List.get_eq_getElem, (List.getElem?_eq_some_iff.1 ht).2, (List.getElem?_eq_some_iff.1 hv).2]
      at this
    exact this.2

end Cap
