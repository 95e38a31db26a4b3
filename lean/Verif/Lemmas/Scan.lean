/-
The maps of the reference wallet, and what one scan does to them.
-/
import Verif.SpecScan
import Verif.Lemmas.Basic

namespace Cap

open Spec

variable [E : CapEnv]

/-- the map of unspent records -/
abbrev Shelf := List (AssetCode × List (RecordOpening × U64))

/-- a record is somewhere in the map -/
def Shelf.On (l : Shelf) (x : RecordOpening × U64) : Prop := ∃ e ∈ l, x ∈ e.2

/-- the representation of a hash map of hash sets, sorted by asset code -/
structure Shelf.Ok (l : Shelf) : Prop where
  codes : (l.map (·.1)).Nodup
  sorted : ∀ e ∈ l, ∀ x ∈ e.2, x.1.asset_def.code = e.1
  nodup : ∀ e ∈ l, e.2.Nodup

theorem Shelf.on_nil {x : RecordOpening × U64} : ¬ Shelf.On [] x := fun ⟨_, h, _⟩ => nomatch h

theorem Shelf.on_cons {e : AssetCode × List (RecordOpening × U64)} {l : Shelf} {x : RecordOpening × U64} :
    Shelf.On (e :: l) x ↔ x ∈ e.2 ∨ Shelf.On l x := by
  simp [Shelf.On]

omit E in
theorem mem_setInsert {α : Type} [DecidableEq α] {x y : α} {l : List α} : y ∈ setInsert x l ↔ y = x ∨ y ∈ l := by
  unfold setInsert
  split
  · next h => exact ⟨Or.inr, fun h' => h'.elim (fun e => e ▸ h) id⟩
  · exact List.mem_cons

omit E in
theorem nodup_setInsert {α : Type} [DecidableEq α] {x : α} {l : List α} (h : l.Nodup) : (setInsert x l).Nodup := by
  unfold setInsert
  split
  · exact h
  · next hx => exact List.nodup_cons.2 ⟨hx, h⟩

omit E in
theorem mem_setRemove {α : Type} [DecidableEq α] {x y : α} {l : List α} : y ∈ setRemove x l ↔ y ≠ x ∧ y ∈ l := by
  simp [setRemove, and_comm]

omit E in
theorem setRemove_sublist {α : Type} [DecidableEq α] {x : α} {l : List α} : (setRemove x l).Sublist l := List.filter_sublist

theorem mapAdd_on {c : AssetCode} {x y : RecordOpening × U64} : ∀ {l : Shelf},
    Shelf.On (mapAdd c x l) y ↔ y = x ∨ Shelf.On l y
  | [] => by
    simp [mapAdd, Shelf.On]
  | (c', m) :: rest => by
    unfold mapAdd
    split
    · rw [Shelf.on_cons, Shelf.on_cons, mem_setInsert, or_assoc]
    · rw [Shelf.on_cons, Shelf.on_cons, mapAdd_on, or_left_comm]

theorem mapAdd_codes {c : AssetCode} {x : RecordOpening × U64} : ∀ {l : Shelf} {c' : AssetCode},
    c' ∈ (mapAdd c x l).map (·.1) ↔ c' = c ∨ c' ∈ l.map (·.1)
  | [], c' => by simp [mapAdd]
  | (c1, m) :: rest, c' => by
    unfold mapAdd
    split
    · next h =>
      subst h
      simp only [List.map_cons, List.mem_cons]
      tauto
    · simp only [List.map_cons, List.mem_cons]
      rw [mapAdd_codes]
      tauto

theorem mapAdd_ok {x : RecordOpening × U64} : ∀ {l : Shelf}, Shelf.Ok l → Shelf.Ok (mapAdd x.1.asset_def.code x l)
  | [], _ => by
    refine ⟨by simp [mapAdd], ?_, by simp [mapAdd]⟩
    intro e he y hy
    cases List.mem_singleton.1 he
    cases List.mem_singleton.1 hy
    rfl
  | (c1, m) :: rest, h => by
    have hc := h.codes
    rw [List.map_cons, List.nodup_cons] at hc
    have hr : Shelf.Ok rest := ⟨hc.2, fun e he => h.sorted e (List.mem_cons_of_mem _ he),
      fun e he => h.nodup e (List.mem_cons_of_mem _ he)⟩
    unfold mapAdd
    split
    · next he =>
      refine ⟨h.codes, ?_, ?_⟩
      · intro e hm y hy
        rcases List.mem_cons.1 hm with rfl | hm
        · rcases mem_setInsert.1 hy with rfl | hy
          · exact he.symm
          · exact h.sorted _ List.mem_cons_self y hy
        · exact h.sorted e (List.mem_cons_of_mem _ hm) y hy
      · intro e hm
        rcases List.mem_cons.1 hm with rfl | hm
        · exact nodup_setInsert (h.nodup _ List.mem_cons_self)
        · exact h.nodup e (List.mem_cons_of_mem _ hm)
    · next he =>
      have ih := mapAdd_ok (x := x) hr
      refine ⟨?_, ?_, ?_⟩
      · rw [List.map_cons, List.nodup_cons]
        refine ⟨fun hm => ?_, ih.codes⟩
        rcases mapAdd_codes.1 hm with hm | hm
        · exact he hm
        · exact hc.1 hm
      · intro e hm
        rcases List.mem_cons.1 hm with rfl | hm
        · exact h.sorted _ List.mem_cons_self
        · exact ih.sorted e hm
      · intro e hm
        rcases List.mem_cons.1 hm with rfl | hm
        · exact h.nodup _ List.mem_cons_self
        · exact ih.nodup e hm

theorem Shelf.Ok.tail {e : AssetCode × List (RecordOpening × U64)} {l : Shelf} (h : Shelf.Ok (e :: l)) : Shelf.Ok l := by
  have hc := h.codes
  rw [List.map_cons, List.nodup_cons] at hc
  exact ⟨hc.2, fun e he => h.sorted e (List.mem_cons_of_mem _ he), fun e he => h.nodup e (List.mem_cons_of_mem _ he)⟩

/-- an entry is replaced by a smaller one -/
theorem Shelf.Ok.shrink {c : AssetCode} {m m' : List (RecordOpening × U64)} {l : Shelf} (h : Shelf.Ok ((c, m) :: l))
    (hs : m'.Sublist m) : Shelf.Ok ((c, m') :: l) := by
  refine ⟨h.codes, ?_, ?_⟩
  · intro e hm
    rcases List.mem_cons.1 hm with rfl | hm
    · exact fun x hx => h.sorted _ List.mem_cons_self x (hs.subset hx)
    · exact h.sorted e (List.mem_cons_of_mem _ hm)
  · intro e hm
    rcases List.mem_cons.1 hm with rfl | hm
    · exact (h.nodup _ List.mem_cons_self).sublist hs
    · exact h.nodup e (List.mem_cons_of_mem _ hm)

theorem Shelf.Ok.cons {e : AssetCode × List (RecordOpening × U64)} {l l' : Shelf} (h : Shelf.Ok (e :: l)) (h' : Shelf.Ok l')
    (hc : l'.map (·.1) = l.map (·.1)) : Shelf.Ok (e :: l') := by
  refine ⟨?_, ?_, ?_⟩
  · have := h.codes
    rw [List.map_cons, ← hc] at this
    exact this
  · intro e' hm
    rcases List.mem_cons.1 hm with rfl | hm
    · exact h.sorted _ List.mem_cons_self
    · exact h'.sorted e' hm
  · intro e' hm
    rcases List.mem_cons.1 hm with rfl | hm
    · exact h.nodup _ List.mem_cons_self
    · exact h'.nodup e' hm

theorem mapRemove_spec {x : RecordOpening × U64} : ∀ {l : Shelf}, Shelf.Ok l → x.1.asset_def.code ∈ l.map (·.1) →
    ∃ l' : Shelf, mapRemove x.1.asset_def.code x l = .ok l' ∧ Shelf.Ok l' ∧ l'.map (·.1) = l.map (·.1) ∧
      ∀ y, Shelf.On l' y ↔ y ≠ x ∧ Shelf.On l y
  | [], _, hm => nomatch hm
  | (c, m) :: rest, h, hm => by
    unfold mapRemove
    split
    · next he =>
      refine ⟨_, rfl, h.shrink setRemove_sublist, rfl, fun y => ?_⟩
      have hr : ∀ y, Shelf.On rest y → y ≠ x := by
        rintro _ ⟨e, hme, hy⟩ rfl
        have hc := h.codes
        rw [List.map_cons, List.nodup_cons] at hc
        refine hc.1 (List.mem_map.2 ⟨e, hme, ?_⟩)
        rw [← h.sorted e (List.mem_cons_of_mem _ hme) _ hy]
        exact he.symm
      rw [Shelf.on_cons, Shelf.on_cons, mem_setRemove]
      constructor
      · rintro (⟨h1, h2⟩ | h1)
        · exact ⟨h1, .inl h2⟩
        · exact ⟨hr y h1, .inr h1⟩
      · rintro ⟨h1, h2 | h2⟩
        · exact .inl ⟨h1, h2⟩
        · exact .inr h2
    · next he =>
      have hm' : x.1.asset_def.code ∈ rest.map (·.1) := by
        rw [List.map_cons, List.mem_cons] at hm
        exact hm.resolve_left (fun e => he e.symm)
      obtain ⟨l', h1, h2, h3, h4⟩ := mapRemove_spec h.tail hm'
      refine ⟨(c, m) :: l', by rw [h1]; rfl, h.cons h2 h3, by rw [List.map_cons, List.map_cons, h3], fun y => ?_⟩
      rw [Shelf.on_cons, Shelf.on_cons, h4]
      have hy : y ∈ m → y ≠ x := by
        rintro hy rfl
        exact he (h.sorted _ List.mem_cons_self _ hy).symm
      constructor
      · rintro (h5 | ⟨h5, h6⟩)
        · exact ⟨hy h5, .inl h5⟩
        · exact ⟨h5, .inr h6⟩
      · rintro ⟨h5, h6 | h6⟩
        · exact .inl h6
        · exact .inr ⟨h5, h6⟩

theorem dropOwned_spec {w : Wallet} {n : F} : ∀ {l : Shelf}, Shelf.Ok l →
    Shelf.Ok (w.dropOwned n l) ∧ (w.dropOwned n l).map (·.1) = l.map (·.1) ∧
      (∀ y, Shelf.On (w.dropOwned n l) y → Shelf.On l y) ∧
      (∀ y, Shelf.On l y → w.nullify y ≠ n → Shelf.On (w.dropOwned n l) y) ∧
      ((∀ x y, Shelf.On l x → Shelf.On l y → w.nullify x = n → w.nullify y = n → x = y) →
        ∀ y, Shelf.On (w.dropOwned n l) y → w.nullify y ≠ n)
  | [], h => ⟨h, rfl, fun _ h => h, fun _ h _ => h, fun _ _ hy => (Shelf.on_nil hy).elim⟩
  | (c, m) :: rest, h => by
    rw [Wallet.dropOwned]
    cases hf : m.reverse.find? (fun x => w.nullify x = n) with
    | some x =>
      have hx := List.find?_some hf
      have hm : x ∈ m := List.mem_reverse.1 (List.mem_of_find?_eq_some hf)
      simp only [decide_eq_true_eq] at hx
      dsimp only
      refine ⟨h.shrink setRemove_sublist, rfl, fun y hy => ?_, fun y hy hn => ?_, fun hu y hy hn => ?_⟩
      · rcases Shelf.on_cons.1 hy with hy | hy
        · exact Shelf.on_cons.2 (.inl ((mem_setRemove.1 hy).2))
        · exact Shelf.on_cons.2 (.inr hy)
      · rcases Shelf.on_cons.1 hy with hy | hy
        · refine Shelf.on_cons.2 (.inl (mem_setRemove.2 ⟨?_, hy⟩))
          rintro rfl
          exact hn hx
        · exact Shelf.on_cons.2 (.inr hy)
      · have hxl : Shelf.On ((c, m) :: rest) x := Shelf.on_cons.2 (.inl hm)
        rcases Shelf.on_cons.1 hy with hz | hz
        · have he := hu y x (Shelf.on_cons.2 (.inl ((mem_setRemove.1 hz).2))) hxl hn hx
          subst he
          exact (mem_setRemove.1 hz).1 rfl
        · have he := hu y x (Shelf.on_cons.2 (.inr hz)) hxl hn hx
          subst he
          obtain ⟨e, hme, hye⟩ := hz
          have hc := h.codes
          rw [List.map_cons, List.nodup_cons] at hc
          refine hc.1 (List.mem_map.2 ⟨e, hme, ?_⟩)
          rw [← h.sorted e (List.mem_cons_of_mem _ hme) _ hye]
          exact h.sorted _ List.mem_cons_self _ hm
    | none =>
      have hnone : ∀ y ∈ m, w.nullify y ≠ n := by
        intro y hy
        have := List.find?_eq_none.1 hf y (List.mem_reverse.2 hy)
        simpa using this
      obtain ⟨h1, h2, h3, h4, h5⟩ := dropOwned_spec (w := w) (n := n) h.tail
      refine ⟨h.cons h1 h2, by simp only [List.map_cons, h2], fun y hy => ?_, fun y hy hn => ?_, fun hu y hy => ?_⟩
      · exact Shelf.on_cons.2 ((Shelf.on_cons.1 hy).imp id (h3 y))
      · exact Shelf.on_cons.2 ((Shelf.on_cons.1 hy).imp id (fun hy => h4 y hy hn))
      · rcases Shelf.on_cons.1 hy with hy | hy
        · exact hnone y hy
        · exact h5 (fun a b ha hb => hu a b (Shelf.on_cons.2 (.inr ha)) (Shelf.on_cons.2 (.inr hb))) y hy

/-! ### The wallet -/

/-- the representation invariant of the wallet -/
structure Wallet.Ok (w : Wallet) : Prop where
  shelf : Shelf.Ok w.unspent
  pending : ∀ e ∈ w.pending, w.nullify e.2 = e.1 ∧ e.2.1.asset_def.code ∈ w.unspent.map (·.1)

theorem Wallet.Ok.new (k : UserKeyPair) : (Wallet.new k).Ok :=
  ⟨⟨List.nodup_nil, fun _ h => (nomatch h), fun _ h => (nomatch h)⟩, fun _ h => (nomatch h)⟩

theorem Wallet.holds_add {w : Wallet} {ro : RecordOpening} {uid : U64} {x : RecordOpening × U64} :
    (w.addRecordOpening ro uid).Holds x ↔ x = (ro, uid) ∨ w.Holds x := mapAdd_on

theorem Wallet.Ok.add {w : Wallet} (h : w.Ok) (ro : RecordOpening) (uid : U64) : (w.addRecordOpening ro uid).Ok :=
  ⟨mapAdd_ok (x := (ro, uid)) h.shelf, fun e he => ⟨(h.pending e he).1, mapAdd_codes.2 (.inr (h.pending e he).2)⟩⟩

omit E in
theorem mapGet_mem {α β : Type} [DecidableEq α] {c : α} {v : β} : ∀ {l : List (α × β)}, mapGet c l = some v → (c, v) ∈ l
  | [], h => nomatch h
  | (c', v') :: rest, h => by
    rw [mapGet] at h
    split at h
    · next hc =>
      cases h
      rw [hc]
      exact List.mem_cons_self
    · exact List.mem_cons_of_mem _ (mapGet_mem h)

/-- what a step of the scan leaves alone -/
structure Wallet.SameRest (w w' : Wallet) : Prop where
  keypair : w'.keypair = w.keypair
  credential : w'.credential = w.credential

theorem Wallet.SameRest.nullify {w w' : Wallet} (h : w.SameRest w') (x : RecordOpening × U64) : w'.nullify x = w.nullify x := by
  unfold Wallet.nullify
  rw [h.keypair]

theorem Wallet.SameRest.trans {a b c : Wallet} (h : a.SameRest b) (h' : b.SameRest c) : a.SameRest c :=
  ⟨h'.keypair.trans h.keypair, h'.credential.trans h.credential⟩

/-- **One published nullifier.**  The function does not panic; only records of this nullifier are dropped, and none of
them stays if there is only one. -/
theorem Wallet.markSpent_spec {w : Wallet} (h : w.Ok) (n : F) :
    ∃ w', w.markSpentIfOwned n = .ok w' ∧ w'.Ok ∧ w.SameRest w' ∧ w'.changes = w.changes ∧
      (∀ x, w'.Holds x → w.Holds x) ∧ (∀ x, w.Holds x → w.nullify x ≠ n → w'.Holds x) ∧
      ((∀ x y, w.Holds x → w.Holds y → w.nullify x = n → w.nullify y = n → x = y) → ∀ x, w'.Holds x → w.nullify x ≠ n) := by
  unfold Wallet.markSpentIfOwned
  cases hg : mapGet n w.pending with
  | none =>
    obtain ⟨h1, h2, h3, h4, h5⟩ := dropOwned_spec (w := w) (n := n) h.shelf
    refine ⟨_, rfl, ⟨h1, fun e he => ⟨(h.pending e he).1, ?_⟩⟩, ⟨rfl, rfl⟩, rfl, h3, h4, h5⟩
    show _ ∈ (w.dropOwned n w.unspent).map (·.1)
    rw [h2]
    exact (h.pending e he).2
  | some x =>
    obtain ⟨hn, hc⟩ := h.pending _ (mapGet_mem hg)
    obtain ⟨l', e1, e2, e3, e4⟩ := mapRemove_spec (x := x) h.shelf hc
    let w1 : Wallet := { w with unspent := l', pending := w.pending.filter (fun e => e.1 ≠ n) }
    have hnul : ∀ y, w1.nullify y = w.nullify y := fun y => rfl
    obtain ⟨h1, h2, h3, h4, h5⟩ := dropOwned_spec (w := w1) (n := n) e2
    refine ⟨{ w1 with unspent := w1.dropOwned n w1.unspent }, ?_, ⟨h1, fun e he => ?_⟩, ⟨rfl, rfl⟩, rfl, ?_, ?_, ?_⟩
    · simp only [e1]
      rfl
    · have he' := (List.mem_filter.1 he).1
      refine ⟨(h.pending e he').1, ?_⟩
      show _ ∈ (w1.dropOwned n l').map (·.1)
      rw [h2, e3]
      exact (h.pending e he').2
    · exact fun y hy => ((e4 y).1 (h3 y hy)).2
    · intro y hy hne
      refine h4 y ((e4 y).2 ⟨?_, hy⟩) hne
      rintro rfl
      exact hne hn
    · intro hu
      exact h5 (fun a b ha hb => hu a b ((e4 a).1 ha).2 ((e4 b).1 hb).2)

/-- **All nullifiers of a note.** -/
theorem Wallet.markAllSpent_spec : ∀ {ns : List F} {w : Wallet}, w.Ok →
    ∃ w', w.markAllSpent ns = .ok w' ∧ w'.Ok ∧ w.SameRest w' ∧ w'.changes = w.changes ∧
      (∀ x, w'.Holds x → w.Holds x) ∧ (∀ x, w.Holds x → w.nullify x ∉ ns → w'.Holds x) ∧
      ((∀ x y, w.Holds x → w.Holds y → w.nullify x = w.nullify y → x = y) → ∀ x, w'.Holds x → w.nullify x ∉ ns)
  | [], w, h => ⟨w, rfl, h, ⟨rfl, rfl⟩, rfl, fun _ h => h, fun _ h _ => h, fun _ _ _ h => nomatch h⟩
  | n :: ns, w, h => by
    obtain ⟨w1, a1, a2, a3, a4, a5, a6, a7⟩ := Wallet.markSpent_spec h n
    obtain ⟨w2, b1, b2, b3, b4, b5, b6, b7⟩ := Wallet.markAllSpent_spec (ns := ns) a2
    refine ⟨w2, ?_, b2, a3.trans b3, b4.trans a4, fun x hx => a5 x (b5 x hx), fun x hx hn => ?_, fun hu x hx => ?_⟩
    · rw [Wallet.markAllSpent, a1]
      exact b1
    · rw [List.mem_cons, not_or] at hn
      exact b6 x (a6 x hx hn.1) (by rw [a3.nullify]; exact hn.2)
    · rw [List.mem_cons, not_or]
      refine ⟨a7 (fun a b ha hb h1 h2 => hu a b ha hb (h1.trans h2.symm)) x (b5 x hx), ?_⟩
      rw [← a3.nullify]
      refine b7 (fun a b ha hb hab => hu a b (a5 a ha) (a5 b hb) ?_) x hx
      rwa [a3.nullify, a3.nullify] at hab

/-- the waiting change -/
theorem Wallet.confirmChange_spec {w : Wallet} (h : w.Ok) (first : F) (uid : U64) :
    (w.confirmChange first uid).Ok ∧ w.SameRest (w.confirmChange first uid) ∧
      (∀ c ∈ (w.confirmChange first uid).changes, c ∈ w.changes) ∧
      (∀ x, w.Holds x → (w.confirmChange first uid).Holds x) ∧
      (∀ x, (w.confirmChange first uid).Holds x → w.Holds x ∨ (x.1 ∈ w.changes ∧ x.1.commitment = first ∧ x.2 = uid)) ∧
      (∀ c ∈ w.changes, c ∈ (w.confirmChange first uid).changes ∨
        (c.commitment = first ∧ (w.confirmChange first uid).Holds (c, uid))) ∧
      ((∃ c ∈ w.changes, c.commitment = first) →
        ∃ c ∈ w.changes, c.commitment = first ∧ (w.confirmChange first uid).Holds (c, uid)) := by
  unfold Wallet.confirmChange
  cases hf : w.changes.find? (fun ro => ro.commitment = first) with
  | none =>
    refine ⟨h, ⟨rfl, rfl⟩, fun _ h => h, fun _ h => h, fun _ h => .inl h, fun _ h => .inl h, ?_⟩
    rintro ⟨c, hc, he⟩
    have := List.find?_eq_none.1 hf c hc
    simp [he] at this
  | some ro =>
    have hro := List.mem_of_find?_eq_some hf
    have he : ro.commitment = first := by simpa using List.find?_some hf
    have hok : ({ w with changes := setRemove ro w.changes } : Wallet).Ok := ⟨h.shelf, h.pending⟩
    refine ⟨hok.add ro uid, ⟨rfl, rfl⟩, fun c hc => (mem_setRemove.1 hc).2, fun x hx => Wallet.holds_add.2 (.inr hx),
      fun x hx => ?_, fun c hc => ?_, fun _ => ⟨ro, hro, he, Wallet.holds_add.2 (.inl rfl)⟩⟩
    · rcases Wallet.holds_add.1 hx with rfl | hx
      · exact .inr ⟨hro, he, rfl⟩
      · exact .inl hx
    · by_cases hcr : c = ro
      · subst hcr
        exact .inr ⟨he, Wallet.holds_add.2 (.inl rfl)⟩
      · exact .inl (mem_setRemove.2 ⟨hcr, hc⟩)

end Cap
