/-
When the freezer can scan a block.
-/
import Verif.Lemmas.KeeperWorld

namespace Cap

open Spec

variable [E : CapEnv]

namespace Freezer

/-- what keeps the freezer from panicking -/
structure Ready (f : Freezer) : Prop where
  known : ∀ flag m e, mapGet m (f.waiting flag) = some e → ∃ l, mapGet e.owner (f.shelf flag) = some l
  both : ∀ user l, mapGet user (f.shelf .frozen) = some l → ∃ l', mapGet user (f.shelf .unfrozen) = some l'

theorem Ready.one {flag : FreezeFlag} {uid : U64} {p : ℕ} {n : F} {f f' : Freezer} (r : f.Ready)
    (o : One flag uid p n f f') : f'.Ready :=
  ⟨fun fl m e h => (r.known fl m e (o.waits fl m e h)).elim fun l hl => o.known fl _ l hl, o.both r.both⟩

theorem confirmFrozen_intro {b : Build} {f : Freezer} (r : f.Ready) {uid : U64} {p : ℕ} (small : uid.val + p < 2 ^ 64) (n : F) :
    ∃ f', f.confirmFrozen b uid p n = .ok f' := by
  unfold confirmFrozen
  split
  · exact ⟨_, rfl⟩
  · next x hx =>
    obtain ⟨l, hl⟩ := r.known .unfrozen n x hx
    obtain ⟨m, hm⟩ := mapRemove_intro x.old hl
    rw [show mapRemove x.owner x.old f.freezable = _ from hm, addU64_ok small]
    exact ⟨_, rfl⟩

theorem confirmReleased_intro {b : Build} {f : Freezer} (r : f.Ready) {uid : U64} {p : ℕ} (small : uid.val + p < 2 ^ 64) (n : F) :
    ∃ f', f.confirmReleased b uid p n = .ok f' := by
  unfold confirmReleased
  split
  · exact ⟨_, rfl⟩
  · next x hx =>
    obtain ⟨l, hl⟩ := r.known .frozen n x hx
    obtain ⟨l', hl'⟩ := r.both _ _ hl
    obtain ⟨m, hm⟩ := mapRemove_intro x.old hl
    obtain ⟨m', hm'⟩ := mapInsert_intro (x.new, ⟨uid.val + p, small⟩) hl'
    rw [show mapRemove x.owner x.old f.releasable = _ from hm, addU64_ok small]
    refine ⟨{ f with releasable := m, freezable := m', releasing := f.releasing.filter (fun e => e.1 ≠ n) }, ?_⟩
    simp only [bind_ok_iff]
    exact ⟨_, rfl, _, rfl, _, hm', rfl⟩

theorem confirmAll_intro {b : Build} {uid : U64} : ∀ {ns : List F} {p : ℕ} {f : Freezer}, f.Ready →
    uid.val + p + ns.length ≤ 2 ^ 64 → ∃ f', confirmAll b uid p ns f = .ok f'
  | [], p, f, _, _ => ⟨f, rfl⟩
  | n :: ns, p, f, r, hs => by
    rw [List.length_cons] at hs
    obtain ⟨f1, h1⟩ := confirmFrozen_intro (b := b) (uid := uid) (p := p) r (by omega) n
    have r1 := r.one (.intro (confirmFrozen_ok h1))
    obtain ⟨f2, h2⟩ := confirmReleased_intro (b := b) (uid := uid) (p := p) r1 (by omega) n
    have r2 := r1.one (.intro (confirmReleased_ok h2))
    obtain ⟨f3, h3⟩ := confirmAll_intro (b := b) (uid := uid) (ns := ns) (p := p + 1) r2 (by omega)
    unfold confirmAll
    simp only [bind_ok_iff]
    exact ⟨f3, f1, h1, f2, h2, h3⟩

theorem describe_intro {f : Freezer} {x : ViewableData} {ro : RecordOpening} (h : Describes f.viewer.asset_def x ro)
    (known : mapGet ro.pub_key.address f.users = some ro.pub_key) : f.describe x = .ok (ro.pub_key.address, ro) := by
  unfold describe
  rw [h.owner, h.amount, h.blind]
  dsimp only
  rw [known]
  obtain ⟨a, ad, pk, fl, bl⟩ := ro
  have h1 := h.asset
  have h2 := h.flag
  dsimp only at h1 h2 ⊢
  rw [h1, h2]

theorem addOutputs_intro : ∀ {l : List (ViewableData × U64)} {f : Freezer},
    (∀ x ∈ l, ∃ ro, Describes f.viewer.asset_def x.1 ro ∧ mapGet ro.pub_key.address f.users = some ro.pub_key) →
    ∃ f', addOutputs f l = .ok f'
  | [], f, _ => ⟨f, rfl⟩
  | (x, u) :: l, f, h => by
    obtain ⟨ro, h1, h2⟩ := h _ List.mem_cons_self
    obtain ⟨f', hf'⟩ := addOutputs_intro (l := l) (f := { f with freezable := mapAdd ro.pub_key.address (ro, u) f.freezable })
      (fun y hy => h y (List.mem_cons_of_mem _ hy))
    unfold addOutputs
    rw [describe_intro h1 h2]
    exact ⟨f', hf'⟩

theorem number_intro {b : Build} : ∀ {l : List ViewableData} {uid : U64}, uid.val + l.length < 2 ^ 64 →
    ∃ l', Viewer.number b uid l = .ok l' ∧ ∀ y ∈ l', y.1 ∈ l
  | [], uid, _ => ⟨[], rfl, fun _ h => nomatch h⟩
  | x :: l, uid, h => by
    rw [List.length_cons] at h
    obtain ⟨l', h1, h2⟩ := number_intro (b := b) (l := l) (uid := ⟨uid.val + 1, by omega⟩) (by dsimp only; omega)
    unfold Viewer.number
    simp only [bind_ok_iff]
    refine ⟨_, ⟨_, addU64_ok (by omega), l', h1, rfl⟩, fun y hy => ?_⟩
    rcases List.mem_cons.1 hy with rfl | hy
    · exact List.mem_cons_self
    · exact List.mem_cons_of_mem _ (h2 y hy)

end Freezer

theorem openInputs_length {ad : AssetDefinition} : ∀ {n : ℕ} {pt : List F} {r : List ViewableData × List F},
    openInputs ad n pt = .ok r → r.1.length ≤ n
  | 0, pt, r, h => by cases h; exact le_refl _
  | n + 1, pt, r, h => by
    unfold openInputs at h
    split at h
    · cases h
    · simp only [bind_ok_iff] at h
      obtain ⟨vd, -, ⟨vs, rest⟩, h1, h2⟩ := h
      have := openInputs_length h1
      cases h2
      dsimp only at this ⊢
      split
      · rw [List.length_cons]; omega
      · omega

theorem openOutputs_length {ad : AssetDefinition} : ∀ {n : ℕ} {pt : List F} {r : List ViewableData},
    openOutputs ad n pt = .ok r → r.length = n
  | 0, pt, r, h => by cases h; rfl
  | n + 1, pt, r, h => by
    unfold openOutputs at h
    split at h
    · cases h
    · simp only [bind_ok_iff] at h
      obtain ⟨vd, -, vs, h1, h2⟩ := h
      cases h2
      rw [List.length_cons, openOutputs_length h1]

variable [S : CapExt]

theorem opened_lengths {b : Build} {k : ViewerKeyPair} {ad : AssetDefinition} {n : TransferNote} {ins outs : List ViewableData}
    (h : k.openTransferViewingMemo b ad n = .ok (ins, outs)) : ∃ i o, usizePred b n.inputs_nullifiers.length = .ok i ∧
      usizePred b n.output_commitments.length = .ok o ∧ ins.length ≤ i ∧ outs.length = o := by
  unfold ViewerKeyPair.openTransferViewingMemo at h
  split at h
  · cases h
  simp only [bind_ok_iff] at h
  obtain ⟨i, h1, o, h2, h⟩ := h
  split at h
  · cases h
  split at h
  · cases h
  split at h
  · cases h
  simp only [bind_ok_iff] at h
  obtain ⟨⟨is, rest⟩, h3, os, h4, h5⟩ := h
  cases h5
  exact ⟨i, o, h1, h2, openInputs_length h3, openOutputs_length h4⟩

namespace Freezer

theorem scanNote_intro {b : Build} {f : Freezer} (r : f.Ready) {t : TransactionNote} (legible : Legible b f t) {uid : U64}
    (small : uid.val + t.outputCommitments.length < 2 ^ 64) (some_out : t.outputCommitments ≠ []) :
    ∃ f', f.scanNote b t uid = .ok f' := by
  have hpos := List.length_pos_iff.2 some_out
  cases t with
  | transfer n =>
    obtain ⟨ins, outs, h1, h2⟩ := legible
    obtain ⟨i, o, h3, h4, h5, h6⟩ := opened_lengths h1
    have ho : o + 1 = n.output_commitments.length := by
      change 0 < n.output_commitments.length at hpos
      unfold usizePred at h4
      split at h4
      · next heq => cases h4; exact heq.symm
      · next heq => omega
      · next heq => omega
    change uid.val + n.output_commitments.length < 2 ^ 64 at small
    obtain ⟨l, h7, h8⟩ := number_intro (b := b) (l := outs) (uid := ⟨uid.val + 1, by omega⟩) (by dsimp only; omega)
    obtain ⟨f', hf'⟩ := addOutputs_intro (f := f) (l := l) (fun y hy => h2 _ (h8 y hy))
    refine ⟨f', ?_⟩
    show f.scanXfr b n uid = _
    unfold scanXfr Viewer.scanXfr
    simp only [bind_ok_iff]
    refine ⟨(ins, l), ⟨i, h3, o, h4, (ins, outs), h1, (), ?_, (), ?_, _, addU64_ok (by omega), l, h7, rfl⟩, hf'⟩
    · rw [decide_eq_false (show ¬ (0 < ins.length ∧ i < ins.length) by omega)]; rfl
    · rw [decide_eq_false (show ¬ (0 < outs.length ∧ outs.length ≠ o) by omega)]; rfl
  | mint n =>
    obtain ⟨x, ro, h1, h2, h3⟩ := legible
    change uid.val + 2 < 2 ^ 64 at small
    show ∃ f', f.scanMint b n uid = .ok f'
    unfold scanMint Viewer.scanMint
    simp only [bind_ok_iff]
    exact ⟨_, (x, _), ⟨_, h1, _, addU64_ok (by omega), rfl⟩, _, describe_intro h2 h3, rfl⟩
  | freeze n =>
    change uid.val + n.output_commitments.length < 2 ^ 64 at small
    change 0 < n.output_commitments.length at hpos
    have hl : n.input_nullifiers.length ≤ n.output_commitments.length := legible
    show ∃ f', f.scanFreeze b n uid = .ok f'
    unfold scanFreeze
    obtain ⟨f', hf'⟩ := confirmAll_intro (b := b) (uid := ⟨uid.val + 1, by omega⟩) (ns := n.input_nullifiers.tail) (p := 0) r
      (by rw [List.length_tail]; dsimp only; omega)
    simp only [bind_ok_iff]
    exact ⟨f', _, addU64_ok (by omega), hf'⟩

theorem Ready.step {b : Build} {t : TransactionNote} {pos : ℕ} {f f' : Freezer} (r : f.Ready) (st : Step b t pos f f') :
    f'.Ready :=
  ⟨fun fl m e h => (r.known fl m e (st.waits fl m e h)).elim fun l hl => st.known fl _ l hl, st.both r.both⟩

theorem Legible.congr {b : Build} {f f' : Freezer} (hv : f'.viewer = f.viewer) (hu : f'.users = f.users) {t : TransactionNote}
    (h : Legible b f t) : Legible b f' t := by
  cases t <;> unfold Legible at h ⊢ <;> (try rw [hv, hu]) <;> exact h

theorem scanTxns_intro {b : Build} : ∀ {l : List (TransactionNote × List E.AeadCt)} {f : Freezer} {uid : U64}
    {w : Wallet × List RecordOpening}, f.Ready → (∀ t ∈ l, Legible b f t.1) → uid.val + outputs l < 2 ^ 64 →
    (∀ t ∈ l, t.1.outputCommitments ≠ []) → f.wallet.scanTxns b l uid = .ok w → ∃ f', scanTxns b f l uid = (f', .ok ())
  | [], f, uid, w, _, _, _, _, _ => ⟨f, rfl⟩
  | (t, memos) :: l, f, uid, w, r, hl, hs, ho, hw => by
    unfold Wallet.scanTxns at hw
    simp only [bind_ok_iff] at hw
    obtain ⟨⟨w1, recv⟩, h1, next, h2, ⟨w2, more⟩, h3, -⟩ := hw
    rw [outputs_cons] at hs
    change uid.val + (t.outputCommitments.length + outputs l) < 2 ^ 64 at hs
    have hn : next.val = uid.val + t.outputCommitments.length := by
      have := addU64_val h2
      rw [outputLen_eq, Nat.mod_eq_of_lt (by omega)] at this
      exact this
    have r0 : ({ f with wallet := w1 } : Freezer).Ready :=
      ⟨fun | .unfrozen => r.known .unfrozen | .frozen => r.known .frozen, r.both⟩
    obtain ⟨f1, h4⟩ := scanNote_intro (f := { f with wallet := w1 }) (b := b) (uid := uid) r0
      (Legible.congr (f := f) rfl rfl (hl _ List.mem_cons_self))
      (show uid.val + t.outputCommitments.length < 2 ^ 64 by omega) (ho _ List.mem_cons_self)
    have st := scanNote_ok h4
    obtain ⟨f2, h5⟩ := scanTxns_intro (l := l) (f := f1) (uid := next) (w := (w2, more)) (r0.step st)
      (fun t' ht' => Legible.congr (st.viewer.trans rfl) (st.users.trans rfl) (hl t' (List.mem_cons_of_mem _ ht')))
      (by omega) (fun t' ht' => ho t' (List.mem_cons_of_mem _ ht')) (by rw [st.wallet]; exact h3)
    refine ⟨f2, ?_⟩
    unfold scanTxns scanTxn
    rw [h1]
    dsimp only
    rw [h4]
    dsimp only
    rw [h2]
    exact h5

end Freezer

end Cap
