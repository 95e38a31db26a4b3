/-
What scanning a block does to the lists of a freezer.
-/
import Verif.Lemmas.Keeper

namespace Cap

open Spec

variable [E : CapEnv] [S : CapExt]

namespace Freezer

/-- a freeze note of the list publishes the nullifier of a waiting entry for this record -/
def Taking (l : List (TransactionNote × List E.AeadCt)) (f : Freezer) (flag : FreezeFlag) (user : Pt)
    (x : RecordOpening × U64) : Prop :=
  ∃ note memos n m e, InList l (.freeze note) memos n ∧ m ∈ note.input_nullifiers ∧ mapGet m (f.waiting flag) = some e ∧
    e.owner = user ∧ e.old = x

/-- a record that the transactions bring onto a list -/
def Arrives (b : Build) (l : List (TransactionNote × List E.AeadCt)) (off : ℕ) (f : Freezer) (flag : FreezeFlag) (user : Pt)
    (x : RecordOpening × U64) : Prop :=
  (flag = .unfrozen ∧ ∃ t memos n i data, InList l t memos n ∧ Shown b f.viewer t i data ∧
    f.describe data = .ok (user, x.1) ∧ x.2.val = (off + n + i) % 2 ^ 64) ∨
  ∃ note memos n j m e, InList l (.freeze note) memos n ∧ note.input_nullifiers[j + 1]? = some m ∧
    mapGet m (f.waiting flag.flip) = some e ∧ user = e.owner ∧ x.1 = e.new ∧ x.2.val = (off + n + 1 + j) % 2 ^ 64

/-- what transactions do to a freezer, the first output being at `off` -/
structure Steps (b : Build) (l : List (TransactionNote × List E.AeadCt)) (off : ℕ) (f f' : Freezer) : Prop where
  keypair : f'.keypair = f.keypair
  viewer : f'.viewer = f.viewer
  users : f'.users = f.users
  new : ∀ flag user x, f'.Lists flag user x → f.Lists flag user x ∨ Arrives b l off f flag user x
  kept : ∀ flag user x, f.Lists flag user x → f'.Lists flag user x ∨ Taking l f flag user x
  shown : ∀ t memos n i data, InList l t memos n → Shown b f.viewer t i data → ∃ user ro, ∃ u : U64,
    f.describe data = .ok (user, ro) ∧ u.val = (off + n + i) % 2 ^ 64 ∧
      (f'.Lists .unfrozen user (ro, u) ∨ Taking l f .unfrozen user (ro, u))
  waits : ∀ flag m e, mapGet m (f'.waiting flag) = some e → mapGet m (f.waiting flag) = some e
  waits' : ∀ flag m, (∀ t ∈ l, m ∉ t.1.nullifiers) → mapGet m (f'.waiting flag) = mapGet m (f.waiting flag)
  confirmed : (l.flatMap (fun t => t.1.nullifiers)).Nodup → ∀ note memos n, InList l (.freeze note) memos n →
    ∀ (j : ℕ) m flag e, note.input_nullifiers[j + 1]? = some m → mapGet m (f.waiting flag) = some e →
      ∃ u : U64, u.val = (off + n + 1 + j) % 2 ^ 64 ∧
        (f'.Lists flag.flip e.owner (e.new, u) ∨ Taking l f flag.flip e.owner (e.new, u))
  gone : (l.flatMap (fun t => t.1.nullifiers)).Nodup → ∀ note memos n, InList l (.freeze note) memos n →
    ∀ (j : ℕ) m flag e, note.input_nullifiers[j + 1]? = some m → mapGet m (f.waiting flag) = some e →
      f'.Lists flag e.owner e.old → Arrives b l off f flag e.owner e.old
  known : ∀ flag user l, mapGet user (f.shelf flag) = some l → ∃ l', mapGet user (f'.shelf flag) = some l'
  both : (∀ user l, mapGet user (f.shelf .frozen) = some l → ∃ l', mapGet user (f.shelf .unfrozen) = some l') →
    ∀ user l, mapGet user (f'.shelf .frozen) = some l → ∃ l', mapGet user (f'.shelf .unfrozen) = some l'

omit S in
theorem describe_congr {f f' : Freezer} (hv : f'.viewer = f.viewer) (hu : f'.users = f.users) (x : ViewableData) :
    f'.describe x = f.describe x := by
  unfold describe
  rw [hv, hu]

theorem Taking.tail {a : TransactionNote × List E.AeadCt} {l : List (TransactionNote × List E.AeadCt)} {f f' : Freezer}
    {flag : FreezeFlag} {user : Pt} {x : RecordOpening × U64}
    (waits : ∀ m e, mapGet m (f'.waiting flag) = some e → mapGet m (f.waiting flag) = some e)
    (h : Taking l f' flag user x) : Taking (a :: l) f flag user x := by
  obtain ⟨note, memos, n, m, e, h1, h2, h3, h4⟩ := h
  exact ⟨note, memos, _, m, e, h1.tail, h2, waits _ _ h3, h4⟩

theorem Steps.nil (b : Build) (off : ℕ) (f : Freezer) : Steps b [] off f f := by
  have no : ∀ {t : TransactionNote} {memos : List E.AeadCt} {n : ℕ}, ¬ InList [] t memos n := by
    intro t memos n h
    exact List.not_mem_nil h.mem
  exact ⟨rfl, rfl, rfl, fun _ _ _ h => .inl h, fun _ _ _ h => .inl h, fun _ _ _ _ _ h => absurd h no, fun _ _ _ h => h,
    fun _ _ _ => rfl, fun _ _ _ _ h => absurd h no, fun _ _ _ _ h => absurd h no, fun _ _ l h => ⟨l, h⟩, fun h => h⟩

theorem Steps.cons {b : Build} {t : TransactionNote} {memos : List E.AeadCt} {l : List (TransactionNote × List E.AeadCt)}
    {off : ℕ} {next : U64} {f f0 f1 f' : Freezer}
    (same : f0.keypair = f.keypair ∧ f0.viewer = f.viewer ∧ f0.users = f.users ∧ (∀ flag, f0.shelf flag = f.shelf flag) ∧
      ∀ flag, f0.waiting flag = f.waiting flag)
    (a : Step b t off f0 f1) (hn : next.val = (off + t.outputCommitments.length) % 2 ^ 64) (c : Steps b l next.val f1 f') :
    Steps b ((t, memos) :: l) off f f' := by
  obtain ⟨s1, s2, s3, s4, s5⟩ := same
  have lists : ∀ flag user x, f0.Lists flag user x ↔ f.Lists flag user x := by
    intro flag user x
    unfold Lists
    rw [s4]
  have hd1 : ∀ x, f1.describe x = f.describe x := describe_congr (a.viewer.trans s2) (a.users.trans s3)
  have hd0 : ∀ x, f0.describe x = f.describe x := describe_congr s2 s3
  have w1 : ∀ flag m e, mapGet m (f1.waiting flag) = some e → mapGet m (f.waiting flag) = some e := by
    intro flag m e h
    rw [← s5]
    exact a.waits _ _ _ h
  have kept1 : ∀ flag user x, f1.Lists flag user x → f'.Lists flag user x ∨ Taking ((t, memos) :: l) f flag user x :=
    fun flag user x h => (c.kept _ _ _ h).imp id (.tail (w1 flag))
  have v1 : f1.viewer = f.viewer := a.viewer.trans s2
  have first : ∀ {flag user x}, ((flag = .unfrozen ∧ ∃ i data, Shown b f0.viewer t i data ∧ f0.describe data = .ok (user, x.1) ∧
      x.2.val = (off + i) % 2 ^ 64) ∨
      ∃ n j m e, t = .freeze n ∧ n.input_nullifiers[j + 1]? = some m ∧ mapGet m (f0.waiting flag.flip) = some e ∧
        user = e.owner ∧ x.1 = e.new ∧ x.2.val = (off + 1 + j) % 2 ^ 64) → Arrives b ((t, memos) :: l) off f flag user x := by
    rintro flag user x (⟨rfl, i, data, h1, h2, h3⟩ | ⟨note, j, m, e, rfl, h1, h2, h3, h4, h5⟩)
    · exact .inl ⟨rfl, t, memos, 0, i, data, .head, by rw [← s2]; exact h1, (hd0 _).symm.trans h2, h3⟩
    · exact .inr ⟨note, memos, 0, j, m, e, .head, h1, by rw [← s5]; exact h2, h3, h4, h5⟩
  have later : ∀ {flag user x}, Arrives b l next.val f1 flag user x → Arrives b ((t, memos) :: l) off f flag user x := by
    rintro flag user x (⟨rfl, t', ms, n, i, data, h1, h2, h3, h4⟩ | ⟨note, ms, n, j, m, e, h1, h2, h3, h4, h5, h6⟩)
    · refine .inl ⟨rfl, t', ms, _, i, data, h1.tail, v1 ▸ h2, (hd1 _).symm.trans h3, ?_⟩
      dsimp only
      rw [h4, hn]
      omega
    · refine .inr ⟨note, ms, _, j, m, e, h1.tail, h2, w1 _ _ _ h3, h4, h5, ?_⟩
      dsimp only
      rw [h6, hn]
      omega
  refine ⟨c.keypair.trans (a.keypair.trans s1), c.viewer.trans v1, c.users.trans (a.users.trans s3),
    fun flag user x h => ?_, fun flag user x h => ?_, fun t' ms n i data hi hs => ?_, fun flag m e h => w1 _ _ _ (c.waits _ _ _ h),
    fun flag m h => ?_, fun nd note ms n hi j m flag e hj hw => ?_, fun nd note ms n hi j m flag e hj hw hl => ?_, fun flag user l' h => ?_, fun h => ?_⟩
  · exact (c.new _ _ _ h).elim (fun h => (a.new _ _ _ h).elim (fun h => .inl ((lists _ _ _).1 h)) (fun h => .inr (first h)))
      (fun h => .inr (later h))
  · rcases a.kept _ _ _ ((lists _ _ _).2 h) with h | ⟨note, m, e, rfl, h1, h2, h3⟩
    · exact kept1 _ _ _ h
    · exact .inr ⟨note, memos, 0, m, e, .head, h1, by rw [← s5]; exact h2, h3⟩
  · rcases hi.cases with ⟨he, rfl⟩ | ⟨n', rfl, hi'⟩
    · cases he
      obtain ⟨user, ro, u, h1, h2, h3⟩ := a.shown i data (by rw [s2]; exact hs)
      exact ⟨user, ro, u, (hd0 _).symm.trans h1, h2, kept1 _ _ _ h3⟩
    · obtain ⟨user, ro, u, h1, h2, h3⟩ := c.shown t' ms n' i data hi' (by rw [v1]; exact hs)
      refine ⟨user, ro, u, (hd1 _).symm.trans h1, ?_, h3.imp id (.tail (w1 _))⟩
      rw [h2, hn]
      dsimp only
      omega
  · rw [c.waits' flag m (fun t' ht => h t' (List.mem_cons_of_mem _ ht)), a.waits' flag m (h _ List.mem_cons_self), s5]
  · rw [List.flatMap_cons, List.nodup_append] at nd
    obtain ⟨nd1, nd2, nd3⟩ := nd
    rcases hi.cases with ⟨he, rfl⟩ | ⟨n', rfl, hi'⟩
    · cases he
      obtain ⟨u, h1, h2⟩ := a.confirmed note rfl nd1 j m flag e hj (by rw [s5]; exact hw)
      refine ⟨u, h1, ?_⟩
      rcases h2 with h2 | ⟨m', hm, e', h3, h4⟩
      · exact kept1 _ _ _ h2
      · exact .inr ⟨note, memos, 0, m', e', .head, hm, by rw [← s5]; exact h3, h4⟩
    · have hm : m ∉ t.nullifiers := by
        intro h
        exact nd3 m h m (List.mem_flatMap.2 ⟨(.freeze note, ms), hi'.mem, List.mem_of_getElem? (show (TransactionNote.freeze note).nullifiers[j + 1]? = _ from hj)⟩) rfl
      obtain ⟨u, h1, h2⟩ := c.confirmed nd2 note ms n' hi' j m flag e hj (by rw [a.waits' _ _ hm, s5]; exact hw)
      refine ⟨u, ?_, h2.imp id (.tail (w1 _))⟩
      rw [h1, hn]
      dsimp only
      omega
  · rw [List.flatMap_cons, List.nodup_append] at nd
    obtain ⟨nd1, nd2, nd3⟩ := nd
    rcases hi.cases with ⟨he, rfl⟩ | ⟨n', rfl, hi'⟩
    · cases he
      rcases c.new _ _ _ hl with h | h
      · obtain ⟨j', m', e', h1⟩ := a.gone note rfl j m flag e hj (by rw [s5]; exact hw) h
        exact first (.inr ⟨note, j', m', e', rfl, h1⟩)
      · exact later h
    · have hm : m ∉ t.nullifiers := by
        intro h
        exact nd3 m h m (List.mem_flatMap.2 ⟨(.freeze note, ms), hi'.mem,
          List.mem_of_getElem? (show (TransactionNote.freeze note).nullifiers[j + 1]? = _ from hj)⟩) rfl
      exact later (c.gone nd2 note ms n' hi' j m flag e hj (by rw [a.waits' _ _ hm, s5]; exact hw) hl)
  · obtain ⟨l1, h1⟩ := a.known flag user l' (by rw [s4]; exact h)
    exact c.known _ _ _ h1
  · refine c.both (a.both ?_)
    rw [s4, s4]
    exact h

theorem scanTxns_ok {b : Build} : ∀ {l : List (TransactionNote × List E.AeadCt)} {f f' : Freezer} {uid : U64},
    scanTxns b f l uid = (f', .ok ()) → Steps b l uid.val f f' ∧ ∃ recv, f.wallet.scanTxns b l uid = .ok (f'.wallet, recv)
  | [], f, f', uid, h => by
    cases h
    exact ⟨.nil _ _ _, [], rfl⟩
  | (t, memos) :: l, f, f', uid, h => by
    unfold scanTxns at h
    split at h
    · cases h
    · next f1 h1 =>
      split at h
      · cases h
      · next next h2 =>
        obtain ⟨g1, recv, g2⟩ := scanTxns_ok h
        unfold scanTxn at h1
        split at h1
        · cases h1
        · next w r hw =>
          split at h1
          · cases h1
          · next f2 h3 =>
            cases h1
            have st := scanNote_ok h3
            refine ⟨Steps.cons (f0 := { f with wallet := w }) ⟨rfl, rfl, rfl, fun fl => by cases fl <;> rfl, fun fl => by cases fl <;> rfl⟩
              st (by rw [← outputLen_eq]; exact addU64_val h2) g1, r ++ recv, ?_⟩
            have hw1 : f1.wallet = w := st.wallet
            unfold Wallet.scanTxns
            simp only [bind_ok_iff]
            exact ⟨(w, r), hw, next, h2, (f'.wallet, recv), hw1 ▸ g2, rfl⟩

theorem scanBlock_ok {b : Build} {l : List (TransactionNote × List E.AeadCt)} {f f' : Freezer} {uid : U64}
    (h : f.scanBlock b (l.map (·.1)) (l.map (·.2)) uid = (f', .ok ())) :
    Steps b l uid.val f f' ∧ ∃ recv, f.wallet.scanBlock b (l.map (·.1)) (l.map (·.2)) uid = .ok (f'.wallet, recv) := by
  unfold scanBlock at h
  rw [if_neg (by simp), zip_map_self] at h
  unfold Wallet.scanBlock
  rw [if_neg (by simp), zip_map_self]
  exact scanTxns_ok h

end Freezer

end Cap
