/-
What scanning does to the lists of a freezer.
-/
import Verif.SpecKeeper
import Verif.Props.C64

namespace Cap

open Spec

theorem addU64_val {b : Build} {x y : U64} {n : ℕ} (h : addU64 b x n = .ok y) : y.val = (x.val + n) % 2 ^ 64 := by
  unfold addU64 at h
  split at h
  · next hl => cases h; exact (Nat.mod_eq_of_lt hl).symm
  · cases b with
    | debug => cases h
    | release => cases h; rfl

theorem mapGet_filter_iff {α β : Type} [DecidableEq α] (c c' : α) (l : List (α × β)) :
    mapGet c' (l.filter (fun e => e.1 ≠ c)) = if c' = c then none else mapGet c' l := by
  by_cases h : c' = c
  · rw [if_pos h]
    subst h
    induction l with
    | nil => rfl
    | cons a l ih =>
      by_cases ha : a.1 = c'
      · rw [List.filter_cons_of_neg (by simpa using ha)]; exact ih
      · rw [List.filter_cons_of_pos (by simpa using ha)]
        obtain ⟨a, v⟩ := a
        rw [mapGet, if_neg ha]
        exact ih
  · rw [if_neg h, mapGet_filter h]

variable [E : CapEnv]

omit E in
theorem flag_cases (flag fl : FreezeFlag) : fl = flag ∨ fl = flag.flip := by
  cases flag <;> cases fl <;> simp [FreezeFlag.flip]

namespace Freezer

/-- what one nullifier does to the records of one state -/
structure Move (flag : FreezeFlag) (uid : U64) (p : ℕ) (n : F) (f f' : Freezer) (x : Pending) (u : U64)
    (l : List (RecordOpening × U64)) : Prop where
  keypair : f'.keypair = f.keypair
  viewer : f'.viewer = f.viewer
  users : f'.users = f.users
  wallet : f'.wallet = f.wallet
  waited : mapGet n (f.waiting flag) = some x
  position : u.val = (uid.val + p) % 2 ^ 64
  had : mapGet x.owner (f.shelf flag) = some l
  removed : ∀ a, mapGet a (f'.shelf flag) = if a = x.owner then some (setRemove x.old l) else mapGet a (f.shelf flag)
  added : ∀ a, mapGet a (f'.shelf flag.flip) =
    if a = x.owner then some (setInsert (x.new, u) ((mapGet x.owner (f.shelf flag.flip)).getD []))
    else mapGet a (f.shelf flag.flip)
  waiting : ∀ m, mapGet m (f'.waiting flag) = if m = n then none else mapGet m (f.waiting flag)
  others : ∀ m, mapGet m (f'.waiting flag.flip) = mapGet m (f.waiting flag.flip)

theorem confirmFrozen_ok {b : Build} {f f' : Freezer} {uid : U64} {p : ℕ} {n : F}
    (h : f.confirmFrozen b uid p n = .ok f') : (mapGet n (f.waiting .unfrozen) = none ∧ f' = f) ∨
      ∃ x u l, Move .unfrozen uid p n f f' x u l := by
  unfold confirmFrozen at h
  split at h
  · next hn => cases h; exact .inl ⟨hn, rfl⟩
  · next x hx =>
    simp only [bind_ok_iff] at h
    obtain ⟨fr, h1, u, h2, h3⟩ := h
    cases h3
    obtain ⟨l, g1, g2⟩ := mapRemove_get h1
    exact .inr ⟨x, u, l, rfl, rfl, rfl, rfl, hx, addU64_val h2, g1, g2, fun a => mapGet_add _ _ _ _,
      fun m => mapGet_filter_iff _ _ _, fun _ => rfl⟩

theorem confirmReleased_ok {b : Build} {f f' : Freezer} {uid : U64} {p : ℕ} {n : F}
    (h : f.confirmReleased b uid p n = .ok f') : (mapGet n (f.waiting .frozen) = none ∧ f' = f) ∨
      ∃ x u l, Move .frozen uid p n f f' x u l := by
  unfold confirmReleased at h
  split at h
  · next hn => cases h; exact .inl ⟨hn, rfl⟩
  · next x hx =>
    simp only [bind_ok_iff] at h
    obtain ⟨fr, h1, u, h2, fr', h3, h4⟩ := h
    cases h4
    obtain ⟨l, g1, g2⟩ := mapRemove_get h1
    obtain ⟨l', g3, g4⟩ := mapInsert_get h3
    refine .inr ⟨x, u, l, rfl, rfl, rfl, rfl, hx, addU64_val h2, g1, g2, fun a => (g4 a).trans ?_,
      fun m => mapGet_filter_iff _ _ _, fun _ => rfl⟩
    show _ = if a = x.owner then some (setInsert (x.new, u) ((mapGet x.owner f.freezable).getD [])) else _
    rw [g3]
    rfl

/-- what a list of nullifiers, from `p` on, does -/
structure Confirm (uid : U64) (p : ℕ) (ns : List F) (f f' : Freezer) : Prop where
  keypair : f'.keypair = f.keypair
  viewer : f'.viewer = f.viewer
  users : f'.users = f.users
  wallet : f'.wallet = f.wallet
  new : ∀ flag user x, f'.Lists flag user x → f.Lists flag user x ∨ ∃ (j : ℕ) (m : F) (e : Pending), ns[j]? = some m ∧
    mapGet m (f.waiting flag.flip) = some e ∧ user = e.owner ∧ x.1 = e.new ∧ x.2.val = (uid.val + p + j) % 2 ^ 64
  kept : ∀ flag user x, f.Lists flag user x → f'.Lists flag user x ∨ ∃ m ∈ ns, ∃ e, mapGet m (f.waiting flag) = some e ∧
    e.owner = user ∧ e.old = x
  waits : ∀ flag m e, mapGet m (f'.waiting flag) = some e → mapGet m (f.waiting flag) = some e
  waits' : ∀ flag m, m ∉ ns → mapGet m (f'.waiting flag) = mapGet m (f.waiting flag)
  confirmed : ns.Nodup → ∀ (j : ℕ) m flag e, ns[j]? = some m → mapGet m (f.waiting flag) = some e →
    ∃ u : U64, u.val = (uid.val + p + j) % 2 ^ 64 ∧ (f'.Lists flag.flip e.owner (e.new, u) ∨
      ∃ m' ∈ ns, ∃ e', mapGet m' (f.waiting flag.flip) = some e' ∧ e'.owner = e.owner ∧ e'.old = (e.new, u))
  gone : ∀ m ∈ ns, ∀ flag e, mapGet m (f.waiting flag) = some e → f'.Lists flag e.owner e.old →
    ∃ (j : ℕ) (m' : F) (e' : Pending), ns[j]? = some m' ∧ mapGet m' (f.waiting flag.flip) = some e' ∧ e.owner = e'.owner ∧
      e.old.1 = e'.new ∧ e.old.2.val = (uid.val + p + j) % 2 ^ 64
  known : ∀ flag user l, mapGet user (f.shelf flag) = some l → ∃ l', mapGet user (f'.shelf flag) = some l'
  both : (∀ user l, mapGet user (f.shelf .frozen) = some l → ∃ l', mapGet user (f.shelf .unfrozen) = some l') →
    ∀ user l, mapGet user (f'.shelf .frozen) = some l → ∃ l', mapGet user (f'.shelf .unfrozen) = some l'

theorem Move.lists_old {flag : FreezeFlag} {uid : U64} {p : ℕ} {n : F} {f f' : Freezer} {x : Pending} {u : U64}
    {l : List (RecordOpening × U64)} (mv : Move flag uid p n f f' x u l) (user : Pt) (y : RecordOpening × U64) :
    f'.Lists flag user y ↔ f.Lists flag user y ∧ ¬ (user = x.owner ∧ y = x.old) := by
  unfold Lists
  rw [mv.removed]
  by_cases hu : user = x.owner
  · subst hu
    rw [if_pos rfl, mv.had]
    constructor
    · rintro ⟨_, h1, h2⟩
      cases h1
      rw [mem_setRemove] at h2
      exact ⟨⟨_, rfl, h2.2⟩, fun h => h2.1 h.2⟩
    · rintro ⟨⟨_, h1, h2⟩, h3⟩
      cases h1
      exact ⟨_, rfl, mem_setRemove.2 ⟨fun h => h3 ⟨rfl, h⟩, h2⟩⟩
  · rw [if_neg hu]
    exact ⟨fun h => ⟨h, fun h' => hu h'.1⟩, fun h => h.1⟩

theorem Move.lists_new {flag : FreezeFlag} {uid : U64} {p : ℕ} {n : F} {f f' : Freezer} {x : Pending} {u : U64}
    {l : List (RecordOpening × U64)} (mv : Move flag uid p n f f' x u l) (user : Pt) (y : RecordOpening × U64) :
    f'.Lists flag.flip user y ↔ f.Lists flag.flip user y ∨ (user = x.owner ∧ y = (x.new, u)) := by
  unfold Lists
  rw [mv.added]
  by_cases hu : user = x.owner
  · subst hu
    rw [if_pos rfl]
    constructor
    · rintro ⟨_, h1, h2⟩
      cases h1
      rw [mem_setInsert] at h2
      rcases h2 with h2 | h2
      · exact .inr ⟨rfl, h2⟩
      · left
        cases hg : mapGet x.owner (f.shelf flag.flip) with
        | none => rw [hg] at h2; cases h2
        | some l' => rw [hg] at h2; exact ⟨l', rfl, h2⟩
    · rintro (⟨l', h1, h2⟩ | ⟨-, h2⟩)
      · rw [h1]
        exact ⟨_, rfl, mem_setInsert.2 (.inr h2)⟩
      · exact ⟨_, rfl, mem_setInsert.2 (.inl h2)⟩
  · rw [if_neg hu]
    exact ⟨.inl, fun h => h.elim id (fun h' => absurd h'.1 hu)⟩

theorem Confirm.refl (uid : U64) (p : ℕ) (f : Freezer) : Confirm uid p [] f f :=
  ⟨rfl, rfl, rfl, rfl, fun _ _ _ h => .inl h, fun _ _ _ h => .inl h, fun _ _ _ h => h, fun _ _ _ => rfl,
    fun _ j m flag e h => by simp at h, fun _ h => (nomatch h), fun _ _ l h => ⟨l, h⟩, fun h => h⟩

/-- one nullifier, one state -/
theorem Move.confirm {flag : FreezeFlag} {uid : U64} {p : ℕ} {n : F} {f f' : Freezer} {x : Pending} {u : U64}
    {l : List (RecordOpening × U64)} (mv : Move flag uid p n f f' x u l) (fl : FreezeFlag) :
    (∀ user y, f'.Lists fl user y → f.Lists fl user y ∨
      (fl = flag.flip ∧ user = x.owner ∧ y = (x.new, u))) ∧
    (∀ user y, f.Lists fl user y → f'.Lists fl user y ∨ (fl = flag ∧ x.owner = user ∧ x.old = y)) ∧
    (∀ m e, mapGet m (f'.waiting fl) = some e → mapGet m (f.waiting fl) = some e) ∧
    (∀ m, m ≠ n → mapGet m (f'.waiting fl) = mapGet m (f.waiting fl)) ∧
    (∀ user l, mapGet user (f.shelf fl) = some l → ∃ l', mapGet user (f'.shelf fl) = some l') := by
  rcases flag_cases flag fl with rfl | rfl
  · refine ⟨fun user y h => .inl ((mv.lists_old user y).1 h).1, fun user y h => ?_, fun m e h => ?_, fun m h => ?_,
      fun user l h => ?_⟩
    · by_cases hc : user = x.owner ∧ y = x.old
      · exact .inr ⟨rfl, hc.1.symm, hc.2.symm⟩
      · exact .inl ((mv.lists_old user y).2 ⟨h, hc⟩)
    · rw [mv.waiting] at h
      split at h
      · cases h
      · exact h
    · rw [mv.waiting, if_neg h]
    · rw [mv.removed]
      split
      · exact ⟨_, rfl⟩
      · exact ⟨l, h⟩
  · refine ⟨fun user y h => ((mv.lists_new user y).1 h).imp id (fun h => ⟨rfl, h⟩), fun user y h => .inl
      ((mv.lists_new user y).2 (.inl h)), fun m e h => by rwa [mv.others] at h, fun m _ => mv.others m, fun user l h => ?_⟩
    rw [mv.added]
    split
    · exact ⟨_, rfl⟩
    · exact ⟨l, h⟩

theorem Move.both {flag : FreezeFlag} {uid : U64} {p : ℕ} {n : F} {f f' : Freezer} {x : Pending} {u : U64}
    {l : List (RecordOpening × U64)} (mv : Move flag uid p n f f' x u l)
    (h : ∀ user l, mapGet user (f.shelf .frozen) = some l → ∃ l', mapGet user (f.shelf .unfrozen) = some l') (user : Pt)
    (l' : List (RecordOpening × U64)) (hl : mapGet user (f'.shelf .frozen) = some l') :
    ∃ l', mapGet user (f'.shelf .unfrozen) = some l' := by
  have hk := (mv.confirm .unfrozen).2.2.2.2
  cases flag with
  | unfrozen =>
    have ha := mv.added user
    rw [show FreezeFlag.unfrozen.flip = .frozen from rfl, hl] at ha
    split at ha
    · next he => rw [he]; exact hk _ _ mv.had
    · obtain ⟨l2, h2⟩ := h _ _ ha.symm
      exact hk _ _ h2
  | frozen =>
    have ha := mv.removed user
    rw [hl] at ha
    split at ha
    · next he =>
      obtain ⟨l2, h2⟩ := h _ _ mv.had
      rw [he]; exact hk _ _ h2
    · obtain ⟨l2, h2⟩ := h _ _ ha.symm
      exact hk _ _ h2

/-- one nullifier, one state -/
structure One (flag : FreezeFlag) (uid : U64) (p : ℕ) (n : F) (f f' : Freezer) : Prop where
  keypair : f'.keypair = f.keypair
  viewer : f'.viewer = f.viewer
  users : f'.users = f.users
  wallet : f'.wallet = f.wallet
  new : ∀ fl user x, f'.Lists fl user x → f.Lists fl user x ∨ (fl = flag.flip ∧ ∃ e, mapGet n (f.waiting flag) = some e ∧
    user = e.owner ∧ x.1 = e.new ∧ x.2.val = (uid.val + p) % 2 ^ 64)
  kept : ∀ fl user x, f.Lists fl user x → f'.Lists fl user x ∨ (fl = flag ∧ ∃ e, mapGet n (f.waiting flag) = some e ∧
    e.owner = user ∧ e.old = x)
  waits : ∀ fl m e, mapGet m (f'.waiting fl) = some e → mapGet m (f.waiting fl) = some e
  waits' : ∀ fl m, m ≠ n → mapGet m (f'.waiting fl) = mapGet m (f.waiting fl)
  others : ∀ m, mapGet m (f'.waiting flag.flip) = mapGet m (f.waiting flag.flip)
  confirmed : ∀ e, mapGet n (f.waiting flag) = some e →
    ∃ u : U64, u.val = (uid.val + p) % 2 ^ 64 ∧ f'.Lists flag.flip e.owner (e.new, u)
  gone : ∀ e, mapGet n (f.waiting flag) = some e → ¬ f'.Lists flag e.owner e.old
  known : ∀ fl user l, mapGet user (f.shelf fl) = some l → ∃ l', mapGet user (f'.shelf fl) = some l'
  both : (∀ user l, mapGet user (f.shelf .frozen) = some l → ∃ l', mapGet user (f.shelf .unfrozen) = some l') →
    ∀ user l, mapGet user (f'.shelf .frozen) = some l → ∃ l', mapGet user (f'.shelf .unfrozen) = some l'

theorem One.intro {flag : FreezeFlag} {uid : U64} {p : ℕ} {n : F} {f f' : Freezer}
    (h : (mapGet n (f.waiting flag) = none ∧ f' = f) ∨ ∃ x u l, Move flag uid p n f f' x u l) : One flag uid p n f f' := by
  rcases h with ⟨h1, rfl⟩ | ⟨x, u, l, mv⟩
  · exact ⟨rfl, rfl, rfl, rfl, fun _ _ _ h => .inl h, fun _ _ _ h => .inl h, fun _ _ _ h => h, fun _ _ _ => rfl, fun _ => rfl,
      fun e h => (by rw [h1] at h; cases h), fun e h => (by rw [h1] at h; cases h), fun _ _ l h => ⟨l, h⟩, fun h => h⟩
  · refine ⟨mv.keypair, mv.viewer, mv.users, mv.wallet, fun fl user y h => ?_, fun fl user y h => ?_,
      fun fl => (mv.confirm fl).2.2.1, fun fl => (mv.confirm fl).2.2.2.1, mv.others, fun e h => ?_, fun e h hl => ?_,
      fun fl => (mv.confirm fl).2.2.2.2, fun h user l' hl => mv.both h user l' hl⟩
    · refine ((mv.confirm fl).1 user y h).imp id ?_
      rintro ⟨h1, h2, rfl⟩
      exact ⟨h1, x, mv.waited, h2, rfl, mv.position⟩
    · refine ((mv.confirm fl).2.1 user y h).imp id ?_
      rintro ⟨h1, h2⟩
      exact ⟨h1, x, mv.waited, h2⟩
    · rw [mv.waited] at h
      cases h
      exact ⟨u, mv.position, (mv.lists_new _ _).2 (.inr ⟨rfl, rfl⟩)⟩
    · rw [mv.waited] at h
      cases h
      exact ((mv.lists_old _ _).1 hl).2 ⟨rfl, rfl⟩

theorem Confirm.single {uid : U64} {p : ℕ} {n : F} {f f1 f' : Freezer} (a : One .unfrozen uid p n f f1)
    (c : One .frozen uid p n f1 f') : Confirm uid p [n] f f' := by
  refine ⟨c.keypair.trans a.keypair, c.viewer.trans a.viewer, c.users.trans a.users, c.wallet.trans a.wallet,
    fun flag user x h => ?_, fun flag user x h => ?_, fun flag m e h => a.waits _ _ _ (c.waits _ _ _ h), fun flag m h => ?_,
    fun _ j m flag e hj hw => ?_, fun m hm flag e hw hl => ?_, fun flag user l h => ?_, fun h => c.both (a.both h)⟩
  · rcases c.new _ _ _ h with h | ⟨rfl, e, h1, h2⟩
    · rcases a.new _ _ _ h with h | ⟨rfl, e, h1, h2⟩
      · exact .inl h
      · exact .inr ⟨0, n, e, rfl, h1, h2⟩
    · exact .inr ⟨0, n, e, rfl, (a.others n).symm.trans h1, h2⟩
  · rcases a.kept _ _ _ h with h | ⟨rfl, h0⟩
    · rcases c.kept _ _ _ h with h | ⟨rfl, e, h1, h2⟩
      · exact .inl h
      · exact .inr ⟨n, List.mem_singleton.2 rfl, e, (a.others n).symm.trans h1, h2⟩
    · exact .inr ⟨n, List.mem_singleton.2 rfl, h0⟩
  · have : m ≠ n := fun e => h (List.mem_singleton.2 e)
    rw [c.waits' _ _ this, a.waits' _ _ this]
  · cases j with
    | succ j => simp at hj
    | zero =>
      cases hj
      cases flag with
      | unfrozen =>
        obtain ⟨u, h1, h2⟩ := a.confirmed e hw
        refine ⟨u, h1, (c.kept _ _ _ h2).imp id ?_⟩
        rintro ⟨-, e', h3, h4⟩
        exact ⟨n, List.mem_singleton.2 rfl, e', (a.others n).symm.trans h3, h4⟩
      | frozen =>
        obtain ⟨u, h1, h2⟩ := c.confirmed e ((a.others n).trans hw)
        exact ⟨u, h1, .inl h2⟩
  · rw [List.mem_singleton.1 hm] at hw
    cases flag with
    | unfrozen =>
      rcases c.new _ _ _ hl with h | ⟨-, e', h1, h2⟩
      · exact absurd h (a.gone e hw)
      · exact ⟨0, n, e', rfl, (a.others n).symm.trans h1, h2⟩
    | frozen => exact absurd hl (c.gone e ((a.others n).trans hw))
  · obtain ⟨l1, h1⟩ := a.known _ _ _ h
    exact c.known _ _ _ h1

theorem Confirm.cons {uid : U64} {p : ℕ} {n : F} {ns : List F} {f f1 f' : Freezer} (a : Confirm uid p [n] f f1)
    (c : Confirm uid (p + 1) ns f1 f') : Confirm uid p (n :: ns) f f' := by
  refine ⟨c.keypair.trans a.keypair, c.viewer.trans a.viewer, c.users.trans a.users, c.wallet.trans a.wallet,
    fun flag user x h => ?_, fun flag user x h => ?_, fun flag m e h => a.waits _ _ _ (c.waits _ _ _ h), fun flag m h => ?_,
    fun nd j m flag e hj hw => ?_, fun m hm flag e hw hl => ?_, fun flag user l h => ?_, fun h => c.both (a.both h)⟩
  · rcases c.new _ _ _ h with h | ⟨j, m, e, h1, h2, h3, h4, h5⟩
    · rcases a.new _ _ _ h with h | ⟨j, m, e, h1, h2⟩
      · exact .inl h
      · cases j with
        | zero => exact .inr ⟨0, m, e, h1, h2⟩
        | succ j => simp at h1
    · refine .inr ⟨j + 1, m, e, h1, a.waits _ _ _ h2, h3, h4, ?_⟩
      rw [h5]
      congr 1
      omega
  · rcases a.kept _ _ _ h with h | ⟨m, hm, h⟩
    · rcases c.kept _ _ _ h with h | ⟨m, hm, e, h1, h2⟩
      · exact .inl h
      · exact .inr ⟨m, List.mem_cons_of_mem _ hm, e, a.waits _ _ _ h1, h2⟩
    · rw [List.mem_singleton.1 hm] at h
      exact .inr ⟨n, List.mem_cons_self, h⟩
  · rw [List.mem_cons, not_or] at h
    rw [c.waits' _ _ h.2, a.waits' _ _ (fun e => h.1 (List.mem_singleton.1 e))]
  · rw [List.nodup_cons] at nd
    cases j with
    | zero =>
      cases hj
      obtain ⟨u, h1, h2⟩ := a.confirmed (List.nodup_singleton _) 0 n flag e rfl hw
      refine ⟨u, h1, ?_⟩
      rcases h2 with h2 | ⟨m', hm, h2⟩
      · refine (c.kept _ _ _ h2).imp id ?_
        rintro ⟨m', hm, e', h3, h4⟩
        exact ⟨m', List.mem_cons_of_mem _ hm, e', a.waits _ _ _ h3, h4⟩
      · rw [List.mem_singleton.1 hm] at h2
        exact .inr ⟨n, List.mem_cons_self, h2⟩
    | succ j =>
      rw [List.getElem?_cons_succ] at hj
      have hne : m ≠ n := fun e => nd.1 (e ▸ List.mem_of_getElem? hj)
      obtain ⟨u, h1, h2⟩ := c.confirmed nd.2 j m flag e hj
        ((a.waits' _ _ (fun e => hne (List.mem_singleton.1 e))).trans hw)
      refine ⟨u, by rw [h1]; congr 1; omega, h2.imp id ?_⟩
      rintro ⟨m', hm, e', h3, h4⟩
      exact ⟨m', List.mem_cons_of_mem _ hm, e', a.waits _ _ _ h3, h4⟩
  · have later : (∃ (j : ℕ) (m' : F) (e' : Pending), ns[j]? = some m' ∧ mapGet m' (f1.waiting flag.flip) = some e' ∧
        e.owner = e'.owner ∧ e.old.1 = e'.new ∧ e.old.2.val = (uid.val + (p + 1) + j) % 2 ^ 64) →
        ∃ (j : ℕ) (m' : F) (e' : Pending), (n :: ns)[j]? = some m' ∧ mapGet m' (f.waiting flag.flip) = some e' ∧
          e.owner = e'.owner ∧ e.old.1 = e'.new ∧ e.old.2.val = (uid.val + p + j) % 2 ^ 64 := by
      rintro ⟨j, m', e', h1, h2, h3, h4, h5⟩
      exact ⟨j + 1, m', e', h1, a.waits _ _ _ h2, h3, h4, by rw [h5]; congr 1; omega⟩
    by_cases hne : m = n
    · rcases c.new _ _ _ hl with h | h
      · obtain ⟨j, m', e', h1, h2⟩ := a.gone m (List.mem_singleton.2 hne) flag e hw h
        cases j with
        | zero => exact ⟨0, m', e', h1, h2⟩
        | succ j => simp at h1
      · exact later h
    · exact later (c.gone m ((List.mem_cons.1 hm).resolve_left hne) flag e
        ((a.waits' _ _ (fun e => hne (List.mem_singleton.1 e))).trans hw) hl)
  · obtain ⟨l1, h1⟩ := a.known _ _ _ h
    exact c.known _ _ _ h1

theorem confirmAll_ok {b : Build} {uid : U64} : ∀ {ns : List F} {p : ℕ} {f f' : Freezer},
    confirmAll b uid p ns f = .ok f' → Confirm uid p ns f f'
  | [], p, f, f', h => by cases h; exact .refl _ _ _
  | n :: ns, p, f, f', h => by
    unfold confirmAll at h
    simp only [bind_ok_iff] at h
    obtain ⟨f1, h1, f2, h2, h3⟩ := h
    exact (Confirm.single (.intro (confirmFrozen_ok h1)) (.intro (confirmReleased_ok h2))).cons (confirmAll_ok h3)

variable [S : CapExt]

/-- what a transaction at `pos` does to a freezer (apart from its wallet) -/
structure Step (b : Build) (t : TransactionNote) (pos : ℕ) (f f' : Freezer) : Prop where
  keypair : f'.keypair = f.keypair
  viewer : f'.viewer = f.viewer
  users : f'.users = f.users
  wallet : f'.wallet = f.wallet
  new : ∀ flag user x, f'.Lists flag user x → f.Lists flag user x ∨
    (flag = .unfrozen ∧ ∃ i data, Shown b f.viewer t i data ∧ f.describe data = .ok (user, x.1) ∧
      x.2.val = (pos + i) % 2 ^ 64) ∨
    ∃ n j m e, t = .freeze n ∧ n.input_nullifiers[j + 1]? = some m ∧ mapGet m (f.waiting flag.flip) = some e ∧
      user = e.owner ∧ x.1 = e.new ∧ x.2.val = (pos + 1 + j) % 2 ^ 64
  kept : ∀ flag user x, f.Lists flag user x → f'.Lists flag user x ∨ ∃ n m e, t = .freeze n ∧ m ∈ n.input_nullifiers ∧
    mapGet m (f.waiting flag) = some e ∧ e.owner = user ∧ e.old = x
  shown : ∀ i data, Shown b f.viewer t i data → ∃ user ro, ∃ u : U64, f.describe data = .ok (user, ro) ∧
    u.val = (pos + i) % 2 ^ 64 ∧ f'.Lists .unfrozen user (ro, u)
  waits : ∀ flag m e, mapGet m (f'.waiting flag) = some e → mapGet m (f.waiting flag) = some e
  waits' : ∀ flag m, m ∉ t.nullifiers → mapGet m (f'.waiting flag) = mapGet m (f.waiting flag)
  confirmed : ∀ n, t = .freeze n → n.input_nullifiers.Nodup → ∀ (j : ℕ) m flag e, n.input_nullifiers[j + 1]? = some m →
    mapGet m (f.waiting flag) = some e → ∃ u : U64, u.val = (pos + 1 + j) % 2 ^ 64 ∧
      (f'.Lists flag.flip e.owner (e.new, u) ∨
        ∃ m' ∈ n.input_nullifiers, ∃ e', mapGet m' (f.waiting flag.flip) = some e' ∧ e'.owner = e.owner ∧
          e'.old = (e.new, u))
  gone : ∀ n, t = .freeze n → ∀ (j : ℕ) m flag e, n.input_nullifiers[j + 1]? = some m → mapGet m (f.waiting flag) = some e →
    f'.Lists flag e.owner e.old → ∃ j m' e', n.input_nullifiers[j + 1]? = some m' ∧
      mapGet m' (f.waiting flag.flip) = some e' ∧ e.owner = e'.owner ∧ e.old.1 = e'.new ∧
      e.old.2.val = (pos + 1 + j) % 2 ^ 64
  known : ∀ flag user l, mapGet user (f.shelf flag) = some l → ∃ l', mapGet user (f'.shelf flag) = some l'
  both : (∀ user l, mapGet user (f.shelf .frozen) = some l → ∃ l', mapGet user (f.shelf .unfrozen) = some l') →
    ∀ user l, mapGet user (f'.shelf .frozen) = some l → ∃ l', mapGet user (f'.shelf .unfrozen) = some l'

omit S in
theorem add_lists (f : Freezer) (owner : Pt) (y : RecordOpening × U64) (flag : FreezeFlag) (user : Pt)
    (x : RecordOpening × U64) : ({ f with freezable := mapAdd owner y f.freezable } : Freezer).Lists flag user x ↔
      f.Lists flag user x ∨ (flag = .unfrozen ∧ user = owner ∧ x = y) := by
  cases flag with
  | frozen => exact ⟨.inl, fun h => h.elim id (fun h => by cases h.1)⟩
  | unfrozen =>
    unfold Lists
    show (∃ l, mapGet user (mapAdd owner y f.freezable) = some l ∧ x ∈ l) ↔ (∃ l, mapGet user f.freezable = some l ∧ x ∈ l) ∨ _
    rw [mapGet_add]
    by_cases hu : user = owner
    · subst hu
      rw [if_pos rfl]
      constructor
      · rintro ⟨_, h1, h2⟩
        cases h1
        rw [mem_setInsert] at h2
        rcases h2 with h2 | h2
        · exact .inr ⟨rfl, rfl, h2⟩
        · left
          cases hg : mapGet user f.freezable with
          | none => rw [hg] at h2; cases h2
          | some l' => rw [hg] at h2; exact ⟨l', rfl, h2⟩
      · rintro (⟨l', h1, h2⟩ | ⟨-, -, h2⟩)
        · rw [h1]
          exact ⟨_, rfl, mem_setInsert.2 (.inr h2)⟩
        · exact ⟨_, rfl, mem_setInsert.2 (.inl h2)⟩
    · rw [if_neg hu]
      exact ⟨.inl, fun h => h.elim id (fun h' => absurd h'.2.1 hu)⟩

omit S in
theorem add_known (f : Freezer) (owner : Pt) (y : RecordOpening × U64) (flag : FreezeFlag) (user : Pt)
    (l : List (RecordOpening × U64)) (h : mapGet user (f.shelf flag) = some l) :
    ∃ l', mapGet user (({ f with freezable := mapAdd owner y f.freezable } : Freezer).shelf flag) = some l' := by
  cases flag with
  | frozen => exact ⟨l, h⟩
  | unfrozen =>
    show ∃ l', mapGet user (mapAdd owner y f.freezable) = some l'
    rw [mapGet_add]
    split
    · exact ⟨_, rfl⟩
    · exact ⟨l, h⟩

omit S in
theorem number_ok {b : Build} : ∀ {xs : List ViewableData} {uid : U64} {ys : List (ViewableData × U64)},
    Viewer.number b uid xs = .ok ys → ys.length = xs.length ∧ ∀ (j : ℕ) x, xs[j]? = some x →
      ∃ u : U64, u.val = (uid.val + j) % 2 ^ 64 ∧ ys[j]? = some (x, u)
  | [], uid, ys, h => by
    cases h
    exact ⟨rfl, fun j x h => by simp at h⟩
  | x :: xs, uid, ys, h => by
    unfold Viewer.number at h
    simp only [bind_ok_iff] at h
    obtain ⟨nx, h1, ys', h2, h3⟩ := h
    cases h3
    obtain ⟨g1, g2⟩ := number_ok h2
    refine ⟨by simp [g1], fun j y hj => ?_⟩
    cases j with
    | zero => cases hj; exact ⟨uid, (Nat.mod_eq_of_lt uid.isLt).symm, rfl⟩
    | succ j =>
      obtain ⟨u, h4, h5⟩ := g2 j y (by simpa using hj)
      refine ⟨u, ?_, h5⟩
      rw [h4, addU64_val h1]
      omega

omit S in
theorem addOutputs_ok : ∀ {l : List (ViewableData × U64)} {f f' : Freezer}, addOutputs f l = .ok f' →
    (f' = { f with freezable := f'.freezable }) ∧
    (∀ flag user x, f'.Lists flag user x ↔ f.Lists flag user x ∨ (flag = .unfrozen ∧ ∃ data, (data, x.2) ∈ l ∧
      f.describe data = .ok (user, x.1))) ∧
    (∀ y ∈ l, ∃ user ro, f.describe y.1 = .ok (user, ro)) ∧
    (∀ flag user l', mapGet user (f.shelf flag) = some l' → ∃ l', mapGet user (f'.shelf flag) = some l')
  | [], f, f', h => by
    cases h
    exact ⟨rfl, fun flag user x => ⟨.inl, fun h => h.elim id (fun ⟨_, _, h, _⟩ => by cases h)⟩, fun _ h => (nomatch h),
      fun _ _ l h => ⟨l, h⟩⟩
  | (x, uid) :: l, f, f', h => by
    unfold addOutputs at h
    simp only [bind_ok_iff] at h
    obtain ⟨⟨owner, ro⟩, h1, h2⟩ := h
    obtain ⟨g1, g2, g3, g4⟩ := addOutputs_ok h2
    refine ⟨g1, fun flag user y => ?_, ?_, fun flag user l' h => ?_⟩
    · rw [g2, add_lists]
      constructor
      · rintro ((h | ⟨rfl, rfl, rfl⟩) | ⟨rfl, data, h3, h4⟩)
        · exact .inl h
        · exact .inr ⟨rfl, x, List.mem_cons_self, h1⟩
        · exact .inr ⟨rfl, data, List.mem_cons_of_mem _ h3, h4⟩
      · rintro (h | ⟨rfl, data, h3, h4⟩)
        · exact .inl (.inl h)
        · rcases List.mem_cons.1 h3 with h3 | h3
          · cases h3
            rw [h1] at h4
            cases h4
            exact .inl (.inr ⟨rfl, rfl, rfl⟩)
          · exact .inr ⟨rfl, data, h3, h4⟩
    · intro y hy
      rcases List.mem_cons.1 hy with rfl | hy
      · exact ⟨owner, ro, h1⟩
      · exact g3 y hy
    · obtain ⟨l1, h3⟩ := add_known f owner (ro, uid) flag user l' h
      exact g4 _ _ _ h3

/-- **one transaction** -/
theorem scanNote_ok {b : Build} {f f' : Freezer} {t : TransactionNote} {uid : U64} (h : f.scanNote b t uid = .ok f') :
    Step b t uid.val f f' := by
  cases t with
  | transfer n =>
    have h : f.scanXfr b n uid = .ok f' := h
    unfold scanXfr Viewer.scanXfr at h
    simp only [bind_ok_iff] at h
    obtain ⟨⟨ins', outs'⟩, ⟨ni, h1, no, h2, ⟨ins, outs⟩, h3, -, h4, -, h5, u, h6, os, h7, h8⟩, h9⟩ := h
    cases h8
    obtain ⟨g1, g2, g3, g4⟩ := addOutputs_ok h9
    obtain ⟨n1, n2⟩ := number_ok h7
    have hu := addU64_val h6
    refine ⟨by rw [g1], by rw [g1], by rw [g1], by rw [g1], fun flag user x hx => ?_, fun flag user x hx => .inl ((g2 _ _ _).2 (.inl hx)),
      fun i data hs => ?_, fun flag m e hm => by rw [g1] at hm; cases flag <;> exact hm,
      fun flag m _ => by rw [g1]; cases flag <;> rfl, fun n hn => (by cases hn), fun n hn => (by cases hn), g4, fun hb user l hl => ?_⟩
    · rcases (g2 _ _ _).1 hx with hx | ⟨rfl, data, h10, h11⟩
      · exact .inl hx
      · obtain ⟨j, hj⟩ := List.getElem?_of_mem h10
        have hjl : j < outs.length := by rw [← n1]; exact (List.getElem?_eq_some_iff.1 hj).1
        obtain ⟨u', h12, h13⟩ := n2 j outs[j] (List.getElem?_eq_getElem hjl)
        rw [hj] at h13
        cases h13
        refine .inr (.inl ⟨rfl, j + 1, _, .transfer h3 (List.getElem?_eq_getElem hjl), h11, ?_⟩)
        rw [h12, hu]
        omega
    · cases hs with
      | transfer opened there =>
        rw [h3] at opened
        cases opened
        rename_i j
        obtain ⟨u', h12, h13⟩ := n2 j data there
        obtain ⟨user, ro, h14⟩ := g3 _ (List.mem_of_getElem? h13)
        refine ⟨user, ro, u', h14, by rw [h12, hu]; omega, (g2 _ _ _).2 (.inr ⟨rfl, data, List.mem_of_getElem? h13, h14⟩)⟩
    · have hl : mapGet user (f.shelf .frozen) = some l := by rw [g1] at hl; exact hl
      obtain ⟨l2, hl2⟩ := hb _ _ hl
      exact g4 _ _ _ hl2
  | mint n =>
    have h : f.scanMint b n uid = .ok f' := h
    unfold scanMint Viewer.scanMint at h
    simp only [bind_ok_iff] at h
    obtain ⟨⟨x, u⟩, ⟨x', h1, u', h2, h3⟩, ⟨owner, ro⟩, h4, h5⟩ := h
    cases h3
    cases h5
    have hu := addU64_val h2
    refine ⟨rfl, rfl, rfl, rfl, fun flag user y hy => ?_, fun flag user y hy => .inl ((add_lists _ _ _ _ _ _).2 (.inl hy)),
      fun i data hs => ?_, fun flag m e hm => by cases flag <;> exact hm, fun flag m _ => by cases flag <;> rfl,
      fun n hn => (by cases hn), fun n hn => (by cases hn), add_known _ _ _, fun hb user l hl => ?_⟩
    · rcases (add_lists _ _ _ _ _ _).1 hy with hy | ⟨rfl, rfl, rfl⟩
      · exact .inl hy
      · exact .inr (.inl ⟨rfl, 1, x, .mint h1, h4, hu⟩)
    · cases hs with
      | mint opened =>
        rw [h1] at opened
        cases opened
        exact ⟨owner, ro, u, h4, hu, (add_lists _ _ _ _ _ _).2 (.inr ⟨rfl, rfl, rfl⟩)⟩
    · obtain ⟨l2, hl2⟩ := hb user l hl
      exact add_known f owner (ro, u) _ _ _ hl2
  | freeze n =>
    have h : f.scanFreeze b n uid = .ok f' := h
    unfold scanFreeze at h
    simp only [bind_ok_iff] at h
    obtain ⟨u, h1, h2⟩ := h
    have hu := addU64_val h1
    have c := confirmAll_ok h2
    refine ⟨c.keypair, c.viewer, c.users, c.wallet, fun flag user x hx => ?_, fun flag user x hx => ?_, fun i data hs => (by cases hs),
      c.waits, fun flag m hm => c.waits' _ _ (fun h => hm (List.mem_of_mem_tail h)), fun n' hn nd j m flag e hj hw => ?_,
      fun n' hn j m flag e hj hw hl => ?_, c.known, c.both⟩
    · rcases c.new _ _ _ hx with hx | ⟨j, m, e, h3, h4, h5, h6, h7⟩
      · exact .inl hx
      · refine .inr (.inr ⟨n, j, m, e, rfl, by rw [← List.getElem?_tail]; exact h3, h4, h5, h6, ?_⟩)
        rw [h7, hu]
        omega
    · refine (c.kept _ _ _ hx).imp id ?_
      rintro ⟨m, hm, e, h3⟩
      exact ⟨n, m, e, rfl, List.mem_of_mem_tail hm, h3⟩
    · cases hn
      obtain ⟨u', h3, h4⟩ := c.confirmed nd.tail j m flag e (by rw [List.getElem?_tail]; exact hj) hw
      refine ⟨u', by rw [h3, hu]; omega, h4.imp id ?_⟩
      rintro ⟨m', hm, e', h5⟩
      exact ⟨m', List.mem_of_mem_tail hm, e', h5⟩
    · cases hn
      obtain ⟨j', m', e', h3, h4, h5, h6, h7⟩ := c.gone m
        (List.mem_of_getElem? (by rw [List.getElem?_tail]; exact hj)) flag e hw hl
      exact ⟨j', m', e', by rw [← List.getElem?_tail]; exact h3, h4, h5, h6, by rw [h7, hu]; omega⟩

end Freezer

end Cap
