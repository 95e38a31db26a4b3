/-
Laws of the serde forms of `Model/Serde.lean`, one combinator at a time.
-/
import Verif.Model.Serde
import Verif.Lemmas.Wire

namespace Cap

/-- The values that fit are read back, whatever follows, and what was read is read again if the input goes on. -/
structure Format.Keeps {α : Type} (f : Format α) (fits : α → Prop) : Prop where
  round : ∀ x rest, fits x → f.de (f.ser x ++ rest) = .ok (x, rest)
  more : ∀ bs x rest t, f.de bs = .ok (x, rest) → f.de (bs ++ t) = .ok (x, rest ++ t)

/-- The reader does not panic. -/
def Format.Calm {α : Type} (f : Format α) : Prop := ∀ bs, f.de bs ≠ .error .panic

namespace Format

variable {α β : Type}

theorem Good.keeps {f : Format α} {p : α → Prop} (h : f.Good p) : f.Keeps p := ⟨h.round, h.more⟩

theorem Keeps.mono {f : Format α} {p q : α → Prop} (h : f.Keeps p) (e : ∀ x, q x → p x) : f.Keeps q :=
  ⟨fun x rest hx => h.round x rest (e x hx), h.more⟩

theorem Keeps.pair {a : Format α} {b : Format β} {p : α → Prop} {q : β → Prop} (ha : a.Keeps p) (hb : b.Keeps q) :
    (a.pair b).Keeps (fun x => p x.1 ∧ q x.2) where
  round x rest hx := by
    rw [pair_de]
    refine ⟨b.ser x.2 ++ rest, ?_, hb.round _ _ hx.2⟩
    rw [← ha.round x.1 _ hx.1]
    simp [Format.pair]
  more bs x rest t h := by
    obtain ⟨mid, h1, h2⟩ := pair_de.1 h
    exact pair_de.2 ⟨mid ++ t, ha.more _ _ _ _ h1, hb.more _ _ _ _ h2⟩

theorem Keeps.as {a : Format α} {p : α → Prop} (ha : a.Keeps p) {fields : β → α} {make : α → β}
    (h1 : ∀ x, make (fields x) = x) : (a.as fields make).Keeps (fun x => p (fields x)) where
  round x rest hx := as_de.2 ⟨fields x, ha.round _ _ hx, h1 x⟩
  more bs x rest t h := by
    obtain ⟨y, hy, e⟩ := as_de.1 h
    exact as_de.2 ⟨y, ha.more _ _ _ _ hy, e⟩

/-- A first field in another form that is read as this field. -/
theorem Keeps.first {γ : Type} {a : Format α} {b : Format β} {q : β → Prop} (hb : b.Keeps q) {fields : γ → α × β}
    {make : α × β → γ} (h1 : ∀ x, make (fields x) = x) (x : γ) (hx : q (fields x).2) (bs rest : List Byte)
    (ha : a.de bs = .ok ((fields x).1, b.ser (fields x).2 ++ rest)) :
    ((a.pair b).as fields make).de bs = .ok (x, rest) :=
  as_de.2 ⟨fields x, pair_de.2 ⟨_, ha, hb.round _ _ hx⟩, h1 x⟩

theorem Keeps.list {a : Format α} {p : α → Prop} (ha : a.Keeps p) :
    a.list.Keeps (fun l => l.length < 2 ^ 64 ∧ ∀ x ∈ l, p x) where
  round l rest h := by
    rw [list_de]
    refine ⟨leBytes 8 l.length, l.flatMap a.ser ++ rest, ?_, ?_⟩
    · rw [← readExact_append (leBytes_length 8 l.length)]
      simp [Format.list]
    · rw [ofLe_leBytes _ _ (by rw [show 256 ^ 8 = 2 ^ 64 by norm_num]; exact h.1)]
      have := h.2
      clear h
      induction l with
      | nil => rfl
      | cons x xs ih =>
        rw [List.length_cons, readMany_succ]
        refine ⟨x, xs, xs.flatMap a.ser ++ rest, rfl, ?_, ih (fun y hy => this y (List.mem_cons_of_mem _ hy))⟩
        rw [← ha.round x _ (this x List.mem_cons_self), List.flatMap_cons, List.append_assoc]
  more bs l rest t h := by
    obtain ⟨len, mid, h1, h2⟩ := list_de.1 h
    refine list_de.2 ⟨len, mid ++ t, readExact_more t h1, ?_⟩
    clear h1 h
    generalize ofLe len = n at h2 ⊢
    induction n generalizing mid l with
    | zero => cases h2; rfl
    | succ n ih =>
      obtain ⟨x, xs, mid', rfl, h1, h2⟩ := readMany_succ.1 h2
      exact readMany_succ.2 ⟨x, xs, mid' ++ t, rfl, ha.more _ _ _ _ h1, ih _ _ h2⟩

/-- what the reader of a blob does with a blob -/
theorem blob_body (strict : Bool) (bad : SerErr → SerErr) (a : Format α) (body rest : List Byte)
    (h : body.length < 2 ^ 64) :
    (a.blob strict bad).de (leBytes 8 body.length ++ body ++ rest) = match a.de body with
      | .ok (x, left) => if strict && !left.isEmpty then .error (bad .invalidData) else .ok (x, rest)
      | .error e => .error (bad e) := by
  unfold Format.blob
  dsimp only
  rw [List.append_assoc, readExact_append (leBytes_length 8 _)]
  simp only [bind, Except.bind]
  rw [ofLe_leBytes _ _ (by rw [show 256 ^ 8 = 2 ^ 64 by norm_num]; exact h), readExact_append rfl]
  rfl

theorem blob_de {strict : Bool} {bad : SerErr → SerErr} {a : Format α} {bs x rest} :
    (a.blob strict bad).de bs = .ok (x, rest) ↔ ∃ len mid body left, readExact 8 bs = .ok (len, mid) ∧
      readExact (ofLe len) mid = .ok (body, rest) ∧ a.de body = .ok (x, left) ∧ (strict = true → left = []) := by
  unfold Format.blob
  simp only [ser_bind_ok_iff, Prod.exists]
  constructor
  · rintro ⟨len, mid, h1, body, r, h2, h3⟩
    cases hd : a.de body with
    | error e => rw [hd] at h3; cases h3
    | ok y =>
      rw [hd] at h3
      dsimp only at h3
      split at h3
      · cases h3
      · rename_i hs
        cases h3
        refine ⟨len, mid, body, y.2, h1, h2, hd, fun hst => ?_⟩
        rw [hst] at hs
        simpa using hs
  · rintro ⟨len, mid, body, left, h1, h2, h3, h4⟩
    refine ⟨len, mid, h1, body, rest, h2, ?_⟩
    rw [h3]
    dsimp only
    rw [if_neg]
    cases strict
    · simp
    · simp [h4 rfl]

theorem blob_keeps (strict : Bool) (bad : SerErr → SerErr) {a : Format α} {p : α → Prop}
    (ha : ∀ x, p x → a.de (a.ser x) = .ok (x, [])) :
    (a.blob strict bad).Keeps (fun x => p x ∧ (a.ser x).length < 2 ^ 64) where
  round x rest h := by
    have := blob_body strict bad a (a.ser x) rest h.2
    rw [ha x h.1] at this
    simpa [Format.blob] using this
  more bs x rest t h := by
    obtain ⟨len, mid, body, left, h1, h2, h3, h4⟩ := blob_de.1 h
    exact blob_de.2 ⟨len, mid ++ t, body, left, readExact_more t h1, readExact_more t h2, h3, h4⟩

theorem Calm.pair {a : Format α} {b : Format β} (ha : a.Calm) (hb : b.Calm) : (a.pair b).Calm := by
  intro bs h
  unfold Format.pair at h
  dsimp only at h
  cases h1 : a.de bs with
  | error e => rw [h1] at h; cases h; exact ha bs h1
  | ok x =>
    rw [h1] at h
    simp only [bind, Except.bind] at h
    cases h2 : b.de x.2 with
    | error e => rw [h2] at h; cases h; exact hb _ h2
    | ok y => rw [h2] at h; cases h

theorem Calm.as {a : Format α} (ha : a.Calm) (fields : β → α) (make : α → β) : (a.as fields make).Calm := by
  intro bs h
  unfold Format.as at h
  dsimp only at h
  cases h1 : a.de bs with
  | error e => rw [h1] at h; cases h; exact ha bs h1
  | ok x => rw [h1] at h; cases h

theorem readExact_calm (n : ℕ) (bs : List Byte) : readExact n bs ≠ .error .panic := by
  unfold readExact
  split <;> simp

theorem Calm.list {a : Format α} (ha : a.Calm) : a.list.Calm := by
  intro bs h
  unfold Format.list at h
  dsimp only at h
  cases h1 : readExact 8 bs with
  | error e => rw [h1] at h; cases h; exact readExact_calm 8 bs h1
  | ok x =>
    rw [h1] at h
    simp only [bind, Except.bind] at h
    generalize ofLe x.1 = n at h
    generalize x.2 = mid at h
    induction n generalizing mid with
    | zero => cases h
    | succ n ih =>
      rw [readMany] at h
      cases h2 : a.de mid with
      | error e => rw [h2] at h; cases h; exact ha _ h2
      | ok y =>
        rw [h2] at h
        simp only [bind, Except.bind] at h
        cases h3 : readMany a.de n y.2 with
        | error e => rw [h3] at h; cases h; exact ih _ h3
        | ok z => rw [h3] at h; cases h

theorem Calm.blob {a : Format α} (ha : a.Calm) (strict : Bool) : (a.blob strict id).Calm := by
  intro bs h
  unfold Format.blob at h
  dsimp only at h
  cases h1 : readExact 8 bs with
  | error e => rw [h1] at h; cases h; exact readExact_calm 8 bs h1
  | ok x =>
    rw [h1] at h
    simp only [bind, Except.bind] at h
    cases h2 : readExact (ofLe x.1) x.2 with
    | error e => rw [h2] at h; cases h; exact readExact_calm _ _ h2
    | ok y =>
      rw [h2] at h
      dsimp only at h
      cases h3 : a.de y.1 with
      | error e => rw [h3] at h; cases h; exact ha _ h3
      | ok z =>
        rw [h3] at h
        dsimp only at h
        split at h <;> cases h

theorem Calm.fixed {n : ℕ} {f : Format α} {g : List Byte → Except SerErr α}
    (hd : ∀ bs, f.de bs = (do let (b, rest) ← readExact n bs; let x ← g b; .ok (x, rest)))
    (hg : ∀ b, g b ≠ .error .panic) : f.Calm := by
  intro bs h
  rw [hd] at h
  cases h1 : readExact n bs with
  | error e => rw [h1] at h; cases h; exact readExact_calm n bs h1
  | ok x =>
    rw [h1] at h
    simp only [bind, Except.bind] at h
    cases h2 : g x.1 with
    | error e => rw [h2] at h; cases h; exact hg _ h2
    | ok y => rw [h2] at h; cases h

end Format

open Format

theorem byte_calm : byteFormat.Calm := by
  intro bs h
  unfold byteFormat at h
  cases bs <;> cases h

theorem u64_calm : u64Format.Calm :=
  Calm.fixed (n := 8) (g := fun b => .ok (Fin.ofNat (2 ^ 64) (ofLe b))) (fun _ => rfl) (fun _ => by simp)

theorem amount_calm : amountFormat.Calm := by
  intro bs h
  rcases C29_deserialize bs with ⟨-, e⟩ | ⟨a, r, e, -⟩
  · have : amountFormat.de bs = .error .io := e
    rw [h] at this; cases this
  · have : amountFormat.de bs = .ok (a, r) := e
    rw [h] at this; cases this

/-- the decision about the four bytes of a flag -/
def flagOf (b : List Byte) : Except SerErr FreezeFlag :=
  if ofLe b = 0 then .ok .unfrozen else if ofLe b = 1 then .ok .frozen else .error .invalidData

theorem freezeFlagSerde_de (bs : List Byte) :
    freezeFlagSerde.de bs = (do let (b, rest) ← readExact 4 bs; let x ← flagOf b; .ok (x, rest)) := by
  unfold freezeFlagSerde flagOf
  dsimp only
  cases readExact 4 bs with
  | error e => rfl
  | ok y =>
    simp only [bind, Except.bind]
    by_cases h0 : ofLe y.1 = 0
    · rw [if_pos h0, if_pos h0]
    · rw [if_neg h0, if_neg h0]
      by_cases h1 : ofLe y.1 = 1
      · rw [if_pos h1, if_pos h1]
      · rw [if_neg h1, if_neg h1]

theorem freezeFlagSerde_good : freezeFlagSerde.Good (fun _ => True) :=
  Good.fixed (n := 4) (g := flagOf) freezeFlagSerde_de (fun x => by cases x <;> exact ⟨by decide, by rfl⟩)

theorem freezeFlagSerde_calm : freezeFlagSerde.Calm :=
  Calm.fixed (n := 4) (g := flagOf) freezeFlagSerde_de (fun b => by
    unfold flagOf
    split
    · simp
    · split <;> simp)

section
variable [E : CapEnv]

theorem field_calm : fieldFormat.Calm :=
  Calm.fixed (n := 32) (g := fieldOf) field_de (fun b => by unfold fieldOf; split <;> simp)

theorem field_length (x : F) : (fieldFormat.ser x).length = 32 := leBytes_length _ _

variable [S : CapExt] [W : WireEnv]

theorem pt_calm : ptFormat.Calm :=
  Calm.fixed (n := 32) (g := ptOf) pt_de (fun b => by unfold ptOf; split <;> simp)

theorem pt_length (P : Pt) : (ptFormat.ser P).length = 32 := E.verKeyBytes_len P

end

end Cap
