/-
Laws of the byte formats of `Model/Wire.lean`, one combinator at a time.
-/
import Verif.Model.Wire
import Verif.Props.C28
import Verif.Props.C29
import Verif.Props.C30

namespace Cap

/-- What every format here has: the values that fit are read back, whatever follows; what is read fits; and what was read is
read again if the input goes on. -/
structure Format.Good {α : Type} (f : Format α) (fits : α → Prop) : Prop where
  round : ∀ x rest, fits x → f.de (f.ser x ++ rest) = .ok (x, rest)
  fit : ∀ bs x rest, f.de bs = .ok (x, rest) → fits x
  more : ∀ bs x rest t, f.de bs = .ok (x, rest) → f.de (bs ++ t) = .ok (x, rest ++ t)

/-- Only encodings are read. -/
def Format.Exact {α : Type} (f : Format α) : Prop :=
  ∀ bs x rest, f.de bs = .ok (x, rest) → bs = f.ser x ++ rest

namespace Format

variable {α β : Type}

theorem Good.mono {f : Format α} {p q : α → Prop} (h : f.Good p) (e : ∀ x, p x ↔ q x) : f.Good q :=
  ⟨fun x rest hx => h.round x rest ((e x).2 hx), fun bs x rest hd => (e x).1 (h.fit bs x rest hd), h.more⟩

theorem pair_de {a : Format α} {b : Format β} {bs x rest} :
    (a.pair b).de bs = .ok (x, rest) ↔ ∃ mid, a.de bs = .ok (x.1, mid) ∧ b.de mid = .ok (x.2, rest) := by
  unfold pair
  simp only [ser_bind_ok_iff, Except.ok.injEq, Prod.mk.injEq, Prod.exists]
  constructor
  · rintro ⟨u, mid, h1, v, r, h2, h3, rfl⟩
    rw [← h3]
    exact ⟨mid, h1, h2⟩
  · rintro ⟨mid, h1, h2⟩
    exact ⟨_, mid, h1, _, _, h2, rfl, rfl⟩

theorem Good.pair {a : Format α} {b : Format β} {p : α → Prop} {q : β → Prop} (ha : a.Good p) (hb : b.Good q) :
    (a.pair b).Good (fun x => p x.1 ∧ q x.2) where
  round x rest hx := by
    rw [pair_de]
    refine ⟨b.ser x.2 ++ rest, ?_, hb.round _ _ hx.2⟩
    rw [← ha.round x.1 _ hx.1]
    simp [Format.pair]
  fit bs x rest h := by
    obtain ⟨mid, h1, h2⟩ := pair_de.1 h
    exact ⟨ha.fit _ _ _ h1, hb.fit _ _ _ h2⟩
  more bs x rest t h := by
    obtain ⟨mid, h1, h2⟩ := pair_de.1 h
    exact pair_de.2 ⟨mid ++ t, ha.more _ _ _ _ h1, hb.more _ _ _ _ h2⟩

theorem Exact.pair {a : Format α} {b : Format β} (ha : a.Exact) (hb : b.Exact) : (a.pair b).Exact := by
  intro bs x rest h
  obtain ⟨mid, h1, h2⟩ := pair_de.1 h
  rw [ha _ _ _ h1, hb _ _ _ h2]
  simp [Format.pair]

theorem as_de {a : Format α} {fields : β → α} {make : α → β} {bs x rest} :
    (a.as fields make).de bs = .ok (x, rest) ↔ ∃ y, a.de bs = .ok (y, rest) ∧ make y = x := by
  unfold Format.as
  simp only [ser_bind_ok_iff, Except.ok.injEq, Prod.mk.injEq, Prod.exists]
  constructor
  · rintro ⟨u, mid, h1, h2, rfl⟩
    exact ⟨u, h1, h2⟩
  · rintro ⟨y, h1, h2⟩
    exact ⟨y, rest, h1, h2, rfl⟩

theorem Good.as {a : Format α} {p : α → Prop} (ha : a.Good p) {fields : β → α} {make : α → β}
    (h1 : ∀ x, make (fields x) = x) (h2 : ∀ y, fields (make y) = y) : (a.as fields make).Good (fun x => p (fields x)) where
  round x rest hx := as_de.2 ⟨fields x, ha.round _ _ hx, h1 x⟩
  fit bs x rest h := by
    obtain ⟨y, hy, rfl⟩ := as_de.1 h
    rw [h2]
    exact ha.fit _ _ _ hy
  more bs x rest t h := by
    obtain ⟨y, hy, e⟩ := as_de.1 h
    exact as_de.2 ⟨y, ha.more _ _ _ _ hy, e⟩

theorem Exact.as {a : Format α} (ha : a.Exact) {fields : β → α} {make : α → β} (h2 : ∀ y, fields (make y) = y) :
    (a.as fields make).Exact := by
  intro bs x rest h
  obtain ⟨y, hy, rfl⟩ := as_de.1 h
  rw [ha _ _ _ hy]
  simp [Format.as, h2]

theorem readMany_succ {de : Reader α} {n : ℕ} {bs l rest} :
    readMany de (n + 1) bs = .ok (l, rest) ↔
      ∃ x xs mid, l = x :: xs ∧ de bs = .ok (x, mid) ∧ readMany de n mid = .ok (xs, rest) := by
  rw [readMany]
  simp only [ser_bind_ok_iff, Except.ok.injEq, Prod.mk.injEq, Prod.exists]
  constructor
  · rintro ⟨u, mid, h1, v, r, h2, h3, rfl⟩
    exact ⟨u, v, mid, h3.symm, h1, h2⟩
  · rintro ⟨u, v, mid, rfl, h1, h2⟩
    exact ⟨u, mid, h1, v, rest, h2, rfl, rfl⟩

theorem readMany_round {a : Format α} {p : α → Prop} (ha : a.Good p) (l : List α) (h : ∀ x ∈ l, p x) (rest : List Byte) :
    readMany a.de l.length (l.flatMap a.ser ++ rest) = .ok (l, rest) := by
  induction l with
  | nil => rfl
  | cons x xs ih =>
    rw [List.length_cons, readMany_succ]
    refine ⟨x, xs, xs.flatMap a.ser ++ rest, rfl, ?_, ih (fun y hy => h y (List.mem_cons_of_mem _ hy))⟩
    rw [← ha.round x _ (h x List.mem_cons_self), List.flatMap_cons, List.append_assoc]

theorem readMany_fit {a : Format α} {p : α → Prop} (ha : a.Good p) (n : ℕ) (bs : List Byte) (l : List α) (rest : List Byte)
    (h : readMany a.de n bs = .ok (l, rest)) : l.length = n ∧ ∀ x ∈ l, p x := by
  induction n generalizing bs l with
  | zero =>
    cases h
    exact ⟨rfl, by simp⟩
  | succ n ih =>
    obtain ⟨x, xs, mid, rfl, h1, h2⟩ := readMany_succ.1 h
    obtain ⟨h3, h4⟩ := ih _ _ h2
    refine ⟨by simp [h3], ?_⟩
    intro y hy
    rcases List.mem_cons.1 hy with rfl | hy
    · exact ha.fit _ _ _ h1
    · exact h4 y hy

theorem readMany_more {a : Format α} {p : α → Prop} (ha : a.Good p) (n : ℕ) (bs : List Byte) (l : List α)
    (rest t : List Byte) (h : readMany a.de n bs = .ok (l, rest)) : readMany a.de n (bs ++ t) = .ok (l, rest ++ t) := by
  induction n generalizing bs l with
  | zero => cases h; rfl
  | succ n ih =>
    obtain ⟨x, xs, mid, rfl, h1, h2⟩ := readMany_succ.1 h
    exact readMany_succ.2 ⟨x, xs, mid ++ t, rfl, ha.more _ _ _ _ h1, ih _ _ h2⟩

theorem readMany_exact {a : Format α} (ha : a.Exact) (n : ℕ) (bs : List Byte) (l : List α)
    (rest : List Byte) (h : readMany a.de n bs = .ok (l, rest)) : l.length = n ∧ bs = l.flatMap a.ser ++ rest := by
  induction n generalizing bs l with
  | zero => cases h; exact ⟨rfl, rfl⟩
  | succ n ih =>
    obtain ⟨x, xs, mid, rfl, h1, h2⟩ := readMany_succ.1 h
    obtain ⟨h3, rfl⟩ := ih _ _ h2
    refine ⟨by simp [h3], ?_⟩
    rw [ha _ _ _ h1, List.flatMap_cons, List.append_assoc]

theorem list_de {a : Format α} {bs l rest} :
    a.list.de bs = .ok (l, rest) ↔
      ∃ len mid, readExact 8 bs = .ok (len, mid) ∧ readMany a.de (ofLe len) mid = .ok (l, rest) := by
  unfold Format.list
  simp only [ser_bind_ok_iff, Prod.exists]

theorem readExact_more {n : ℕ} {bs a b : List Byte} (t : List Byte) (h : readExact n bs = .ok (a, b)) :
    readExact n (bs ++ t) = .ok (a, b ++ t) := by
  obtain ⟨h1, rfl⟩ := readExact_ok h
  rw [List.append_assoc]
  exact readExact_append h1

theorem Good.list {a : Format α} {p : α → Prop} (ha : a.Good p) :
    a.list.Good (fun l => l.length < 2 ^ 64 ∧ ∀ x ∈ l, p x) where
  round l rest h := by
    rw [list_de]
    refine ⟨leBytes 8 l.length, l.flatMap a.ser ++ rest, ?_, ?_⟩
    · rw [← readExact_append (leBytes_length 8 l.length)]
      simp [Format.list]
    · rw [ofLe_leBytes _ _ (by rw [show 256 ^ 8 = 2 ^ 64 by norm_num]; exact h.1)]
      exact readMany_round ha l h.2 rest
  fit bs l rest h := by
    obtain ⟨len, mid, h1, h2⟩ := list_de.1 h
    obtain ⟨h3, h4⟩ := readMany_fit ha _ _ _ _ h2
    refine ⟨?_, h4⟩
    have := ofLe_lt len
    rw [(readExact_ok h1).1] at this
    rw [h3]
    exact lt_of_lt_of_le this (by norm_num)
  more bs l rest t h := by
    obtain ⟨len, mid, h1, h2⟩ := list_de.1 h
    exact list_de.2 ⟨len, mid ++ t, readExact_more t h1, readMany_more ha _ _ _ _ _ h2⟩

theorem Exact.list {a : Format α} (ha : a.Exact) : a.list.Exact := by
  intro bs l rest h
  obtain ⟨len, mid, h1, h2⟩ := list_de.1 h
  obtain ⟨h3, rfl⟩ := readMany_exact ha _ _ _ _ h2
  obtain ⟨h4, rfl⟩ := readExact_ok h1
  have : leBytes 8 l.length = len := by rw [h3, ← h4, leBytes_ofLe]
  simp [Format.list, this]

/-- Two encodings with anything after them agree only if the values and what follows agree. -/
theorem Good.split {f : Format α} {p : α → Prop} (h : f.Good p) {x y : α} {s t : List Byte} (hx : p x) (hy : p y)
    (e : f.ser x ++ s = f.ser y ++ t) : x = y ∧ s = t := by
  have h1 := h.round x s hx
  rw [e, h.round y t hy] at h1
  simp only [Except.ok.injEq, Prod.mk.injEq] at h1
  exact ⟨h1.1.symm, h1.2.symm⟩

/-- No proper beginning of an encoding is read. -/
theorem Good.truncated {f : Format α} {p : α → Prop} (h : f.Good p) {x y : α} {bs t rest : List Byte} (hx : p x)
    (e : bs ++ t = f.ser x) (hd : f.de bs = .ok (y, rest)) : t = [] := by
  have h1 := h.more _ _ _ t hd
  have h2 := h.round x [] hx
  rw [List.append_nil, ← e, h1] at h2
  simp only [Except.ok.injEq, Prod.mk.injEq, List.append_eq_nil_iff] at h2
  exact h2.2.2

/-! The formats without parts. -/

/-- reading a fixed number of bytes -/
theorem Good.fixed {n : ℕ} {f : Format α} {g : List Byte → Except SerErr α}
    (hd : ∀ bs, f.de bs = (do let (b, rest) ← readExact n bs; let x ← g b; .ok (x, rest)))
    (hs : ∀ x, (f.ser x).length = n ∧ g (f.ser x) = .ok x) : f.Good (fun _ => True) where
  round x rest _ := by
    rw [hd, readExact_append (hs x).1]
    simp [bind, Except.bind, (hs x).2]
  fit _ _ _ _ := trivial
  more bs x rest t h := by
    rw [hd] at h ⊢
    simp only [ser_bind_ok_iff, Prod.exists, Except.ok.injEq, Prod.mk.injEq] at h ⊢
    obtain ⟨b, r, h1, y, h2, rfl, rfl⟩ := h
    exact ⟨b, r ++ t, readExact_more t h1, y, h2, rfl, rfl⟩

theorem Exact.fixed {n : ℕ} {f : Format α} {g : List Byte → Except SerErr α}
    (hd : ∀ bs, f.de bs = (do let (b, rest) ← readExact n bs; let x ← g b; .ok (x, rest)))
    (hs : ∀ b x, b.length = n → g b = .ok x → b = f.ser x) : f.Exact := by
  intro bs x rest h
  rw [hd] at h
  simp only [ser_bind_ok_iff, Prod.exists, Except.ok.injEq, Prod.mk.injEq] at h
  obtain ⟨b, r, h1, y, h2, rfl, rfl⟩ := h
  obtain ⟨h3, rfl⟩ := readExact_ok h1
  rw [← hs b _ h3 h2]

end Format

open Format

theorem byte_good : byteFormat.Good (fun _ => True) where
  round x rest _ := rfl
  fit _ _ _ _ := trivial
  more bs x rest t h := by
    unfold byteFormat at h ⊢
    cases bs with
    | nil => cases h
    | cons b bs =>
      simp only [Except.ok.injEq, Prod.mk.injEq] at h
      obtain ⟨rfl, rfl⟩ := h
      rfl

theorem byte_exact : byteFormat.Exact := by
  intro bs x rest h
  unfold byteFormat at h ⊢
  cases bs with
  | nil => cases h
  | cons b bs =>
    simp only [Except.ok.injEq, Prod.mk.injEq] at h
    obtain ⟨rfl, rfl⟩ := h
    rfl

theorem u64_good : u64Format.Good (fun _ => True) :=
  Good.fixed (n := 8) (g := fun b => .ok (Fin.ofNat (2 ^ 64) (ofLe b))) (fun _ => rfl) (fun x => by
    refine ⟨leBytes_length _ _, ?_⟩
    show Except.ok (Fin.ofNat (2 ^ 64) (ofLe (leBytes 8 x.val))) = .ok x
    rw [ofLe_leBytes _ _ (lt_of_lt_of_le x.isLt (by norm_num))]
    congr 1
    simp)

theorem u64_exact : u64Format.Exact :=
  Exact.fixed (n := 8) (g := fun b => .ok (Fin.ofNat (2 ^ 64) (ofLe b))) (fun _ => rfl) (fun b x hb h => by
    cases h
    have := ofLe_lt b
    rw [hb] at this
    show b = leBytes 8 (ofLe b % 2 ^ 64)
    rw [Nat.mod_eq_of_lt (lt_of_lt_of_le this (by norm_num)), ← hb, leBytes_ofLe])

theorem amount_good : amountFormat.Good (fun _ => True) where
  round x rest _ := C29_round_trip x rest
  fit _ _ _ _ := trivial
  more bs x rest t h := by
    rcases C29_deserialize bs with ⟨-, e⟩ | ⟨a, r, e, e'⟩
    · exact absurd (h.symm.trans e) (by simp)
    · have := h.symm.trans e
      simp only [Except.ok.injEq, Prod.mk.injEq] at this
      rw [e', this.1, this.2, List.append_assoc]
      exact C29_round_trip a (r ++ t)

theorem amount_exact : amountFormat.Exact := by
  intro bs x rest h
  rcases C29_deserialize bs with ⟨-, e⟩ | ⟨a, r, e, e'⟩
  · exact absurd (h.symm.trans e) (by simp)
  · have := h.symm.trans e
    simp only [Except.ok.injEq, Prod.mk.injEq] at this
    rw [this.1, this.2]
    exact e'

theorem revealMap_exact : revealMapFormat.Exact := fun bs x rest h => C28_accepts_only_encodings bs rest x h

theorem revealMap_good : revealMapFormat.Good (fun _ => True) where
  round x rest _ := C28_round_trip x rest
  fit _ _ _ _ := trivial
  more bs x rest t h := by
    rw [revealMap_exact _ _ _ h, List.append_assoc]
    exact C28_round_trip x (rest ++ t)

theorem freezeFlag_exact : freezeFlagFormat.Exact := fun bs x rest h => (C30_freeze_flag x bs rest).1 h

theorem freezeFlag_good : freezeFlagFormat.Good (fun _ => True) where
  round x rest _ := (C30_freeze_flag x _ rest).2 rfl
  fit _ _ _ _ := trivial
  more bs x rest t h := by
    rw [freezeFlag_exact _ _ _ h, List.append_assoc]
    exact (C30_freeze_flag x _ (rest ++ t)).2 rfl

section
variable [E : CapEnv]

/-- the decision about the 32 bytes of a field element -/
def fieldOf (b : List Byte) : Except SerErr F := if ofLe b < E.p then .ok (ofLe b : F) else .error .invalidData

theorem field_de (bs : List Byte) :
    fieldFormat.de bs = (do let (b, rest) ← readExact 32 bs; let x ← fieldOf b; .ok (x, rest)) := by
  unfold fieldFormat fieldOf
  dsimp only
  cases readExact 32 bs with
  | error e => rfl
  | ok y =>
    simp only [bind, Except.bind]
    by_cases h : ofLe y.1 < E.p
    · rw [if_pos h, if_pos h]
    · rw [if_neg h, if_neg h]

theorem field_good : fieldFormat.Good (fun _ => True) :=
  Good.fixed (n := 32) (g := fieldOf) field_de (fun x => by
    refine ⟨leBytes_length _ _, ?_⟩
    have hx : x.val < E.p := x.val_lt
    have : ofLe (leBytes 32 x.val) = x.val :=
      ofLe_leBytes _ _ (lt_trans hx (lt_of_lt_of_le E.p_lt (by norm_num)))
    show fieldOf (leBytes 32 x.val) = _
    unfold fieldOf
    rw [this, if_pos hx, ZMod.natCast_zmod_val])

theorem field_exact : fieldFormat.Exact :=
  Exact.fixed (n := 32) (g := fieldOf) field_de (fun b x hb h => by
    unfold fieldOf at h
    by_cases hlt : ofLe b < E.p
    · rw [if_pos hlt] at h
      cases h
      show b = leBytes 32 ((ofLe b : ℕ) : F).val
      rw [ZMod.val_natCast_of_lt hlt, ← hb, leBytes_ofLe]
    · rw [if_neg hlt] at h
      cases h)

variable [S : CapExt] [W : WireEnv]

/-- the decision about the 32 bytes of a point -/
def ptOf (b : List Byte) : Except SerErr Pt := match W.ptRead b with
  | some P => .ok P
  | none => .error .invalidData

theorem pt_de (bs : List Byte) :
    ptFormat.de bs = (do let (b, rest) ← readExact 32 bs; let x ← ptOf b; .ok (x, rest)) := by
  unfold ptFormat ptOf
  dsimp only
  cases readExact 32 bs with
  | error e => rfl
  | ok y =>
    simp only [bind, Except.bind]
    cases W.ptRead y.1 <;> rfl

theorem pt_good : ptFormat.Good (fun _ => True) :=
  Good.fixed (n := 32) (g := ptOf) pt_de (fun x => by
    refine ⟨E.verKeyBytes_len x, ?_⟩
    show ptOf (E.verKeyBytes x) = _
    unfold ptOf
    rw [W.ptRead_bytes])

/-- Decompression accepts only the bytes the compression writes. -/
def PtExact : Prop := ∀ b P, W.ptRead b = some P → b = E.verKeyBytes P

theorem pt_exact (h : PtExact) : ptFormat.Exact :=
  Exact.fixed (n := 32) (g := ptOf) pt_de (fun b x hb hx => by
    unfold ptOf at hx
    cases hr : W.ptRead b with
    | none => rw [hr] at hx; cases hx
    | some P =>
      rw [hr] at hx
      cases hx
      exact h b _ hr)

theorem proof_good : W.proof.Good (fun _ => True) :=
  ⟨fun x rest _ => W.proof_round_trip x rest, fun _ _ _ _ => trivial, W.proof_more⟩

theorem sig_good : W.sig.Good (fun _ => True) :=
  ⟨fun x rest _ => W.sig_round_trip x rest, fun _ _ _ _ => trivial, W.sig_more⟩

theorem encKey_good : W.encKey.Good (fun _ => True) :=
  ⟨fun x rest _ => W.encKey_round_trip x rest, fun _ _ _ _ => trivial, W.encKey_more⟩

theorem memo_good : memoFormat.Good (fun m => m.data.length < 2 ^ 64) :=
  ((pt_good.pair field_good.list).as (fun _ => rfl) (fun _ => rfl)).mono (fun m => by simp)

theorem policy_good : policyFormat.Good (fun _ => True) :=
  ((pt_good.pair (pt_good.pair (pt_good.pair (revealMap_good.pair amount_good)))).as (fun _ => rfl) (fun _ => rfl)).mono
    (fun m => by simp)

theorem assetDef_good : assetDefFormat.Good (fun _ => True) :=
  ((field_good.pair policy_good).as (fun _ => rfl) (fun _ => rfl)).mono (fun m => by simp)

theorem transferAux_good : transferAuxFormat.Good (fun a => a.extra_proof_bound_data.length < 2 ^ 64) :=
  ((field_good.pair (amount_good.pair (u64_good.pair (pt_good.pair byte_good.list)))).as (fun _ => rfl)
    (fun _ => rfl)).mono (fun m => by simp)

theorem transferNote_good : transferNoteFormat.Good (fun n => n.inputs_nullifiers.length < 2 ^ 64 ∧
    n.output_commitments.length < 2 ^ 64 ∧ n.viewing_memo.data.length < 2 ^ 64 ∧
    n.aux_info.extra_proof_bound_data.length < 2 ^ 64) :=
  ((field_good.list.pair (field_good.list.pair (proof_good.pair (memo_good.pair transferAux_good)))).as (fun _ => rfl)
    (fun _ => rfl)).mono (fun m => by simp)

theorem noteAux_good : noteAuxFormat.Good (fun _ => True) :=
  ((field_good.pair (amount_good.pair pt_good)).as (fun _ => rfl) (fun _ => rfl)).mono (fun m => by simp)

theorem mintNote_good : mintNoteFormat.Good (fun n => n.viewing_memo.data.length < 2 ^ 64) :=
  ((field_good.pair (field_good.pair (field_good.pair (amount_good.pair (assetDef_good.pair (field_good.pair
    (proof_good.pair (memo_good.pair noteAux_good)))))))).as (fun _ => rfl) (fun _ => rfl)).mono (fun m => by simp)

theorem freezeNote_good : freezeNoteFormat.Good (fun n => n.input_nullifiers.length < 2 ^ 64 ∧
    n.output_commitments.length < 2 ^ 64) :=
  ((field_good.list.pair (field_good.list.pair (proof_good.pair noteAux_good))).as (fun _ => rfl)
    (fun _ => rfl)).mono (fun m => by simp)

theorem userPubKey_good : userPubKeyFormat.Good (fun _ => True) :=
  ((pt_good.pair encKey_good).as (fun _ => rfl) (fun _ => rfl)).mono (fun m => by simp)

theorem record_good : recordFormat.Good (fun _ => True) :=
  ((amount_good.pair (assetDef_good.pair (userPubKey_good.pair (freezeFlag_good.pair field_good)))).as (fun _ => rfl)
    (fun _ => rfl)).mono (fun m => by simp)

theorem credential_good : credentialFormat.Good (fun c => c.attrs.length < 2 ^ 64) :=
  ((pt_good.pair (field_good.list.pair (u64_good.pair (sig_good.pair pt_good)))).as (fun _ => rfl)
    (fun _ => rfl)).mono (fun m => by simp)

theorem memo_exact (h : PtExact) : memoFormat.Exact :=
  ((pt_exact h).pair field_exact.list).as (fun _ => rfl)

theorem policy_exact (h : PtExact) : policyFormat.Exact :=
  ((pt_exact h).pair ((pt_exact h).pair ((pt_exact h).pair (revealMap_exact.pair amount_exact)))).as (fun _ => rfl)

theorem assetDef_exact (h : PtExact) : assetDefFormat.Exact := (field_exact.pair (policy_exact h)).as (fun _ => rfl)

theorem transferAux_exact (h : PtExact) : transferAuxFormat.Exact :=
  (field_exact.pair (amount_exact.pair (u64_exact.pair ((pt_exact h).pair byte_exact.list)))).as (fun _ => rfl)

theorem noteAux_exact (h : PtExact) : noteAuxFormat.Exact :=
  (field_exact.pair (amount_exact.pair (pt_exact h))).as (fun _ => rfl)

theorem transferNote_exact (h : PtExact) (hp : W.proof.Exact) : transferNoteFormat.Exact :=
  (field_exact.list.pair (field_exact.list.pair (hp.pair ((memo_exact h).pair (transferAux_exact h))))).as (fun _ => rfl)

theorem mintNote_exact (h : PtExact) (hp : W.proof.Exact) : mintNoteFormat.Exact :=
  (field_exact.pair (field_exact.pair (field_exact.pair (amount_exact.pair ((assetDef_exact h).pair (field_exact.pair
    (hp.pair ((memo_exact h).pair (noteAux_exact h))))))))).as (fun _ => rfl)

theorem freezeNote_exact (h : PtExact) (hp : W.proof.Exact) : freezeNoteFormat.Exact :=
  (field_exact.list.pair (field_exact.list.pair (hp.pair (noteAux_exact h)))).as (fun _ => rfl)

theorem record_exact (h : PtExact) (hk : W.encKey.Exact) : recordFormat.Exact :=
  (amount_exact.pair ((assetDef_exact h).pair ((((pt_exact h).pair hk).as (fun _ => rfl)).pair
    (freezeFlag_exact.pair field_exact)))).as (fun _ => rfl)

theorem credential_exact (h : PtExact) (hs : W.sig.Exact) : credentialFormat.Exact :=
  ((pt_exact h).pair (field_exact.list.pair (u64_exact.pair (hs.pair (pt_exact h))))).as (fun _ => rfl)

end

end Cap
