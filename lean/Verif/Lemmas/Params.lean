/-
Key files: encodings read back, default paths are all different, and what a sequence of store calls leaves in a file.
-/
import Verif.SpecParams
import Verif.Lemmas.Basic
import Mathlib.Tactic.IntervalCases

namespace Cap

open Spec

/-! ### Encodings -/

theorem usizeBytes_length (n : ℕ) : (usizeBytes n).length = 8 := by simp [usizeBytes]

theorem bytesValue_usizeBytes {n : ℕ} (h : n < 2 ^ 64) : bytesValue (usizeBytes n) = n := by
  simp only [usizeBytes, List.range, List.range.loop, List.map_cons, List.map_nil, bytesValue, UInt8.toNat_ofNat']
  omega

theorem usizeRead_bytes {n : ℕ} (h : n < 2 ^ 64) (t : List Byte) : usizeRead (usizeBytes n ++ t) = some (n, t) := by
  have l := usizeBytes_length n
  unfold usizeRead
  rw [if_neg (by rw [List.length_append]; omega)]
  rw [List.take_append_of_le_length (by omega), List.take_of_length_le (by omega), bytesValue_usizeBytes h,
    ← l, List.drop_left]

theorem u8Read_bytes (x : Fin 256) (t : List Byte) : u8Read (u8Bytes x ++ t) = some (x, t) := by
  have h := x.isLt
  simp only [u8Bytes, List.cons_append, List.nil_append, u8Read, Option.some.injEq, Prod.mk.injEq, and_true]
  apply Fin.ext
  simp only [UInt8.toNat_ofNat']
  omega

theorem usizeRead_length {b : List Byte} {n : ℕ} {t : List Byte} (h : usizeRead b = some (n, t)) :
    8 + t.length = b.length := by
  unfold usizeRead at h
  split at h
  · cases h
  · simp only [Option.some.injEq, Prod.mk.injEq] at h
    rw [← h.2, List.length_drop]
    omega

theorem u8Read_length {b : List Byte} {n : Fin 256} {t : List Byte} (h : u8Read b = some (n, t)) :
    1 + t.length = b.length := by
  cases b with
  | nil => cases h
  | cons x xs =>
    simp only [u8Read, Option.some.injEq, Prod.mk.injEq] at h
    rw [← h.2, List.length_cons]
    omega

section codec

variable [E : CapEnv] [S : CapExt] [K : KeyCodec]

theorem TransferProvingKey.parse_bytes (k : TransferProvingKey) (hn : k.n_inputs < 2 ^ 64)
    (hm : k.n_outputs < 2 ^ 64) : TransferProvingKey.parse k.bytes = some k := by
  unfold TransferProvingKey.parse TransferProvingKey.bytes
  simp only [List.append_assoc, K.pkRead_bytes, usizeRead_bytes hn, usizeRead_bytes hm, Option.bind_eq_bind,
    Option.bind_some, List.append_nil]
  have := u8Read_bytes k.tree_depth []
  rw [List.append_nil] at this
  rw [this]
  rfl

theorem TransferVerifyingKey.parse_bytes (k : TransferVerifyingKey) (hn : k.n_inputs < 2 ^ 64)
    (hm : k.n_outputs < 2 ^ 64) : TransferVerifyingKey.parse k.bytes = some k := by
  unfold TransferVerifyingKey.parse TransferVerifyingKey.bytes
  simp only [List.append_assoc, K.vkRead_bytes, usizeRead_bytes hn, usizeRead_bytes hm, Option.bind_eq_bind,
    Option.bind_some, List.append_nil]
  have := u8Read_bytes k.tree_depth []
  rw [List.append_nil] at this
  rw [this]
  rfl

theorem MintProvingKey.parse_bytes (k : MintProvingKey) : MintProvingKey.parse k.bytes = some k := by
  unfold MintProvingKey.parse MintProvingKey.bytes
  have := u8Read_bytes k.tree_depth []
  rw [List.append_nil] at this
  simp only [K.pkRead_bytes, Option.bind_eq_bind, Option.bind_some, this]

theorem MintVerifyingKey.parse_bytes (k : MintVerifyingKey) : MintVerifyingKey.parse k.bytes = some k := by
  unfold MintVerifyingKey.parse MintVerifyingKey.bytes
  have := u8Read_bytes k.tree_depth []
  rw [List.append_nil] at this
  simp only [K.vkRead_bytes, Option.bind_eq_bind, Option.bind_some, this]

theorem FreezeProvingKey.parse_bytes (k : FreezeProvingKey) (hn : k.num_input < 2 ^ 64) :
    FreezeProvingKey.parse k.bytes = some k := by
  unfold FreezeProvingKey.parse FreezeProvingKey.bytes
  have := usizeRead_bytes hn []
  rw [List.append_nil] at this
  simp only [List.append_assoc, K.pkRead_bytes, u8Read_bytes, Option.bind_eq_bind, Option.bind_some, this]

theorem FreezeVerifyingKey.parse_bytes (k : FreezeVerifyingKey) (hn : k.num_input < 2 ^ 64) :
    FreezeVerifyingKey.parse k.bytes = some k := by
  unfold FreezeVerifyingKey.parse FreezeVerifyingKey.bytes
  have := usizeRead_bytes hn []
  rw [List.append_nil] at this
  simp only [List.append_assoc, K.vkRead_bytes, u8Read_bytes, Option.bind_eq_bind, Option.bind_some, this]

/-- what is read from a file is not longer than the file -/
theorem TransferProvingKey.parse_length {b : List Byte} {k : TransferProvingKey}
    (h : TransferProvingKey.parse b = some k) : (K.pkBytes k.key).length + 17 ≤ b.length := by
  unfold TransferProvingKey.parse at h
  simp only [Option.bind_eq_bind, Option.bind_eq_some_iff, Prod.exists, Option.some.injEq] at h
  obtain ⟨key, t, e, n, t', e', m, t'', e'', x, t''', e''', rfl⟩ := h
  have := K.pkRead_length _ _ _ e
  have := usizeRead_length e'
  have := usizeRead_length e''
  have := u8Read_length e'''
  dsimp only
  omega

theorem MintProvingKey.parse_length {b : List Byte} {k : MintProvingKey}
    (h : MintProvingKey.parse b = some k) : (K.pkBytes k.key).length + 1 ≤ b.length := by
  unfold MintProvingKey.parse at h
  simp only [Option.bind_eq_bind, Option.bind_eq_some_iff, Prod.exists, Option.some.injEq] at h
  obtain ⟨key, t, e, x, t''', e''', rfl⟩ := h
  have := K.pkRead_length _ _ _ e
  have := u8Read_length e'''
  dsimp only
  omega

theorem FreezeProvingKey.parse_length {b : List Byte} {k : FreezeProvingKey}
    (h : FreezeProvingKey.parse b = some k) : (K.pkBytes k.key).length + 9 ≤ b.length := by
  unfold FreezeProvingKey.parse at h
  simp only [Option.bind_eq_bind, Option.bind_eq_some_iff, Prod.exists, Option.some.injEq] at h
  obtain ⟨key, t, e, n, t', e', x, t''', e''', rfl⟩ := h
  have := K.pkRead_length _ _ _ e
  have := u8Read_length e'
  have := usizeRead_length e'''
  dsimp only
  omega

end codec

/-! ### Default paths -/

theorem digitChar_inj {a b : ℕ} (ha : a < 10) (hb : b < 10) (h : Char.ofNat (48 + a) = Char.ofNat (48 + b)) : a = b := by
  interval_cases a <;> interval_cases b <;> first | rfl | exact absurd h (by decide)

theorem digitChar_ne {a : ℕ} (ha : a < 10) : Char.ofNat (48 + a) ≠ '_' := by
  interval_cases a <;> decide

theorem decimal_ne {n : ℕ} : '_' ∉ decimal n := by
  unfold decimal
  split
  · decide
  · intro h
    obtain ⟨k, hk, e⟩ := List.mem_map.1 h
    exact digitChar_ne (Nat.digits_lt_base (by norm_num) (List.mem_reverse.1 hk)) e

theorem map_digitChar_inj {l m : List ℕ} (hl : ∀ x ∈ l, x < 10) (hm : ∀ x ∈ m, x < 10)
    (h : l.map (fun k => Char.ofNat (48 + k)) = m.map (fun k => Char.ofNat (48 + k))) : l = m := by
  induction l generalizing m with
  | nil => cases m with
    | nil => rfl
    | cons => simp at h
  | cons a l ih => cases m with
    | nil => simp at h
    | cons b m =>
      simp only [List.map_cons, List.cons.injEq] at h
      rw [digitChar_inj (hl a (by simp)) (hm b (by simp)) h.1,
        ih (fun x hx => hl x (by simp [hx])) (fun x hx => hm x (by simp [hx])) h.2]

theorem zero_ne_decimal {n : ℕ} (h : n ≠ 0) : ['0'] ≠ decimal n := by
  intro e
  unfold decimal at e
  rw [if_neg h] at e
  have : [0].map (fun k => Char.ofNat (48 + k)) = (Nat.digits 10 n).reverse.map (fun k => Char.ofNat (48 + k)) := e
  have := map_digitChar_inj (by simp) (fun x hx => Nat.digits_lt_base (by norm_num) (List.mem_reverse.1 hx)) this
  have e' : Nat.digits 10 n = [0] := by
    have := congrArg List.reverse this
    rw [List.reverse_reverse] at this
    rw [← this]; rfl
  have := Nat.ofDigits_digits 10 n
  rw [e'] at this
  simp at this
  exact h this.symm

theorem decimal_inj {n m : ℕ} (h : decimal n = decimal m) : n = m := by
  by_cases hn : n = 0
  · by_cases hm : m = 0
    · rw [hn, hm]
    · exact absurd (by rw [← h, hn]; rfl) (zero_ne_decimal hm)
  · by_cases hm : m = 0
    · exact absurd (by rw [h, hm]; rfl) (zero_ne_decimal hn)
    · unfold decimal at h
      rw [if_neg hn, if_neg hm] at h
      have := map_digitChar_inj (fun x hx => Nat.digits_lt_base (by norm_num) (List.mem_reverse.1 hx))
        (fun x hx => Nat.digits_lt_base (by norm_num) (List.mem_reverse.1 hx)) h
      exact Nat.digits_inj_iff.1 (List.reverse_injective this)

/-- the text before the first underscore, and the text from there on -/
theorem split_underscore {a b s t : List Char} (ha : '_' ∉ a) (hb : '_' ∉ b) (h : a ++ '_' :: s = b ++ '_' :: t) :
    a = b ∧ s = t := by
  induction a generalizing b with
  | nil => cases b with
    | nil => exact ⟨rfl, by simpa using h⟩
    | cons c b =>
      simp only [List.nil_append, List.cons_append, List.cons.injEq] at h
      exact absurd (by rw [h.1]; simp) hb
  | cons x a ih => cases b with
    | nil =>
      simp only [List.nil_append, List.cons_append, List.cons.injEq] at h
      exact absurd (by rw [← h.1]; simp) ha
    | cons c b =>
      simp only [List.cons_append, List.cons.injEq] at h
      have := ih (fun m => ha (by simp [m])) (fun m => hb (by simp [m])) h.2
      exact ⟨by rw [h.1, this.1], this.2⟩

theorem numbers_inj {n m n' m' : ℕ} {d d' : Fin 256} {s : List Char}
    (h : decimal n ++ ("_input_".toList ++ (decimal m ++ ("_output_".toList ++ (decimal d.val ++ ("_depth".toList ++ s))))) =
      decimal n' ++ ("_input_".toList ++ (decimal m' ++ ("_output_".toList ++ (decimal d'.val ++ ("_depth".toList ++ s)))))) :
    n = n' ∧ m = m' ∧ d = d' := by
  obtain ⟨e1, h⟩ := split_underscore (s := "input_".toList ++ _) (t := "input_".toList ++ _) decimal_ne decimal_ne h
  have h := List.append_cancel_left h
  obtain ⟨e2, h⟩ := split_underscore (s := "output_".toList ++ _) (t := "output_".toList ++ _) decimal_ne decimal_ne h
  have h := List.append_cancel_left h
  obtain ⟨e3, -⟩ := split_underscore (s := "depth".toList ++ _) (t := "depth".toList ++ _) decimal_ne decimal_ne h
  exact ⟨decimal_inj e1, decimal_inj e2, Fin.ext (decimal_inj e3)⟩

/-- the keys that have default paths -/
inductive KeyId where
  | transferPk (n m : ℕ) (d : Fin 256)
  | transferVk (n m : ℕ) (d : Fin 256)
  | mintPk (d : Fin 256)
  | mintVk (d : Fin 256)
  | freezePk (n : ℕ) (d : Fin 256)
  | freezeVk (n : ℕ) (d : Fin 256)

/-- the default path of a key -/
def KeyId.path (dir : FilePath) : KeyId → FilePath
  | .transferPk n m d => defaultTransferProvingKeyPath dir n m d
  | .transferVk n m d => defaultTransferVerifyingKeyPath dir n m d
  | .mintPk d => defaultMintProvingKeyPath dir d
  | .mintVk d => defaultMintVerifyingKeyPath dir d
  | .freezePk n d => defaultFreezeProvingKeyPath dir n d
  | .freezeVk n d => defaultFreezeVerifyingKeyPath dir n d

theorem take_eq {p q s t : List Char} (k : ℕ) (h : p ++ s = q ++ t) (hp : k ≤ p.length) (hq : k ≤ q.length) :
    p.take k = q.take k := by
  have := congrArg (List.take k) h
  rwa [List.take_append_of_le_length hp, List.take_append_of_le_length hq] at this

theorem name_eq (dir kind role : List Char) (n m : ℕ) (d : Fin 256) :
    defaultPath dir (keyFileName kind role n m d) = (dir ++ "/data/".toList) ++ (kind ++ (role ++
      (decimal n ++ ("_input_".toList ++ (decimal m ++ ("_output_".toList ++ (decimal d.val ++ ("_depth".toList ++ ".bin".toList)))))))) := by
  simp only [defaultPath, keyFileName, List.append_assoc]

theorem KeyId.path_inj {dir : FilePath} {a b : KeyId} (h : a.path dir = b.path dir) : a = b := by
  cases a <;> cases b <;>
    simp only [KeyId.path, defaultTransferProvingKeyPath, defaultTransferVerifyingKeyPath, defaultMintProvingKeyPath,
      defaultMintVerifyingKeyPath, defaultFreezeProvingKeyPath, defaultFreezeVerifyingKeyPath, name_eq] at h <;>
    have h := List.append_cancel_left h
  case transferPk.transferPk =>
    obtain ⟨rfl, rfl, rfl⟩ := numbers_inj (List.append_cancel_left (List.append_cancel_left h)); rfl
  case transferVk.transferVk =>
    obtain ⟨rfl, rfl, rfl⟩ := numbers_inj (List.append_cancel_left (List.append_cancel_left h)); rfl
  case mintPk.mintPk =>
    obtain ⟨-, -, rfl⟩ := numbers_inj (List.append_cancel_left (List.append_cancel_left h)); rfl
  case mintVk.mintVk =>
    obtain ⟨-, -, rfl⟩ := numbers_inj (List.append_cancel_left (List.append_cancel_left h)); rfl
  case freezePk.freezePk =>
    obtain ⟨rfl, -, rfl⟩ := numbers_inj (List.append_cancel_left (List.append_cancel_left h)); rfl
  case freezeVk.freezeVk =>
    obtain ⟨rfl, -, rfl⟩ := numbers_inj (List.append_cancel_left (List.append_cancel_left h)); rfl
  all_goals
    exfalso
    first
      | exact absurd (take_eq 1 h (by decide) (by decide)) (by decide)
      | exact absurd (take_eq 2 (List.append_cancel_left h) (by decide) (by decide)) (by decide)

/-! ### Store calls -/

section calls

variable [E : CapEnv] [S : CapExt] [K : KeyCodec]

/-- the contents `preprocess` gives a key -/
def KeyId.Bytes : KeyId → List Byte → Prop
  | .transferPk n m d, b => ∃ k, transferPreprocess n m d = .ok k ∧ b = k.1.bytes
  | .transferVk n m d, b => ∃ k, transferPreprocess n m d = .ok k ∧ b = k.2.bytes
  | .mintPk d, b => ∃ k, mintPreprocess d = .ok k ∧ b = k.1.bytes
  | .mintVk d, b => ∃ k, mintPreprocess d = .ok k ∧ b = k.2.bytes
  | .freezePk n d, b => ∃ k, freezePreprocess n d = .ok k ∧ b = k.1.bytes
  | .freezeVk n d, b => ∃ k, freezePreprocess n d = .ok k ∧ b = k.2.bytes

theorem ok_unique {α : Type} {r : Res α} {a b : α} (ha : r = .ok a) (hb : r = .ok b) : a = b := by
  rw [ha] at hb; exact Except.ok.inj hb

theorem KeyId.Bytes.unique {i : KeyId} {b b' : List Byte} (h : i.Bytes b) (h' : i.Bytes b') : b = b' := by
  cases i <;> (obtain ⟨k, e, rfl⟩ := h; obtain ⟨k', e', rfl⟩ := h'; rw [ok_unique e e'])

omit E S K in
theorem storeBytes_ok {disk disk' : Disk} {b : List Byte} {p : FilePath} (h : disk.storeBytes b p = .ok disk') :
    disk'.content p = some b ∧ ∀ q, q ≠ p → disk'.content q = disk.content q := by
  unfold Disk.storeBytes at h
  split at h
  · cases h
    exact ⟨if_pos rfl, fun q hq => if_neg hq⟩
  · cases h

/-- writing a file of the right contents, or another file, keeps the contents of the file of a key -/
theorem storeBytes_keeps {dir : FilePath} {disk disk' : Disk} {i j : KeyId} {b c : List Byte} {dest : Option FilePath}
    (hb : i.Bytes b) (hc : j.Bytes c) (here : disk.content (i.path dir) = some b) (spare : dest ≠ some (i.path dir))
    (h : disk.storeBytes c (dest.getD (j.path dir)) = .ok disk') : disk'.content (i.path dir) = some b := by
  obtain ⟨h1, h2⟩ := storeBytes_ok h
  cases dest with
  | some q =>
    rw [h2 _ (fun e => spare (by rw [e]; rfl))]
    exact here
  | none =>
    by_cases e : i.path dir = j.path dir
    · have ij := KeyId.path_inj e
      subst ij
      rw [hb.unique hc]
      exact h1
    · rw [h2 _ e]; exact here

theorem StoreCall.keeps {dir : FilePath} {disk disk' : Disk} {i : KeyId} {b : List Byte} {c : StoreCall}
    (hb : i.Bytes b) (here : disk.content (i.path dir) = some b) (spare : c.dest ≠ some (i.path dir))
    (h : c.run dir disk = .ok disk') : disk'.content (i.path dir) = some b := by
  cases c with
  | transferProvingKey n m d dest =>
    obtain ⟨k, e, h⟩ := bind_ok_iff.1 h
    obtain ⟨disk1, h1, h2⟩ := bind_ok_iff.1 h
    exact storeBytes_keeps (j := .transferVk n m d) hb ⟨k, e, rfl⟩
      (storeBytes_keeps (j := .transferPk n m d) hb ⟨k, e, rfl⟩ here spare h1) spare h2
  | transferVerifyingKey n m d dest =>
    obtain ⟨k, e, h⟩ := bind_ok_iff.1 h
    exact storeBytes_keeps (j := .transferVk n m d) hb ⟨k, e, rfl⟩ here spare h
  | mintProvingKey d dest =>
    obtain ⟨k, e, h⟩ := bind_ok_iff.1 h
    obtain ⟨disk1, h1, h2⟩ := bind_ok_iff.1 h
    exact storeBytes_keeps (j := .mintVk d) hb ⟨k, e, rfl⟩
      (storeBytes_keeps (j := .mintPk d) hb ⟨k, e, rfl⟩ here spare h1) spare h2
  | mintVerifyingKey d dest =>
    obtain ⟨k, e, h⟩ := bind_ok_iff.1 h
    exact storeBytes_keeps (j := .mintVk d) hb ⟨k, e, rfl⟩ here spare h
  | freezeProvingKey n d dest =>
    obtain ⟨k, e, h⟩ := bind_ok_iff.1 h
    obtain ⟨disk1, h1, h2⟩ := bind_ok_iff.1 h
    exact storeBytes_keeps (j := .freezeVk n d) hb ⟨k, e, rfl⟩
      (storeBytes_keeps (j := .freezePk n d) hb ⟨k, e, rfl⟩ here spare h1) spare h2
  | freezeVerifyingKey n d dest =>
    obtain ⟨k, e, h⟩ := bind_ok_iff.1 h
    exact storeBytes_keeps (j := .freezeVk n d) hb ⟨k, e, rfl⟩ here spare h

theorem runCalls_keeps {dir : FilePath} {i : KeyId} {b : List Byte} (hb : i.Bytes b) {calls : List StoreCall} :
    ∀ {disk disk' : Disk}, disk.content (i.path dir) = some b → SparesPath calls (i.path dir) →
      runCalls dir disk calls = .ok disk' → disk'.content (i.path dir) = some b := by
  induction calls with
  | nil => intro disk disk' here _ h; cases h; exact here
  | cons c cs ih =>
    intro disk disk' here spare h
    obtain ⟨disk1, h1, h2⟩ := bind_ok_iff.1 h
    exact ih (StoreCall.keeps hb here (spare c (by simp)) h1) (fun x hx => spare x (by simp [hx])) h2

theorem load_of_content {α : Type} {disk : Disk} {p : FilePath} {b : List Byte} {parse : List Byte → Option α} {a : α}
    (h : disk.content p = some b) (hp : parse b = some a) : disk.load parse p = .ok a := by
  unfold Disk.load
  rw [h]
  dsimp only
  rw [hp]

theorem load_ok {α : Type} {disk : Disk} {p : FilePath} {b : List Byte} {parse : List Byte → Option α} {a : α}
    (h : disk.content p = some b) (ok : disk.load parse p = .ok a) : parse b = some a := by
  unfold Disk.load at ok
  rw [h] at ok
  dsimp only at ok
  split at ok
  · cases ok
  · cases ok; assumption

theorem load_missing {α : Type} {disk : Disk} {p : FilePath} {parse : List Byte → Option α}
    (h : disk.content p = none) : disk.load parse p = .error .ioError := by
  unfold Disk.load
  rw [h]

end calls

end Cap
