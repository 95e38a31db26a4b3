/-
C30: notes, verifying keys and freeze flags decode to what was encoded.

status: proved
note: For any payload codecs that round-trip (the derived arkworks codecs are a hypothesis); any other tag byte is rejected.
-/
import Verif.Lemmas.Basic
import Verif.Model.Toy

namespace Cap

section
variable {α β γ τ : Type} (a : Codec α) (b : Codec β) (c : Codec γ) (cases : τ → α ⊕ β ⊕ γ) (build : α ⊕ β ⊕ γ → τ)

theorem tagged_round_trip (h : ∀ t, build (cases t) = t) (t : τ) (rest : List Byte) :
    taggedDe a b c build (taggedSer a b c cases t ++ rest) = .ok (t, rest) := by
  have hr : ∀ (x : Byte) (l : List Byte), readExact 1 (x :: l) = .ok ([x], l) := fun x l => by
    have := readExact_append (n := 1) (a := [x]) (b := l) rfl
    simpa using this
  have ht := h t
  unfold taggedDe taggedSer
  cases hc : cases t with
  | inl x =>
    rw [hc] at ht
    simp only [List.cons_append, hr, bind, Except.bind, a.round_trip, ht]
  | inr y =>
    cases y with
    | inl x =>
      rw [hc] at ht
      simp only [List.cons_append, hr, bind, Except.bind, b.round_trip, ht]
    | inr x =>
      rw [hc] at ht
      simp only [List.cons_append, hr, bind, Except.bind, c.round_trip, ht]

theorem tagged_reject (x : Byte) (rest : List Byte) (h0 : x ≠ 0) (h1 : x ≠ 1) (h2 : x ≠ 2) :
    taggedDe a b c build (x :: rest) = .error .invalidData := by
  have hr : readExact 1 (x :: rest) = .ok ([x], rest) := by
    have := readExact_append (n := 1) (a := [x]) (b := rest) rfl
    simpa using this
  unfold taggedDe
  simp only [hr, bind, Except.bind]
  split
  · rename_i h; simp at h; exact absurd h h0
  · rename_i h; simp at h; exact absurd h h1
  · rename_i h; simp at h; exact absurd h h2
  · rfl

/-- What a successful decoding says about the first byte. -/
theorem tagged_ok (bs rest : List Byte) (t : τ) (h : taggedDe a b c build bs = .ok (t, rest)) :
    (∃ tl x, bs = 0 :: tl ∧ a.de tl = .ok (x, rest) ∧ t = build (.inl x)) ∨
    (∃ tl x, bs = 1 :: tl ∧ b.de tl = .ok (x, rest) ∧ t = build (.inr (.inl x))) ∨
    (∃ tl x, bs = 2 :: tl ∧ c.de tl = .ok (x, rest) ∧ t = build (.inr (.inr x))) := by
  unfold taggedDe at h
  rw [ser_bind_ok_iff] at h
  obtain ⟨⟨flag, tl⟩, hf, h⟩ := h
  obtain ⟨-, rfl⟩ := readExact_ok hf
  simp only at h
  split at h
  · rw [ser_bind_ok_iff] at h
    obtain ⟨⟨x, r⟩, hx, h⟩ := h
    cases h
    exact .inl ⟨tl, x, rfl, hx, rfl⟩
  · rw [ser_bind_ok_iff] at h
    obtain ⟨⟨x, r⟩, hx, h⟩ := h
    cases h
    exact .inr (.inl ⟨tl, x, rfl, hx, rfl⟩)
  · rw [ser_bind_ok_iff] at h
    obtain ⟨⟨x, r⟩, hx, h⟩ := h
    cases h
    exact .inr (.inr ⟨tl, x, rfl, hx, rfl⟩)
  · cases h

end

variable [E : CapEnv] [S : CapExt]

/-- A serialized transaction note decodes to the same variant and payload, whatever follows. -/
theorem C30_note_round_trip (a : Codec TransferNote) (b : Codec MintNote) (c : Codec FreezeNote)
    (t : TransactionNote) (rest : List Byte) :
    taggedDe a b c TransactionNote.build (taggedSer a b c TransactionNote.cases t ++ rest) = .ok (t, rest) :=
  tagged_round_trip a b c _ _ (fun t => by cases t <;> rfl) t rest

/-- A serialized verifying key decodes to the same variant and payload, whatever follows. -/
theorem C30_key_round_trip (a : Codec TransferVerifyingKey) (b : Codec MintVerifyingKey)
    (c : Codec FreezeVerifyingKey) (t : TransactionVerifyingKey) (rest : List Byte) :
    taggedDe a b c TransactionVerifyingKey.build (taggedSer a b c TransactionVerifyingKey.cases t ++ rest) =
      .ok (t, rest) :=
  tagged_round_trip a b c _ _ (fun t => by cases t <;> rfl) t rest

/-- Any other tag byte is rejected, for notes and for keys. -/
theorem C30_bad_tag (a : Codec TransferNote) (b : Codec MintNote) (c : Codec FreezeNote)
    (a' : Codec TransferVerifyingKey) (b' : Codec MintVerifyingKey) (c' : Codec FreezeVerifyingKey)
    (x : Byte) (rest : List Byte) (h : x ∉ [0, 1, 2]) :
    taggedDe a b c TransactionNote.build (x :: rest) = .error .invalidData ∧
    taggedDe a' b' c' TransactionVerifyingKey.build (x :: rest) = .error .invalidData := by
  simp only [List.mem_cons, List.not_mem_nil, or_false, not_or] at h
  exact ⟨tagged_reject a b c _ x rest h.1 h.2.1 h.2.2, tagged_reject a' b' c' _ x rest h.1 h.2.1 h.2.2⟩

/-- A decoded note has the variant its tag byte names, and its payload is what that variant's codec read
from the remaining bytes. -/
theorem C30_note_variant (a : Codec TransferNote) (b : Codec MintNote) (c : Codec FreezeNote)
    (bs rest : List Byte) (t : TransactionNote)
    (h : taggedDe a b c TransactionNote.build bs = .ok (t, rest)) :
    (∃ tl n, bs = 0 :: tl ∧ a.de tl = .ok (n, rest) ∧ t = .transfer n) ∨
    (∃ tl n, bs = 1 :: tl ∧ b.de tl = .ok (n, rest) ∧ t = .mint n) ∨
    (∃ tl n, bs = 2 :: tl ∧ c.de tl = .ok (n, rest) ∧ t = .freeze n) :=
  tagged_ok a b c _ bs rest t h

/-- The same for verifying keys. -/
theorem C30_key_variant (a : Codec TransferVerifyingKey) (b : Codec MintVerifyingKey)
    (c : Codec FreezeVerifyingKey) (bs rest : List Byte) (t : TransactionVerifyingKey)
    (h : taggedDe a b c TransactionVerifyingKey.build bs = .ok (t, rest)) :
    (∃ tl n, bs = 0 :: tl ∧ a.de tl = .ok (n, rest) ∧ t = .transfer n) ∨
    (∃ tl n, bs = 1 :: tl ∧ b.de tl = .ok (n, rest) ∧ t = .mint n) ∨
    (∃ tl n, bs = 2 :: tl ∧ c.de tl = .ok (n, rest) ∧ t = .freeze n) :=
  tagged_ok a b c _ bs rest t h

omit E S in
/-- Freeze flags: round trip, and nothing else is accepted. -/
theorem C30_freeze_flag (f : FreezeFlag) (bs rest : List Byte) :
    FreezeFlag.deserialize bs = .ok (f, rest) ↔ bs = f.serialize ++ rest := by
  constructor
  · intro h
    unfold FreezeFlag.deserialize at h
    rw [ser_bind_ok_iff] at h
    obtain ⟨⟨b, r⟩, hb, h⟩ := h
    obtain ⟨-, rfl⟩ := readExact_ok hb
    simp only at h
    split at h
    · cases h; rfl
    · cases h; rfl
    · cases h
  · rintro rfl
    unfold FreezeFlag.deserialize
    rw [readExact_append (by simp [FreezeFlag.serialize])]
    cases f <;> rfl

/-! Non-vacuity: codecs with the round-trip law exist (here: one byte), and the decoders run. -/

omit E S in
/-- a codec for bytes -/
def byteCodec : Codec Byte where
  ser x := [x]
  de bs := match bs with
    | [] => .error .io
    | x :: rest => .ok (x, rest)
  round_trip _ _ := rfl

example : taggedDe byteCodec byteCodec byteCodec (id : Byte ⊕ Byte ⊕ Byte → _)
    (taggedSer byteCodec byteCodec byteCodec id (.inr (.inl (7 : Byte))) ++ [5]) = .ok (.inr (.inl 7), [5]) := rfl
example : taggedDe byteCodec byteCodec byteCodec (id : Byte ⊕ Byte ⊕ Byte → _) [3, 7] = .error .invalidData := rfl
example : FreezeFlag.deserialize [1, 4] = .ok (.frozen, [4]) := by decide +kernel
example : FreezeFlag.deserialize [2, 4] = .error .invalidData := by decide +kernel

end Cap
