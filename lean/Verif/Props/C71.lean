/-
C71 Notes, records and credentials survive the byte format; a note's commitment identifies it

status: proved
note: Proved for every transaction note, record opening, credential and asset definition, whatever follows in the stream, with vectors shorter than 2^64 elements (any Rust vector).  The encodings of points, proofs, signatures and AEAD keys are external; that only encodings are read (`C71_only_encodings`) assumes it of those four.
-/
import Verif.Lemmas.Wire
import Verif.Model.ToyWire
import Verif.Spec

namespace Cap
open Spec

variable [E : CapEnv] [S : CapExt] [W : WireEnv]

/-- Every vector of the note has fewer than 2^64 elements, as any vector in memory has. -/
def Spec.NoteFits : TransactionNote → Prop
  | .transfer n => n.inputs_nullifiers.length < 2 ^ 64 ∧ n.output_commitments.length < 2 ^ 64 ∧
      n.viewing_memo.data.length < 2 ^ 64 ∧ n.aux_info.extra_proof_bound_data.length < 2 ^ 64
  | .mint n => n.viewing_memo.data.length < 2 ^ 64
  | .freeze n => n.input_nullifiers.length < 2 ^ 64 ∧ n.output_commitments.length < 2 ^ 64

theorem note_de {bs : List Byte} {t : TransactionNote} {rest : List Byte} :
    noteFormat.de bs = .ok (t, rest) ↔
      (∃ tl n, bs = 0 :: tl ∧ transferNoteFormat.de tl = .ok (n, rest) ∧ t = .transfer n) ∨
      (∃ tl n, bs = 1 :: tl ∧ mintNoteFormat.de tl = .ok (n, rest) ∧ t = .mint n) ∨
      (∃ tl n, bs = 2 :: tl ∧ freezeNoteFormat.de tl = .ok (n, rest) ∧ t = .freeze n) := by
  unfold noteFormat byteFormat
  dsimp only
  cases bs with
  | nil => simp [bind, Except.bind]
  | cons x tl =>
    simp only [bind, Except.bind]
    by_cases h0 : x = 0
    · subst h0
      rw [if_pos rfl]
      constructor
      · intro h
        cases hd : transferNoteFormat.de tl with
        | error e => rw [hd] at h; cases h
        | ok y =>
          rw [hd] at h
          cases h
          exact .inl ⟨tl, y.1, rfl, hd, rfl⟩
      · rintro (⟨tl', n, he, h, rfl⟩ | ⟨tl', n, he, h, rfl⟩ | ⟨tl', n, he, h, rfl⟩)
        · cases he; rw [h]
        · simp at he
        · simp at he
    by_cases h1 : x = 1
    · subst h1
      rw [if_neg (by decide), if_pos rfl]
      constructor
      · intro h
        cases hd : mintNoteFormat.de tl with
        | error e => rw [hd] at h; cases h
        | ok y =>
          rw [hd] at h
          cases h
          exact .inr (.inl ⟨tl, y.1, rfl, hd, rfl⟩)
      · rintro (⟨tl', n, he, h, rfl⟩ | ⟨tl', n, he, h, rfl⟩ | ⟨tl', n, he, h, rfl⟩)
        · simp at he
        · cases he; rw [h]
        · simp at he
    by_cases h2 : x = 2
    · subst h2
      rw [if_neg (by decide), if_neg (by decide), if_pos rfl]
      constructor
      · intro h
        cases hd : freezeNoteFormat.de tl with
        | error e => rw [hd] at h; cases h
        | ok y =>
          rw [hd] at h
          cases h
          exact .inr (.inr ⟨tl, y.1, rfl, hd, rfl⟩)
      · rintro (⟨tl', n, he, h, rfl⟩ | ⟨tl', n, he, h, rfl⟩ | ⟨tl', n, he, h, rfl⟩)
        · simp at he
        · simp at he
        · cases he; rw [h]
    rw [if_neg h0, if_neg h1, if_neg h2]
    simp [h0, h1, h2]

theorem note_good : noteFormat.Good NoteFits where
  round t rest h := by
    rw [note_de]
    cases t with
    | transfer n => exact .inl ⟨_, n, rfl, transferNote_good.round n rest h, rfl⟩
    | mint n => exact .inr (.inl ⟨_, n, rfl, mintNote_good.round n rest h, rfl⟩)
    | freeze n => exact .inr (.inr ⟨_, n, rfl, freezeNote_good.round n rest h, rfl⟩)
  fit bs t rest h := by
    rcases note_de.1 h with ⟨tl, n, -, hn, rfl⟩ | ⟨tl, n, -, hn, rfl⟩ | ⟨tl, n, -, hn, rfl⟩
    · exact transferNote_good.fit _ _ _ hn
    · exact mintNote_good.fit _ _ _ hn
    · exact freezeNote_good.fit _ _ _ hn
  more bs t rest s h := by
    rw [note_de]
    rcases note_de.1 h with ⟨tl, n, rfl, hn, rfl⟩ | ⟨tl, n, rfl, hn, rfl⟩ | ⟨tl, n, rfl, hn, rfl⟩
    · exact .inl ⟨_, n, rfl, transferNote_good.more _ _ _ s hn, rfl⟩
    · exact .inr (.inl ⟨_, n, rfl, mintNote_good.more _ _ _ s hn, rfl⟩)
    · exact .inr (.inr ⟨_, n, rfl, freezeNote_good.more _ _ _ s hn, rfl⟩)

/-- A serialized note is read back as the same note, and what follows it in the stream is left. -/
theorem C71_note (t : TransactionNote) (rest : List Byte) (h : NoteFits t) :
    noteFormat.de (noteFormat.ser t ++ rest) = .ok (t, rest) := note_good.round t rest h

/-- Whatever was read, from whatever bytes, can be written and read again. -/
theorem C71_again (bs : List Byte) (t : TransactionNote) (rest rest' : List Byte) (h : noteFormat.de bs = .ok (t, rest)) :
    noteFormat.de (noteFormat.ser t ++ rest') = .ok (t, rest') :=
  note_good.round t rest' (note_good.fit _ _ _ h)

/-- So are the openings of records, credentials and asset definitions. -/
theorem C71_records (r : RecordOpening) (c : ExpirableCredential) (a : AssetDefinition) (rest : List Byte)
    (h : c.attrs.length < 2 ^ 64) :
    recordFormat.de (recordFormat.ser r ++ rest) = .ok (r, rest) ∧
    credentialFormat.de (credentialFormat.ser c ++ rest) = .ok (c, rest) ∧
    assetDefFormat.de (assetDefFormat.ser a ++ rest) = .ok (a, rest) :=
  ⟨record_good.round r rest trivial, credential_good.round c rest h, assetDef_good.round a rest trivial⟩

/-- A stream that begins with an encoded note begins with the encoding of no other note, and of no longer or shorter one. -/
theorem C71_unambiguous (t t' : TransactionNote) (x y : List Byte) (h : NoteFits t) (h' : NoteFits t')
    (e : noteFormat.ser t ++ x = noteFormat.ser t' ++ y) : t = t' ∧ x = y := note_good.split h h' e

/-- A note whose last bytes are missing is not read, as any note. -/
theorem C71_truncated (t : TransactionNote) (bs lost : List Byte) (h : NoteFits t) (hl : lost ≠ [])
    (e : bs ++ lost = noteFormat.ser t) : ∃ err, noteFormat.de bs = .error err := by
  cases hd : noteFormat.de bs with
  | error err => exact ⟨err, rfl⟩
  | ok y => exact absurd (note_good.truncated h e (y := y.1) (rest := y.2) hd) hl

/-- A note has one encoding only, provided this is so for the points and proofs in it: bytes that are read as a note are its
encoding, followed by what is left. -/
theorem C71_only_encodings (bs : List Byte) (t : TransactionNote) (rest : List Byte) (hpt : PtExact)
    (hproof : ∀ b π r, W.proof.de b = .ok (π, r) → b = W.proof.ser π ++ r) (h : noteFormat.de bs = .ok (t, rest)) :
    bs = noteFormat.ser t ++ rest := by
  rcases note_de.1 h with ⟨tl, n, rfl, hn, rfl⟩ | ⟨tl, n, rfl, hn, rfl⟩ | ⟨tl, n, rfl, hn, rfl⟩
  · rw [transferNote_exact hpt hproof _ _ _ hn]; rfl
  · rw [mintNote_exact hpt hproof _ _ _ hn]; rfl
  · rw [freezeNote_exact hpt hproof _ _ _ hn]; rfl

/-- Bytes that begin with none of the three kinds are not read. -/
theorem C71_bad_kind (x : Byte) (rest : List Byte) (h : x ∉ [0, 1, 2]) :
    noteFormat.de (x :: rest) = .error .invalidData := by
  simp only [List.mem_cons, List.not_mem_nil, or_false, not_or] at h
  unfold noteFormat byteFormat
  simp only [bind, Except.bind]
  rw [if_neg h.1, if_neg h.2.1, if_neg h.2.2]

/-- A nullifier, commitment or root is read from one byte string only: 32 bytes that stand for a number of the size of the
field modulus or more are refused, not reduced. -/
theorem C71_field (b rest : List Byte) (h : b.length = 32) :
    (ofLe b < E.p ∧ fieldFormat.de (b ++ rest) = .ok ((ofLe b : F), rest)) ∨
      (E.p ≤ ofLe b ∧ fieldFormat.de (b ++ rest) = .error .invalidData) := by
  unfold fieldFormat
  dsimp only
  rw [readExact_append h]
  simp only [bind, Except.bind]
  by_cases hb : ofLe b < E.p
  · exact .inl ⟨hb, by rw [if_pos hb]⟩
  · exact .inr ⟨by omega, by rw [if_neg hb]⟩

theorem field_list_length (l : List F) : (fieldFormat.list.ser l).length = 8 + 32 * l.length := by
  have : ∀ l : List F, (l.flatMap fieldFormat.ser).length = 32 * l.length := by
    intro l
    induction l with
    | nil => rfl
    | cons x xs ih =>
      have hx : (fieldFormat.ser x).length = 32 := leBytes_length 32 _
      rw [List.flatMap_cons, List.length_append, ih, hx, List.length_cons]
      ring
  show (leBytes 8 l.length ++ l.flatMap fieldFormat.ser).length = _
  rw [List.length_append, leBytes_length, this]

/-- The size of an encoded note: it depends on how many records there are, on the lengths of the viewing memo and of the bound
data, and on the proof. -/
theorem C71_size (t : TransactionNote) : (noteFormat.ser t).length = match t with
    | .transfer n => 153 + 32 * n.inputs_nullifiers.length + 32 * n.output_commitments.length
        + (W.proof.ser n.proof).length + 32 * n.viewing_memo.data.length + n.aux_info.extra_proof_bound_data.length
    | .mint n => 429 + (W.proof.ser n.proof).length + 32 * n.viewing_memo.data.length
    | .freeze n => 97 + 32 * n.input_nullifiers.length + 32 * n.output_commitments.length
        + (W.proof.ser n.proof).length := by
  have hf : ∀ x : F, (fieldFormat.ser x).length = 32 := fun x => leBytes_length 32 _
  have hp : ∀ P : Pt, (ptFormat.ser P).length = 32 := fun P => E.verKeyBytes_len P
  have ha : ∀ a : Amount, (amountFormat.ser a).length = 16 := fun a => leBytes_length 16 _
  have hu : ∀ a : U64, (u64Format.ser a).length = 8 := fun a => leBytes_length 8 _
  have hm : ∀ m : RevealMap, (revealMapFormat.ser m).length = 20 := fun m => by
    show (leBytes 8 VIEWABLE_DATA_LEN ++ m.toList.map _).length = 20
    rw [List.length_append, leBytes_length, List.length_map, Vector.length_toList]
  have hb : ∀ l : List Byte, (byteFormat.list.ser l).length = 8 + l.length := fun l => by
    show (leBytes 8 l.length ++ l.flatMap (fun x => [x])).length = _
    rw [List.length_append, leBytes_length, List.flatMap_singleton']
  cases t with
  | transfer n =>
    simp only [noteFormat, transferNoteFormat, memoFormat, transferAuxFormat, Format.as, Format.pair, List.length_cons,
      List.length_append, field_list_length, hf, hp, ha, hu, hb]
    omega
  | mint n =>
    simp only [noteFormat, mintNoteFormat, assetDefFormat, policyFormat, memoFormat, noteAuxFormat, Format.as, Format.pair,
      List.length_cons, List.length_append, field_list_length, hf, hp, ha, hm]
    omega
  | freeze n =>
    simp only [noteFormat, freezeNoteFormat, noteAuxFormat, Format.as, Format.pair, List.length_cons,
      List.length_append, field_list_length, hf, hp, ha]
    omega

/-- Two notes with the same commitment are the same note, unless the hash collides on their encodings. -/
theorem C71_commit (t t' : TransactionNote) (h : NoteFits t) (h' : NoteFits t') (e : t.commit = t'.commit) :
    t = t' ∨ Collides W.txnDigest (noteFormat.ser t) (noteFormat.ser t') := by
  by_cases hb : noteFormat.ser t = noteFormat.ser t'
  · exact .inl (C71_unambiguous t t' [] [] h h' (by rw [hb])).1
  · exact .inr ⟨hb, e⟩

end Cap

namespace Cap.Examples
open Toy Spec

/-- a freeze note to write and read -/
def wireFreeze : FreezeNote :=
  ⟨[(3 : ZMod p), (258 : ZMod p)], [(5 : ZMod p)], ([7, 9] : List Byte), ⟨(11 : ZMod p), 6, (13 : ZMod r)⟩⟩

/-- a transfer note with bound data -/
def wireTransfer : TransferNote :=
  ⟨[(3 : ZMod p)], [(5 : ZMod p), (6 : ZMod p)], ([7] : List Byte), ⟨(4 : ZMod r), [(1 : ZMod p)]⟩,
    ⟨(11 : ZMod p), 6, 99, (13 : ZMod r), [1, 2, 3]⟩⟩

example : NoteFits (.freeze wireFreeze) ∧ NoteFits (.transfer wireTransfer) := by
  refine ⟨⟨?_, ?_⟩, ?_, ?_, ?_, ?_⟩ <;> decide

/-- the bytes begin with the kind, the number of nullifiers and the first nullifier; the second is 258 = 2 + 256 -/
example : (noteFormat.ser (.freeze wireFreeze)).take 50 =
    [2] ++ [2, 0, 0, 0, 0, 0, 0, 0] ++ (3 :: List.replicate 31 0) ++ [2, 1, 0, 0, 0, 0, 0, 0, 0] := by decide +kernel

example : (noteFormat.ser (.freeze wireFreeze)).length = 97 + 64 + 32 + 5 := by decide +kernel

/-- the hypotheses of `C71_note` and of `C71_only_encodings` are met, with something following -/
example : noteFormat.de (noteFormat.ser (.transfer wireTransfer) ++ [42]) = .ok (.transfer wireTransfer, [42]) :=
  C71_note _ _ ⟨by decide, by decide, by decide, by decide⟩

example : ∃ t rest, noteFormat.de (noteFormat.ser (.transfer wireTransfer) ++ [42]) = .ok (t, rest) ∧
    noteFormat.ser (.transfer wireTransfer) ++ [42] = noteFormat.ser t ++ rest :=
  ⟨_, _, C71_note _ _ ⟨by decide, by decide, by decide, by decide⟩,
    C71_only_encodings _ _ _ pt_exact_toy (fun b π r h => decList_exact b π r h)
      (C71_note _ _ ⟨by decide, by decide, by decide, by decide⟩)⟩

/-- the last byte is missing -/
example : ∃ err, noteFormat.de (noteFormat.ser (.freeze wireFreeze)).dropLast = .error err := by
  have hne : noteFormat.ser (.freeze wireFreeze) ≠ [] := by decide +kernel
  exact C71_truncated (.freeze wireFreeze) _ [(noteFormat.ser (.freeze wireFreeze)).getLast hne]
    ⟨by decide, by decide⟩ (by simp) (List.dropLast_append_getLast hne)

/-- both cases of `C71_field` occur: p - 1 is read, p is refused -/
example : (fieldFormat.de (leBytes 32 (Toy.p - 1))).toOption = some ((-1 : ZMod Toy.p), []) ∧
    (fieldFormat.de (leBytes 32 Toy.p)).toOption = none := by decide +kernel

/-- different notes have different toy commitments, so `C71_commit` has a case without collision; and equal ones equal -/
example : (TransactionNote.freeze wireFreeze).commit ≠ (TransactionNote.transfer wireTransfer).commit := by
  show (_ : ZMod Toy.p) ≠ _
  decide +kernel

example : noteFormat.de [3, 1, 2] = .error .invalidData := C71_bad_kind 3 [1, 2] (by decide)

end Cap.Examples
