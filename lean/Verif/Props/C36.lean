/-
C36: receiver memo signatures bind the whole memo list.

status: proved
note: The hash collision names the two serialized lists; injectivity of the serialization is proved from the self-delimiting ciphertext encoding.
-/
import Verif.Lemmas.Basic
import Verif.Model.Toy
import Verif.Spec

namespace Cap

variable [E : CapEnv]

open Spec

/-- the bytes that are hashed for a list of memos -/
def memosBytes (memos : List E.AeadCt) : List Byte := (memos.map E.memoBytes).flatten

/-- Different lists are hashed from different byte strings. -/
theorem memosBytes_inj : ∀ {a b : List E.AeadCt}, memosBytes a = memosBytes b → a = b
  | [], [], _ => rfl
  | [], c :: cs, h => by
    simp only [memosBytes, List.map_nil, List.flatten_nil, List.map_cons, List.flatten_cons] at h
    exact absurd (List.append_eq_nil_iff.1 h.symm).1 (E.memoBytes_ne c)
  | c :: cs, [], h => by
    simp only [memosBytes, List.map_nil, List.flatten_nil, List.map_cons, List.flatten_cons] at h
    exact absurd (List.append_eq_nil_iff.1 h).1 (E.memoBytes_ne c)
  | c :: cs, d :: ds, h => by
    simp only [memosBytes, List.map_cons, List.flatten_cons] at h
    obtain ⟨h1, h2⟩ := E.memoBytes_prefix _ _ _ _ h
    rw [h1, memosBytes_inj h2]

theorem digest_ok {memos : List E.AeadCt} {d : F} :
    getReceiverMemosDigest memos = .ok d ↔ memos ≠ [] ∧ d = E.hashToField (memosBytes memos) := by
  unfold getReceiverMemosDigest
  cases memos with
  | nil => simp
  | cons c cs => simp [memosBytes, eq_comm]

/-- An empty list is refused, by the signer and by the verifier, whatever the signature. -/
theorem C36_empty [S : CapExt] (sk : Fr) (t : TransactionNote) (sig : E.Sig) :
    signReceiverMemos sk [] = .error .internalError ∧
      t.verifyReceiverMemosSignature [] sig = .error .internalError := ⟨rfl, rfl⟩

/-- A non-empty list can be signed, and the signature verifies for that list under every note that carries
the public key of the signing key. -/
theorem C36_sign_verify [S : CapExt] (sk : Fr) (t : TransactionNote) (memos : List E.AeadCt)
    (hk : t.txnMemoVerKey = smulFr sk E.gen) (hne : memos ≠ []) :
    ∃ sig, signReceiverMemos sk memos = .ok sig ∧ t.verifyReceiverMemosSignature memos sig = .ok () := by
  have hd := digest_ok.2 ⟨hne, rfl⟩
  refine ⟨E.schnorrSign sk [E.hashToField (memosBytes memos)], ?_, ?_⟩
  · unfold signReceiverMemos
    rw [hd]
    rfl
  · unfold TransactionNote.verifyReceiverMemosSignature
    rw [hd, hk]
    simp only [bind, Except.bind]
    rw [ensure_ok_iff]
    exact E.schnorr_correct _ _

/-- If a signature made for one list verifies for a different list, then either the hash of the memos
collides on the two (different) concatenations, or the signature scheme accepted a message that was not signed
under this key. -/
theorem C36_binds [S : CapExt] (t : TransactionNote) (memos memos' : List E.AeadCt)
    (sig : E.Sig) (hne : memos ≠ memos')
    (h : t.verifyReceiverMemosSignature memos sig = .ok ())
    (h' : t.verifyReceiverMemosSignature memos' sig = .ok ()) :
    Collides E.hashToField (memosBytes memos) (memosBytes memos') ∨
    ∃ d d', d = E.hashToField (memosBytes memos) ∧ d' = E.hashToField (memosBytes memos') ∧ d ≠ d' ∧
      E.schnorrVerify (E.xy t.txnMemoVerKey) [d] sig = true ∧
      E.schnorrVerify (E.xy t.txnMemoVerKey) [d'] sig = true := by
  unfold TransactionNote.verifyReceiverMemosSignature at h h'
  rw [bind_ok_iff] at h h'
  obtain ⟨d, hd, h⟩ := h
  obtain ⟨d', hd', h'⟩ := h'
  rw [ensure_ok_iff] at h h'
  rw [digest_ok] at hd hd'
  by_cases he : d = d'
  · left
    exact ⟨fun hb => hne (memosBytes_inj hb), by rw [← hd.2, ← hd'.2, he]⟩
  · right
    exact ⟨d, d', hd.2, hd'.2, he, h, h'⟩

/-- Two different lists with the same digest are a collision of the hash on their two (different)
concatenations: order, length and every byte of the list matter. -/
theorem C36_digest_binds (memos memos' : List E.AeadCt) (d : F) (hne : memos ≠ memos')
    (h : getReceiverMemosDigest memos = .ok d) (h' : getReceiverMemosDigest memos' = .ok d) :
    Collides E.hashToField (memosBytes memos) (memosBytes memos') :=
  ⟨fun hb => hne (memosBytes_inj hb), by rw [← (digest_ok.1 h).2, ← (digest_ok.1 h').2]⟩

end Cap

/-! Non-vacuity -/

namespace Cap.Examples
open Toy

/-- two ciphertexts of the toy scheme -/
def ct1 : Toy.E.AeadCt := ((9 : UInt8), [1], [7])
def ct2 : Toy.E.AeadCt := ((9 : UInt8), [2], [7])

example : getReceiverMemosDigest [ct1, ct2] ≠ getReceiverMemosDigest [ct2, ct1] := by decide +kernel
example : ∃ sig, signReceiverMemos (5 : Fr) [ct1, ct2] = .ok sig ∧
    Toy.E.schnorrVerify (Toy.E.xy (smulFr (5 : Fr) Toy.E.gen)) [Toy.E.hashToField (memosBytes [ct1, ct2])] sig = true :=
  ⟨_, rfl, by decide +kernel⟩

end Cap.Examples
