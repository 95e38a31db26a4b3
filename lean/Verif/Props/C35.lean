/-
C35: receiver memos deliver exactly the committed record.

status: proved
note: AEAD correctness and the bincode round trip are hypotheses recorded in the trusted base.
-/
import Verif.Lemmas.Basic
import Verif.Model.Toy

namespace Cap

variable [E : CapEnv] [S : CapExt]

/-- A memo written for a record opening decrypts, for the opening's owner, to that opening. -/
theorem C35_round_trip (rand : ℕ) (ro : RecordOpening) (label : List Byte) (k : UserKeyPair) (c : E.AeadCt)
    (howner : ro.pub_key = k.pubKey) (h : ReceiverMemo.fromRo rand ro label = .ok c) :
    ReceiverMemo.decrypt c k ro.commitment label = .ok ro := by
  unfold ReceiverMemo.fromRo at h
  split at h
  · cases h
  · rename_i b hb
    split at h
    · cases h
    · rename_i c' hc
      cases h
      have hk : ro.pub_key.enc_key = E.aeadPk k.encSk := by rw [howner]; rfl
      rw [hk] at hc
      unfold ReceiverMemo.decrypt
      rw [E.aead_correct _ _ _ _ _ hc]
      simp only [S.roParse_roBytes _ _ hb]
      rw [if_neg (by simp [howner]), if_neg (by simp)]

/-- Whatever the memo: a returned opening belongs to the decrypting key and commits to the commitment it was
checked against. -/
theorem C35_sound (c : E.AeadCt) (k : UserKeyPair) (rc : F) (label : List Byte) (ro : RecordOpening)
    (h : ReceiverMemo.decrypt c k rc label = .ok ro) :
    ro.pub_key = k.pubKey ∧ ro.commitment = rc := by
  unfold ReceiverMemo.decrypt at h
  split at h
  · cases h
  · split at h
    · cases h
    · split at h
      · cases h
      · split at h
        · cases h
        · cases h
          rename_i h1 h2
          exact ⟨not_not.1 h1, not_not.1 h2⟩

/-- So a memo checked against another commitment than its record's is never returned. -/
theorem C35_wrong_commitment (rand : ℕ) (ro : RecordOpening) (label : List Byte) (k : UserKeyPair)
    (c : E.AeadCt) (rc : F) (howner : ro.pub_key = k.pubKey) (h : ReceiverMemo.fromRo rand ro label = .ok c)
    (hrc : ro.commitment ≠ rc) : ReceiverMemo.decrypt c k rc label = .error .invalidParameter := by
  unfold ReceiverMemo.fromRo at h
  split at h
  · cases h
  · rename_i b hb
    split at h
    · cases h
    · rename_i c' hc
      cases h
      have hk : ro.pub_key.enc_key = E.aeadPk k.encSk := by rw [howner]; rfl
      rw [hk] at hc
      unfold ReceiverMemo.decrypt
      rw [E.aead_correct _ _ _ _ _ hc]
      simp only [S.roParse_roBytes _ _ hb]
      rw [if_neg (by simp [howner]), if_pos hrc]

/-- Decryption returns a value or an ordinary error on every ciphertext. -/
theorem C35_total (c : E.AeadCt) (k : UserKeyPair) (rc : F) (label : List Byte) :
    ReceiverMemo.decrypt c k rc label ≠ .error .panic := by
  unfold ReceiverMemo.decrypt
  split
  · simp
  · split
    · simp
    · split
      · simp
      · split <;> simp

end Cap

/-! Non-vacuity -/

namespace Cap.Examples
open Toy

/-- a user key pair for the examples -/
def user1 : UserKeyPair := ⟨3, (9 : UInt8)⟩
/-- a record opening for the examples -/
def ro1 : RecordOpening := ⟨5, AssetDefinition.native, user1.pubKey, .unfrozen, 8⟩

example : ∃ c, ReceiverMemo.fromRo 0 ro1 [7] = .ok c ∧ ro1.pub_key = user1.pubKey ∧
    ReceiverMemo.decrypt c user1 ro1.commitment [7] = .ok ro1 := by
  have h : ∃ c, ReceiverMemo.fromRo 0 ro1 [7] = .ok c := ⟨_, rfl⟩
  obtain ⟨c, hc⟩ := h
  exact ⟨c, hc, rfl, C35_round_trip 0 ro1 [7] user1 c rfl hc⟩

example : ∃ c, ReceiverMemo.fromRo 0 ro1 [7] = .ok c ∧
    ReceiverMemo.decrypt c user1 (ro1.commitment + 1) [7] = .error .invalidParameter := by
  have h : ∃ c, ReceiverMemo.fromRo 0 ro1 [7] = .ok c := ⟨_, rfl⟩
  obtain ⟨c, hc⟩ := h
  exact ⟨c, hc, C35_wrong_commitment 0 ro1 [7] user1 c _ rfl hc (by decide +kernel)⟩

end Cap.Examples
