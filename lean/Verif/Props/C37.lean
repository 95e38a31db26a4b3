/-
C37: credentials verify exactly until they expire.

status: proved
note: Tampering is reduced to the signature scheme accepting the same signature for two named messages.
-/
import Verif.Lemmas.Basic
import Verif.Model.Toy

namespace Cap

variable [E : CapEnv]

/-- `create` accepts exactly 8 attributes, keeps what it was given and names the issuer's public key. -/
theorem C37_create (addr : Pt) (attrs : List IdentityAttribute) (expiry : U64) (sk : Fr) :
    (attrs.length = 8 → ∃ c, ExpirableCredential.create addr attrs expiry sk = .ok c ∧
      c.user_addr = addr ∧ c.attrs = attrs ∧ c.expiry = expiry ∧ c.creator_pk = smulFr sk E.gen) ∧
    (attrs.length ≠ 8 → ExpirableCredential.create addr attrs expiry sk = .error .failedCredentialCreation) := by
  unfold ExpirableCredential.create
  constructor
  · intro h
    rw [if_neg (by simpa [ATTRS_LEN] using h)]
    exact ⟨_, rfl, rfl, rfl, rfl, rfl⟩
  · intro h
    rw [if_pos (by simpa [ATTRS_LEN] using h)]

/-- A created credential verifies at every time up to and including its expiry, and at no later time. -/
theorem C37_verify_iff (addr : Pt) (attrs : List IdentityAttribute) (expiry : U64) (sk : Fr)
    (c : ExpirableCredential) (h : ExpirableCredential.create addr attrs expiry sk = .ok c) (now : U64) :
    c.verify now = .ok () ↔ now ≤ expiry := by
  unfold ExpirableCredential.create at h
  split at h
  · cases h
  · cases h
    unfold ExpirableCredential.verify ExpirableCredential.isExpired
    have hs := E.schnorr_correct sk (ExpirableCredential.msg expiry addr attrs)
    by_cases ht : expiry < now
    · rw [if_pos (by simpa using ht)]
      simp only [reduceCtorEq, false_iff, not_le]
      exact ht
    · rw [if_neg (by simpa using ht)]
      erw [if_pos hs]
      simp only [true_iff]
      exact not_lt.1 ht

/-- Any credential (not only created ones) verifies exactly when it has not expired and the issuer's
signature on its message is valid. -/
theorem C37_verify_any (c : ExpirableCredential) (now : U64) :
    c.verify now = .ok () ↔ now ≤ c.expiry ∧
      E.schnorrVerify (E.xy c.creator_pk)
        ([(c.expiry.val : F), ptX c.user_addr, ptY c.user_addr] ++ c.attrs) c.cred = true := by
  unfold ExpirableCredential.verify ExpirableCredential.isExpired
  split
  · rename_i h
    have h' : c.expiry < now := by simpa using h
    simp only [reduceCtorEq, false_iff, not_and]
    intro h2
    exact absurd h2 (not_le.2 h')
  · rename_i h
    have h' : ¬ c.expiry < now := by simpa using h
    split
    · rename_i hs; simp only [true_iff]; exact ⟨not_lt.1 h', hs⟩
    · rename_i hs
      simp only [reduceCtorEq, false_iff, not_and]
      exact fun _ => hs

/-- Expiry is monotone: verifying at a time implies verifying at every earlier time. -/
theorem C37_monotone (c : ExpirableCredential) (t t' : U64) (hle : t' ≤ t) (h : c.verify t = .ok ()) :
    c.verify t' = .ok () := by
  rw [C37_verify_any] at h ⊢
  exact ⟨le_trans hle h.1, h.2⟩

/-- A credential with the same signature and issuer but another expiry, holder or attribute list verifies only
if the signature scheme accepts the same signature for two different messages, which are these. -/
theorem C37_tamper (c c' : ExpirableCredential) (t t' : U64) (hcred : c'.cred = c.cred)
    (hpk : c'.creator_pk = c.creator_pk)
    (hdiff : c'.expiry ≠ c.expiry ∨ c'.user_addr ≠ c.user_addr ∨ c'.attrs ≠ c.attrs)
    (h : c.verify t = .ok ()) (h' : c'.verify t' = .ok ()) :
    ∃ m m' : List F, m = ExpirableCredential.msg c.expiry c.user_addr c.attrs ∧
      m' = ExpirableCredential.msg c'.expiry c'.user_addr c'.attrs ∧ m ≠ m' ∧
      E.schnorrVerify (E.xy c.creator_pk) m c.cred = true ∧
      E.schnorrVerify (E.xy c.creator_pk) m' c.cred = true := by
  refine ⟨_, _, rfl, rfl, ?_, ((C37_verify_any c t).1 h).2, ?_⟩
  · intro he
    simp only [ExpirableCredential.msg, List.cons_append, List.nil_append, List.cons.injEq] at he
    obtain ⟨h1, h2, h3, h4⟩ := he
    rcases hdiff with hd | hd | hd
    · exact hd (u64_inj h1).symm
    · exact hd (pt_xy_inj h2 h3).symm
    · exact hd h4.symm
  · have := ((C37_verify_any c' t').1 h').2
    rwa [hcred, hpk] at this

end Cap

/-! Non-vacuity -/

namespace Cap.Examples
open Toy

/-- a credential for the examples -/
def cred1 : ExpirableCredential :=
  { user_addr := smulFr (3 : Fr) Toy.E.gen, attrs := [1, 2, 3, 4, 5, 6, 7, 8], expiry := 100,
    cred := Toy.E.schnorrSign 6 (ExpirableCredential.msg 100 (smulFr (3 : Fr) Toy.E.gen) [1, 2, 3, 4, 5, 6, 7, 8]),
    creator_pk := smulFr (6 : Fr) Toy.E.gen }

example : ExpirableCredential.create (smulFr (3 : Fr) Toy.E.gen) [1, 2, 3, 4, 5, 6, 7, 8] 100 6 = .ok cred1 := rfl
example : cred1.verify 100 = .ok () ∧ cred1.verify 101 = .error .failedCredentialVerification := by decide +kernel
example : { cred1 with expiry := 200 }.verify 150 = .error .failedCredentialVerification := by decide +kernel

end Cap.Examples
