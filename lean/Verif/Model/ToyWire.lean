/-
An instance of `WireEnv` for the toy instantiation, to show that its laws can be met.
-/
import Verif.Lemmas.Wire
import Verif.Model.ToyNotes

namespace Cap.Toy

/-- reading a byte string written by `encList` -/
def decList : List Byte → Except SerErr (List Byte × List Byte)
  | [] => .error .io
  | t :: bs =>
    if t = 0 then .ok ([], bs)
    else if t = 1 then
      match bs with
      | [] => .error .io
      | b :: bs => match decList bs with
        | .ok (l, rest) => .ok (b :: l, rest)
        | .error e => .error e
    else .error .invalidData

theorem decList_encList : ∀ l rest, decList (encList l ++ rest) = .ok (l, rest)
  | [], rest => by rw [encList, List.cons_append, decList.eq_def]; rfl
  | b :: l, rest => by
    rw [encList, List.cons_append, List.cons_append, decList]
    simp [decList_encList l rest]

theorem decList_exact : ∀ bs l rest, decList bs = .ok (l, rest) → bs = encList l ++ rest
  | [], l, rest, h => by cases h
  | [t], l, rest, h => by
    rw [decList] at h
    split at h
    · rename_i ht
      cases h
      rw [ht]
      rfl
    · split at h <;> cases h
  | t :: b :: bs, l, rest, h => by
    rw [decList] at h
    split at h
    · rename_i ht
      cases h
      rw [ht]
      rfl
    · split at h
      · rename_i ht
        cases hd : decList bs with
        | error e => rw [hd] at h; cases h
        | ok x =>
          rw [hd] at h
          cases h
          rw [ht, decList_exact bs x.1 x.2 hd]
          rfl
      · cases h

/-- reading a point written by the toy `verKeyBytes` -/
def readPt (b : List Byte) : Option (ZMod r) :=
  if b.length = 32 ∧ ofLe b < r then some (ofLe b : ZMod r) else none

/-- the toy encodings: proofs are written with a mark before each byte, signatures are field elements, AEAD keys are bytes,
and the digest of a byte string is its value modulo p -/
scoped instance W : WireEnv where
  ptRead := readPt
  ptRead_bytes := fun P => by
    have hlt : P.val < 256 ^ 32 := lt_trans P.val_lt (by decide +kernel)
    show readPt (leBytes 32 P.val) = some P
    unfold readPt
    rw [leBytes_length, ofLe_leBytes _ _ hlt, if_pos ⟨rfl, P.val_lt⟩, ZMod.natCast_zmod_val]
  proof := ⟨encList, decList⟩
  proof_round_trip := decList_encList
  proof_more := fun bs x rest t h => by
    have : decList bs = .ok (x, rest) := h
    show decList (bs ++ t) = _
    rw [decList_exact _ _ _ this, List.append_assoc]
    exact decList_encList x (rest ++ t)
  sig := fieldFormat
  sig_round_trip := fun x rest => field_good.round x rest trivial
  sig_more := field_good.more
  encKey := byteFormat
  encKey_round_trip := fun x rest => byte_good.round x rest trivial
  encKey_more := byte_good.more
  Digest := ZMod p
  txnDigest := fun bs => (ofLe bs : ZMod p)

/-- The toy point decoder accepts only encodings. -/
theorem pt_exact_toy : PtExact := by
  intro b P h
  have h : readPt b = some P := h
  show b = leBytes 32 P.val
  unfold readPt at h
  split at h
  · rename_i hb
    cases h
    rw [ZMod.val_natCast_of_lt hb.2, ← hb.1, leBytes_ofLe]
  · cases h

end Cap.Toy
