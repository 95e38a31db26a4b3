/-
C28: reveal maps encode faithfully.

status: proved
note: Round trip with any trailing bytes, exact acceptance of encodings, rejection of other lengths, scalar encoding injective and below 2^12.
-/
import Verif.Lemmas.RevealMap
import Verif.Model.Toy

namespace Cap

/-- Serialization round-trips, whatever follows in the stream. -/
theorem C28_round_trip (m : RevealMap) (rest : List Byte) :
    RevealMap.deserialize (m.serialize ++ rest) = .ok (m, rest) := by
  have hmap : ∀ l : List Bool, (l.map (fun b => if b then (1 : Byte) else 0)).mapM RevealMap.byteToBool = .ok l := by
    intro l
    induction l with
    | nil => rfl
    | cons b bs ih =>
      rw [List.map_cons, List.mapM_cons, ih]
      cases b <;> rfl
  unfold RevealMap.serialize RevealMap.deserialize
  rw [List.append_assoc, readExact_append (leBytes_length _ _)]
  simp only [bind, Except.bind]
  rw [ofLe_leBytes _ _ (by decide), if_neg (by simp), readExact_append (by simp [VIEWABLE_DATA_LEN, REVEAL_MAP_LEN, ATTRS_LEN])]
  simp only [hmap]
  rw [dif_pos (by simp)]
  simp [Vector.toList]

/-- Deserialization accepts nothing but serialized maps: every other length prefix, every non-boolean byte
and every truncated input is rejected. -/
theorem C28_accepts_only_encodings (bs rest : List Byte) (m : RevealMap)
    (h : RevealMap.deserialize bs = .ok (m, rest)) : bs = m.serialize ++ rest := by
  have hmap : ∀ (l : List Byte) (r : List Bool), l.mapM RevealMap.byteToBool = .ok r →
      l = r.map (fun b => if b then (1 : Byte) else 0) := by
    intro l
    induction l with
    | nil => intro r h; cases h; rfl
    | cons b bs ih =>
      intro r h
      rw [List.mapM_cons, ser_bind_ok_iff] at h
      obtain ⟨x, hx, h⟩ := h
      rw [ser_bind_ok_iff] at h
      obtain ⟨xs, hxs, h⟩ := h
      cases h
      rw [List.map_cons, ← ih xs hxs]
      unfold RevealMap.byteToBool at hx
      split at hx
      · rename_i h0; cases hx; rw [h0]; rfl
      · split at hx
        · rename_i h1; cases hx; rw [h1]; rfl
        · cases hx
  unfold RevealMap.deserialize at h
  rw [ser_bind_ok_iff] at h
  obtain ⟨⟨len, b1⟩, h1, h⟩ := h
  obtain ⟨hlen, rfl⟩ := readExact_ok h1
  simp only at h
  split at h
  · cases h
  · rename_i hl
    simp only [ne_eq, not_not] at hl
    rw [ser_bind_ok_iff] at h
    obtain ⟨⟨buf, b2⟩, h2, h⟩ := h
    obtain ⟨_, rfl⟩ := readExact_ok h2
    simp only at h
    rw [ser_bind_ok_iff] at h
    obtain ⟨bits, hb, h⟩ := h
    split at h
    · cases h
      unfold RevealMap.serialize
      rw [hmap _ _ hb, ← hl, ← hlen, leBytes_ofLe]
      simp
    · cases h

/-- A wrong length prefix is rejected, whatever follows. -/
theorem C28_rejects_wrong_length (n : ℕ) (hn : n < 2 ^ 64) (h : n ≠ 12) (body : List Byte) :
    RevealMap.deserialize (leBytes 8 n ++ body) = .error .invalidData := by
  unfold RevealMap.deserialize
  rw [readExact_append (leBytes_length _ _)]
  simp only [bind, Except.bind]
  rw [ofLe_leBytes _ _ (by simpa using hn), if_pos (by simpa [VIEWABLE_DATA_LEN, REVEAL_MAP_LEN, ATTRS_LEN] using h)]

/-- The scalar encoding is below `2^12` and injective, and entry `i` of the map is bit `11 - i` of it. -/
theorem C28_scalar [E : CapEnv] (m m' : RevealMap) :
    m.toScalar.val < 2 ^ 12 ∧ (m.toScalar = m'.toScalar → m = m') ∧
      ∀ (i : ℕ) (h : i < 12), m.toScalar.val.testBit (11 - i) = m[i] :=
  ⟨by rw [RevealMap.toScalar_val]; exact m.toNat_lt, RevealMap.toScalar_inj,
   fun i h => by rw [RevealMap.toScalar_val]; exact m.toNat_testBit i h⟩

/-! Non-vacuity -/

example : RevealMap.deserialize ([12, 0, 0, 0, 0, 0, 0, 0] ++ [1, 1, 0, 0, 1, 0, 0, 0, 0, 0, 0, 0] ++ [42])
    = .ok (#v[true, true, false, false, true, false, false, false, false, false, false, false], [42]) := by
  decide +kernel

example : RevealMap.deserialize ([12, 0, 0, 0, 0, 0, 0, 0] ++ [2, 1, 0, 0, 1, 0, 0, 0, 0, 0, 0, 0]) =
    .error .invalidData := by decide +kernel

open Toy in
example : RevealMap.toScalar #v[true, true, false, false, true, false, false, false, false, false, false, true]
    = (3201 : F) := by decide +kernel

end Cap
