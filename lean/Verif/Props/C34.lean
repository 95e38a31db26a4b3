/-
C34: domestic and foreign asset codes are separated.

status: proved
note: Collisions are named: the two colliding preimages are given explicitly. C34_published pins the two preimages: the ASCII texts DOMESTIC_ASSET and FOREIGN_ASSET and 32 little-endian bytes.
-/
import Verif.Lemmas.Basic
import Verif.Model.Toy
import Verif.Spec

namespace Cap

variable [E : CapEnv]

open Spec

theorem fToBytes_inj {a b : F} (h : fToBytes a = fToBytes b) : a = b := by
  have hlt : ∀ x : F, x.val < 256 ^ SCALAR_REPR_BYTE_LEN := fun x =>
    lt_trans x.val_lt (lt_of_lt_of_le E.p_lt (by norm_num [SCALAR_REPR_BYTE_LEN]))
  exact ZMod.val_injective _ (leBytes_inj (hlt a) (hlt b) h)

theorem leBytes_eq_map (n x : ℕ) : leBytes n x = (List.range n).map (fun k => UInt8.ofNat (x / 256 ^ k % 256)) := by
  induction n generalizing x with
  | zero => rfl
  | succ n ih =>
    rw [List.range_succ_eq_map, List.map_cons, List.map_map]
    simp only [leBytes, pow_zero, Nat.div_one, ih, List.cons.injEq, true_and]
    refine List.map_congr_left (fun k _ => ?_)
    simp only [Function.comp, Nat.pow_succ', Nat.div_div_eq_div_mul]

/-- The byte string that is hashed into the domestic code of an internal code. -/
def domesticPreimage (internal : F) : List Byte := DOM_SEP_DOMESTIC ++ fToBytes internal
/-- The byte string that is hashed into a foreign code. -/
def foreignPreimage (desc : List Byte) : List Byte := DOM_SEP_FOREIGN ++ desc

/-- A domestic and a foreign asset with the same code are a collision of Keccak-then-reduce on their two
preimages. -/
theorem C34_domestic_foreign (internal : F) (desc : List Byte)
    (h : domesticFromInternal internal = newForeign desc) :
    Collides E.keccakField (domesticPreimage internal) (foreignPreimage desc) :=
  ⟨by simp [domesticPreimage, foreignPreimage, DOM_SEP_DOMESTIC, DOM_SEP_FOREIGN], h⟩

/-- Two domestic codes from different internal codes. -/
theorem C34_domestic_domestic (i j : F) (hne : i ≠ j) (h : domesticFromInternal i = domesticFromInternal j) :
    Collides E.keccakField (domesticPreimage i) (domesticPreimage j) :=
  ⟨fun he => hne (fToBytes_inj (List.append_cancel_left he)), h⟩

/-- Two foreign codes from different descriptions. -/
theorem C34_foreign_foreign (d d' : List Byte) (hne : d ≠ d') (h : newForeign d = newForeign d') :
    Collides E.keccakField (foreignPreimage d) (foreignPreimage d') :=
  ⟨fun he => hne (List.append_cancel_left he), h⟩

/-- Two domestic codes made from seeds and descriptions: either Keccak collides, or the pseudorandom
function does, or the description digest does - each on the named inputs. -/
theorem C34_new_domestic (s s' : F) (d d' : List Byte) (hne : s ≠ s' ∨ d ≠ d')
    (h : newDomestic s d = newDomestic s' d') :
    Collides E.keccakField (domesticPreimage (internalCodeOfDesc s d)) (domesticPreimage (internalCodeOfDesc s' d')) ∨
    Collides (fun x : F × F => E.prf x.1 [x.2]) (s, E.descDigest d) (s', E.descDigest d') ∨
    Collides E.descDigest d d' := by
  by_cases h1 : internalCodeOfDesc s d = internalCodeOfDesc s' d'
  · right
    by_cases h2 : (s, E.descDigest d) = (s', E.descDigest d')
    · right
      simp only [Prod.mk.injEq] at h2
      exact ⟨hne.resolve_left (fun h => h h2.1), h2.2⟩
    · exact .inl ⟨h2, h1⟩
  · exact .inl (C34_domestic_domestic _ _ h1 h)

/-- `verify_domestic` and `verify_foreign` accept exactly the derived code. -/
theorem C34_verify (code : AssetCode) (internal : F) (desc : List Byte) :
    (verifyDomestic code internal = .ok () ↔ code = E.keccakField (domesticPreimage internal)) ∧
    (verifyForeign code desc = .ok () ↔ code = E.keccakField (foreignPreimage desc)) := by
  unfold verifyDomestic verifyForeign
  constructor
  · split
    · rename_i h; exact ⟨fun _ => h.symm, fun _ => rfl⟩
    · rename_i h; exact ⟨fun h' => (by cases h'), fun h' => absurd h'.symm h⟩
  · split
    · rename_i h; exact ⟨fun _ => h.symm, fun _ => rfl⟩
    · rename_i h; exact ⟨fun h' => (by cases h'), fun h' => absurd h'.symm h⟩

/-- What the API derives verifies. -/
theorem C34_derived_verifies (seed : F) (desc : List Byte) :
    verifyDomestic (newDomestic seed desc) (internalCodeOfDesc seed desc) = .ok () ∧
    verifyForeign (newForeign desc) desc = .ok () :=
  ⟨(C34_verify _ _ []).1.2 rfl, (C34_verify _ 0 _).2.2 rfl⟩

/-- A domestic code never verifies as foreign unless Keccak collides on the two preimages. -/
theorem C34_no_cross_verify (code : AssetCode) (internal : F) (desc : List Byte)
    (h : verifyDomestic code internal = .ok ()) (h' : verifyForeign code desc = .ok ()) :
    Collides E.keccakField (domesticPreimage internal) (foreignPreimage desc) := by
  have h1 := (C34_verify code internal desc).1.1 h
  have h2 := (C34_verify code internal desc).2.1 h'
  exact C34_domestic_foreign internal desc (h1.symm.trans h2)

/-- The codes are Keccak-then-reduce of the published strings: the ASCII text `DOMESTIC_ASSET` followed by the 32
little-endian bytes of the internal code, and the ASCII text `FOREIGN_ASSET` followed by the description.  So a code
recorded today is found again by every other implementation of the published formula. -/
theorem C34_published (seed internal : F) (desc : List Byte) :
    domesticFromInternal internal = E.keccakField ("DOMESTIC_ASSET".toList.map (fun c => UInt8.ofNat c.toNat) ++
      (List.range 32).map (fun k => UInt8.ofNat (internal.val / 256 ^ k % 256))) ∧
    newForeign desc = E.keccakField ("FOREIGN_ASSET".toList.map (fun c => UInt8.ofNat c.toNat) ++ desc) ∧
    newDomestic seed desc = domesticFromInternal (E.prf seed [E.descDigest desc]) := by
  have h1 : DOM_SEP_DOMESTIC = "DOMESTIC_ASSET".toList.map (fun c => UInt8.ofNat c.toNat) := by decide +kernel
  have h2 : DOM_SEP_FOREIGN = "FOREIGN_ASSET".toList.map (fun c => UInt8.ofNat c.toNat) := by decide +kernel
  refine ⟨?_, ?_, rfl⟩
  · rw [← h1]
    unfold domesticFromInternal fToBytes
    rw [leBytes_eq_map]
    rfl
  · rw [← h2]
    rfl

end Cap

/-! Non-vacuity: the hypotheses of the collision theorems can only be met where the hash collides; the toy
hash (a little-endian number modulo `p`) does collide, and here is a case. -/

namespace Cap.Examples
open Toy

example : ∃ d d' : List Byte, d ≠ d' ∧ newForeign d = newForeign d' := by
  exact ⟨[1], [1, 0], by decide, by decide +kernel⟩
example : ∃ d : List Byte, ∃ i : F, domesticFromInternal i = newForeign d := by
  -- the description is chosen to make the two numbers equal modulo `p`
  refine ⟨leBytes 33 (((ofLe (DOM_SEP_DOMESTIC ++ fToBytes (7 : F)) : ℤ) - (ofLe DOM_SEP_FOREIGN : ℤ)) *
    ((ZMod.inv p (256 ^ 13 : ZMod p)).val : ℤ) % (p : ℤ)).toNat, 7, ?_⟩
  decide +kernel
example : verifyDomestic (newDomestic (3 : F) [1, 2]) (internalCodeOfDesc 3 [1, 2]) = .ok () := by decide +kernel
example : verifyForeign (4 : F) [1, 2] ≠ .ok () := by decide +kernel

example : newForeign [7] = E.keccakField [70, 79, 82, 69, 73, 71, 78, 95, 65, 83, 83, 69, 84, 7] ∧
    newForeign [7] ≠ E.keccakField [7] := by decide +kernel

end Cap.Examples
