/-
C31: identity attributes round-trip; reading one back can panic.

status: partial
note: The last clause is false: C31_value_panics gives an attribute on which value() panics in a debug build, and C31_decrypted_panics shows it in the viewer's hands: if a credential of a spent record carries such an attribute and the policy reveals it, the viewer of the transfer note made by the library is given this attribute. C31_value_total_partial proves totality for attributes made by new. C31_ambiguous: value() does not look at the padding, so two different attributes have the same value. The other clauses are proved in full.
-/
import Verif.Lemmas.Basic
import Verif.Model.Toy
import Verif.Props.C14

namespace Cap

variable [E : CapEnv]

/-- The bytes of the field element `IdentityAttribute::new` makes. -/
theorem attr_bytes (v : List Byte) (h1 : v ≠ []) (h2 : v.length ≤ 30) :
    ∃ a, IdentityAttribute.new v = .ok a ∧
      fToBytes a = v ++ List.replicate (31 - v.length) (UInt8.ofNat (32 - v.length)) ++ [0] := by
  have hlen : (v ++ List.replicate (31 - v.length) (UInt8.ofNat (32 - v.length))).length = 31 := by
    simp; omega
  have hlt := ofLe_lt (v ++ List.replicate (31 - v.length) (UInt8.ofNat (32 - v.length)))
  rw [hlen] at hlt
  have hlt' : ofLe (v ++ List.replicate (31 - v.length) (UInt8.ofNat (32 - v.length))) < 2 ^ 252 :=
    lt_of_lt_of_le hlt (by norm_num)
  refine ⟨fFromBytesMod (v ++ List.replicate (31 - v.length) (UInt8.ofNat (32 - v.length))), ?_, ?_⟩
  · unfold IdentityAttribute.new
    rw [if_neg (by simp [PER_ATTR_BYTE_CAPACITY, h1]; exact h2)]
    rfl
  · unfold fToBytes fFromBytesMod
    rw [natF_val hlt', show SCALAR_REPR_BYTE_LEN = 31 + 1 from rfl, leBytes_add, Nat.div_eq_of_lt hlt]
    have := leBytes_ofLe (v ++ List.replicate (31 - v.length) (UInt8.ofNat (32 - v.length)))
    rw [hlen] at this
    rw [this]
    rfl

/-- `new` accepts exactly the byte strings of 1 to 30 bytes, and refuses others with an error. -/
theorem C31_new_accepts (v : List Byte) :
    ((∃ a, IdentityAttribute.new v = .ok a) ↔ 1 ≤ v.length ∧ v.length ≤ 30) ∧
      ((∀ a, IdentityAttribute.new v ≠ .ok a) → IdentityAttribute.new v = .error .invalidParameter) := by
  constructor
  · constructor
    · rintro ⟨a, h⟩
      unfold IdentityAttribute.new at h
      split at h
      · cases h
      · rename_i hc
        simp only [PER_ATTR_BYTE_CAPACITY, not_or, not_lt] at hc
        have := List.length_pos_iff.2 hc.2
        omega
    · rintro ⟨h1, h2⟩
      obtain ⟨a, ha, -⟩ := attr_bytes v (by rintro rfl; simp at h1) h2
      exact ⟨a, ha⟩
  · intro h
    unfold IdentityAttribute.new at h ⊢
    split
    · rfl
    · rename_i hc
      rw [if_neg hc] at h
      exact absurd rfl (h _)

/-- `value()` gives back the bytes `new` was given, in debug and in release builds. -/
theorem C31_round_trip (v : List Byte) (a : IdentityAttribute) (h : IdentityAttribute.new v = .ok a) :
    IdentityAttribute.value a = .ok v ∧ IdentityAttribute.valueRelease a = .ok v := by
  obtain ⟨h1, h2⟩ := (C31_new_accepts v).1.1 ⟨a, h⟩
  obtain ⟨a', ha', hb⟩ := attr_bytes v (by rintro rfl; simp at h1) h2
  have : a = a' := by rw [h] at ha'; exact Except.ok.inj ha'
  subst this
  have h31 : (fToBytes a)[31]? = some 0 := by
    rw [hb, List.getElem?_append_right (by simp; omega)]
    have : 31 - (v ++ List.replicate (31 - v.length) (UInt8.ofNat (32 - v.length))).length = 0 := by simp; omega
    rw [this]; rfl
  have h30 : (fToBytes a)[30]? = some (UInt8.ofNat (32 - v.length)) := by
    rw [hb, List.getElem?_append_left (by simp; omega), List.getElem?_append_right (by omega),
      List.getElem?_replicate, if_pos (by omega)]
  have hn : (UInt8.ofNat (32 - v.length)).toNat = 32 - v.length := by
    simp only [UInt8.toNat_ofNat']
    exact Nat.mod_eq_of_lt (by omega)
  have htake : (fToBytes a).take v.length = v := by
    rw [hb, List.append_assoc, List.take_left' rfl]
  constructor
  · unfold IdentityAttribute.value
    simp only [h31, h30, hn, SCALAR_REPR_BYTE_LEN, ne_eq, not_true_eq_false, if_false]
    rw [if_neg (by omega), show 32 - (32 - v.length) = v.length by omega, htake]
  · unfold IdentityAttribute.valueRelease
    simp only [h31, h30, hn, SCALAR_REPR_BYTE_LEN, ne_eq, not_true_eq_false, if_false]
    rw [show (32 + 2 ^ 64 - (32 - v.length)) % 2 ^ 64 = v.length by omega, htake]

/-- Distinct strings give distinct attributes. -/
theorem C31_injective (v v' : List Byte) (a : IdentityAttribute)
    (h : IdentityAttribute.new v = .ok a) (h' : IdentityAttribute.new v' = .ok a) : v = v' := by
  have h1 := (C31_round_trip v a h).1
  rw [(C31_round_trip v' a h').1] at h1
  exact (Except.ok.inj h1).symm

/-- The last clause of C31 is false: there is an attribute value (a field element a viewer can decrypt) on
which `value()` panics in a debug build.  For every environment. -/
theorem C31_value_panics : ∃ a : IdentityAttribute, IdentityAttribute.value a = .error .panic := by
  refine ⟨((33 * 256 ^ 30 : ℕ) : F), ?_⟩
  have hb : fToBytes (((33 * 256 ^ 30 : ℕ) : F)) = List.replicate 30 0 ++ [33, 0] := by
    unfold fToBytes
    rw [natF_val (by norm_num)]
    decide +kernel
  unfold IdentityAttribute.value
  rw [hb]
  decide +kernel

/-- What holds instead of the last clause: `value()` panics exactly when the last byte is zero and the padding
byte exceeds 32; in particular never on a value made by `new` (`C31_round_trip`), and never in a release build. -/
theorem C31_value_total_partial (a : IdentityAttribute) :
    (IdentityAttribute.value a = .error .panic ↔
      a.val / 256 ^ 31 % 256 = 0 ∧ 32 < a.val / 256 ^ 30 % 256) ∧
      IdentityAttribute.valueRelease a ≠ .error .panic := by
  have h30 : (fToBytes a)[30]? = some (UInt8.ofNat (a.val / 256 ^ 30 % 256)) := by
    unfold fToBytes
    rw [show SCALAR_REPR_BYTE_LEN = 30 + 2 from rfl, leBytes_add,
      List.getElem?_append_right (by rw [leBytes_length]), leBytes_length]
    simp [leBytes]
  have h31 : (fToBytes a)[31]? = some (UInt8.ofNat (a.val / 256 ^ 31 % 256)) := by
    unfold fToBytes
    rw [show SCALAR_REPR_BYTE_LEN = 31 + 1 from rfl, leBytes_add,
      List.getElem?_append_right (by rw [leBytes_length]), leBytes_length]
    simp [leBytes]
  have hz : ∀ n : ℕ, UInt8.ofNat (n % 256) = 0 ↔ n % 256 = 0 := by
    intro n
    rw [← UInt8.toNat_inj]
    simp
  have hn : (UInt8.ofNat (a.val / 256 ^ 30 % 256)).toNat = a.val / 256 ^ 30 % 256 := by simp
  constructor
  · unfold IdentityAttribute.value
    simp only [h30, h31, ne_eq, Option.some.injEq, hz, hn, SCALAR_REPR_BYTE_LEN]
    split
    · rename_i h
      exact ⟨fun h' => (by cases h'), fun h' => absurd h'.1 h⟩
    · rename_i h
      simp only [not_not] at h
      split
      · rename_i h2
        exact ⟨fun _ => ⟨h, h2⟩, fun _ => rfl⟩
      · rename_i h2
        exact ⟨fun h' => (by cases h'), fun h' => absurd h'.2 h2⟩
  · unfold IdentityAttribute.valueRelease
    simp only [h30, h31]
    split <;> simp

/-- **A viewer can be given such an attribute.**  `ExpirableCredential::create` and `TransferNote::generate` never look
at the bytes of an attribute: whatever credential of a spent record has an attribute with zero as last byte and a padding
byte above 32, in a transfer over the threshold of a policy that reveals it, the viewer who opens the memo of the note is
given this attribute, and reading its value panics in a debug build. -/
theorem C31_decrypted_panics [S : CapExt] {b b' : Build} {rng : TransferRand} {inputs : List TransferNoteInput}
    {outputs : List RecordOpening} {pk : TransferProvingKey} {valid_until : U64} {extra : List Byte}
    {n : TransferNote} {sk : Fr} (gen : TransferNote.generate b rng inputs outputs pk valid_until extra = .ok (n, sk))
    (hi : inputs.length < 2 ^ 64) (ho : outputs.length < 2 ^ 64) {ad : AssetDefinition} (moves : Spec.Moves ad inputs)
    (some_out : outputs.tail ≠ []) (over : ad.policy.reveal_threshold.val < Spec.moved inputs)
    (agree : ad.policy.reveal_map[0] = ad.policy.reveal_map[1])
    (owned : ad.policy.reveal_map[0] = true → ∀ i ∈ inputs.tail, i.ro.asset_def ≠ AssetDefinition.dummy →
      i.ro.pub_key.address ≠ 0)
    {k : ViewerKeyPair} (viewer : k.pubKey = ad.policy.viewer_pk) (named : ad.policy.viewer_pk ≠ 0)
    {i : TransferNoteInput} (spent : i ∈ inputs.tail) (real : i.ro.asset_def ≠ AssetDefinition.dummy)
    (issuer : i.ro.asset_def.policy.cred_pk ≠ 0) {c : ExpirableCredential} (cred : i.cred = some c)
    {j : ℕ} (hj : j < 8) {a : IdentityAttribute} (attr : c.attrs[j]? = some a)
    (revealed : ad.policy.reveal_map[4 + j] = true)
    (last : a.val / 256 ^ 31 % 256 = 0) (padding : 32 < a.val / 256 ^ 30 % 256) :
    ∃ ins outs v, k.openTransferViewingMemo b' ad n = .ok (ins, outs) ∧ v ∈ ins ∧ v.attributes[j]? = some (some a) ∧
      IdentityAttribute.value a = .error .panic := by
  refine ⟨_, _, Spec.viewInput ad i.ro (Spec.attrsOf i),
    C14_seen gen hi ho moves some_out over agree owned viewer named, ?_, ?_,
    (C31_value_total_partial a).1.2 ⟨last, padding⟩⟩
  · exact List.mem_map.2 ⟨i, List.mem_filter.2 ⟨spent, by simpa using real⟩, rfl⟩
  · have ha : Spec.attrsOf i = c.attrs := by
      unfold Spec.attrsOf
      rw [if_neg issuer, cred]
    have hm : (ad.policy.reveal_map.toList.drop 4)[j]? = some true := by
      rw [List.getElem?_drop, List.getElem?_eq_getElem (by simp; omega)]
      simpa using revealed
    show (List.zipWith (fun b a => if b then some a else none) (ad.policy.reveal_map.toList.drop 4)
      (Spec.attrsOf i))[j]? = _
    rw [List.getElem?_zipWith, hm, ha, attr]
    rfl

/-- Reading an attribute back does not look at the padding: two different attributes have the same value, in both
builds.  (Only one of them is made by `new`.) -/
theorem C31_ambiguous : ∃ a a' : IdentityAttribute, a ≠ a' ∧ IdentityAttribute.value a = .ok [77] ∧
    IdentityAttribute.value a' = .ok [77] ∧ IdentityAttribute.valueRelease a = .ok [77] ∧
    IdentityAttribute.valueRelease a' = .ok [77] ∧ IdentityAttribute.new [77] = .ok a ∧
    ∀ v, IdentityAttribute.new v ≠ .ok a' := by
  obtain ⟨a, ha, -⟩ := attr_bytes [77] (by simp) (by simp)
  have hb : fToBytes (((77 + 31 * 256 ^ 30 : ℕ) : F)) = 77 :: List.replicate 29 0 ++ [31, 0] := by
    unfold fToBytes
    rw [natF_val (by norm_num)]
    decide +kernel
  have hv : IdentityAttribute.value (((77 + 31 * 256 ^ 30 : ℕ) : F)) = .ok [77] := by
    unfold IdentityAttribute.value
    rw [hb]
    decide +kernel
  have hr : IdentityAttribute.valueRelease (((77 + 31 * 256 ^ 30 : ℕ) : F)) = .ok [77] := by
    unfold IdentityAttribute.valueRelease
    rw [hb]
    decide +kernel
  have hn : ∀ v, IdentityAttribute.new v ≠ .ok (((77 + 31 * 256 ^ 30 : ℕ) : F)) := by
    intro v h
    have h1 := (C31_round_trip v _ h).1
    rw [hv] at h1
    obtain rfl := (Except.ok.inj h1).symm
    obtain ⟨a', ha', hb'⟩ := attr_bytes [77] (by simp) (by simp)
    rw [h] at ha'
    obtain rfl := (Except.ok.inj ha').symm
    rw [hb] at hb'
    revert hb'
    decide +kernel
  exact ⟨a, _, fun h => hn [77] (ha.trans (congrArg _ h)), (C31_round_trip _ _ ha).1, hv, (C31_round_trip _ _ ha).2, hr, ha, hn⟩

end Cap

/-! Non-vacuity -/

namespace Cap.Examples
open Toy Spec

example : ∃ a, IdentityAttribute.new [77, 97, 114] = .ok a ∧ IdentityAttribute.value a = .ok [77, 97, 114] := by
  refine ⟨(ofLe ([77, 97, 114] ++ List.replicate 28 29) : F), ?_, ?_⟩ <;> decide +kernel
example : IdentityAttribute.new (List.replicate 31 1) = .error .invalidParameter := by decide +kernel

/-- a credential of Alice whose second attribute, which the policy reveals, cannot be read -/
def attrs31 : List IdentityAttribute := [1, ((33 * 256 ^ 30 : ℕ) : F), 3, 4, 5, 6, 7, 8]

/-- see above -/
def cred31 : ExpirableCredential :=
  { user_addr := alice.address, attrs := attrs31, expiry := 950,
    cred := E.schnorrSign issuer (ExpirableCredential.msg 950 alice.address attrs31), creator_pk := smulFr issuer E.gen }

/-- the example transfer with this credential -/
def inputs31 : List TransferNoteInput :=
  [⟨feeRec, acc0, alice, none⟩, ⟨assetRec, acc1, alice, some cred31⟩, ⟨dummyRec, accDummy, bob, none⟩]

/-- the library makes the credential, and the transfer -/
theorem made31 : ExpirableCredential.create alice.address attrs31 950 issuer = .ok cred31 ∧
    isOk (TransferNote.generate .debug rng inputs31 xfrOutputs xfrPk 900 []) = true := by
  constructor
  · rfl
  · decide +kernel

/-- the viewer of the example is given an attribute that cannot be read -/
example : ∃ n sk ins outs v a, TransferNote.generate .debug rng inputs31 xfrOutputs xfrPk 900 [] = .ok (n, sk) ∧
    viewer.openTransferViewingMemo .debug asset n = .ok (ins, outs) ∧ v ∈ ins ∧ v.attributes[1]? = some (some a) ∧
      IdentityAttribute.value a = .error .panic := by
  obtain ⟨ins, outs, v, h⟩ := C31_decrypted_panics (b' := .debug) (ad := asset) (k := viewer) (j := 1)
    (okVal_eq _ made31.2) (by decide) (by decide)
    ⟨by decide +kernel, ⟨assetRec, acc1, alice, some cred31⟩, by simp [inputs31], rfl⟩ (by decide) (by decide +kernel)
    (by decide +kernel) (by decide +kernel) rfl (by decide +kernel)
    (i := ⟨assetRec, acc1, alice, some cred31⟩) (by simp [inputs31]) (by decide +kernel) (by decide +kernel) rfl
    (by decide) (a := ((33 * 256 ^ 30 : ℕ) : F)) rfl (by decide +kernel) (by decide +kernel) (by decide +kernel)
  exact ⟨_, _, ins, outs, v, _, okVal_eq _ made31.2, h⟩

end Cap.Examples
