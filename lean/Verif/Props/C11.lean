/-
C11: a record commitment binds everything in the record.

status: proved
note: C11_binds: equal commitments mean equal amount, code, owner address, policy, flag and blinding factor, or the commitment function collides on the two named inputs. The collision is never an artefact of the packing of the twelve scalars: C11_exact says that the committed scalars and the blinding factor are equal exactly when these fields are (in particular 2*map + flag is decoded uniquely and points by their coordinates). C11_enc_key delimits the claim: the owner's encryption key is not bound.
-/
import Verif.Lemmas.Accepted
import Verif.Lemmas.Opened

namespace Cap

open Spec

variable [E : CapEnv]

/-- **Exactness of the packing.**  Two openings have the same committed scalars and blinding factor if and only if they
agree on every field except the owner's encryption key. -/
theorem C11_exact (a b : RecordOpening) :
    (a.scalars, a.blind) = (b.scalars, b.blind) ↔
      a.amount = b.amount ∧ a.asset_def.code = b.asset_def.code ∧ a.pub_key.address = b.pub_key.address ∧
        a.asset_def.policy = b.asset_def.policy ∧ a.freeze_flag = b.freeze_flag ∧ a.blind = b.blind := by
  rw [Prod.mk.injEq]
  constructor
  · intro h
    have hr : Reads a b.toV := ⟨h.1.trans b.toV_scalars.symm, h.2⟩
    have hm : b.toV.policy.reveal_map.val < 2 ^ 12 := by
      show (RevealMap.toScalar _).val < _
      rw [RevealMap.toScalar_val]
      exact RevealMap.toNat_lt _
    have e := reads_small hr hm
    simp only [RecordOpening.toV, RecordV.mk.injEq] at e
    obtain ⟨e1, e2, e3, e4, e5, e6⟩ := e
    refine ⟨(Amount.toF_inj e1).symm, e2.symm, (xy_inj e3).symm, (AssetPolicy.toV_inj e4).symm, ?_, e6.symm⟩
    cases ha : a.freeze_flag <;> cases hb : b.freeze_flag <;> simp [ha, hb, FreezeFlag.toBool] at e5 ⊢
  · rintro ⟨h1, h2, h3, h4, h5, h6⟩
    refine ⟨?_, h6⟩
    unfold RecordOpening.scalars
    rw [h1, h2, h3, h4, h5]

/-- **Binding.**  Equal commitments: equal fields, or the commitment function collides on the two openings. -/
theorem C11_binds (a b : RecordOpening) (h : a.commitment = b.commitment) :
    (a.amount = b.amount ∧ a.asset_def = b.asset_def ∧ a.pub_key.address = b.pub_key.address ∧
        a.freeze_flag = b.freeze_flag ∧ a.blind = b.blind) ∨
      Collides commitOf (a.scalars, a.blind) (b.scalars, b.blind) := by
  by_cases he : (a.scalars, a.blind) = (b.scalars, b.blind)
  · obtain ⟨h1, h2, h3, h4, h5, h6⟩ := (C11_exact a b).1 he
    refine Or.inl ⟨h1, ?_, h3, h5, h6⟩
    rcases ha : a.asset_def with ⟨ca, pa⟩
    rcases hb : b.asset_def with ⟨cb, pb⟩
    rw [ha, hb] at h2 h4
    simp only at h2 h4
    rw [h2, h4]
  · exact Or.inr ⟨he, h⟩

/-- **Circuit.**  A record of a circuit with a 12-bit reveal map that has the commitment of a host record is that
record, or the commitment function collides on the two openings. -/
theorem C11_circuit (a : RecordOpening) (v : RecordV) (hm : v.policy.reveal_map.val < 2 ^ 12)
    (h : a.commitment = v.commitment) :
    v = a.toV ∨ Collides commitOf (a.scalars, a.blind) (v.scalars, v.blind) :=
  (reads_or_collides h).imp_left fun hr => reads_small hr hm

/-- **What is not bound.**  The owner's encryption key can be exchanged without changing the commitment. -/
theorem C11_enc_key (a : RecordOpening) (k : E.AeadPk) :
    { a with pub_key := ⟨a.pub_key.address, k⟩ }.commitment = a.commitment := rfl

end Cap

namespace Cap.Examples
open Toy Spec

/-- a record opening that differs from another one only in its freeze flag -/
def frozenTwin : RecordOpening := { assetRec with freeze_flag := .frozen }

/-- the toy commitment function tells records apart that differ in amount or flag -/
example : outBob.commitment ≠ outAlice.commitment ∧ frozenTwin.commitment ≠ assetRec.commitment := by
  constructor <;> decide +kernel
/-- openings with another encryption key meet the hypothesis of `C11_binds` without being equal -/
example : ∃ b : RecordOpening, b ≠ assetRec ∧ b.commitment = assetRec.commitment :=
  ⟨{ assetRec with pub_key := ⟨assetRec.pub_key.address, E.aeadPk (200 : UInt8)⟩ }, by decide +kernel, rfl⟩

end Cap.Examples
