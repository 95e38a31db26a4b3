/-
C81: the circuits that are built say exactly what the relations say, and their layout depends only on their size.

status: proved
note: C81_transfer, C81_mint, C81_freeze: the calls that the library makes to build a circuit succeed for every witness and public inputs of matching sizes, and every two of the same size give the same variables, gates and public variables, so a key made for one fits all; the gates hold for the values that were put in exactly when the relation holds of the witness; and values for the public variables can be completed to values for all variables that satisfy all gates exactly when some witness of this size satisfies the relation with these public inputs. The relations are those that C01-C80 are about. C81_memo: a mint whose memo does not have three ciphertexts is refused while the circuit is built. The gadgets of jf-relation and jf-primitives are taken as gates.
-/
import Verif.Lemmas.CircuitKeys
import Verif.Lemmas.Opened

namespace Cap

open Spec Plonk

variable [E : CapEnv]

/-- **Transfers.**  With at least one input and one output, and eight attributes in every credential. -/
theorem C81_transfer {n m d : ℕ} {w : TransferWit} {p : TransferPub} (hn : 0 < n) (hm : 0 < m)
    (shape : TransferShape n m d w p) (attrs : ∀ i ∈ w.inputs, i.cred.attrs.length = 8) :
    ∃ c, built (transferBuild w p) = .ok c ∧
      -- the same layout for all of this size
      (∀ w' p', TransferShape n m d w' p' → (∀ i ∈ w'.inputs, i.cred.attrs.length = 8) →
        ∃ c', built (transferBuild w' p') = .ok c' ∧ c'.layout = c.layout) ∧
      -- the gates hold for these values
      (c.layout.Holds c.asg ↔ TransferSat w p) ∧ c.layout.pub c.asg = p.toScalars ∧
      -- the gates hold for some values
      ∀ pub, (∃ a, c.layout.Holds a ∧ c.layout.pub a = pub) ↔
        ∃ w' p', TransferShape n m d w' p' ∧ TransferSat w' p' ∧ p'.toScalars = pub := by
  obtain ⟨wv, pv, c, h1, h2, h3, h4⟩ := transferBuild_ok shape hn hm attrs
  have same : ∀ w' p', TransferShape n m d w' p' → (∀ i ∈ w'.inputs, i.cred.attrs.length = 8) →
      ∃ c', (transferBuild w' p').run Circ.init = some ((wv, pv), c') ∧ c.layout = c'.layout :=
    fun w' p' s' a' => (transferBuild_same shape s' attrs a').run rfl h1
  obtain ⟨s1, s2⟩ := transferBuild_sat h1
  refine ⟨c, built_ok.2 ⟨_, h1⟩, fun w' p' s' a' => ?_, s1, ?_, fun pub => ⟨?_, ?_⟩⟩
  · obtain ⟨c', e1, e2⟩ := same w' p' s' a'
    exact ⟨c', built_ok.2 ⟨_, e1⟩, e2.symm⟩
  · show c.pubs.map _ = _
    rw [h2, s2]
  · rintro ⟨a, ha, rfl⟩
    obtain ⟨r1, r2⟩ := transferBuild_read h1 ha
    refine ⟨_, _, transferRead_shape h3 h4, r1, ?_⟩
    show _ = c.pubs.map a.f
    rw [h2, r2]
  · rintro ⟨w', p', s', sat, rfl⟩
    obtain ⟨c', e1, e2⟩ := same w' p' s' (transferSat_wf s' sat).2.2
    obtain ⟨t1, t2⟩ := transferBuild_sat e1
    rw [e2]
    refine ⟨c'.asg, t1.2 sat, ?_⟩
    show c'.layout.pubs.map _ = _
    rw [← e2]
    show c.pubs.map _ = _
    rw [h2, t2]

/-- **Mints.** -/
theorem C81_mint {d : ℕ} {w : MintWit} {p : MintPub} (shape : MintShape d w p) :
    ∃ c, built (mintBuild w p) = .ok c ∧
      (∀ w' p', MintShape d w' p' → ∃ c', built (mintBuild w' p') = .ok c' ∧ c'.layout = c.layout) ∧
      (c.layout.Holds c.asg ↔ MintSat w p) ∧ c.layout.pub c.asg = p.toScalars ∧
      ∀ pub, (∃ a, c.layout.Holds a ∧ c.layout.pub a = pub) ↔
        ∃ w' p', MintShape d w' p' ∧ MintSat w' p' ∧ p'.toScalars = pub := by
  obtain ⟨wv, pv, c, h1, h2, h3, h4⟩ := mintBuild_ok shape
  have same : ∀ w' p', MintShape d w' p' →
      ∃ c', (mintBuild w' p').run Circ.init = some ((wv, pv), c') ∧ c.layout = c'.layout :=
    fun w' p' s' => (mintBuild_same shape s').run rfl h1
  obtain ⟨s1, s2⟩ := mintBuild_sat h1
  refine ⟨c, built_ok.2 ⟨_, h1⟩, fun w' p' s' => ?_, s1, ?_, fun pub => ⟨?_, ?_⟩⟩
  · obtain ⟨c', e1, e2⟩ := same w' p' s'
    exact ⟨c', built_ok.2 ⟨_, e1⟩, e2.symm⟩
  · show c.pubs.map _ = _
    rw [h2, s2]
  · rintro ⟨a, ha, rfl⟩
    obtain ⟨r1, r2⟩ := mintBuild_read h1 ha
    refine ⟨_, _, mintRead_shape h3 h4, r1, ?_⟩
    show _ = c.pubs.map a.f
    rw [h2, r2]
  · rintro ⟨w', p', s', sat, rfl⟩
    obtain ⟨c', e1, e2⟩ := same w' p' s'
    obtain ⟨t1, t2⟩ := mintBuild_sat e1
    rw [e2]
    refine ⟨c'.asg, t1.2 sat, ?_⟩
    show c'.layout.pubs.map _ = _
    rw [← e2]
    show c.pubs.map _ = _
    rw [h2, t2]

/-- **Freezes.** -/
theorem C81_freeze {n d : ℕ} {w : FreezeWit} {p : FreezePub} (shape : FreezeShape n d w p) :
    ∃ c, built (freezeBuild w p) = .ok c ∧
      (∀ w' p', FreezeShape n d w' p' → ∃ c', built (freezeBuild w' p') = .ok c' ∧ c'.layout = c.layout) ∧
      (c.layout.Holds c.asg ↔ FreezeSat w p) ∧ c.layout.pub c.asg = p.toScalars ∧
      ∀ pub, (∃ a, c.layout.Holds a ∧ c.layout.pub a = pub) ↔
        ∃ w' p', FreezeShape n d w' p' ∧ FreezeSat w' p' ∧ p'.toScalars = pub := by
  obtain ⟨wv, pv, c, h1, h2, h3, h4, h5⟩ := freezeBuild_ok shape
  have hn : 0 < n := by have := shape.inputs_len; omega
  have same : ∀ w' p', FreezeShape n d w' p' →
      ∃ c', (freezeBuild w' p').run Circ.init = some ((wv, pv), c') ∧ c.layout = c'.layout :=
    fun w' p' s' => (freezeBuild_same shape s').run rfl h1
  obtain ⟨s1, s2⟩ := freezeBuild_sat h1
  refine ⟨c, built_ok.2 ⟨_, h1⟩, fun w' p' s' => ?_, s1, ?_, fun pub => ⟨?_, ?_⟩⟩
  · obtain ⟨c', e1, e2⟩ := same w' p' s'
    exact ⟨c', built_ok.2 ⟨_, e1⟩, e2.symm⟩
  · show c.pubs.map _ = _
    rw [h2, s2]
  · rintro ⟨a, ha, rfl⟩
    obtain ⟨w', p', r1, r2, r3⟩ := freezeBuild_read h1 hn h3 h4 h5 ha
    refine ⟨_, _, r1, r2, ?_⟩
    show _ = c.pubs.map a.f
    rw [h2, r3]
  · rintro ⟨w', p', s', sat, rfl⟩
    obtain ⟨c', e1, e2⟩ := same w' p' s'
    obtain ⟨t1, t2⟩ := freezeBuild_sat e1
    rw [e2]
    refine ⟨c'.asg, t1.2 sat, ?_⟩
    show c'.layout.pubs.map _ = _
    rw [← e2]
    show c.pubs.map _ = _
    rw [h2, t2]

/-- **A mint with another number of ciphertexts** in its memo than three is refused while the circuit is built. -/
theorem C81_memo {w : MintWit} {p : MintPub} {c : Circ} (h : built (mintBuild w p) = .ok c) : p.memo.data.length = 3 :=
  mintBuild_memo h

end Cap

namespace Cap.Examples

open Toy Spec Plonk

/-- a transfer of three records, a mint and a freeze of three records, whose circuits are built and whose gates hold -/
example : (∃ w c, built (transferBuild w xfrNote.pub.toV) = .ok c ∧ c.layout.Holds c.asg) ∧
    (∃ w c, built (mintBuild w mintNote.pub.toV) = .ok c ∧ c.layout.Holds c.asg) ∧
    ∃ w v c, frzNote.pub.toV = some v ∧ built (freezeBuild w v) = .ok c ∧ c.layout.Holds c.asg := by
  refine ⟨?_, ?_, ?_⟩
  · obtain ⟨w, h, -⟩ := xfr_opens
    obtain ⟨c, h1, -, h2, -⟩ := C81_transfer (by decide) (by decide) h.shape (transferSat_wf h.shape h.sat).2.2
    exact ⟨_, c, h1, h2.2 h.sat⟩
  · obtain ⟨c, h1, -, h2, -⟩ := C81_mint mint_opens.shape
    exact ⟨_, c, h1, h2.2 mint_opens.sat⟩
  · obtain ⟨v, h1, h2, h3⟩ := frz_opens
    obtain ⟨c, h4, -, h5, -⟩ := C81_freeze h2
    exact ⟨_, v, c, h1, h4, h5.2 h3⟩

end Cap.Examples
