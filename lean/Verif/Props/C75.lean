/-
C75: what belongs to an asset carries the policy the asset was issued under.

status: partial
note: Histories of the reference ledger in which anybody submits any notes (the setting of C57), with the missing check of C02 (SameCode) as a hypothesis. C75_terms_partial: a record that is worth something, of an asset other than the native one, has the viewer, credential and freezer keys and the threshold of a definition under which its asset was granted or minted. C75_partial: with the missing range check of C06 (MapFits) its whole asset definition is one of these. C75_freezer: an asset issued without a freezer is never taken by anybody but the owner. C75_honest: for notes made by the library the claim holds of every record without these conditions. FALSE without them, and of the native asset: C75_native_false: for every instantiation, whoever holds a native record can turn it, in an accepted transfer, into a record with the native code and any policy (say, with the payer as freezer), because a transfer whose other inputs are all dummies may name any policy. C75_mint_false: the issuer can mint the same code under any two policies, since the code does not bind the policy.
-/
import Verif.SpecPolicy
import Verif.Props.C73
import Verif.Props.C45
import Verif.Props.C46
import Verif.Props.C53

namespace Cap

open Spec

variable [E : CapEnv] [S : CapExt]

omit S in
theorem sum_zero_of_small {l : List F} (small : ∀ x ∈ l, x.val < 2 ^ 127) (len : l.length < 2 ^ 64) (hs : l.sum = 0) :
    ∀ x ∈ l, x = 0 := by
  have h1 := natSum_le l (2 ^ 127) (fun x hx => le_of_lt (small x hx))
  have h3 : l.length * 2 ^ 127 ≤ 2 ^ 64 * 2 ^ 127 := Nat.mul_le_mul_right _ (by omega)
  have h4 : (2 : ℕ) ^ 64 * 2 ^ 127 < 2 ^ 252 := by norm_num
  have h5 : ((natSum l : ℕ) : F) = ((0 : ℕ) : F) := by rw [natSum_cast, hs, Nat.cast_zero]
  have h6 := natF_inj (by omega) (by norm_num) h5
  intro x hx
  have : x.val = 0 := by
    unfold natSum at h6
    exact (List.sum_eq_zero_iff.1 h6) _ (List.mem_map_of_mem hx)
  exact (ZMod.val_eq_zero x).1 this

/-- Where the value of an output comes from: a spent record that is worth something, with the policy of the output. -/
theorem transfer_source {a b d : ℕ} {n : TransferNote} {w : TransferWit} (h : OpensTransfer a b d n w) (hb : b < 2 ^ 64)
    {o : RecordV} (ho : o ∈ w.outputs) (foreign : o.asset_code ≠ nativeCode) (worth : o.amount ≠ 0) :
    o.asset_code = w.asset_code ∧ o.policy = w.policy ∧
      ∃ i ∈ w.inputs.tail, i.ro.asset_code ≠ dummyCode ∧ i.ro.amount ≠ 0 ∧ i.ro.policy = w.policy := by
  obtain ⟨i0, is, o0, os, nl, nls, c, cs, hp⟩ := h.sat.parts h.shape
  obtain ⟨-, -, hin, hout⟩ := hp.map_in h.sat
  have ho' := ho
  rw [hp.outputs, List.mem_cons] at ho'
  rcases ho' with rfl | ho'
  · have := hp.out0.2.1
    simp only [if_true] at this
    exact absurd this.1 foreign
  · have hcode : o.asset_code = w.asset_code := by
      obtain ⟨x, -, hx⟩ := hp.mem_out ho'
      have := hx.2.1
      simp only [Bool.false_eq_true, if_false] at this
      exact this.1
    refine ⟨hcode, hout o ho', ?_⟩
    have hbal := (preserveBalance_iff.1 hp.balance).1 (fun e => foreign (hcode.trans e.symm))
    rw [hp.inputs, hp.outputs] at hbal
    simp only [sumTail, List.map_cons, List.tail_cons] at hbal
    rw [hp.inputs, List.tail_cons]
    by_contra hno
    have hz : (is.map (·.ro.amount)).sum = 0 := by
      refine List.sum_eq_zero ?_
      intro y hy
      obtain ⟨i, hi, rfl⟩ := List.mem_map.1 hy
      by_contra hne
      have hreal : i.ro.asset_code ≠ dummyCode := fun e =>
        hne (C46_partial h (by rw [hp.inputs]; exact List.mem_cons_of_mem _ hi) e).1
      exact hno ⟨i, hi, hreal, hne, hin i hi (by simp [RecordV.isDummy, hreal])⟩
    rw [hbal.2] at hz
    refine worth (sum_zero_of_small ?_ ?_ hz _ (List.mem_map_of_mem ho'))
    · intro x hx
      obtain ⟨o', ho'', rfl⟩ := List.mem_map.1 hx
      obtain ⟨y, -, hy⟩ := hp.mem_out ho''
      exact hy.2.2.2
    · have := h.shape.outputs_len
      rw [hp.outputs, List.length_cons] at this
      rw [List.length_map]
      omega

omit S in
/-- equal committed values: everything but map and flag is the same, and these two agree together -/
theorem scalarsV_policy {r s : RecordV} (h : (r.scalars, r.blind) = (s.scalars, s.blind)) :
    r.policy.viewer_pk = s.policy.viewer_pk ∧ r.policy.cred_pk = s.policy.cred_pk ∧
      r.policy.freezer_pk = s.policy.freezer_pk ∧ r.policy.reveal_threshold = s.policy.reveal_threshold ∧
      2 * r.policy.reveal_map + boolF r.freeze_flag = 2 * s.policy.reveal_map + boolF s.freeze_flag := by
  have h1 : r.scalars = s.scalars := congrArg Prod.fst h
  simp only [RecordV.scalars, List.cons.injEq, and_true] at h1
  obtain ⟨-, -, -, -, a1, a2, a3, a4, a5, a6, a7, a8⟩ := h1
  exact ⟨Prod.ext a1 a2, Prod.ext a3 a4, Prod.ext a5 a6, a8, a7⟩

theorem defined_append (h1 h2 : List Event) : defined (h1 ++ h2) = defined h1 ++ defined h2 := by
  simp [defined, List.flatMap_append]

/-- The induction.  `G q p` is what is known about the policy `p` of a record whose asset was issued under `q`; a spend
inherits it from the record. -/
theorem policy_run {G : AssetPolicy → PolicyV → Prop} (refl : ∀ q : AssetPolicy, G q q.toV) {d : Fin 256}
    (h : List Step) : ∀ {s : LedgerState}, run d (h.map Step.event) = .ok s → AllSatisfied d h →
      NoCollisionV d (everCreated h) (everSpent h) → (∀ e ∈ h, ∀ o ∈ e.txns, o.SameCode) →
      (∀ e ∈ h, ∀ o ∈ e.txns, ∀ x ∈ o.realSpends, x.ro.asset_code ≠ nativeCode → ∀ (r : RecordV) (q : AssetPolicy),
        (r.scalars, r.blind) = (x.ro.scalars, x.ro.blind) → G q r.policy → G q x.ro.policy) →
      ∀ r ∈ everCreated h, r.asset_code ≠ nativeCode → r.asset_code ≠ dummyCode → r.amount ≠ 0 →
        ∃ q ∈ defined (h.map Step.event), q.code = r.asset_code ∧ G q.policy r.policy := by
  induction h using List.reverseRecOn with
  | nil => intro s _ _ _ _ _ r hr; simp [everCreated] at hr
  | append_singleton h e ih =>
    intro s hr sat nc same carry r hmem hn hd ha
    obtain ⟨s1, h1, h2⟩ := event_append hr
    rw [everCreated_append, everSpent_append] at nc
    have nc1 := nc.mono (fun x hx => List.mem_append_left _ hx)
    have sat1 : AllSatisfied d h := fun e' he' => sat e' (List.mem_append_left _ he')
    have ih' := ih h1 sat1 nc1 (fun e' he' => same e' (List.mem_append_left _ he'))
      (fun e' he' => carry e' (List.mem_append_left _ he'))
    have i := inv0_run h h1 sat1 nc1
    rw [List.map_append, defined_append]
    rw [everCreated_append, List.mem_append] at hmem
    rcases hmem with hmem | hmem
    · obtain ⟨q, hq, hq'⟩ := ih' r hmem hn hd ha
      exact ⟨q, List.mem_append_left _ hq, hq'⟩
    · have hlast := List.mem_append_right h (List.mem_singleton_self e)
      cases e with
      | grant ro =>
        obtain rfl := List.mem_singleton.1 hmem
        exact ⟨ro.asset_def, List.mem_append_right _ (by simp [defined, Event.defines, Step.event]), rfl, refl _⟩
      | block os blind who time =>
        have hsat : ∀ o ∈ os, o.Satisfied d.val := sat _ hlast
        obtain ⟨v1, -, -, e1, -, -, e4, -⟩ := block_facts hsat h2
        have found := i.found_block hsat (nc.mono (fun x hx => List.mem_append_right _ hx)) v1
        -- a spent record that is worth something has a policy under which its asset was issued
        have source : ∀ o ∈ os, ∀ x ∈ o.spends, x.ro.asset_code ≠ nativeCode → x.ro.asset_code ≠ dummyCode →
            x.ro.amount ≠ 0 → ∃ q ∈ defined (h.map Step.event), q.code = x.ro.asset_code ∧ G q.policy x.ro.policy := by
          intro o ho x hx c1 c2 c3
          have hx' : x ∈ o.realSpends := mem_realSpends.2 ⟨hx, c2⟩
          obtain ⟨r', hr', he⟩ := (found x (List.mem_flatMap.2 ⟨o, ho, hx'⟩)).position i.length
          obtain ⟨q1, q2, -⟩ := scalarsV_inj he
          obtain ⟨q, hq, hc, hg⟩ := ih' r' (List.mem_of_getElem? hr') (by rw [q2]; exact c1) (by rw [q2]; exact c2)
            (by rw [q1]; exact c3)
          exact ⟨q, hq, hc.trans q2, carry _ hlast o ho x hx' c1 r' q.policy he hg⟩
        have hsize : ∀ o ∈ os, o.creates.length < 2 ^ 64 := by
          intro o ho
          rw [e1, List.length_append, List.length_map, Step.creates, List.length_append] at e4
          have := (List.sublist_flatten_of_mem (List.mem_map_of_mem (f := Opening.creates) ho)).length_le
          rw [← List.flatMap_def] at this
          omega
        rcases List.mem_append.1 hmem with hm | hm
        · obtain ⟨o, ho, hro⟩ := List.mem_flatMap.1 hm
          have ho_sat := hsat o ho
          cases o with
          | transfer n w =>
            obtain ⟨k1, k2, j, hj, k3, k4, k5⟩ := transfer_source ho_sat (by
              have := hsize _ ho
              have h3 := ho_sat.shape.outputs_len
              have h4 : (Opening.transfer n w).creates = w.outputs := rfl
              rw [h4] at this
              omega) hro hn ha
            have hjc := same _ hlast _ ho j hj k3
            obtain ⟨q, hq, hc, hg⟩ := source _ ho ⟨j.ro, j.acc, j.addr_secret, .user⟩
              (List.mem_map.2 ⟨j, List.mem_of_mem_tail hj, rfl⟩) (by show j.ro.asset_code ≠ _; rw [hjc, ← k1]; exact hn) k3 k4
            refine ⟨q, List.mem_append_left _ hq, hc.trans (hjc.trans k1.symm), ?_⟩
            rw [k2, ← k5]
            exact hg
          | mint n w =>
            obtain ⟨-, -, -, m4, m5, -⟩ := C45_opened ho_sat
            simp only [Opening.creates, List.mem_cons, List.not_mem_nil, or_false] at hro
            rcases hro with rfl | rfl
            · exact absurd ho_sat.sat.chg_code hn
            · refine ⟨n.mint_asset_def, List.mem_append_right _ ?_, m4.symm, ?_⟩
              · simp only [defined, Event.defines, Step.event, List.map_cons, List.map_nil, List.flatMap_cons,
                  List.flatMap_nil, List.append_nil, List.mem_flatMap, List.mem_map]
                exact ⟨_, ⟨_, ho, rfl⟩, List.mem_singleton_self _⟩
              · rw [m5]; exact refl _
          | freeze n w =>
            simp only [Opening.creates, List.mem_cons, List.mem_map] at hro
            rcases hro with rfl | ⟨j, hj, rfl⟩
            · obtain ⟨v, hv, -, hs⟩ := ho_sat
              have : v.native_asset_code = nativeCode := by
                unfold FreezePublicInput.toV at hv
                split at hv <;> cases hv
                rfl
              exact absurd (hs.chg_code.trans this) hn
            · obtain ⟨-, f2, f3, f4, -⟩ := C06_partial ho_sat j hj
              obtain ⟨q, hq, hc, hg⟩ := source _ ho ⟨j.ro, j.acc, j.sk, .freezer⟩
                (List.mem_cons_of_mem _ (List.mem_map.2 ⟨j, hj, rfl⟩)) (by rw [← f3]; exact hn) (by rw [← f3]; exact hd)
                (by rw [← f2]; exact ha)
              exact ⟨q, List.mem_append_left _ hq, hc.trans f3.symm, by rw [f4]; exact hg⟩
        · obtain rfl := List.mem_singleton.1 hm
          exact absurd rfl hn

/-- **Keys and threshold.**  Anybody submits any notes.  A record on the ledger that is worth something, of an asset other
than the native one, has the keys and the threshold of a definition under which its asset was granted or minted. -/
theorem C75_terms_partial {d : Fin 256} {h : List Step} {s : LedgerState} (ok : run d (h.map Step.event) = .ok s)
    (sat : AllSatisfied d h) (hashes : NoCollisionV d (everCreated h) (everSpent h))
    (same_code : ∀ e ∈ h, ∀ o ∈ e.txns, o.SameCode) {r : RecordV} (stands : r ∈ everCreated h) {ro : RecordOpening}
    (reads : Reads ro r) (foreign : ro.asset_def.code ≠ nativeCode) (real : ro.asset_def.code ≠ dummyCode)
    (worth : ro.amount ≠ 0) :
    ∃ q ∈ defined (h.map Step.event), q.code = ro.asset_def.code ∧ SameTerms q.policy ro.asset_def.policy := by
  obtain ⟨r1, r2, -, r4, r5, r6, -, r8, -⟩ := reads_iff.1 reads
  obtain ⟨q, hq, hc, g1, g2, g3, g4⟩ := policy_run
    (G := fun q p => E.xy q.viewer_pk = p.viewer_pk ∧ E.xy q.cred_pk = p.cred_pk ∧ E.xy q.freezer_pk = p.freezer_pk ∧
      Amount.toF q.reveal_threshold = p.reveal_threshold)
    (fun q => ⟨rfl, rfl, rfl, rfl⟩) h ok sat hashes same_code
    (by
      intro e _ o _ x _ _ r q he ⟨g1, g2, g3, g4⟩
      obtain ⟨a1, a2, a3, a4, -⟩ := scalarsV_policy he
      exact ⟨g1.trans a1, g2.trans a2, g3.trans a3, g4.trans a4⟩)
    r stands (by rw [← r2]; exact foreign) (by rw [← r2]; exact real) (by
      rw [← r1]
      intro hz
      refine worth (Fin.ext ?_)
      have := congrArg ZMod.val hz
      rw [Amount.toF_val, ZMod.val_zero] at this
      exact this)
  refine ⟨q, hq, hc.trans r2.symm, xy_inj (g1.trans r4.symm), xy_inj (g2.trans r5.symm), xy_inj (g3.trans r6.symm), ?_⟩
  have := congrArg ZMod.val (g4.trans r8.symm)
  rw [Amount.toF_val, Amount.toF_val] at this
  exact Fin.ext this

omit S in
/-- 12-bit maps are determined by the committed values -/
theorem map_of_scalars {r s : RecordV} (h : (r.scalars, r.blind) = (s.scalars, s.blind))
    (hr : r.policy.reveal_map.val < 2 ^ 12) (hs : s.policy.reveal_map.val < 2 ^ 12) : r.policy = s.policy := by
  obtain ⟨a1, a2, a3, a4, a5⟩ := scalarsV_policy h
  have hb : ∀ b : Bool, boolF (E := E) b = ((b.toNat : ℕ) : F) := by intro b; cases b <;> simp [boolF]
  have h1 := Bool.toNat_le r.freeze_flag
  have h2 := Bool.toNat_le s.freeze_flag
  have hn : ((2 * r.policy.reveal_map.val + r.freeze_flag.toNat : ℕ) : F) =
      ((2 * s.policy.reveal_map.val + s.freeze_flag.toNat : ℕ) : F) := by
    push_cast
    rw [f_cast_val, f_cast_val, ← hb, ← hb]
    exact a5
  have he := natF_inj (by have : (2:ℕ) ^ 13 + 2 < 2 ^ 252 := by norm_num
                          omega) (by have : (2:ℕ) ^ 13 + 2 < 2 ^ 252 := by norm_num
                                     omega) hn
  have : r.policy.reveal_map = s.policy.reveal_map := ZMod.val_injective _ (by omega)
  rcases hp : r.policy with ⟨_, _, _, _, _⟩
  rcases hq : s.policy with ⟨_, _, _, _, _⟩
  rw [hp, hq] at a1 a2 a3 a4 this
  simp only at a1 a2 a3 a4 this
  rw [a1, a2, a3, a4, this]

omit S in
theorem toV_map_small (q : AssetPolicy) : q.toV.reveal_map.val < 2 ^ 12 := by
  show (RevealMap.toScalar q.reveal_map).val < _
  have := RevealMap.toNat_lt q.reveal_map
  have h2 : (2 : ℕ) ^ 12 < 2 ^ 252 := by norm_num
  unfold RevealMap.toScalar
  rw [natF_val (by omega)]
  exact this

/-- the policy of a record in the tree is one its asset was issued under -/
theorem policy_run_fits {d : Fin 256} {h : List Step} {s : LedgerState} (ok : run d (h.map Step.event) = .ok s)
    (sat : AllSatisfied d h) (hashes : NoCollisionV d (everCreated h) (everSpent h))
    (same_code : ∀ e ∈ h, ∀ o ∈ e.txns, o.SameCode) (maps : ∀ e ∈ h, ∀ o ∈ e.txns, o.MapFits) {r : RecordV}
    (stands : r ∈ everCreated h) (foreign : r.asset_code ≠ nativeCode) (real : r.asset_code ≠ dummyCode)
    (worth : r.amount ≠ 0) :
    ∃ q ∈ defined (h.map Step.event), q.code = r.asset_code ∧ r.policy = q.policy.toV :=
  policy_run (G := fun q p => p = q.toV) (fun q => rfl) h ok sat hashes same_code
    (by
      intro e he o ho x hx hn r q hsame hg
      refine (map_of_scalars hsame (by rw [hg]; exact toV_map_small q) ?_).symm.trans hg
      have hs := sat e he o ho
      obtain ⟨hx1, hx2⟩ := mem_realSpends.1 hx
      cases o with
      | transfer n w =>
        obtain ⟨i, hi, rfl⟩ := List.mem_map.1 hx1
        obtain ⟨i0, is, o0, os, nl, nls, c, cs, hp⟩ := hs.sat.parts hs.shape
        rw [hp.inputs, List.mem_cons] at hi
        rcases hi with rfl | hi
        · show i.ro.policy.reveal_map.val < _
          rw [(hp.map_in hs.sat).1]
          exact default_map_small
        · have hd : i.ro.asset_code ≠ dummyCode := hx2
          show i.ro.policy.reveal_map.val < _
          rw [(hp.map_in hs.sat).2.2.1 i hi (by simp [RecordV.isDummy, hd])]
          exact hs.sat.map_range
      | mint n w =>
        obtain rfl := List.mem_singleton.1 hx1
        exact absurd hs.sat.fee_code hn
      | freeze n w =>
        rcases List.mem_cons.1 hx1 with rfl | hx'
        · obtain ⟨v, hv, -, hs⟩ := hs
          show w.fee_ro.policy.reveal_map.val < _
          rw [PolicyV.enforceDummy_iff.1 hs.fee_policy]
          exact default_map_small
        · obtain ⟨i, hi, rfl⟩ := List.mem_map.1 hx'
          exact maps e he _ ho i hi)
    r stands foreign real worth

/-- **The whole policy.**  If moreover the reveal maps of the records that freezes spend fit in 12 bits, then the asset
definition of the record is one under which the asset was granted or minted. -/
theorem C75_partial {d : Fin 256} {h : List Step} {s : LedgerState} (ok : run d (h.map Step.event) = .ok s)
    (sat : AllSatisfied d h) (hashes : NoCollisionV d (everCreated h) (everSpent h))
    (same_code : ∀ e ∈ h, ∀ o ∈ e.txns, o.SameCode) (maps : ∀ e ∈ h, ∀ o ∈ e.txns, o.MapFits) {r : RecordV}
    (stands : r ∈ everCreated h) {ro : RecordOpening} (reads : Reads ro r) (foreign : ro.asset_def.code ≠ nativeCode)
    (real : ro.asset_def.code ≠ dummyCode) (worth : ro.amount ≠ 0) : ro.asset_def ∈ defined (h.map Step.event) := by
  obtain ⟨r1, r2, -⟩ := reads_iff.1 reads
  obtain ⟨q, hq, hc, hp⟩ := policy_run_fits ok sat hashes same_code maps stands
    (by rw [← r2]; exact foreign) (by rw [← r2]; exact real) (by
      rw [← r1]
      intro hz
      refine worth (Fin.ext ?_)
      have := congrArg ZMod.val hz
      rw [Amount.toF_val, ZMod.val_zero] at this
      exact this)
  have hrv := reads_small reads (by rw [hp]; exact toV_map_small _)
  have hpol : ro.asset_def.policy = q.policy := AssetPolicy.toV_inj (by rw [← hp, hrv]; rfl)
  have : ro.asset_def = q := by
    rcases ha : ro.asset_def with ⟨_, _⟩
    rcases q with ⟨_, _⟩
    rw [ha] at hpol r2
    simp only at hpol hc r2
    rw [hpol, hc, r2]
  rw [this]
  exact hq

/-- **Nobody freezes an asset issued without a freezer.**  If no definition under which the asset of a record was issued
names a freezer, then the record is taken only by its owner. -/
theorem C75_freezer {d : Fin 256} {h : List Step} {s : LedgerState} (ok : run d (h.map Step.event) = .ok s)
    (sat : AllSatisfied d h) (hashes : NoCollisionV d (everCreated h) (everSpent h))
    (same_code : ∀ e ∈ h, ∀ o ∈ e.txns, o.SameCode) {u : ℕ} {r : RecordV} (stands : (everCreated h)[u]? = some r)
    {ro : RecordOpening} (reads : Reads ro r) (foreign : ro.asset_def.code ≠ nativeCode)
    (real : ro.asset_def.code ≠ dummyCode) (worth : ro.amount ≠ 0)
    (no_freezer : ∀ q ∈ defined (h.map Step.event), q.code = ro.asset_def.code → q.policy.freezer_pk = 0) :
    ∀ e ∈ h, ∀ o ∈ e.txns, ∀ x ∈ o.realSpends, x.acc.uid = (u : F) →
      x.who = .user ∧ x.sk.val • E.gen = ro.pub_key.address := by
  intro e he o ho x hx hu
  obtain ⟨q, hq, hc, ht⟩ := C75_terms_partial ok sat hashes same_code (List.mem_of_getElem? stands) reads foreign real worth
  cases (C73_spender ok sat hashes stands reads real e he o ho x hx hu).2 with
  | owner who _ key => exact ⟨who, key⟩
  | freezer _ _ _ named => exact absurd (ht.freezer.symm.trans (no_freezer q hq hc)) named

/-- **Made by the library.**  If all notes of the history were made by the library, then every record is native, a
placeholder, or has an asset definition under which something was granted or minted; no condition on its amount. -/
theorem C75_honest {d : Fin 256} (h : List Event) : ∀ {s : LedgerState}, run d h = .ok s → Honest d h →
    NoCollision d (created h) (spends h) → ∀ ro ∈ created h, ro.asset_def = AssetDefinition.native ∨
      ro.asset_def.code = dummyCode ∨ ro.asset_def ∈ defined h := by
  induction h using List.reverseRecOn with
  | nil => intro s _ _ _ ro hro; simp [created] at hro
  | append_singleton h e ih =>
    intro s hr ho nc ro hro
    obtain ⟨s1, h1, h2⟩ := runFrom_append.1 hr
    rw [created_append, spends_append] at nc
    have ho1 : Honest d h := fun e' he' => ho e' (List.mem_append_left _ he')
    have nc1 := nc.mono (fun x hx => List.mem_append_left _ hx)
    have ih' := ih h1 ho1 nc1
    have i := inv_run h h1 ho1 nc1
    rw [defined_append]
    have old : ∀ ro ∈ created h, ro.asset_def = AssetDefinition.native ∨ ro.asset_def.code = dummyCode ∨
        ro.asset_def ∈ defined h ++ defined [e] := by
      intro ro hro
      rcases ih' ro hro with hx | hx | hx
      · exact Or.inl hx
      · exact Or.inr (Or.inl hx)
      · exact Or.inr (Or.inr (List.mem_append_left _ hx))
    rw [created_append, List.mem_append] at hro
    rcases hro with hro | hro
    · exact old ro hro
    · cases e with
      | grant g =>
        obtain rfl := List.mem_singleton.1 hro
        exact Or.inr (Or.inr (List.mem_append_right _ (by simp [defined, Event.defines])))
      | block ts blind who time =>
        have made : ∀ t ∈ ts, Made d t := ho _ (List.mem_append_right _ List.mem_cons_self)
        obtain ⟨⟨⟩, hv, -⟩ := bind_ok_iff.1 h2
        have found := i.found_block made (nc.mono (fun x hx => List.mem_append_right _ hx)) (validateTxnsBatch_ok hv).1
        -- a spent record inherits it from the record on the ledger
        have source : ∀ t ∈ ts, ∀ x ∈ t.spends, x.1.asset_def = AssetDefinition.native ∨
            x.1.asset_def.code = dummyCode ∨ x.1.asset_def ∈ defined h ++ defined [.block ts blind who time] := by
          intro t ht x hx
          by_cases hd : x.1.asset_def.code = dummyCode
          · exact Or.inr (Or.inl hd)
          · obtain ⟨r, hr', hsame⟩ := found x (List.mem_flatMap.2 ⟨t, ht, List.mem_filter.2 ⟨hx, by simpa using hd⟩⟩)
            rw [← hsame.2.1]
            exact old r (List.mem_of_getElem? hr')
        rcases List.mem_append.1 hro with hm | hm
        · obtain ⟨t, ht, hro⟩ := List.mem_flatMap.1 hm
          have src := source t ht
          cases made t ht with
          | transfer keys gen =>
            obtain ⟨w, pub, hg⟩ := TransferNote.generate_ok.1 gen
            obtain ⟨ad, ha⟩ := transferCheckAssetDef_ok.1 hg.asset
            obtain ⟨o0, os, hos, hnat⟩ := ha.fee_out
            subst hos
            rcases List.mem_cons.1 hro with rfl | hro
            · exact Or.inl hnat
            · have hout := ha.outs ro hro
              rw [hout]
              by_cases hall : ad = AssetDefinition.native
              · exact Or.inl hall
              · have hsome := mt ha.none hall
                push Not at hsome
                obtain ⟨r, hr1, hr2⟩ := hsome
                have hrad := (ha.ins r hr1).resolve_left hr2
                obtain ⟨inp, hinp, rfl⟩ := List.mem_map.1 (List.mem_of_mem_tail hr1)
                rw [← hrad]
                exact src (inp.ro, inp.acc) (List.mem_map.2 ⟨inp, hinp, rfl⟩)
          | mint keys gen =>
            have hg := MintNote.generate_ok.1 gen
            simp only [List.mem_cons, List.not_mem_nil, or_false] at hro
            rcases hro with rfl | rfl
            · exact Or.inl hg.checks.fee_ok.chg_native
            · refine Or.inr (Or.inr (List.mem_append_right _ ?_))
              simp only [defined, List.flatMap_cons, List.flatMap_nil, List.append_nil, Event.defines, List.mem_flatMap]
              exact ⟨_, ht, by rw [← hg.asset]; exact List.mem_singleton_self _⟩
          | freeze keys gen fee_path paths =>
            have hg := FreezeNote.generate_ok.1 gen
            rcases List.mem_cons.1 hro with rfl | hro
            · exact Or.inl hg.checks.fee_ok.chg_native
            · rw [hg.outs_eq] at hro
              unfold freezeGetOutputRos at hro
              obtain ⟨k, hk, rfl⟩ := List.mem_mapIdx.1 hro
              exact src _ (List.mem_cons_of_mem _ (List.mem_map_of_mem (List.getElem_mem hk)))
        · obtain rfl := List.mem_singleton.1 hm
          exact Or.inl rfl

omit S in
/-- a placeholder of the holder of the secret key 1 -/
def placeholder : RecordV := ⟨0, dummyCode, E.xy E.gen, AssetPolicy.default.toV, false, 0⟩

omit S in
/-- the transfer that turns a native coin into a record with the native code and another policy -/
def poison (d : ℕ) (coin : RecordOpening) (k : UserKeyPair) (acc : AccMemberWitness) (root : F) (policy : AssetPolicy)
    (receiver : UserPubKey) (blind blind0 : F) : Forgery :=
  { r0 := coin.toV, r1 := placeholder, sk0 := frToFq k.sk, sk1 := frToFq 1, acc0 := acc.toV,
    acc1 := ⟨0, edge d⟩, cred1 := selfCred ((Fin.last (2 ^ 64 - 1)).val : F),
    o0 := (⟨0, AssetDefinition.native, coin.pub_key, .unfrozen, blind0⟩ : RecordOpening).toV,
    o1 := (⟨coin.amount, ⟨nativeCode, policy⟩, receiver, .unfrozen, blind⟩ : RecordOpening).toV,
    code := nativeCode, policy := policy.toV, root := root, fee := 0, valid_until := Fin.last _ }

omit S in
theorem poison_ok {d : ℕ} {coin : RecordOpening} {k : UserKeyPair} {acc : AccMemberWitness} {root : F}
    (native : coin.asset_def = AssetDefinition.native) (unfrozen : coin.freeze_flag = .unfrozen)
    (owned : coin.pub_key.address = k.address) (small : coin.amount.val < 2 ^ 127) (depth : acc.path.length = d)
    (member : merkleRoot (acc.uid.val : F) coin.commitment acc.path = root) {policy : AssetPolicy}
    (unseen : policy.viewer_pk = 0 ∨ policy.reveal_threshold.val < 2 ^ 127) (receiver : UserPubKey) (blind blind0 : F) :
    (poison d coin k acc root policy receiver blind blind0).Ok d :=
  { r0_unfrozen := FreezeFlag.toBool_eq_false.2 unfrozen, r0_code := (native_toV native).1,
    r0_policy := (native_toV native).2, r0_spend := (SpendOk_user_host _ _).2 owned,
    r0_root := (spendRoot_host _ _).trans member,
    r1_unfrozen := rfl, r1_kind := Or.inr ⟨rfl, rfl, (isDummyPolicy_host _).2 rfl⟩,
    r1_spend := ⟨one_ok, by rw [poison, deriveUserAddressV_frToFq, smulFr_one]; rfl⟩,
    path0 := depth, path1 := Forgery.edge_length _,
    attrs := (Forgery.selfCred_ok _).1, expiry := (Forgery.selfCred_ok _).2,
    sig := Or.inr (selfCred_valid _), o0_unfrozen := rfl, o0_code := rfl, o0_policy := rfl,
    o0_range := by simp [poison, RecordOpening.toV, Amount.toF_zero],
    o1_unfrozen := rfl, o1_code := rfl, o1_policy := rfl,
    o1_range := by
      show (Amount.toF coin.amount).val < _
      rw [Amount.toF_val]; exact small
    no_viewer := by
      rcases unseen with hv | ht
      · exact Or.inl ((isDummyViewingPk_host _).2 hv)
      · refine Or.inr ((underLimit_iff (t := policy.reveal_threshold.val) (s := 0)
          (lt_trans policy.reveal_threshold.isLt (by norm_num)) (by norm_num) rfl ?_).2 ⟨Nat.zero_le _, by omega⟩)
        simp [poison, Forgery.wit, sumTail, placeholder]
    map := toV_map_small policy,
    balance := ⟨fun hne => absurd rfl hne, fun _ => by simp [poison, placeholder, RecordOpening.toV, Amount.toF_zero]⟩ }

/-- **Negation for the native asset.**  For every instantiation: whoever holds a native record can give all of it, in an
accepted transfer, to any address in a record with the native code and any policy without a viewer or with a threshold
below 2^127, for instance one that names the payer as freezer. -/
theorem C75_native_false (complete : SnarkComplete) {d : Fin 256} {pk : TransferProvingKey} {vk : TransferVerifyingKey}
    (keys : transferPreprocess 2 2 d = .ok (pk, vk)) {coin : RecordOpening} {k : UserKeyPair} {acc : AccMemberWitness}
    {root : F} (native : coin.asset_def = AssetDefinition.native) (unfrozen : coin.freeze_flag = .unfrozen)
    (owned : coin.pub_key.address = k.address) (small : coin.amount.val < 2 ^ 127) (depth : acc.path.length = d.val)
    (member : merkleRoot (acc.uid.val : F) coin.commitment acc.path = root) (policy : AssetPolicy)
    (unseen : policy.viewer_pk = 0 ∨ policy.reveal_threshold.val < 2 ^ 127) (receiver : UserPubKey) (blind blind0 : F) :
    ∃ n w, OpensTransfer 2 2 d.val n w ∧ (∀ t, n.verify vk root t = .ok ()) ∧
      w.inputs.map (·.ro) = [coin.toV, placeholder] ∧
      w.outputs = [(⟨0, AssetDefinition.native, coin.pub_key, .unfrozen, blind0⟩ : RecordOpening).toV,
        (⟨coin.amount, ⟨nativeCode, policy⟩, receiver, .unfrozen, blind⟩ : RecordOpening).toV] := by
  obtain ⟨π, ho, hv⟩ := Forgery.accepted complete keys _
    (poison_ok native unfrozen owned small depth member unseen receiver blind blind0)
  exact ⟨_, _, ho, fun t => hv t (Fin.le_last t), rfl, rfl⟩

/-- **One code, many policies.**  The issuer of an asset can mint it under any two policies; both mints are accepted.
So the code alone does not tell the policy. -/
theorem C75_mint_false (complete : SnarkComplete) {d : Fin 256} {pk : MintProvingKey} {vk : MintVerifyingKey}
    (keys : mintPreprocess d = .ok (pk, vk)) {root : F} {fi1 fi2 : FeeInput} {fee1 fee2 : Amount}
    (pays1 : PaysFee d.val root fi1 fee1) (pays2 : PaysFee d.val root fi2 fee2) (seed : F) (desc : List Byte)
    (policy1 policy2 : AssetPolicy) {amount : Amount} (small : amount.val < 2 ^ 127) (receiver : UserPubKey)
    (blind : F) (rng : TransferRand) :
    ∃ n1 n2 : MintNote, n1.verify vk root = .ok () ∧ n2.verify vk root = .ok () ∧
      n1.mint_amount = amount ∧ n2.mint_amount = amount ∧
      n1.mint_asset_def = ⟨newDomestic seed desc, policy1⟩ ∧ n2.mint_asset_def = ⟨newDomestic seed desc, policy2⟩ := by
  obtain ⟨-, -, n1, -, -, -, v1, -, -, a1, d1, -⟩ := C53_partial complete keys pays1
    (ro := ⟨amount, ⟨newDomestic seed desc, policy1⟩, receiver, .unfrozen, blind⟩) ⟨rfl, rfl⟩ small blind rng
  obtain ⟨-, -, n2, -, -, -, v2, -, -, a2, d2, -⟩ := C53_partial complete keys pays2
    (ro := ⟨amount, ⟨newDomestic seed desc, policy2⟩, receiver, .unfrozen, blind⟩) ⟨rfl, rfl⟩ small blind rng
  exact ⟨n1, n2, v1, v2, a1, a2, d1, d2⟩

end Cap

namespace Cap.Examples
open Toy Spec

theorem steps_sameCode : ∀ e ∈ steps, ∀ o ∈ e.txns, o.SameCode := steps_mem open1_ok.same_code open2_ok.same_code

theorem mapFits_of {t : Txn} {o : Opening} (h : OpensTxn 2 t o) (kind : ∀ n, t.note ≠ .freeze n) : o.MapFits := by
  cases o with
  | transfer n w => trivial
  | mint n w => trivial
  | freeze n w => exact absurd h.note.symm (kind n)

theorem steps_mapFits : ∀ e ∈ steps, ∀ o ∈ e.txns, o.MapFits :=
  steps_mem (mapFits_of open1_ok (fun _ h => nomatch h)) (mapFits_of open2_ok (fun _ h => nomatch h))

/-- `C75_terms_partial` and `C75_partial`: the minted record, at position 6 of the history of C57 -/
example : run 2 (steps.map Step.event) = .ok led2 ∧ AllSatisfied 2 steps ∧
    NoCollisionV 2 (everCreated steps) (everSpent steps) ∧ (∀ e ∈ steps, ∀ o ∈ e.txns, o.SameCode) ∧
    (∀ e ∈ steps, ∀ o ∈ e.txns, o.MapFits) ∧ (everCreated steps)[6]? = some mintRec.toV ∧ Reads mintRec mintRec.toV ∧
    mintRec.asset_def.code ≠ (nativeCode : ZMod p) ∧ mintRec.asset_def.code ≠ (dummyCode : ZMod p) ∧ mintRec.amount ≠ 0 ∧
    mintRec.asset_def.policy.freezer_pk ≠ 0 :=
  ⟨steps_run, steps_satisfied, steps_noCollision, steps_sameCode, steps_mapFits,
    by rw [steps_created, hist_created]; rfl, reads_self _, by decide +kernel, by decide +kernel, by decide +kernel,
    by decide +kernel⟩

/-- a record of 9 units of an asset without a freezer -/
def plainRec : RecordOpening := ⟨9, ⟨77, AssetPolicy.default⟩, alice.pubKey, .unfrozen, 50⟩

/-- the history of C57, and then the grant of this record -/
noncomputable def stepsPlain : List Step := steps ++ [.grant plainRec]

theorem stepsPlain_run : ∃ s, run 2 (stepsPlain.map Step.event) = .ok s := by
  have hl : led2.leaves.length = 8 := by
    have := C57_tree steps_run steps_satisfied steps_noCollision
    rw [this, List.length_map, steps_created, hist_created]
    rfl
  refine ⟨LedgerState.storeRoot 2 { led2 with leaves := led2.leaves ++ [plainRec.commitment] }, ?_⟩
  rw [stepsPlain, List.map_append]
  have hg : led2.grant 2 plainRec =
      .ok (LedgerState.storeRoot 2 { led2 with leaves := led2.leaves ++ [plainRec.commitment] }) := by
    rw [LedgerState.grant, room (by omega)]
    rfl
  exact runFrom_append.2 ⟨led2, steps_run, hg⟩

theorem plain_noCollision : NoCollision 2 (records1 ++ [plainRec]) spends1 := by
  have el : (records1 ++ [plainRec]).map (·.commitment) = leaves1 ++ [plainRec.commitment] := by
    rw [List.map_append, leaves1_eq]; rfl
  refine ⟨?_, ?_, ?_, ?_, ?_⟩
  · rw [el, calls1_eq]
    have h : (((List.range 10).flatMap (fun k => nodeCalls ((leaves1 ++ [plainRec.commitment]).take k) 2 0)).all
        (fun x => calls1.all (fun y =>
          decide (E.nodeHash x.1 x.2.1 x.2.2 = E.nodeHash y.1 y.2.1 y.2.2 → x = y)))) = true := by decide +kernel
    intro x hx y hy
    exact of_decide_eq_true (List.all_eq_true.1 (List.all_eq_true.1 h x hx) y hy)
  · rw [calls1_eq]
    have h : (calls1.all (fun y => decide (E.nodeHash y.1 y.2.1 y.2.2 ≠ (0 : ZMod p)))) = true := by decide +kernel
    intro y hy
    exact of_decide_eq_true (List.all_eq_true.1 h y hy)
  · rw [el]
    have h : ((leafCalls (leaves1 ++ [plainRec.commitment])).all (fun x => spends1.all (fun s =>
        decide (E.leafHash x.1 x.2 = E.leafHash (s.2.uid.val : F) s.1.commitment →
          x = ((s.2.uid.val : F), s.1.commitment))))) = true := by decide +kernel
    intro x hx y hy
    exact of_decide_eq_true (List.all_eq_true.1 (List.all_eq_true.1 h x hx) y hy)
  · decide +kernel
  · decide +kernel

/-- `C75_freezer`: the last record; the other definitions of the history have other codes -/
example : ∃ s, run 2 (stepsPlain.map Step.event) = .ok s ∧ AllSatisfied 2 stepsPlain ∧
    NoCollisionV 2 (everCreated stepsPlain) (everSpent stepsPlain) ∧ (∀ e ∈ stepsPlain, ∀ o ∈ e.txns, o.SameCode) ∧
    (everCreated stepsPlain)[8]? = some plainRec.toV ∧ Reads plainRec plainRec.toV ∧
    plainRec.asset_def.code ≠ (nativeCode : ZMod p) ∧ plainRec.asset_def.code ≠ (dummyCode : ZMod p) ∧
    plainRec.amount ≠ 0 ∧
    ∀ q ∈ defined (stepsPlain.map Step.event), q.code = plainRec.asset_def.code → q.policy.freezer_pk = 0 := by
  have hc : everCreated stepsPlain = (records1 ++ [plainRec]).map RecordOpening.toV := by
    rw [stepsPlain, everCreated_append, steps_created, hist_created, List.map_append]
    rfl
  have hsp : everSpent stepsPlain = everSpent steps := by
    rw [stepsPlain, everSpent_append]
    simp [Step.txns]
  have hmem : ∀ {P : Opening → Prop}, (∀ e ∈ steps, ∀ o ∈ e.txns, P o) → ∀ e ∈ stepsPlain, ∀ o ∈ e.txns, P o := by
    intro P hP e he o ho
    rcases List.mem_append.1 he with he | he
    · exact hP e he o ho
    · obtain rfl := List.mem_singleton.1 he
      simp [Step.txns] at ho
  obtain ⟨s, hs⟩ := stepsPlain_run
  refine ⟨s, hs, hmem steps_satisfied, ?_, hmem steps_sameCode, by rw [hc]; rfl, reads_self _, by decide +kernel,
    by decide +kernel, by decide +kernel, ?_⟩
  · rw [hc, hsp]
    exact noCollision_toV (by rw [steps_spends, hist_spends]) plain_noCollision
  · have hdef : defined (stepsPlain.map Step.event) = [feeRec.asset_def, assetRec.asset_def] ++ (definedBy open1.note ++
        (definedBy open2.note ++ [plainRec.asset_def])) := by
      simp only [stepsPlain, steps, List.cons_append, List.nil_append, List.map_cons, List.map_nil, defined,
        List.flatMap_cons, List.flatMap_nil, Event.defines, Step.event, List.append_nil]
    have h2 : definedBy open2.note = [mintRec.asset_def] := by
      rw [open2_ok.note]
      show [note2.mint_asset_def] = _
      rw [(C18_fields note2_eq).2.1]
    have h1 : definedBy open1.note = [] := by rw [open1_ok.note]; rfl
    rw [hdef, h1, h2]
    intro q hq hcode
    simp only [List.cons_append, List.nil_append, List.mem_cons, List.not_mem_nil, or_false] at hq
    rcases hq with rfl | rfl | rfl | rfl
    · exact absurd hcode (by decide +kernel)
    · exact absurd hcode (by decide +kernel)
    · exact absurd hcode (by decide +kernel)
    · rfl

/-- `C75_honest` -/
example : run 2 hist = .ok led2 ∧ Honest 2 hist ∧ NoCollision 2 (created hist) (spends hist) :=
  ⟨hist_run, hist_honest, hist_noCollision⟩

/-- `C75_native_false`: Alice turns 100 native units into 100 units that the toy freezer can freeze -/
example : ∃ (vk : TransferVerifyingKey) (n : TransferNote) (w : TransferWit), OpensTransfer 2 2 1 n w ∧
    (∀ t, n.verify vk root t = .ok ()) ∧ ∃ o ∈ w.outputs, o.asset_code = nativeCode ∧ o.amount = 100 ∧
      o.policy.freezer_pk = Toy.E.xy policy.freezer_pk ∧ o.policy.freezer_pk ≠ neutral := by
  obtain ⟨pk, vk, keys⟩ : ∃ pk vk, transferPreprocess 2 2 1 = .ok (pk, vk) := ⟨_, _, rfl⟩
  obtain ⟨n, w, h1, h2, -, h4⟩ := C75_native_false Toy.complete keys (coin := feeRec) (k := alice) (acc := acc0)
    toyPays.native toyPays.unfrozen rfl (by decide +kernel) toyPays.depth toyPays.member.2 policy
    (Or.inr (by decide +kernel)) bob.pubKey 1 2
  refine ⟨vk, n, w, h1, h2, _, by rw [h4]; exact List.mem_cons_of_mem _ (List.mem_cons_self ..), rfl, ?_, rfl, ?_⟩
  · decide +kernel
  · decide +kernel

/-- `C75_mint_false`: the toy asset under its policy and under the default policy -/
example : SnarkComplete ∧ mintPreprocess 1 = .ok (mintPk, mintVk) ∧ PaysFee (1 : Fin 256).val root ⟨feeRec, acc0, alice⟩ 7 ∧
    policy ≠ AssetPolicy.default := ⟨Toy.complete, mintKeys_eq, toyPays, by decide +kernel⟩

end Cap.Examples
