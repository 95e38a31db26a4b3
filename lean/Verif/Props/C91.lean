/-
C91: a viewer who is shown everything can keep books.

status: partial
note: Anybody submits any notes. For an asset whose policy reveals addresses and amounts, and for every address: what it
  holds, together with what its viewer saw it pay, is what it was granted together with what the viewer saw it receive.
  This needs that every transfer of the asset moves more than the reveal threshold (or nothing), that its receivers are
  points of the curve (neither is enforced), that no transfer of something else carries a memo the viewer can open
  (C91_hidden_false: without the second, an accepted transfer above the threshold moves everything and shows nothing;
  C91_forged_false: without the third, whoever makes a payment of an asset without viewer can attach a memo that shows the viewer of any
  other asset whatever receipt they like, with the same effect on the ledger), that no two definitions share the code of
  the asset, and that the hash evaluations of the history do not collide.
-/
import Verif.SpecBooks
import Verif.Props.C65
import Verif.Props.C39
import Verif.Props.C75
import Verif.Props.C51
import Verif.Props.C58

namespace Cap

open Spec

variable [E : CapEnv] [S : CapExt]

/-! ### Sums -/

omit E S in
theorem sum_filter_of_zero {α : Type} {p : α → Bool} {f : α → ℕ} (l : List α) (h : ∀ x ∈ l, p x = false → f x = 0) :
    ((l.filter p).map f).sum = (l.map f).sum := by
  induction l with
  | nil => rfl
  | cons x l ih =>
    rw [List.filter_cons, List.map_cons, List.sum_cons, ← ih (fun y hy => h y (List.mem_cons_of_mem _ hy))]
    by_cases hp : p x = true
    · rw [if_pos hp, List.map_cons, List.sum_cons]
    · rw [if_neg hp, h x List.mem_cons_self (by simpa using hp), Nat.zero_add]

omit E S in
theorem sum_eq_zero_of {α : Type} {f : α → ℕ} (l : List α) (h : ∀ x ∈ l, f x = 0) : (l.map f).sum = 0 := by
  refine List.sum_eq_zero ?_
  intro y hy
  obtain ⟨x, hx, rfl⟩ := List.mem_map.1 hy
  exact h x hx

omit E S in
theorem sum_le_of {α : Type} {f g : α → ℕ} (l : List α) (h : ∀ x ∈ l, f x ≤ g x) : (l.map f).sum ≤ (l.map g).sum := by
  induction l with
  | nil => exact le_rfl
  | cons x l ih =>
    rw [List.map_cons, List.map_cons, List.sum_cons, List.sum_cons]
    exact Nat.add_le_add (h x List.mem_cons_self) (ih (fun y hy => h y (List.mem_cons_of_mem _ hy)))

omit E S in
theorem sum_forall₂ {α β : Type} {R : α → β → Prop} {f : α → ℕ} {g : β → ℕ} {l : List α} {m : List β}
    (h : List.Forall₂ R l m) (e : ∀ x, ∀ y ∈ m, R x y → f x = g y) : (l.map f).sum = (m.map g).sum := by
  induction h with
  | nil => rfl
  | cons hr _ ih =>
    rw [List.map_cons, List.map_cons, List.sum_cons, List.sum_cons, e _ _ List.mem_cons_self hr,
      ih (fun x y hy => e x y (List.mem_cons_of_mem _ hy))]

omit S in
theorem amountFor_le (P : Pt) (c : AssetCode) (r : RecordV) : amountFor P c r ≤ weightV c r := by
  unfold amountFor weightV
  by_cases h : r.asset_code = c
  · rw [if_pos h]; split <;> omega
  · rw [if_neg h, if_neg (fun e => h e.2)]

omit S in
theorem amountFor_other {P : Pt} {c : AssetCode} {r : RecordV} (h : r.asset_code ≠ c) : amountFor P c r = 0 :=
  if_neg (fun e => h e.2)

omit S in
/-- a line that shows a record of the asset counts it -/
theorem lineFor_shows {ad : AssetDefinition} {v : ViewableData} {r : RecordV} (h : Shows ad v r)
    (address : ad.policy.reveal_map[0] = true) (amount : ad.policy.reveal_map[2] = true) (code : r.asset_code = ad.code)
    (P : Pt) : lineFor P v = amountFor P ad.code r := by
  have h1 := h.owner
  have h2 := h.amount
  rw [if_pos address] at h1
  rw [if_pos amount] at h2
  obtain ⟨Q, hQ, hq⟩ := h1
  obtain ⟨a, ha, hv⟩ := h2
  unfold lineFor amountFor
  rw [hQ, ha, ← hq, ← hv, Amount.toF_val]
  by_cases e : Q = P
  · rw [if_pos (by rw [e]), if_pos ⟨by rw [e], code⟩]
  · rw [if_neg (fun x => e (Option.some.inj x)), if_neg (fun x => e (xy_inj x.1))]

/-! ### The memo of a transfer can be opened -/

omit S in
theorem exists_reads {v : RecordV} {P : Pt} (owner : E.xy P = v.owner_addr) (small : v.amount.val < 2 ^ 128)
    {ad : AssetDefinition} (code : v.asset_code = ad.code) (policy : v.policy = ad.policy.toV) :
    Reads ⟨Fin.ofNat (2 ^ 128) v.amount.val, ad, ⟨P, E.aeadPkDefault⟩, if v.freeze_flag then .frozen else .unfrozen, v.blind⟩ v := by
  refine reads_iff.2 ⟨?_, code.symm, owner, ?_, ?_, ?_, ?_, ?_, rfl⟩
  · refine ZMod.val_injective _ ?_
    rw [Amount.toF_val]
    exact Nat.mod_eq_of_lt small
  · rw [policy]; rfl
  · rw [policy]; rfl
  · rw [policy]; rfl
  · rw [policy]
    show 2 * _ + _ = 2 * _ + _
    congr 1
    cases v.freeze_flag <;> simp [FreezeFlag.toNat, boolF]
  · rw [policy]; rfl

omit S in
theorem forall₂_choose {α β : Type} {R : α → β → Prop} {Q : α → Prop} (l : List β) (h : ∀ y ∈ l, ∃ x, R x y ∧ Q x) :
    ∃ m : List α, List.Forall₂ R m l ∧ ∀ x ∈ m, Q x := by
  induction l with
  | nil => exact ⟨[], .nil, by simp⟩
  | cons y l ih =>
    obtain ⟨x, hx, hq⟩ := h y List.mem_cons_self
    obtain ⟨m, hm, hqs⟩ := ih (fun z hz => h z (List.mem_cons_of_mem _ hz))
    refine ⟨x :: m, .cons hx hm, ?_⟩
    intro z hz
    rcases List.mem_cons.1 hz with rfl | hz
    · exact hq
    · exact hqs z hz

/-- **Legible.**  An accepted transfer of more than the threshold can be opened by the viewer, unless it pays an address
that is not a point of the curve (or spends a record of the neutral address). -/
theorem C91_legible (b : Build) {a c d : ℕ} {n : TransferNote} {w : TransferWit} (h : OpensTransfer a c d n w)
    (ha : a < 2 ^ 64) (hc : c < 2 ^ 64) {ad : AssetDefinition} (code : w.asset_code = ad.code)
    (policy : w.policy = ad.policy.toV) (foreign : ad.code ≠ nativeCode)
    (same : ∀ i ∈ w.inputs.tail, i.ro.asset_code ≠ dummyCode → i.ro.asset_code = w.asset_code)
    (owned : ∀ i ∈ w.inputs.tail, i.ro.asset_code ≠ dummyCode → i.ro.owner_addr ≠ neutral)
    (held : ∀ i ∈ w.inputs, i.ro.asset_code ≠ dummyCode → i.ro.amount.val < 2 ^ 128)
    (points : ∀ o ∈ w.outputs.tail, ∃ P, E.xy P = o.owner_addr) (over : ad.policy.reveal_threshold.val < w.moves)
    {k : ViewerKeyPair} (sees : Oversees k ad) : ∃ x, k.openTransferViewingMemo b ad n = .ok x := by
  obtain ⟨i0, is, o0, os, nl, nls, cm, cs, hp⟩ := h.sat.parts h.shape
  obtain ⟨-, -, pin, pout⟩ := hp.map_in h.sat
  rw [hp.inputs, List.tail_cons] at same owned
  rw [hp.outputs, List.tail_cons] at points
  have hins : ∃ m : List RecordOpening, List.Forall₂ Reads m ((is.filter (fun i => !i.ro.isDummy)).map (·.ro)) ∧
      ∀ x ∈ m, x.pub_key.address ≠ 0 := by
    refine forall₂_choose _ ?_
    intro v hv
    obtain ⟨i, hi, rfl⟩ := List.mem_map.1 hv
    obtain ⟨hi, hd⟩ := List.mem_filter.1 hi
    have hd' : i.ro.isDummy = false := by simpa using hd
    have hreal : i.ro.asset_code ≠ dummyCode := fun e => by rw [isDummy_iff.2 e] at hd'; cases hd'
    obtain ⟨x, -, hx⟩ := hp.mem_in hi
    have hP : E.xy (i.addr_secret.val • E.gen) = i.ro.owner_addr := hx.2.2.2.1.2
    refine ⟨_, exists_reads hP (held i (by rw [hp.inputs]; exact List.mem_cons_of_mem _ hi) hreal)
      ((same i hi hreal).trans code) ((pin i hi hd').trans policy), ?_⟩
    intro e
    have e : i.addr_secret.val • E.gen = 0 := e
    refine owned i hi hreal ?_
    rw [← hP, e]
    exact E.xy_zero
  have houts : ∃ m : List RecordOpening, List.Forall₂ Reads m os ∧ ∀ x ∈ m, x.asset_def = ad := by
    refine forall₂_choose _ ?_
    intro o ho
    obtain ⟨P, hP⟩ := points o ho
    obtain ⟨x, -, hx⟩ := hp.mem_out ho
    have h2 := hx.2.1
    simp only [Bool.false_eq_true, if_false] at h2
    exact ⟨_, exists_reads hP (lt_trans hx.2.2.2 (by norm_num [AMOUNT_LEN])) (h2.1.trans code)
      ((pout o ho).trans policy), rfl⟩
  obtain ⟨ins, hin, hown⟩ := hins
  obtain ⟨outs, hout, hasset⟩ := houts
  have hdummy : ∀ i ∈ w.inputs, i.ro.asset_code = dummyCode → i.ro.amount = 0 := fun i hi hd => (C46_partial h hi hd).1
  have hheld : ∀ i ∈ w.inputs, i.ro.amount.val < 2 ^ 128 := by
    intro i hi
    by_cases hd : i.ro.asset_code = dummyCode
    · rw [hdummy i hi hd]; simp
    · exact held i hi hd
  have hsum : total ins = w.moves := by
    obtain ⟨i0', is', o0', os', e1, e2, -, -, -, b1, -⟩ := C01_balance h ha hc hheld
    rw [hp.inputs, List.cons.injEq] at e1
    rw [hp.outputs, List.cons.injEq] at e2
    obtain ⟨rfl, rfl⟩ := e1
    obtain ⟨rfl, rfl⟩ := e2
    have hb := (b1 (by rw [code]; exact foreign)).2
    have h1 : total ins = (((is.filter (fun i => !i.ro.isDummy)).map (·.ro)).map (·.amount.val)).sum :=
      sum_forall₂ hin (fun x y _ hr => by rw [← (reads_iff.1 hr).1, Amount.toF_val])
    rw [h1, List.map_map, sum_filter_of_zero]
    · unfold TransferWit.moves
      rw [hp.outputs, List.tail_cons, ← hb]
      rfl
    · intro i hi hd
      have hd' : i.ro.isDummy = true := by simpa using hd
      show i.ro.amount.val = 0
      rw [hdummy i (by rw [hp.inputs]; exact List.mem_cons_of_mem _ hi) (isDummy_iff.1 hd')]
      exact ZMod.val_zero
  have hne : ∃ o ∈ outs, o.asset_def = ad := by
    cases hos : outs with
    | nil =>
      rw [hos] at hout
      cases hout
      unfold TransferWit.moves at over
      rw [hp.outputs] at over
      simp at over
    | cons o l => exact ⟨o, List.mem_cons_self, hasset o (by rw [hos]; exact List.mem_cons_self)⟩
  exact ⟨_, C13_partial b h ha hc (by rw [hp.inputs, List.tail_cons]; exact hin)
    (by rw [hp.outputs, List.tail_cons]; exact hout) hne (by rw [sees.address.1, sees.address.2]) (fun _ => hown)
    (by rw [hsum]; exact over) sees.viewer sees.named⟩

/-! ### One transaction -/

theorem transfer_books (b : Build) {d : ℕ} {n : TransferNote} {w : TransferWit}
    (h : (Opening.transfer n w).Satisfied d) (ok : (Opening.transfer n w).Checked)
    (held : ∀ s ∈ (Opening.transfer n w).realSpends, s.ro.amount.val < 2 ^ 128) (few : w.outputs.length < 2 ^ 64)
    {k : ViewerKeyPair} {ad : AssetDefinition} (sees : Oversees k ad) (foreign : ad.code ≠ nativeCode)
    (real : ad.code ≠ dummyCode) (policy : w.asset_code = ad.code → 0 < w.moves → w.policy = ad.policy.toV)
    (above : (Opening.transfer n w).AboveThreshold ad) (curve : (Opening.transfer n w).OnCurve ad)
    (genuine : (Opening.transfer n w).NotForged b k ad) (P : Pt) :
    (w.outputs.map (amountFor P ad.code)).sum + pays b k ad P (.transfer n) =
      ((Opening.transfer n w).realSpends.map (fun s => amountFor P ad.code s.ro)).sum + receives b k ad P (.transfer n) := by
  have hw : OpensTransfer n.inputs_nullifiers.length n.output_commitments.length d n w := h
  have hc : n.output_commitments.length < 2 ^ 64 := by rw [← hw.shape.outputs_len]; exact few
  obtain ⟨i0, is, o0, os, nl, nls, cm, cs, hp⟩ := hw.sat.parts hw.shape
  have ho0 : o0.asset_code = nativeCode := by
    have := hp.out0.2.1
    simp only [if_true] at this
    exact this.1
  have hi0 : i0.ro.asset_code = nativeCode := by
    have := hp.in0.2.2.1
    simp only [InputPosOk, if_true] at this
    exact this.1
  have hos : ∀ o ∈ os, o.asset_code = w.asset_code := by
    intro o ho
    obtain ⟨x, -, hx⟩ := hp.mem_out ho
    have := hx.2.1
    simp only [Bool.false_eq_true, if_false] at this
    exact this.1
  have same : ∀ i ∈ is, i.ro.asset_code ≠ dummyCode → i.ro.asset_code = w.asset_code := by
    intro i hi
    exact ok.same_code i (by rw [hp.inputs]; exact hi)
  have hreal : ∀ i ∈ w.inputs, i.ro.asset_code ≠ dummyCode →
      (⟨i.ro, i.acc, i.addr_secret, .user⟩ : Spend) ∈ (Opening.transfer n w).realSpends := by
    intro i hi hd
    exact mem_realSpends.2 ⟨List.mem_map.2 ⟨i, hi, rfl⟩, hd⟩
  have owned : ∀ i ∈ is, i.ro.asset_code ≠ dummyCode → i.ro.owner_addr ≠ neutral := by
    intro i hi hd
    exact (ok.canonical _ (hreal i (by rw [hp.inputs]; exact List.mem_cons_of_mem _ hi) hd)).2
  -- what is spent: the records after the first one
  have hspent : ((Opening.transfer n w).realSpends.map (fun s => amountFor P ad.code s.ro)).sum =
      (is.map (fun i => amountFor P ad.code i.ro)).sum := by
    unfold Opening.realSpends
    rw [sum_filter_of_zero]
    · show ((w.inputs.map _).map _).sum = _
      rw [hp.inputs, List.map_map, List.map_cons, List.sum_cons]
      have : amountFor P ad.code i0.ro = 0 := amountFor_other (by rw [hi0]; exact fun e => foreign e.symm)
      show amountFor P ad.code i0.ro + _ = _
      rw [this, Nat.zero_add]
      rfl
    · intro s _ hs
      have : s.ro.asset_code = dummyCode := by simpa using hs
      exact amountFor_other (by rw [this]; exact fun e => real e.symm)
  have hmade : (w.outputs.map (amountFor P ad.code)).sum = (os.map (amountFor P ad.code)).sum := by
    rw [hp.outputs, List.map_cons, List.sum_cons, amountFor_other (by rw [ho0]; exact fun e => foreign e.symm), Nat.zero_add]
  rw [hspent, hmade]
  by_cases hopen : ∃ x, k.openTransferViewingMemo b ad n = .ok x
  · obtain ⟨⟨vins, vouts⟩, hx⟩ := hopen
    obtain ⟨code, pos⟩ := genuine ⟨_, hx⟩
    obtain ⟨s1, s2⟩ := C65_partial b hw hc code (policy code pos) foreign sees.named
      (by rw [sees.address.1, sees.address.2]) (above code pos) hx
    rw [hp.outputs, List.tail_cons] at s1
    rw [hp.inputs, List.tail_cons] at s2
    have e1 : receives b k ad P (.transfer n) = (os.map (amountFor P ad.code)).sum := by
      simp only [receives, hx]
      exact sum_forall₂ s1 (fun v o ho hs => lineFor_shows hs.1 sees.address.1 sees.amount ((hos o ho).trans code) P)
    have e2 : pays b k ad P (.transfer n) = (is.map (fun i => amountFor P ad.code i.ro)).sum := by
      simp only [pays, hx]
      refine (sum_forall₂ (g := fun i => amountFor P ad.code i.ro) s2 (fun v i hi hs => ?_)).trans ?_
      · obtain ⟨hi, hf⟩ := List.mem_filter.1 hi
        have hd : i.ro.asset_code ≠ dummyCode := by
          intro e
          rw [isDummy_iff.2 e] at hf
          simp at hf
        exact lineFor_shows hs.1 sees.address.1 sees.amount ((same i hi hd).trans code) P
      · unfold shownInputs
        refine sum_filter_of_zero is ?_
        intro i hi hf
        by_cases hd : i.ro.asset_code = dummyCode
        · exact amountFor_other (by rw [hd]; exact fun e => real e.symm)
        · have hn : i.ro.owner_addr ≠ E.xy 0 := by rw [E.xy_zero]; exact owned i hi hd
          have h2 : i.ro.isDummy = false := by
            cases hb : i.ro.isDummy
            · rfl
            · exact absurd (isDummy_iff.1 hb) hd
          rw [h2] at hf
          simp [hn] at hf
    omega
  · -- the viewer sees nothing
    obtain ⟨err, hx⟩ : ∃ err, k.openTransferViewingMemo b ad n = .error err := by
      cases hr : k.openTransferViewingMemo b ad n with
      | ok x => exact absurd ⟨x, hr⟩ hopen
      | error err => exact ⟨err, rfl⟩
    have e1 : receives b k ad P (.transfer n) = 0 := by simp only [receives, hx]
    have e2 : pays b k ad P (.transfer n) = 0 := by simp only [pays, hx]
    rw [e1, e2, Nat.add_zero, Nat.add_zero]
    have hnone : w.asset_code = ad.code → w.moves = 0 := by
      intro code
      by_contra hpos
      refine hopen (C91_legible b hw ok.short hc code (policy code (by omega)) foreign ?_ ?_ ?_ (curve code)
        (above code (by omega)) sees)
      · rw [hp.inputs]; exact same
      · rw [hp.inputs]; exact owned
      · exact fun i hi hd => held _ (hreal i hi hd)
    by_cases code : w.asset_code = ad.code
    · have hz := hnone code
      unfold TransferWit.moves at hz
      rw [hp.outputs, List.tail_cons] at hz
      have hbal := Opening.Satisfied.balance h ok held few real
      have hvs : valueOf ad.code w.outputs = 0 := by
        rw [hp.outputs, Opening.valueOf_cons, if_neg (by rw [ho0]; exact fun e => foreign e.symm), Nat.zero_add,
          Opening.valueOf_same (fun r hr => (hos r hr).trans code)]
        exact hz
      rw [if_neg foreign] at hbal
      have hcr : (Opening.transfer n w).creates = w.outputs := rfl
      rw [hcr, hvs] at hbal
      have l1 : (os.map (amountFor P ad.code)).sum = 0 := by
        rw [← hmade]
        have := sum_le_of w.outputs (fun r _ => amountFor_le P ad.code r)
        rw [← valueOf_eq, hvs] at this
        omega
      have l2 : (is.map (fun i => amountFor P ad.code i.ro)).sum = 0 := by
        rw [← hspent]
        have := sum_le_of (Opening.transfer n w).realSpends (fun s _ => amountFor_le P ad.code s.ro)
        have hv : valueOf ad.code ((Opening.transfer n w).realSpends.map (·.ro)) = 0 := by omega
        rw [valueOf_eq, List.map_map] at hv
        have hv' : ((Opening.transfer n w).realSpends.map (fun s => weightV ad.code s.ro)).sum = 0 := hv
        omega
      rw [l1, l2]
    · rw [sum_eq_zero_of os (fun o ho => amountFor_other (by rw [hos o ho]; exact code)), sum_eq_zero_of is]
      intro i hi
      by_cases hd : i.ro.asset_code = dummyCode
      · exact amountFor_other (by rw [hd]; exact fun e => real e.symm)
      · exact amountFor_other (by rw [same i hi hd]; exact code)

theorem mint_books (b : Build) {d : ℕ} {n : MintNote} {w : MintWit} (h : OpensMint d n w)
    {k : ViewerKeyPair} {ad : AssetDefinition} (sees : Oversees k ad) (foreign : ad.code ≠ nativeCode)
    (defs : n.mint_asset_def.code = ad.code → n.mint_asset_def = ad) (P : Pt) :
    ([w.chg_ro, w.mint_ro].map (amountFor P ad.code)).sum + pays b k ad P (.mint n) =
      ((Opening.mint n w).realSpends.map (fun s => amountFor P ad.code s.ro)).sum + receives b k ad P (.mint n) := by
  obtain ⟨-, -, m3, m4, -⟩ := C45_opened h
  have hspent : ((Opening.mint n w).realSpends.map (fun s => amountFor P ad.code s.ro)).sum = 0 := by
    refine sum_eq_zero_of _ ?_
    intro s hs
    obtain rfl := List.mem_singleton.1 (mem_realSpends.1 hs).1
    have : w.fee_ro.asset_code = nativeCode := h.sat.fee_code
    exact amountFor_other (by rw [this]; exact fun e => foreign e.symm)
  have hchg : w.chg_ro.asset_code = nativeCode := h.sat.chg_code
  rw [hspent, List.map_cons, List.map_cons, List.map_nil, List.sum_cons, List.sum_cons, List.sum_nil,
    amountFor_other (r := w.chg_ro) (by rw [hchg]; exact fun e => foreign e.symm)]
  simp only [pays, receives, Nat.zero_add, Nat.add_zero]
  by_cases hd : n.mint_asset_def = ad
  · rw [if_pos hd]
    have viewer : k.pubKey = n.mint_asset_def.policy.viewer_pk := by rw [hd]; exact sees.viewer
    have named : n.mint_asset_def.policy.viewer_pk ≠ 0 := by rw [hd]; exact sees.named
    have code : w.mint_ro.asset_code = ad.code := by rw [m4, hd]
    cases hv : k.openMintViewingMemo n with
    | ok v =>
      obtain ⟨-, v2, v3, v4, v5, -⟩ := C65_mint_opened h viewer named hv
      rw [hd] at v3 v4
      rw [if_pos sees.amount] at v4
      obtain ⟨Q, hQ⟩ := Option.ne_none_iff_exists'.1 (v3 sees.address.1)
      have hq := v2 Q hQ
      simp only [lineFor, amountFor, v4, hQ, ← hq, ← v5, code, Amount.toF_val, and_true]
      by_cases e : Q = P
      · rw [if_pos (by rw [e]), if_pos (by rw [e])]
      · rw [if_neg (fun x => e (xy_inj x)), if_neg (fun x => e (Option.some.inj x))]
    | error err =>
      simp only
      unfold amountFor
      rw [if_neg]
      rintro ⟨ho, -⟩
      have := (C39_mint_exact k n).1.2 ⟨w.mint_ro.owner_addr.1, w.mint_ro.owner_addr.2, w.mint_ro.blind, by
        rw [C15_opened h viewer named], fun _ => ⟨P, ho.symm⟩⟩
      rw [hv] at this
      obtain ⟨_, hh⟩ := this
      cases hh
  · rw [if_neg hd, amountFor_other]
    rw [m4]
    exact fun e => hd (defs e)

theorem freeze_books (b : Build) {m d : ℕ} {n : FreezeNote} {w : FreezeWit} (h : OpensFreeze m d n w)
    {k : ViewerKeyPair} {ad : AssetDefinition} (foreign : ad.code ≠ nativeCode) (real : ad.code ≠ dummyCode) (P : Pt) :
    ((w.chg_ro :: w.inputs.map (·.out)).map (amountFor P ad.code)).sum + pays b k ad P (.freeze n) =
      ((Opening.freeze n w).realSpends.map (fun s => amountFor P ad.code s.ro)).sum + receives b k ad P (.freeze n) := by
  have hc : w.chg_ro.asset_code = nativeCode ∧ w.fee_ro.asset_code = nativeCode := by
    obtain ⟨v, hv, -, hs⟩ := h
    have : v.native_asset_code = nativeCode := by
      unfold FreezePublicInput.toV at hv
      split at hv <;> cases hv
      rfl
    exact ⟨hs.chg_code.trans this, hs.fee_code.trans this⟩
  have hspent : ((Opening.freeze n w).realSpends.map (fun s => amountFor P ad.code s.ro)).sum =
      (w.inputs.map (fun i => amountFor P ad.code i.ro)).sum := by
    unfold Opening.realSpends
    rw [sum_filter_of_zero]
    · show ((_ :: w.inputs.map _).map _).sum = _
      rw [List.map_cons, List.sum_cons, List.map_map]
      have : amountFor P ad.code w.fee_ro = 0 := amountFor_other (by rw [hc.2]; exact fun e => foreign e.symm)
      show amountFor P ad.code w.fee_ro + _ = _
      rw [this, Nat.zero_add]
      rfl
    · intro s _ hs
      have : s.ro.asset_code = dummyCode := by simpa using hs
      exact amountFor_other (by rw [this]; exact fun e => real e.symm)
  rw [hspent, List.map_cons, List.sum_cons, amountFor_other (by rw [hc.1]; exact fun e => foreign e.symm), List.map_map]
  simp only [pays, receives, Nat.zero_add, Nat.add_zero]
  congr 1
  refine List.map_congr_left fun i hi => ?_
  obtain ⟨f1, f2, f3, -⟩ := C06_partial h i hi
  simp only [Function.comp_apply, amountFor, f1, f2, f3]

/-- the books of one transaction -/
theorem opening_books (b : Build) {d : ℕ} {o : Opening} (h : o.Satisfied d) (ok : o.Checked)
    (held : ∀ s ∈ o.realSpends, s.ro.amount.val < 2 ^ 128) (few : o.creates.length < 2 ^ 64)
    {k : ViewerKeyPair} {ad : AssetDefinition} (sees : Oversees k ad) (foreign : ad.code ≠ nativeCode)
    (real : ad.code ≠ dummyCode)
    (policy : ∀ n w, o = .transfer n w → w.asset_code = ad.code → 0 < w.moves → w.policy = ad.policy.toV)
    (defs : ∀ q ∈ definedBy o.note, q.code = ad.code → q = ad)
    (above : o.AboveThreshold ad) (curve : o.OnCurve ad) (genuine : o.NotForged b k ad) (P : Pt) :
    (o.creates.map (amountFor P ad.code)).sum + pays b k ad P o.note =
      (o.realSpends.map (fun s => amountFor P ad.code s.ro)).sum + receives b k ad P o.note := by
  cases o with
  | transfer n w =>
    exact transfer_books b h ok held few sees foreign real (policy n w rfl) above curve genuine P
  | mint n w => exact mint_books b h sees foreign (defs _ (List.mem_singleton_self _)) P
  | freeze n w => exact freeze_books b h foreign real P

/-! ### The history -/

theorem neverSpent_sum (f : RecordV → ℕ) {h : List Step} (small : (everCreated h).length < 2 ^ 64) :
    ((neverSpent h).map f).sum = leftOf f ((spentPositions h).map ZMod.val) (everCreated h) 0 := by
  have general : ∀ (gone : List F) (l : List RecordV) (n : ℕ), n + l.length < E.p →
      ((((l.zipIdx n).filter (fun x => ((x.2 : ℕ) : F) ∉ gone)).map (·.1)).map f).sum =
        leftOf f (gone.map ZMod.val) l n := by
    intro gone l
    induction l with
    | nil => intro n _; rfl
    | cons r rs ih =>
      intro n hn
      rw [List.length_cons] at hn
      rw [List.zipIdx_cons, List.filter_cons, leftOf_cons, ← ih (n + 1) (by omega)]
      have hm : ((n : ℕ) : F) ∈ gone ↔ n ∈ gone.map ZMod.val := cast_mem (by omega)
      by_cases hg : n ∈ gone.map ZMod.val
      · rw [if_pos hg, if_neg (by simpa using hm.2 hg), Nat.zero_add]
      · rw [if_neg hg, if_pos (by simpa using fun e => hg (hm.1 e))]
        rfl
  exact general _ _ 0 (by have := E.p_gt; omega)

/-- everything created is either spent or left -/
theorem held_and_spent {d : Fin 256} {h : List Step} {s : LedgerState} (i : Inv1 d h s) (P : Pt) (c : AssetCode) :
    heldBy P c h + ((everSpent h).map (fun x => amountFor P c x.ro)).sum = ((everCreated h).map (amountFor P c)).sum := by
  unfold heldBy
  rw [neverSpent_sum _ i.toInv0.length]
  have h0 := leftOf_spend (w := amountFor P c) (l := everCreated h) (pos := fun x : Spend => x.acc.uid.val)
    (v := fun x => amountFor P c x.ro) (everSpent h) (gone := []) (by
      intro x hx
      obtain ⟨r, hr, he⟩ := (i.found x hx).position i.toInv0.length
      obtain ⟨q1, q2, q3, -⟩ := scalarsV_inj he
      exact ⟨r, hr, by unfold amountFor; rw [q1, q2, q3]⟩) (by
      have := i.nodup.map (ZMod.val_injective E.p)
      rwa [spentPositions, List.map_map] at this) (by simp)
  rw [List.nil_append, leftOf_of_lt (gone := []) (everCreated h) (by simp)] at h0
  rw [← h0, spentPositions, List.map_map]
  rfl

omit E S in
theorem sum_flatMap {α β : Type} (f : β → ℕ) (g : α → List β) (l : List α) :
    ((l.flatMap g).map f).sum = (l.map (fun x => ((g x).map f).sum)).sum := by
  induction l with
  | nil => rfl
  | cons x l ih => rw [List.flatMap_cons, List.map_append, List.sum_append, ih, List.map_cons, List.sum_cons]

/-- **The books of the viewer.**  Anybody submits any notes.  For every address: what it holds of the asset, together with
what the viewer saw it pay, is what it was granted together with what the viewer saw it receive. -/
theorem C91_books_partial (b : Build) {d : Fin 256} {h : List Step} {s : LedgerState}
    (ok : run d (h.map Step.event) = .ok s) (sat : AllSatisfied d h) (checked : ∀ e ∈ h, ∀ o ∈ e.txns, o.Checked)
    (maps : ∀ e ∈ h, ∀ o ∈ e.txns, o.MapFits) (hashes : NoCollisionV d (everCreated h) (everSpent h))
    {k : ViewerKeyPair} {ad : AssetDefinition} (sees : Oversees k ad) (foreign : ad.code ≠ nativeCode)
    (real : ad.code ≠ dummyCode) (one : ∀ q ∈ defined (h.map Step.event), q.code = ad.code → q = ad)
    (above : ∀ e ∈ h, ∀ o ∈ e.txns, o.AboveThreshold ad) (curve : ∀ e ∈ h, ∀ o ∈ e.txns, o.OnCurve ad)
    (genuine : ∀ e ∈ h, ∀ o ∈ e.txns, o.NotForged b k ad) (P : Pt) :
    heldBy P ad.code h + ((notesOf h).map (pays b k ad P)).sum =
      grantedTo P ad.code h + ((notesOf h).map (receives b k ad P)).sum := by
  have i := inv1_run h ok sat checked hashes
  have hleft := held_and_spent i P ad.code
  have policies : ∀ r ∈ everCreated h, r.asset_code = ad.code → r.amount ≠ 0 → r.policy = ad.policy.toV := by
    intro r hr hc ha
    obtain ⟨q, hq, hqc, hp⟩ := policy_run_fits ok sat hashes (fun e he o ho => (checked e he o ho).same_code) maps hr
      (by rw [hc]; exact foreign) (by rw [hc]; exact real) ha
    rw [hp, one q hq (hqc.trans hc)]
  have hstep : ∀ e ∈ h, (e.creates.map (amountFor P ad.code)).sum +
      ((e.txns.map Opening.note).map (pays b k ad P)).sum =
      e.grants P ad.code +
      (((e.txns.flatMap Opening.realSpends).map (fun x => amountFor P ad.code x.ro)).sum +
      ((e.txns.map Opening.note).map (receives b k ad P)).sum) := by
    intro e he
    cases e with
    | grant ro => simp [Step.creates, Step.txns, Step.grants]
    | block os blind who time =>
      simp only [Step.creates, Step.txns, Step.grants]
      have hfee : amountFor P ad.code (feeRecord who (collected (os.map (fun o => ⟨o.note, [], []⟩))) blind).toV = 0 :=
        amountFor_other (fun e => foreign (Eq.symm e))
      rw [List.map_append, List.sum_append, List.map_cons, List.map_nil, List.sum_cons, List.sum_nil, hfee]
      have hmem : ∀ o ∈ os, o ∈ (Step.block os blind who time).txns := fun o ho => ho
      have hcr : ∀ o ∈ os, ∀ r ∈ o.creates, r ∈ everCreated h := by
        intro o ho r hr
        exact List.mem_flatMap.2 ⟨_, he, List.mem_append_left _ (List.mem_flatMap.2 ⟨o, ho, hr⟩)⟩
      have one' : ∀ o ∈ os, ∀ q ∈ definedBy o.note, q.code = ad.code → q = ad := by
        intro o ho q hq hc
        refine one q ?_ hc
        refine List.mem_flatMap.2 ⟨_, List.mem_map.2 ⟨_, he, rfl⟩, ?_⟩
        simp only [Step.event, Event.defines, List.mem_flatMap, List.mem_map]
        exact ⟨_, ⟨o, ho, rfl⟩, hq⟩
      have hheld : ∀ o ∈ os, ∀ x ∈ o.realSpends, x.ro.amount.val < 2 ^ 128 := by
        intro o ho x hx
        obtain ⟨r, hr, hsc⟩ := (i.found x (List.mem_flatMap.2 ⟨_, he, List.mem_flatMap.2 ⟨o, ho, hx⟩⟩)).position
          i.toInv0.length
        obtain ⟨q1, q2, -⟩ := scalarsV_inj hsc
        rw [← q1]
        exact i.held r (List.mem_of_getElem? hr) (by rw [q2]; exact (mem_realSpends.1 hx).2)
      have hfew : ∀ o ∈ os, o.creates.length < 2 ^ 64 := by
        intro o ho
        have h1 := (List.sublist_flatten_of_mem (List.mem_map_of_mem (f := Opening.creates) ho)).length_le
        have h2 := (List.sublist_flatten_of_mem (List.mem_map_of_mem (f := Step.creates) he)).length_le
        rw [← List.flatMap_def] at h1 h2
        have h3 := i.toInv0.length
        rw [everCreated] at h3
        rw [Step.creates, List.length_append] at h2
        omega
      have hpol : ∀ o ∈ os, ∀ n w, o = .transfer n w → w.asset_code = ad.code → 0 < w.moves → w.policy = ad.policy.toV := by
        rintro o ho n w rfl hc hpos
        have hs := sat _ he _ ho
        obtain ⟨i0, is, o0, outs, nl, nls, cm, cs, hp⟩ := hs.sat.parts hs.shape
        obtain ⟨r, hr, ha⟩ : ∃ r ∈ w.outputs.tail, r.amount ≠ 0 := by
          by_contra hno
          refine absurd (sum_eq_zero_of (f := fun r : RecordV => r.amount.val) w.outputs.tail ?_) (by
            unfold TransferWit.moves at hpos
            omega)
          intro r hr
          by_contra ha
          exact hno ⟨r, hr, fun e => ha (by rw [e]; exact ZMod.val_zero)⟩
        have hr' := hr
        rw [hp.outputs, List.tail_cons] at hr'
        obtain ⟨x, -, hx⟩ := hp.mem_out hr'
        have h2 := hx.2.1
        simp only [Bool.false_eq_true, if_false] at h2
        rw [← (hp.map_in hs.sat).2.2.2 r hr']
        exact policies r (hcr _ ho r (List.mem_of_mem_tail hr)) (h2.1.trans hc) ha
      have hsum : ∀ l : List Opening, (∀ o ∈ l, o ∈ os) →
          ((l.flatMap Opening.creates).map (amountFor P ad.code)).sum + ((l.map Opening.note).map (pays b k ad P)).sum =
            ((l.flatMap Opening.realSpends).map (fun x => amountFor P ad.code x.ro)).sum +
              ((l.map Opening.note).map (receives b k ad P)).sum := by
        intro l
        induction l with
        | nil => intro _; rfl
        | cons o l ih =>
          intro hl
          have ho := hl o List.mem_cons_self
          have h1 := opening_books b (sat _ he o ho) (checked _ he o ho) (hheld o ho) (hfew o ho) sees foreign real
            (hpol o ho) (one' o ho) (above _ he o ho) (curve _ he o ho) (genuine _ he o ho) P
          have h2 := ih (fun y hy => hl y (List.mem_cons_of_mem _ hy))
          simp only [List.flatMap_cons, List.map_append, List.sum_append, List.map_cons, List.sum_cons]
          omega
      have := hsum os (fun _ h => h)
      omega
  have hall : ∀ l : List Step, (∀ e ∈ l, e ∈ h) → ((everCreated l).map (amountFor P ad.code)).sum +
      ((notesOf l).map (pays b k ad P)).sum = grantedTo P ad.code l +
        (((everSpent l).map (fun x => amountFor P ad.code x.ro)).sum + ((notesOf l).map (receives b k ad P)).sum) := by
    intro l
    induction l with
    | nil => intro _; rfl
    | cons e l ih =>
      intro hl
      have h1 := hstep e (hl e List.mem_cons_self)
      have h2 := ih (fun y hy => hl y (List.mem_cons_of_mem _ hy))
      simp only [everCreated, everSpent, notesOf, grantedTo, List.flatMap_cons, List.map_append, List.sum_append,
        List.map_cons, List.sum_cons] at h1 h2 ⊢
      omega
  have := hall h (fun _ h => h)
  omega

/-! ### What nobody checks -/

/-- the ledger does not look at the memo -/
theorem insertBlock_twin {d : Fin 256} {s : LedgerState} {n n' : TransferNote} {blind : F} {who : UserPubKey}
    (h1 : n'.inputs_nullifiers = n.inputs_nullifiers) (h2 : n'.output_commitments = n.output_commitments)
    (h3 : n'.aux_info = n.aux_info) :
    s.insertBlock d.val ⟨[.transfer n'], blind, who⟩ = s.insertBlock d.val ⟨[.transfer n], blind, who⟩ := by
  have hf : calculateFee [.transfer n'] = calculateFee [.transfer n] := by
    simp only [calculateFee, List.map_cons, List.map_nil, TransactionNote.fee, h3]
  simp only [LedgerState.insertBlock, LedgerState.insertNotes, LedgerState.insertNote, MockBlock.feeRecordCommitment,
    hf, h1, h2]

/-- **Forged entries.**  For every instantiation, whoever the viewer is.  From a history whose last block is a transfer of
an asset without a viewer, its author could have made another one, with the same effect on the ledger, whose memo shows
the viewer of any other asset that any address received any amount, from nobody. -/
theorem C91_forged_false (complete : SnarkComplete) (batch : SnarkBatch) {d : Fin 256} {h : List Step}
    {n : TransferNote} {w : TransferWit} {blind : F} {who : UserPubKey} {time : U64} {s : LedgerState}
    (ok : run d ((h ++ [Step.block [.transfer n w] blind who time]).map Step.event) = .ok s)
    (sat : (Opening.transfer n w).Satisfied d.val) (short : n.inputs_nullifiers.length < 2 ^ 64)
    (few : n.output_commitments.length < 2 ^ 64) (pays_somebody : 2 ≤ n.output_commitments.length)
    {pol : AssetPolicy} (policy : w.policy = pol.toV) (free : pol.viewer_pk = 0) {k : ViewerKeyPair}
    {ad : AssetDefinition} (sees : Oversees k ad) (real : ad.code ≠ dummyCode) (P : Pt) (a : Amount) :
    ∃ n' : TransferNote, (Opening.transfer n' w).Satisfied d.val ∧
      run d ((h ++ [Step.block [.transfer n' w] blind who time]).map Step.event) = .ok s ∧
      (∀ Q c, heldBy Q c (h ++ [Step.block [.transfer n' w] blind who time]) =
        heldBy Q c (h ++ [Step.block [.transfer n w] blind who time])) ∧
      ∀ b, receives b k ad P (.transfer n') = a.val ∧ ∀ Q, pays b k ad Q (.transfer n') = 0 := by
  obtain ⟨s1, r1, r2⟩ := event_append ok
  have r2' : (do validateTxnsBatch d s1 [.transfer n] time
                 s1.insertBlock d.val ⟨[.transfer n], blind, who⟩) = .ok s := r2
  rw [bind_ok_iff] at r2'
  obtain ⟨u, hv, hi⟩ := r2'
  obtain ⟨v1, v2, v3, v4⟩ := (C51_any batch (by simp)).1 hv
  obtain ⟨vk, hk, hchk⟩ := v4 _ (List.mem_singleton_self _)
  have key : ∃ x : TransferProvingKey × TransferVerifyingKey,
      transferPreprocess n.inputs_nullifiers.length n.output_commitments.length d = .ok x ∧ vk = .transfer x.2 := by
    rw [keyForNote, bind_ok_iff] at hk
    obtain ⟨x, hx, hvk⟩ := hk
    refine ⟨x, ?_, (Except.ok.inj hvk).symm⟩
    cases hp : transferPreprocess n.inputs_nullifiers.length n.output_commitments.length d with
    | ok y => rw [hp] at hx; exact hx
    | error e => rw [hp] at hx; cases hx
  obtain ⟨⟨pk, tvk⟩, keys, rfl⟩ := key
  have alone : ∀ m : TransferNote, m.verify tvk m.aux_info.merkle_root time = .ok () ↔
      CheckedInBatch time (.transfer m) m.aux_info.merkle_root (.transfer tvk) := by
    intro m
    have := checked_alone (time := time) (t := .transfer m) (root := m.aux_info.merkle_root) (vk := .transfer tvk)
    simpa [VerifiesAlone, SameKind, Domestic] using this
  have hver := (alone n).2 hchk
  have hpos : n.inputs_nullifiers.length ≠ 0 := by
    obtain ⟨i0, is, o0, os, nl, nls, cm, cs, hp⟩ := (OpensTransfer.sat sat).parts sat.shape
    have h1 : n.inputs_nullifiers = nl :: nls := hp.nullifiers
    rw [h1]; simp
  let nobody : RecordOpening := ⟨0, ad, ⟨E.gen, E.aeadPkDefault⟩, .unfrozen, 0⟩
  let somebody : RecordOpening := ⟨a, ad, ⟨P, E.aeadPkDefault⟩, .unfrozen, 0⟩
  obtain ⟨n', t1, t2, t3, t4, t5, t6⟩ := C65_false complete keys short few sat hver policy (Or.inl free) (ad := ad)
    (ins := List.replicate (n.inputs_nullifiers.length - 1) (nobody, List.replicate 8 0))
    (outs := somebody :: List.replicate (n.output_commitments.length - 2) nobody)
    (by intro x hx; rw [List.eq_of_mem_replicate hx]; simp)
    (by intro x hx; rw [List.eq_of_mem_replicate hx]; exact real)
    (by intro _ x hx; rw [List.eq_of_mem_replicate hx]; exact gen_ne_zero)
    (by rw [sees.address.1, sees.address.2])
    (by rw [List.length_replicate]; omega) (by rw [List.length_cons, List.length_replicate]; omega) sees.viewer
  have hnone : ∀ (Q : Pt) (f : RecordOpening → ViewableData) (j : ℕ), (f nobody).amount = some 0 →
      shownFor Q (List.replicate j (f nobody)) = 0 := by
    intro Q f j hf
    refine sum_eq_zero_of _ ?_
    intro v hv
    rw [List.eq_of_mem_replicate hv]
    unfold lineFor
    rw [hf]
    split <;> rfl
  have hm : somebody.amount = a := rfl
  have h0 : nobody.amount = 0 := rfl
  refine ⟨n', ?_, ?_, ?_, ?_⟩
  · show OpensTransfer _ _ _ _ _
    rw [t1, t2]; exact t4
  · rw [List.map_append]
    refine runFrom_append.2 ⟨s1, r1, ?_⟩
    show (do validateTxnsBatch d s1 [.transfer n'] time
             s1.insertBlock d.val ⟨[.transfer n'], blind, who⟩) = .ok s
    rw [bind_ok_iff]
    refine ⟨(), (C51_any batch (by simp)).2 ⟨?_, ?_, ?_, ?_⟩, (insertBlock_twin t1 t2 t3).trans hi⟩
    · intro t ht
      obtain rfl := List.mem_singleton.1 ht
      have := v1 _ (List.mem_singleton_self _)
      simp only [TransactionNote.merkleRoot] at this ⊢
      rw [t3]; exact this
    · simp only [List.flatMap_cons, List.flatMap_nil, List.append_nil, TransactionNote.nullifiers] at v2 ⊢
      rw [t1]; exact v2
    · intro t ht x hx
      obtain rfl := List.mem_singleton.1 ht
      simp only [TransactionNote.nullifiers] at hx
      rw [t1] at hx
      exact v3 _ (List.mem_singleton_self _) x hx
    · intro t ht
      obtain rfl := List.mem_singleton.1 ht
      refine ⟨.transfer tvk, ?_, (alone n').1 (by rw [t3]; exact t5)⟩
      simp only [keyForNote, t1, t2] at hk ⊢
      exact hk
  · intro Q c
    have hcol : collected [⟨(Opening.transfer n' w).note, [], []⟩] = collected [⟨(Opening.transfer n w).note, [], []⟩] := by
      simp only [collected, List.map_cons, List.map_nil, Opening.note, TransactionNote.fee, t3]
    unfold heldBy neverSpent
    rw [everCreated_append, everCreated_append, spentPositions_append, spentPositions_append]
    simp only [Step.creates, Step.txns, List.map_cons, List.map_nil, hcol]
    rfl
  · intro b
    refine ⟨?_, fun Q => ?_⟩
    · simp only [receives, t6 b, List.map_cons, List.map_replicate, shownFor, List.sum_cons]
      have := hnone P (viewOutput ad) (n.output_commitments.length - 2) (by
        simp [viewOutput, viewOf, sees.amount, h0])
      unfold shownFor at this
      rw [List.map_replicate] at this
      rw [this]
      simp [lineFor, viewOutput, viewOf, sees.amount, sees.address.1, hm, somebody]
    · simp only [pays, t6 b, List.map_replicate]
      exact hnone Q (fun r => viewInput ad r (List.replicate 8 0)) _ (by simp [viewInput, viewOf, sees.amount, h0])

omit S in
/-- the tree with two leaves -/
theorem pair_tree (c0 c1 : F) (e : ℕ) : treeRoot (e + 1) [c0, c1] = pairRoot c0 c1 e := by
  have empty : ∀ l i, 1 ≤ i → treeNode [c0, c1] (l + 1) i = 0 := by
    intro l i hi
    rw [treeNode, if_pos]
    have h3 : 3 ≤ 3 ^ (l + 1) := by
      have := Nat.one_le_pow l 3 (by norm_num)
      rw [pow_succ]; omega
    calc [c0, c1].length = 2 := rfl
      _ ≤ 3 ^ (l + 1) := by omega
      _ ≤ i * 3 ^ (l + 1) := Nat.le_mul_of_pos_left _ hi
  induction e with
  | zero =>
    show treeNode [c0, c1] 1 0 = _
    rw [treeNode, if_neg (by simp)]
    show E.nodeHash (E.leafHash ((0 : ℕ) : F) c0) (E.leafHash ((1 : ℕ) : F) c1) 0 = _
    rw [Nat.cast_zero, Nat.cast_one]
    rfl
  | succ e ih =>
    show treeNode [c0, c1] (e + 1 + 1) 0 = _
    rw [treeNode, if_neg (by simp), empty e (3 * 0 + 1) (by omega), empty e (3 * 0 + 2) (by omega)]
    show E.nodeHash (treeRoot (e + 1) [c0, c1]) 0 0 = _
    rw [ih]
    unfold pairRoot edge
    rw [List.replicate_succ', List.foldl_append]
    rfl

/-- **Negation: a hidden payment.**  Two records are granted, a native one and one of an asset whose policy reveals
everything.  The owner of the second one sends all of it, in an accepted transfer above the threshold, to anybody they like,
together with a worthless record of an owner off the curve.  The viewer cannot open the memo and sees nobody pay and nobody
receive anything, but the records have changed hands.  The two nullifiers are assumed to be distinct. -/
theorem C91_hidden_false (complete : SnarkComplete) (batch : SnarkBatch) {d : Fin 256} (deep : 2 ≤ d.val)
    {pk : TransferProvingKey} {vk : TransferVerifyingKey} (keys : transferPreprocess 2 3 d = .ok (pk, vk))
    {fee_ro ro out : RecordOpening} {k0 k1 : UserKeyPair} (fee_asset : fee_ro.asset_def = AssetDefinition.native)
    (fee_unfrozen : fee_ro.freeze_flag = .unfrozen) (fee_owner : fee_ro.pub_key.address = k0.address)
    (fee_small : fee_ro.amount.val < 2 ^ 127) (ro_unfrozen : ro.freeze_flag = .unfrozen)
    (ro_owner : ro.pub_key.address = k1.address) (owned : ro.pub_key.address ≠ 0) (ro_small : ro.amount.val < 2 ^ 127)
    (real : ro.asset_def.code ≠ dummyCode) (foreign : ro.asset_def.code ≠ nativeCode)
    (over : ro.asset_def.policy.reveal_threshold.val < ro.amount.val)
    (out_asset : out.asset_def = ro.asset_def) (out_unfrozen : out.freeze_flag = .unfrozen)
    (out_amount : out.amount = ro.amount) {k : ViewerKeyPair} (sees : Oversees k ro.asset_def)
    (distinct : k0.nullify fee_ro.asset_def.policy.freezer_pk 0 fee_ro.commitment ≠
      k1.nullify ro.asset_def.policy.freezer_pk 1 ro.commitment)
    (blind blind' : F) (who : UserPubKey) (time : U64) :
    ∃ (o : Opening) (s : LedgerState) (h : List Step), h = [.grant fee_ro, .grant ro, .block [o] blind who time] ∧
      run d (h.map Step.event) = .ok s ∧ AllSatisfied d h ∧ (∀ e ∈ h, ∀ o ∈ e.txns, o.AboveThreshold ro.asset_def) ∧
      (∀ b P, ((notesOf h).map (receives b k ro.asset_def P)).sum = 0 ∧
        ((notesOf h).map (pays b k ro.asset_def P)).sum = 0) ∧
      ∀ P, heldBy P ro.asset_def.code h = (if P = out.pub_key.address then ro.amount.val else 0) ∧
        grantedTo P ro.asset_def.code h = (if P = ro.pub_key.address then ro.amount.val else 0) := by
  obtain ⟨s2, hs2, l2, r2, n2⟩ := two_grants deep fee_ro ro
  have h9 : 9 ≤ 3 ^ d.val := le_trans (by norm_num) (Nat.pow_le_pow_right (by norm_num) deep)
  have h64 : (9 : ℕ) < 2 ^ 64 := by norm_num
  obtain ⟨e, he⟩ : ∃ e, d.val = e + 1 := ⟨d.val - 1, by omega⟩
  obtain ⟨π, p1, v1, hid⟩ := offCurve_hides complete he keys fee_asset fee_unfrozen fee_owner ro_unfrozen ro_owner real
    fee_asset fee_unfrozen rfl fee_small out_asset out_unfrozen out_amount (by rw [out_amount]; exact ro_small) owned
    sees.address.1 (sees.address.1.trans sees.address.2.symm) sees.viewer blind'
  obtain ⟨n, hn⟩ : ∃ n, n = viewedNote fee_ro ro fee_ro k0 k1 [out.toV, offCurve 0 ro.asset_def blind'] e π := ⟨_, rfl⟩
  obtain ⟨w, hw⟩ : ∃ w, w = viewedWit fee_ro ro fee_ro k0 k1 [out.toV, offCurve 0 ro.asset_def blind'] e := ⟨_, rfl⟩
  rw [← hn, ← hw] at p1
  rw [← hn] at v1 hid
  have nul1 : n.inputs_nullifiers = [k0.nullify fee_ro.asset_def.policy.freezer_pk 0 fee_ro.commitment,
      k1.nullify ro.asset_def.policy.freezer_pk 1 ro.commitment] := by
    have e0 : (accLeft ro.toV.commitment e : AccV) =
        (⟨(accLeft ro.toV.commitment e).path, 0, 0⟩ : AccMemberWitness).toV := by
      simp [AccMemberWitness.toV, accLeft]
    have e1 : (accRight fee_ro.toV.commitment e : AccV) =
        (⟨(accRight fee_ro.toV.commitment e).path, 0, 1⟩ : AccMemberWitness).toV := by
      simp [AccMemberWitness.toV, accRight]
    rw [hn]
    show [spendNullifier _ _ _ _, spendNullifier _ _ _ _] = _
    rw [e0, e1, spendNullifier_user, spendNullifier_user]
  have out1 : n.output_commitments = [fee_ro.toV.commitment, out.toV.commitment,
      (offCurve 0 ro.asset_def blind').commitment] := by rw [hn]; rfl
  have root1 : n.aux_info.merkle_root = treeRoot d.val [fee_ro.commitment, ro.commitment] := by
    rw [hn, he, pair_tree, ← RecordOpening.toV_commitment, ← RecordOpening.toV_commitment]
    rfl
  obtain ⟨s3, a3, l3, r3, n3⟩ := block_single batch (s := s2) (time := time) (w := w) (n := n)
    (by rw [nul1, out1]; exact keys) (v1 _) (by rw [root1]; exact r2)
    (by rw [nul1]; simpa using distinct) (by rw [n2]; simp)
    (by
      rw [Room, l2, out1]
      show 2 + (3 + 1) ≤ _ ∧ 2 + (3 + 1) < _
      omega) blind who
  have hrun := runFrom_append.2 ⟨s2, hs2, a3⟩
  have hfee : collected [⟨.transfer n, [], []⟩] = 0 := by
    show Fin.ofNat (2 ^ 128) (n.aux_info.fee.val + 0) = 0
    rw [hn]; rfl
  have hpos : spentPositions [.grant fee_ro, .grant ro, .block [.transfer n w] blind who time] = [0, 1] := by
    have hreal : (Opening.transfer n w).realSpends = (Opening.transfer n w).spends := by
      refine List.filter_eq_self.2 ?_
      intro x hx
      simp only [hw, Opening.spends, TransferWit.spends, viewedWit, List.map_cons, List.map_nil, List.mem_cons,
        List.not_mem_nil, or_false] at hx
      rcases hx with rfl | rfl
      · refine decide_eq_true ?_
        show fee_ro.asset_def.code ≠ dummyCode
        rw [fee_asset]
        exact native_ne_dummy
      · exact decide_eq_true real
    show List.map _ ((Opening.realSpends _ ++ []) ++ []) = _
    rw [hreal, hw]
    rfl
  have each : ∀ {Q : Opening → Prop}, Q (.transfer n w) →
      ∀ e ∈ [Step.grant fee_ro, .grant ro, .block [.transfer n w] blind who time], ∀ o ∈ e.txns, Q o := by
    intro Q hQ e he o ho
    simp only [List.mem_cons, List.not_mem_nil, or_false] at he
    rcases he with rfl | rfl | rfl
    · simp [Step.txns] at ho
    · simp [Step.txns] at ho
    · obtain rfl := List.mem_singleton.1 ho; exact hQ
  have other : fee_ro.toV.asset_code ≠ ro.asset_def.code := by
    show fee_ro.asset_def.code ≠ _
    rw [fee_asset]
    exact Ne.symm foreign
  have host : ∀ (P : Pt) (r : RecordOpening), r.asset_def = ro.asset_def → r.amount = ro.amount →
      amountFor P ro.asset_def.code r.toV = if P = r.pub_key.address then ro.amount.val else 0 := by
    intro P r h1 h2
    unfold amountFor
    by_cases hP : P = r.pub_key.address
    · rw [if_pos hP, if_pos ⟨by rw [hP]; rfl, congrArg (·.code) h1⟩]
      show (Amount.toF r.amount).val = _
      rw [Amount.toF_val, h2]
    · rw [if_neg hP, if_neg]
      exact fun h => hP (xy_inj h.1).symm
  refine ⟨.transfer n w, s3, _, rfl, hrun, each ?_, each ?_, ?_, ?_⟩
  · show OpensTransfer n.inputs_nullifiers.length n.output_commitments.length d.val n w
    rw [nul1, out1]
    exact p1
  · intro _ _
    have hm : w.moves = ro.amount.val := by
      rw [hw]
      show (Amount.toF out.amount).val + ((Amount.toF 0).val + 0) = _
      rw [Amount.toF_val, Amount.toF_val, out_amount]
      rfl
    rw [hm]
    exact over
  · intro b P
    show receives b k ro.asset_def P (.transfer n) + 0 = 0 ∧ pays b k ro.asset_def P (.transfer n) + 0 = 0
    simp only [receives, pays, hid]
    exact ⟨trivial, trivial⟩
  · intro P
    constructor
    · unfold heldBy
      rw [neverSpent_sum _ (by
        show (everCreated _).length < _
        have : (everCreated [Step.grant fee_ro, .grant ro, .block [.transfer n w] blind who time]).length = 6 := by
          rw [hw]; rfl
        rw [this]; norm_num), hpos]
      have hev : everCreated [Step.grant fee_ro, .grant ro, .block [.transfer n w] blind who time] =
          [fee_ro.toV, ro.toV, fee_ro.toV, out.toV, offCurve 0 ro.asset_def blind', (feeRecord who 0 blind).toV] := by
        show [fee_ro.toV] ++ ([ro.toV] ++ ((w.outputs ++ [] ++ [(feeRecord who (collected [⟨.transfer n, [], []⟩]) blind).toV]) ++ [])) = _
        rw [hfee, hw]
        rfl
      rw [hev]
      simp only [leftOf_cons, List.map_cons, List.map_nil, ZMod.val_zero, val_one,
        List.mem_cons, List.not_mem_nil, or_false, leftOf, List.zipIdx_nil, List.sum_nil]
      norm_num
      have z1 : amountFor P ro.asset_def.code (offCurve 0 ro.asset_def blind') = 0 := by
        unfold amountFor
        split
        · show (Amount.toF 0).val = 0
          rw [Amount.toF_val]; rfl
        · rfl
      have z2 : amountFor P ro.asset_def.code (feeRecord who 0 blind).toV = 0 := amountFor_other (Ne.symm foreign)
      rw [amountFor_other other, z1, z2, host P out out_asset out_amount]
      omega
    · show amountFor P _ fee_ro.toV + (amountFor P _ ro.toV + (0 + 0)) = _
      rw [amountFor_other other, host P ro rfl rfl]
      omega

end Cap

namespace Cap.Examples
open Toy Spec

/-! Alice is granted 100 native units and 50 units of the toy asset, and sends 20 of the latter to Bob. -/

/-- the inputs of the note -/
def in91 : List TransferNoteInput :=
  [⟨feeRec, ⟨treePath 2 tree1 0, treeRoot 2 tree1, 0⟩, alice, none⟩,
    ⟨assetRec, ⟨treePath 2 tree1 1, treeRoot 2 tree1, 1⟩, alice, some cred⟩]
/-- keys of the note -/
noncomputable def pk91 : TransferProvingKey := ⟨.transfer 2 3 2, 2, 3, 2⟩
/-- keys of the note -/
noncomputable def vk91 : TransferVerifyingKey := ⟨.transfer 2 3 2, 2, 3, 2⟩

theorem keys91 : transferPreprocess 2 3 2 = .ok (pk91, vk91) := rfl
theorem ok91 : isOk (TransferNote.generate .release rng in91 xfrOutputs pk91 800 []) = true := by decide +kernel

/-- the note -/
noncomputable def note91 : TransferNote := (okVal (TransferNote.generate .release rng in91 xfrOutputs pk91 800 []) ok91).1
/-- its memo signing key -/
noncomputable def sk91 : Fr := (okVal (TransferNote.generate .release rng in91 xfrOutputs pk91 800 []) ok91).2

theorem note91_eq : TransferNote.generate .release rng in91 xfrOutputs pk91 800 [] = .ok (note91, sk91) :=
  okVal_eq2 _ ok91

/-- what the viewer of the asset sees -/
theorem seen91 : viewer.openTransferViewingMemo .release asset note91 = .ok
    ([⟨asset.code, some alice.address, some 50, some 32, [none, some 2, none, none, none, none, none, none]⟩],
      [⟨asset.code, some bob.address, some 20, some 42, List.replicate 8 none⟩,
       ⟨asset.code, some alice.address, some 30, some 43, List.replicate 8 none⟩]) := by decide +kernel

theorem fee91 : note91.aux_info.fee = 7 := by decide +kernel
theorem ins91 : isOk (led0.insertBlock 2 ⟨[.transfer note91], (47 : ZMod p), bob.pubKey⟩) = true := by decide +kernel
/-- the ledger after the block -/
noncomputable def led91 : LedgerState := okVal (led0.insertBlock 2 ⟨[.transfer note91], (47 : ZMod p), bob.pubKey⟩) ins91

attribute [irreducible] note91 sk91

/-- the note, with its records -/
noncomputable def txn91 : Txn := ⟨.transfer note91, in91.map (fun i => (i.ro, i.acc)), xfrOutputs⟩

theorem made91 : Made 2 txn91 := .transfer keys91 note91_eq
theorem opened91 : ∃ o, OpensTxn 2 txn91 o := made91.opens (fun n hn => nomatch hn)
/-- the assignment behind it -/
noncomputable def open91 : Opening := opened91.choose
theorem open91_ok : OpensTxn 2 txn91 open91 := opened91.choose_spec

/-- the history -/
noncomputable def steps91 : List Step := [.grant feeRec, .grant assetRec] ++ [.block [open91] 47 bob.pubKey 700]

theorem valid91 : validateTxnsBatch 2 led0 [txn91.note] 700 = .ok () := by
  refine validate_made Toy.complete Toy.batch (ts := [txn91]) (by simp) ?_ ?_ ?_ ?_ ?_
  · intro t ht; obtain rfl := List.mem_singleton.1 ht; exact made91
  · intro t ht
    obtain rfl := List.mem_singleton.1 ht
    show (700 : U64) ≤ note91.aux_info.valid_until
    rw [(C17_generate keys91 Toy.complete note91_eq).1]
    decide
  · intro t ht
    obtain rfl := List.mem_singleton.1 ht
    show note91.aux_info.merkle_root ∈ _
    obtain ⟨-, -, -, -, -, h, -⟩ := C40_generate note91_eq
    rw [← (h _ List.mem_cons_self (by decide)).2]
    exact List.mem_cons_self
  · show (note91.inputs_nullifiers ++ []).Nodup
    rw [transfer_nullifiers note91_eq]
    decide +kernel
  · intro t ht
    simp [led0]

theorem run91 : run 2 (steps91.map Step.event) = .ok led91 := by
  have h2 : [open91].map (fun o => (⟨o.note, [], []⟩ : Txn)) = [⟨.transfer note91, [], []⟩] := by
    rw [List.map_cons, List.map_nil, open91_ok.note]
    rfl
  rw [steps91, List.map_append]
  refine runFrom_append.2 ⟨led0, hist_start, ?_⟩
  show Event.apply 2 led0 (.block ([open91].map (fun o => (⟨o.note, [], []⟩ : Txn))) 47 bob.pubKey 700) = _
  rw [h2]
  exact bind_ok_iff.2 ⟨(), valid91, okVal_eq _ ins91⟩

theorem mem91 {Q : Opening → Prop} (h : Q open91) : ∀ e ∈ steps91, ∀ o ∈ e.txns, Q o := by
  intro e he o ho
  simp only [steps91, List.cons_append, List.nil_append, List.mem_cons, List.not_mem_nil, or_false] at he
  rcases he with rfl | rfl | rfl
  · simp [Step.txns] at ho
  · simp [Step.txns] at ho
  · simp only [Step.txns, List.mem_singleton] at ho; subst ho; exact h

/-- the records of the history -/
def records91 : List RecordOpening := [feeRec, assetRec, chgRec, outBob, outAlice, feeRecord bob.pubKey 7 (47 : ZMod p)]
/-- the spends of the history -/
def spends91 : List (RecordOpening × AccMemberWitness) :=
  [(feeRec, ⟨treePath 2 tree1 0, treeRoot 2 tree1, 0⟩), (assetRec, ⟨treePath 2 tree1 1, treeRoot 2 tree1, 1⟩)]

theorem created91 : everCreated steps91 = records91.map RecordOpening.toV := by
  have h1 : collected [⟨open91.note, [], []⟩] = 7 := by
    rw [open91_ok.note]
    show Fin.ofNat (2 ^ 128) (note91.aux_info.fee.val + 0) = 7
    rw [fee91]
    rfl
  show [feeRec.toV] ++ ([assetRec.toV] ++ ((open91.creates ++ [] ++
    [(feeRecord bob.pubKey (collected [⟨open91.note, [], []⟩]) 47).toV]) ++ [])) = _
  rw [h1, open91_ok.creates]
  rfl

theorem spent91 : (everSpent steps91).map (fun s => (s.ro, s.acc)) = spends91.map (fun x => (x.1.toV, x.2.toV)) := by
  have h1 : txn91.realSpends = spends91 := by
    show List.filter _ spends91 = spends91
    rw [List.filter_eq_self]
    decide +kernel
  show (open91.realSpends ++ [] ++ []).map _ = _
  simp only [List.append_nil, open91_ok.real, h1]

theorem noCollision91 : NoCollisionV 2 (everCreated steps91) (everSpent steps91) := by
  rw [created91]
  refine noCollision_toV spent91 ⟨?_, ?_, ?_, ?_, ?_⟩
  · have h : (((List.range 7).flatMap (fun k => nodeCalls ((records91.map (·.commitment)).take k) 2 0)).all (fun x =>
        (spends91.flatMap (fun s => pathCalls (E.leafHash (s.2.uid.val : F) s.1.commitment) s.2.path)).all (fun y =>
        decide (E.nodeHash x.1 x.2.1 x.2.2 = E.nodeHash y.1 y.2.1 y.2.2 → x = y)))) = true := by decide +kernel
    intro x hx y hy
    exact of_decide_eq_true (List.all_eq_true.1 (List.all_eq_true.1 h x hx) y hy)
  · have h : ((spends91.flatMap (fun s => pathCalls (E.leafHash (s.2.uid.val : F) s.1.commitment) s.2.path)).all
        (fun y => decide (E.nodeHash y.1 y.2.1 y.2.2 ≠ (0 : ZMod p)))) = true := by decide +kernel
    intro y hy
    exact of_decide_eq_true (List.all_eq_true.1 h y hy)
  · have h : ((leafCalls (records91.map (·.commitment))).all (fun x => spends91.all (fun s =>
        decide (E.leafHash x.1 x.2 = E.leafHash (s.2.uid.val : F) s.1.commitment →
          x = ((s.2.uid.val : F), s.1.commitment))))) = true := by decide +kernel
    intro x hx y hy
    exact of_decide_eq_true (List.all_eq_true.1 (List.all_eq_true.1 h x hx) y hy)
  · decide +kernel
  · decide +kernel

theorem checked91 : open91.Checked := by
  refine ⟨open91_ok.same_code, open91_ok.change_fits, ?_, ?_⟩
  · intro s hs
    have hs' := (mem_realSpends.1 hs).1
    refine ⟨open91_ok.canonical s hs', ?_⟩
    have hm := List.mem_map_of_mem (f := fun s : Spend => (s.ro, s.acc)) hs'
    rw [open91_ok.spends] at hm
    obtain ⟨y, hy, e⟩ := List.mem_map.1 hm
    rw [Prod.mk.injEq] at e
    rw [← e.1]
    simp only [txn91, in91, List.map_cons, List.map_nil, List.mem_cons, List.not_mem_nil, or_false] at hy
    rcases hy with rfl | rfl <;> decide +kernel
  · rw [open91_ok.note]
    show note91.inputs_nullifiers.length < _
    rw [transfer_nullifiers note91_eq]
    decide

/-- the assignment behind the note -/
theorem wit91 : ∃ w, open91 = .transfer note91 w ∧ w.outputs = xfrOutputs.map RecordOpening.toV ∧
    w.asset_code = asset.code := by
  have hn := open91_ok.note
  have hc := open91_ok.creates
  have hs := open91_ok.satisfied
  cases ho : open91 with
  | transfer n w =>
    rw [ho] at hn hc hs
    obtain rfl : n = note91 := TransactionNote.transfer.inj hn
    refine ⟨w, rfl, hc, ?_⟩
    obtain ⟨i0, is, o0, os, nl, nls, cm, cs, hp⟩ := hs.sat.parts hs.shape
    have h1 : o0 :: os = chgRec.toV :: [outBob.toV, outAlice.toV] := hp.outputs.symm.trans hc
    rw [List.cons.injEq] at h1
    obtain ⟨x, -, hx⟩ := hp.mem_out (show outBob.toV ∈ os by rw [h1.2]; exact List.mem_cons_self)
    have h2 := hx.2.1
    simp only [Bool.false_eq_true, if_false] at h2
    exact h2.1.symm
  | mint n w => rw [ho] at hn; cases hn
  | freeze n w => rw [ho] at hn; cases hn

theorem moves91 {w : TransferWit} (h : w.outputs = xfrOutputs.map RecordOpening.toV) : w.moves = 50 := by
  unfold TransferWit.moves
  rw [h]
  decide +kernel

theorem oversees91 : Oversees viewer asset := ⟨rfl, by decide +kernel, ⟨rfl, rfl⟩, rfl⟩

/-- `C91_books_partial`: the hypotheses hold, and the books of the viewer say what Alice and Bob hold -/
example : heldBy alice.address asset.code steps91 + 50 = 50 + 30 ∧ heldBy bob.address asset.code steps91 + 0 = 0 + 20 := by
  obtain ⟨w, ho, hout, hcode⟩ := wit91
  have hnotes : notesOf steps91 = [.transfer note91] := by
    show [] ++ ([] ++ ([open91.note] ++ [])) = _
    rw [open91_ok.note]
    rfl
  have one : ∀ q ∈ defined (steps91.map Step.event), q.code = asset.code → q = asset := by
    have hdef : defined (steps91.map Step.event) = [feeRec.asset_def, assetRec.asset_def] ++ definedBy open91.note := by
      simp only [steps91, List.cons_append, List.nil_append, List.map_cons, List.map_nil, defined,
        List.flatMap_cons, List.flatMap_nil, Event.defines, Step.event, List.append_nil]
    have h1 : definedBy open91.note = [] := by rw [open91_ok.note]; rfl
    rw [hdef, h1]
    intro q hq hc
    simp only [List.append_nil, List.mem_cons, List.not_mem_nil, or_false] at hq
    rcases hq with rfl | rfl
    · exact absurd hc (by decide +kernel)
    · rfl
  have books := C91_books_partial .release run91 (mem91 open91_ok.satisfied) (mem91 checked91)
    (mem91 (by rw [ho]; trivial)) noCollision91 oversees91 (by decide +kernel) (by decide +kernel) one
    (mem91 (by
      rw [ho]
      intro _ _
      rw [moves91 hout]
      decide))
    (mem91 (by
      rw [ho]
      intro _ o hm
      rw [hout] at hm
      obtain ⟨r, -, rfl⟩ := List.mem_map.1 (List.mem_of_mem_tail hm)
      exact ⟨_, rfl⟩))
    (mem91 (by
      rw [ho]
      intro _
      exact ⟨hcode, by rw [moves91 hout]; decide⟩))
  have h1 := books alice.address
  have h2 := books bob.address
  rw [hnotes] at h1 h2
  simp only [List.map_cons, List.map_nil, List.sum_cons, List.sum_nil, pays, receives, seen91] at h1 h2
  have g1 : grantedTo alice.address asset.code steps91 = 50 := by
    show amountFor _ _ feeRec.toV + (amountFor _ _ assetRec.toV + (0 + 0)) = 50
    decide +kernel
  have g2 : grantedTo bob.address asset.code steps91 = 0 := by
    show amountFor _ _ feeRec.toV + (amountFor _ _ assetRec.toV + (0 + 0)) = 0
    decide +kernel
  rw [g1] at h1
  rw [g2] at h2
  refine ⟨h1.trans ?_, h2.trans ?_⟩ <;> decide +kernel

/-- `C91_legible`: the note of the history meets the hypotheses -/
example : ∃ x, viewer.openTransferViewingMemo .debug asset note91 = .ok x := by
  obtain ⟨w, ho, hout, hcode⟩ := wit91
  have hs := open91_ok.satisfied
  have hin := open91_ok.spends
  rw [ho] at hs hin
  have h1 : note91.inputs_nullifiers.length = 2 := by rw [transfer_nullifiers note91_eq]; rfl
  have h2 : note91.output_commitments.length = 3 := by rw [transfer_commitments note91_eq]; rfl
  have hs' : OpensTransfer note91.inputs_nullifiers.length note91.output_commitments.length 2 note91 w := hs
  rw [h1, h2] at hs'
  have hro : w.inputs.map (·.ro) = [feeRec.toV, assetRec.toV] := by
    have := congrArg (List.map (fun x : RecordV × AccV => x.1)) hin
    simpa [Opening.spends, TransferWit.spends, Function.comp_def, txn91, in91, List.map_map] using this
  have htail : ∀ i ∈ w.inputs.tail, i.ro = assetRec.toV := by
    intro i hi
    have hm := List.mem_map_of_mem (f := fun i : InputV => i.ro) hi
    rw [List.map_tail, hro] at hm
    simpa using hm
  refine C91_legible .debug hs' (by decide) (by decide) hcode ?_ (by decide +kernel) ?_ ?_ ?_ ?_ ?_ oversees91
  · obtain ⟨i0, is, o0, os, nl, nls, cm, cs, hp⟩ := hs'.sat.parts hs'.shape
    have h1 : o0 :: os = chgRec.toV :: [outBob.toV, outAlice.toV] := hp.outputs.symm.trans hout
    rw [List.cons.injEq] at h1
    exact ((hp.map_in hs'.sat).2.2.2 outBob.toV (by rw [h1.2]; exact List.mem_cons_self)).symm
  · intro i hi _
    rw [htail i hi, hcode]
    rfl
  · intro i hi _
    rw [htail i hi]
    decide +kernel
  · intro i hi _
    have hm := List.mem_map_of_mem (f := fun i : InputV => i.ro) hi
    rw [hro] at hm
    simp only [List.mem_cons, List.not_mem_nil, or_false] at hm
    rcases hm with h | h <;> rw [h] <;> decide +kernel
  · intro o hm
    rw [hout] at hm
    obtain ⟨r, -, rfl⟩ := List.mem_map.1 (List.mem_of_mem_tail hm)
    exact ⟨_, rfl⟩
  · rw [moves91 hout]
    decide

/-- `C91_forged_false`: Alice's payment of 60 native units to Bob, with a memo that shows the viewer of the asset a million
units for Bob -/
example : ∃ n' w s, run 2 (([Step.grant feeRec, Step.grant assetRec] ++ [Step.block [.transfer n' w] 47 bob.pubKey 700]).map
      Step.event) = .ok s ∧ heldBy bob.address asset.code ([Step.grant feeRec, Step.grant assetRec] ++
        [Step.block [.transfer n' w] 47 bob.pubKey 700]) = 0 ∧
      receives .debug viewer asset bob.address (.transfer n') = 1000000 := by
  have hn := open1_ok.note
  have hc := open1_ok.creates
  have hsat := open1_ok.satisfied
  have hreal := open1_ok.real
  cases ho : open1 with
  | transfer n w =>
    rw [ho] at hn hc hsat hreal
    obtain rfl : n = note1 := TransactionNote.transfer.inj hn
    have hrun : run 2 (([Step.grant feeRec, Step.grant assetRec] ++ [Step.block [.transfer note1 w] 47 bob.pubKey 700]).map
        Step.event) = .ok led1 := by
      rw [List.map_append]
      exact runFrom_append.2 ⟨led0, hist_start, bind_ok_iff.2 ⟨(), valid1, led1_ok⟩⟩
    have hpol : w.policy = AssetPolicy.default.toV := by
      obtain ⟨i0, is, o0, os, nl, nls, cm, cs, hp⟩ := hsat.sat.parts hsat.shape
      have h1 : o0 :: os = chg1.toV :: [bobs.toV] := hp.outputs.symm.trans hc
      rw [List.cons.injEq] at h1
      exact ((hp.map_in hsat.sat).2.2.2 bobs.toV (by rw [h1.2]; exact List.mem_cons_self)).symm
    obtain ⟨n', -, q2, q3, q4⟩ := C91_forged_false Toy.complete Toy.batch hrun hsat
      (by rw [note1_nullifiers]; decide) (by rw [note1_outputs]; decide) (by rw [note1_outputs]; decide)
      hpol rfl oversees91 (by decide +kernel) bob.address 1000000
    refine ⟨n', w, led1, q2, ?_, (q4 .debug).1⟩
    rw [q3]
    refine sum_eq_zero_of _ ?_
    intro r hr
    obtain ⟨x, hx, rfl⟩ := List.mem_map.1 hr
    have hx' := (List.mem_zipIdx (List.mem_of_mem_filter hx)).2.2
    have hm : x.1 ∈ everCreated ([Step.grant feeRec, Step.grant assetRec] ++
        [Step.block [.transfer note1 w] 47 bob.pubKey 700]) := by
      rw [hx']
      exact List.getElem_mem _
    have hev : everCreated ([Step.grant feeRec, Step.grant assetRec] ++
        [Step.block [.transfer note1 w] 47 bob.pubKey 700]) = [feeRec.toV] ++ ([assetRec.toV] ++
          ((w.outputs ++ [] ++ [(feeRecord bob.pubKey (collected [⟨.transfer note1, [], []⟩]) (47 : ZMod p)).toV]) ++ [])) := rfl
    have hout : w.outputs = [chg1, bobs].map RecordOpening.toV := hc
    rw [hev, hout] at hm
    simp only [List.map_cons, List.map_nil, List.cons_append, List.nil_append, List.append_nil, List.mem_cons,
      List.not_mem_nil, or_false] at hm
    rcases hm with h | h | h | h | h <;> rw [h]
    · decide +kernel
    · decide +kernel
    · decide +kernel
    · decide +kernel
    · exact if_neg (fun h => absurd h.2 (by decide +kernel))
  | mint n w => rw [ho] at hn; cases hn
  | freeze n w => rw [ho] at hn; cases hn

/-- `C91_hidden_false`: Alice's 50 units go to Bob, and the viewer sees nothing -/
example : ∃ (o : Opening) (s : LedgerState),
    run 2 ([.grant feeRec, .grant assetRec, Step.block [o] 47 bob.pubKey 700].map Step.event) = .ok s ∧
    heldBy bob.address asset.code [.grant feeRec, .grant assetRec, .block [o] 47 bob.pubKey 700] = 50 ∧
    ((notesOf [.grant feeRec, .grant assetRec, .block [o] 47 bob.pubKey 700]).map
      (receives .debug viewer asset bob.address)).sum = 0 := by
  obtain ⟨o, s, _, rfl, h1, -, -, h2, h3⟩ := C91_hidden_false Toy.complete Toy.batch (d := 2) (by decide)
    (pk := ⟨.transfer 2 3 2, 2, 3, 2⟩) (vk := ⟨.transfer 2 3 2, 2, 3, 2⟩) rfl (fee_ro := feeRec) (ro := assetRec)
    (out := ⟨50, asset, bob.pubKey, .unfrozen, 54⟩) (k0 := alice) (k1 := alice) rfl rfl rfl (by decide +kernel) rfl rfl
    (by decide +kernel) (by decide +kernel) (by decide +kernel) (by decide +kernel) (by decide +kernel) rfl rfl rfl
    oversees91 (by decide +kernel) 47 55 bob.pubKey 700
  exact ⟨o, s, h1, (h3 _).1.trans (if_pos rfl), (h2 _ _).1⟩

end Cap.Examples
