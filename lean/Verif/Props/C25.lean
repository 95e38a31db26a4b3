/-
C25: the library's balance check is exact.

status: partial
note: False as stated (C25_release_unbalanced, C25_debug_panics, C25_release_refuses, C25_refuses_mixed): amounts below 2^127 are not enough, because their sums are computed in i128. In release builds the check accepts four inputs of 2^126 and one output of 0 with fee 0; in debug builds a balanced list with sum 2^127 panics; balanced lists with native records besides the fee record and another asset are refused. Proved: C25_exact_partial: with totals below 2^127 and the other checks of generate the check accepts exactly the balanced lists, in both builds; C25_debug_sound: in debug builds it never accepts an unbalanced list of amounts below 2^127, whatever the sums; C25_sound: in both builds with per-asset totals below 2^127. C25_published: the second half of the statement, without any bound: a published note balances exactly. C25_nonnegative: the fee is below 2^127.
-/
import Verif.Props.C40

namespace Cap

open Spec

variable [E : CapEnv]

/-- **Exact for small totals.**  `hcode`: no other definition has the native code. -/
theorem C25_exact_partial (b : Build) {inputs outputs : List RecordOpening}
    (asset : transferCheckAssetDef inputs outputs = .ok ()) (dummies : checkDummyInputs inputs = .ok ())
    (hcode : ∀ r ∈ inputs ++ outputs, r.asset_def.code = nativeCode → r.asset_def = AssetDefinition.native)
    (small_in : total (real inputs) < 2 ^ 127) (small_out : total outputs < 2 ^ 127) (fee : Amount) :
    checkBalance b inputs outputs = .ok fee ↔ Balanced inputs outputs fee := by
  constructor
  · intro h
    refine checkBalance_small (fun c => ?_) (fun c => ?_) h
    · exact lt_of_le_of_lt (totalOf_le_total c _) (by omega)
    · exact lt_of_le_of_lt (totalOf_le_total c _) small_out
  · intro h
    obtain ⟨ad, ha⟩ := transferCheckAssetDef_ok.1 asset
    obtain ⟨i0, is, rfl, hi0⟩ := ha.fee_in
    refine checkBalance_complete b ha ?_ ?_ h small_in
    · by_cases hn : ad.code = nativeCode
      · left
        by_cases hall : ∀ r ∈ (i0 :: is).tail, r.asset_def = AssetDefinition.dummy
        · exact ha.none hall
        · push Not at hall
          obtain ⟨r, hr, hd⟩ := hall
          have hrad := (ha.ins r hr).resolve_left hd
          rw [← hrad]
          exact hcode r (by simp only [List.mem_append]; exact Or.inl (List.mem_of_mem_tail hr)) (by rw [hrad]; exact hn)
      · exact Or.inr hn
    · intro r hr hd
      simp only [checkDummyInputs, bind_ok_iff, ensure_ok_iff, Bool.not_eq_true', List.any_eq_false,
        decide_eq_true_eq, not_and, not_not] at dummies
      obtain ⟨-, -, hz⟩ := dummies
      rcases List.mem_cons.1 hr with rfl | hr
      · exact absurd (hi0 ▸ hd) nativeDef_ne_dummyDef
      · exact hz r hr (AssetDefinition.isDummy_iff.2 hd)

/-- **Debug builds are sound**, whatever the sums. -/
theorem C25_debug_sound {inputs outputs : List RecordOpening} {fee : Amount}
    (small_in : ∀ r ∈ inputs, r.amount.val < 2 ^ 127) (small_out : ∀ r ∈ outputs, r.amount.val < 2 ^ 127)
    (ok : checkBalance .debug inputs outputs = .ok fee) : Balanced inputs outputs fee :=
  checkBalance_debug small_in small_out ok

/-- **Both builds are sound** for totals per asset that an `i128` can hold. -/
theorem C25_sound {b : Build} {inputs outputs : List RecordOpening} {fee : Amount}
    (small_in : ∀ c, totalOf c (real inputs) < 2 ^ 128) (small_out : ∀ c, totalOf c outputs < 2 ^ 127)
    (ok : checkBalance b inputs outputs = .ok fee) : Balanced inputs outputs fee :=
  checkBalance_small small_in small_out ok

/-- **The fee is non-negative as a signed number**, for all lists. -/
theorem C25_nonnegative {b : Build} {inputs outputs : List RecordOpening} {fee : Amount}
    (ok : checkBalance b inputs outputs = .ok fee) : fee.val < 2 ^ 127 := by
  simp only [checkBalance, bind_ok_iff] at ok
  obtain ⟨f, hfee, u, -, hf⟩ := ok
  cases hf
  exact deriveFee_lt hfee

/-- a native record of a given owner and amount -/
def coin (o : UserPubKey) (a : Amount) : RecordOpening := ⟨a, AssetDefinition.native, o, .unfrozen, 0⟩

section

omit E in
theorem res_ok_bind {α β : Type} (a : α) (f : α → Res β) : ((.ok a : Res α) >>= f) = f a := rfl
omit E in
theorem res_error_bind {α β : Type} (e : Err) (f : α → Res β) : ((.error e : Res α) >>= f) = .error e := rfl

variable (o : UserPubKey)

theorem coins_real (l : List Amount) : real (l.map (coin o)) = l.map (coin o) := by
  unfold real
  rw [List.filter_eq_self]
  intro r hr
  obtain ⟨x, -, rfl⟩ := List.mem_map.1 hr
  exact decide_eq_true nativeDef_ne_dummyDef

theorem coins_isNative (l : List Amount) : isNativeXfr (l.map (coin o)) = true := by
  unfold isNativeXfr
  rw [List.all_eq_true]
  intro r hr
  obtain ⟨x, -, rfl⟩ := List.mem_map.1 hr
  rw [show (coin o x).asset_def.isNative = true from AssetDefinition.isNative_iff.2 rfl, Bool.true_or]

theorem coins_totalOf (l : List Amount) : totalOf nativeCode (l.map (coin o)) = (l.map Fin.val).sum := by
  rw [totalOf_eq_total, total, List.map_map]
  · rfl
  · intro r hr
    obtain ⟨x, -, rfl⟩ := List.mem_map.1 hr
    rfl

theorem coins_balanced {a : Amount} {as bs : List Amount} {fee : Amount} :
    Balanced ((a :: as).map (coin o)) (bs.map (coin o)) fee ↔
      ((a :: as).map Fin.val).sum = (bs.map Fin.val).sum + fee.val := by
  constructor
  · rintro ⟨i0, is, h1, h2⟩
    have h := h2 nativeCode
    rw [coins_real, coins_totalOf, coins_totalOf, if_pos] at h
    · exact h
    · rw [List.map_cons, List.cons.injEq] at h1
      rw [← h1.1]
      rfl
  · intro h
    refine ⟨coin o a, as.map (coin o), rfl, fun c => ?_⟩
    by_cases hc : c = (coin o a).asset_def.code
    · rw [if_pos hc, hc, coins_real]
      exact (coins_totalOf o _).trans (h.trans (congrArg (· + fee.val) (coins_totalOf o bs).symm))
    · have hz : ∀ l : List Amount, totalOf c (l.map (coin o)) = 0 := by
        intro l
        refine totalOf_eq_zero (fun r hr => ?_)
        obtain ⟨x, -, rfl⟩ := List.mem_map.1 hr
        exact fun h => hc h.symm
      rw [if_neg hc, coins_real, hz, hz]

theorem coins_amounts (l : List Amount) : (l.map (coin o)).map (fun x => asI128 x.amount) = l.map asI128 := by
  simp only [List.map_map, Function.comp_def, coin]

theorem coins_add (b : Build) : ∀ (l : List Amount) (m : ℤ) {m' : ℤ},
    l.foldlM (fun m x => addI128 b m (asI128 x)) m = .ok m' →
    Balances.addInputs b (l.map (coin o)) [(nativeCode, m)] = .ok [(nativeCode, m')]
  | [], m, m', h => by cases h; rfl
  | x :: l, m, m', h => by
    rw [List.foldlM_cons, bind_ok_iff] at h
    obtain ⟨m1, h1, h2⟩ := h
    rw [List.map_cons, Balances.addInputs, bind_ok_iff]
    refine ⟨[(nativeCode, m1)], ?_, coins_add b l m1 h2⟩
    simp only [Balances.update]
    rw [if_pos (by rfl), bind_ok_iff]
    exact ⟨m1, h1, rfl⟩

theorem coins_sub (b : Build) : ∀ (l : List Amount) (m : ℤ) {m' : ℤ},
    l.foldlM (fun m x => subI128 b m (asI128 x)) m = .ok m' →
    Balances.subOutputs b (l.map (coin o)) [(nativeCode, m)] = .ok [(nativeCode, m')]
  | [], m, m', h => by cases h; rfl
  | x :: l, m, m', h => by
    rw [List.foldlM_cons, bind_ok_iff] at h
    obtain ⟨m1, h1, h2⟩ := h
    rw [List.map_cons, Balances.subOutputs, bind_ok_iff]
    refine ⟨[(nativeCode, m1)], ?_, coins_sub b l m1 h2⟩
    simp only [Balances.update]
    rw [if_pos (by rfl), bind_ok_iff]
    exact ⟨m1, h1, rfl⟩

/-- the check on native records is arithmetic -/
theorem coins_ok {b : Build} {a : Amount} {as bs : List Amount} {s t x nf m : ℤ}
    (h1 : sumI128 b 0 ((a :: as).map asI128) = .ok s) (h2 : sumI128 b 0 (bs.map asI128) = .ok t)
    (h3 : subI128 b s t = .ok x) (h4 : 0 ≤ x) (h5 : negI128 b (asI128 (asU128 x)) = .ok nf)
    (h6 : (a :: as).foldlM (fun m x => addI128 b m (asI128 x)) nf = .ok m)
    (h7 : bs.foldlM (fun m x => subI128 b m (asI128 x)) m = .ok 0) :
    checkBalance b ((a :: as).map (coin o)) (bs.map (coin o)) = .ok (asU128 x) := by
  simp only [checkBalance, deriveFee, deriveFeeI128, bind_ok_iff]
  refine ⟨asU128 x, ⟨x, ?_, ?_⟩, (), ?_, rfl⟩
  · rw [if_pos (coins_isNative o _), coins_amounts, coins_amounts, bind_ok_iff]
    refine ⟨s, h1, ?_⟩
    rw [bind_ok_iff]
    exact ⟨t, h2, h3⟩
  · rw [if_neg (not_lt.2 h4)]
  · rw [List.map_cons, checkAssetAmount, bind_ok_iff]
    refine ⟨nf, h5, ?_⟩
    rw [bind_ok_iff, ← List.map_cons, ← real_eq, coins_real]
    refine ⟨_, coins_add o b (a :: as) nf h6, ?_⟩
    rw [bind_ok_iff]
    refine ⟨_, coins_sub o b bs m h7, ?_⟩
    rw [ensure_ok_iff]
    rfl

theorem coins_error {b : Build} {a : Amount} {as : List Amount} {outputs : List RecordOpening} {e : Err}
    (h1 : sumI128 b 0 ((a :: as).map asI128) = .error e) :
    checkBalance b ((a :: as).map (coin o)) outputs = .error e := by
  unfold checkBalance deriveFee deriveFeeI128
  rw [if_pos (coins_isNative o _), coins_amounts, h1, res_error_bind, res_error_bind, res_error_bind]

theorem coins_negative {b : Build} {a : Amount} {as bs : List Amount} {s t x : ℤ}
    (h1 : sumI128 b 0 ((a :: as).map asI128) = .ok s) (h2 : sumI128 b 0 (bs.map asI128) = .ok t)
    (h3 : subI128 b s t = .ok x) (h4 : x < 0) :
    checkBalance b ((a :: as).map (coin o)) (bs.map (coin o)) = .error .invalidParameter := by
  unfold checkBalance deriveFee deriveFeeI128
  rw [if_pos (coins_isNative o _), coins_amounts, coins_amounts, h1, res_ok_bind, h2, res_ok_bind, h3, res_ok_bind,
    if_pos h4, res_error_bind]

end

omit E in
/-- `2^126` -/
def big : Amount := ⟨2 ^ 126, by norm_num⟩

/-- the amounts of a list of coins -/
theorem coins_small {o : UserPubKey} {l m : List Amount} (h : ∀ a ∈ l ++ m, a.val < 2 ^ 127) :
    ∀ r ∈ l.map (coin o) ++ m.map (coin o), r.amount.val < 2 ^ 127 := by
  intro r hr
  rw [← List.map_append] at hr
  obtain ⟨a, ha, rfl⟩ := List.mem_map.1 hr
  exact h a ha

/-- **Negation, release builds.**  For every owner there is an unbalanced list of amounts below `2^127` that the check
accepts: four inputs of `2^126`, nothing out, no fee. -/
theorem C25_release_unbalanced (o : UserPubKey) : ∃ (inputs outputs : List RecordOpening) (fee : Amount),
    (∀ r ∈ inputs ++ outputs, r.amount.val < 2 ^ 127) ∧ checkBalance .release inputs outputs = .ok fee ∧
      ¬ Balanced inputs outputs fee := by
  refine ⟨[big, big, big, big].map (coin o), [0].map (coin o), asU128 0,
    coins_small (by simp [big]), ?_, ?_⟩
  · exact coins_ok o (s := 0) (t := 0) (x := 0) (nf := 0) (m := 0) (by decide +kernel) (by decide +kernel)
      (by decide +kernel) le_rfl (by decide +kernel) (by decide +kernel) (by decide +kernel)
  · rw [coins_balanced]
    decide +kernel

/-- **Negation, debug builds.**  A balanced list of amounts below `2^127` on which the check panics. -/
theorem C25_debug_panics (o : UserPubKey) : ∃ (inputs outputs : List RecordOpening) (fee : Amount),
    (∀ r ∈ inputs ++ outputs, r.amount.val < 2 ^ 127) ∧ Balanced inputs outputs fee ∧
      checkBalance .debug inputs outputs = .error .panic := by
  refine ⟨[big, big].map (coin o), [big, big].map (coin o), 0,
    coins_small (by simp [big]), ?_, ?_⟩
  · rw [coins_balanced]
    decide +kernel
  · exact coins_error o (by decide +kernel)

/-- **Negation, release builds.**  A balanced list of amounts below `2^127` that the check refuses. -/
theorem C25_release_refuses (o : UserPubKey) : ∃ (inputs outputs : List RecordOpening) (fee : Amount),
    (∀ r ∈ inputs ++ outputs, r.amount.val < 2 ^ 127) ∧ Balanced inputs outputs fee ∧
      checkBalance .release inputs outputs = .error .invalidParameter := by
  refine ⟨[big, big].map (coin o), [0].map (coin o), ⟨2 ^ 127, by norm_num⟩, coins_small (by simp [big]), ?_, ?_⟩
  · rw [coins_balanced]
    decide +kernel
  · exact coins_negative o (s := -(2 ^ 127)) (t := 0) (x := -(2 ^ 127)) (by decide +kernel) (by decide +kernel)
      (by decide +kernel) (by decide +kernel)

/-- **Negation, both builds.**  For every other asset: a balanced list with small amounts that the check refuses, because
it has native records besides the fee record. -/
theorem C25_refuses_mixed (b : Build) (o : UserPubKey) {ad : AssetDefinition} (hd : ad ≠ AssetDefinition.dummy)
    (hn : ad.code ≠ nativeCode) : ∃ (inputs outputs : List RecordOpening) (fee : Amount),
    Balanced inputs outputs fee ∧ total (real inputs) < 2 ^ 127 ∧ ∀ fee', checkBalance b inputs outputs ≠ .ok fee' := by
  have hx : ¬ isNativeXfr [coin o 100, coin o 10, { coin o 5 with asset_def := ad }] = true := by
    unfold isNativeXfr
    rw [List.all_eq_true]
    intro h
    have := h { coin o 5 with asset_def := ad } (by simp)
    rw [Bool.or_eq_true, AssetDefinition.isNative_iff, AssetDefinition.isDummy_iff] at this
    rcases this with h | h
    · exact hn (congrArg AssetDefinition.code h)
    · exact hd h
  have hreal : real [coin o 100, coin o 10, { coin o 5 with asset_def := ad }] =
      [coin o 100, coin o 10, { coin o 5 with asset_def := ad }] := by
    unfold real
    rw [List.filter_eq_self]
    intro r hr
    simp only [List.mem_cons, List.not_mem_nil, or_false] at hr
    rcases hr with rfl | rfl | rfl
    · exact decide_eq_true nativeDef_ne_dummyDef
    · exact decide_eq_true nativeDef_ne_dummyDef
    · exact decide_eq_true hd
  have hb : ∀ fee : Amount, Balanced [coin o 100, coin o 10, { coin o 5 with asset_def := ad }]
      [coin o 100, { coin o 5 with asset_def := ad }] fee ↔ fee = 10 := by
    intro fee
    have hc : ∀ a, (coin o a).asset_def.code = nativeCode := fun a => rfl
    have h100 : ((100 : Amount) : ℕ) = 100 := rfl
    have h10 : ((10 : Amount) : ℕ) = 10 := rfl
    have h5 : ((5 : Amount) : ℕ) = 5 := rfl
    constructor
    · rintro ⟨i0, is, h1, h2⟩
      cases h1
      have h := h2 nativeCode
      rw [hreal, if_pos (hc 100).symm] at h
      simp only [totalOf_cons, hc, if_true, if_neg hn] at h
      simp only [coin, h100, h10, totalOf, List.filter_nil, List.map_nil, List.sum_nil] at h
      apply Fin.ext
      rw [h10]
      omega
    · rintro rfl
      refine ⟨_, _, rfl, fun c => ?_⟩
      rw [hreal]
      simp only [totalOf_cons, hc]
      simp only [coin, h100, h10, h5, totalOf, List.filter_nil, List.map_nil, List.sum_nil]
      simp only [show (c = nativeCode) = (nativeCode = c) from propext eq_comm]
      split_ifs <;> omega
  refine ⟨[coin o 100, coin o 10, { coin o 5 with asset_def := ad }], [coin o 100, { coin o 5 with asset_def := ad }], 10,
    (hb 10).2 rfl, ?_, ?_⟩
  · rw [hreal]
    simp only [total, coin, List.map_cons, List.map_nil]
    decide +kernel
  · intro fee' h
    have h1 : fee' = 10 := by
      refine (hb fee').1 (checkBalance_small (fun c => ?_) (fun c => ?_) h)
      · refine lt_of_le_of_lt (totalOf_le_total c _) ?_
        rw [hreal]
        simp only [total, coin, List.map_cons, List.map_nil]
        decide +kernel
      · refine lt_of_le_of_lt (totalOf_le_total c _) ?_
        simp only [total, coin, List.map_cons, List.map_nil]
        decide +kernel
    simp only [checkBalance, deriveFee, deriveFeeI128, bind_ok_iff] at h
    obtain ⟨f, ⟨x, hx1, hx2⟩, -, -, hf⟩ := h
    rw [if_neg hx] at hx1
    simp only [coin] at hx1
    have hx0 : x = 0 := by
      rw [show subI128 b (asI128 100) (asI128 100) = .ok 0 by cases b <;> decide +kernel] at hx1
      exact (Except.ok.inj hx1).symm
    subst hx0
    rw [if_neg (lt_irrefl 0)] at hx2
    cases hf
    rw [← Except.ok.inj hx2] at h1
    revert h1
    decide +kernel

variable [S : CapExt]

/-- **Published notes balance exactly**, in both builds and for all amounts. -/
theorem C25_published {b : Build} {rng : TransferRand} {inputs : List TransferNoteInput}
    {outputs : List RecordOpening} {pk : TransferProvingKey} {valid_until : U64} {extra : List Byte}
    {n : TransferNote} {sk : Fr} (gen : TransferNote.generate b rng inputs outputs pk valid_until extra = .ok (n, sk)) :
    Balanced (inputs.map (·.ro)) outputs n.aux_info.fee := by
  obtain ⟨-, -, -, -, -, -, -, -, -, -, -, h, -⟩ := C40_generate gen
  exact h

end Cap

namespace Cap.Examples

open Toy Spec

/-- a list of records that meets the conditions of `C25_exact_partial`, with fee 7 -/
example : transferCheckAssetDef (xfrInputs.map (·.ro)) xfrOutputs = .ok () ∧
    checkDummyInputs (xfrInputs.map (·.ro)) = .ok () ∧
    (∀ r ∈ xfrInputs.map (·.ro) ++ xfrOutputs, r.asset_def.code = nativeCode → r.asset_def = AssetDefinition.native) ∧
    total (real (xfrInputs.map (·.ro))) = 150 ∧ total xfrOutputs = 143 ∧
    checkBalance .debug (xfrInputs.map (·.ro)) xfrOutputs = .ok 7 ∧
    checkBalance .release (xfrInputs.map (·.ro)) xfrOutputs = .ok 7 := by
  decide +kernel

example : Balanced (xfrInputs.map (·.ro)) xfrOutputs 7 :=
  C25_debug_sound (by decide +kernel) (by decide +kernel) (by decide +kernel)

/-- an asset for `C25_refuses_mixed` -/
example : asset ≠ AssetDefinition.dummy ∧ asset.code ≠ nativeCode := by decide +kernel

/-- the published note -/
example : Balanced (xfrInputs.map (·.ro)) xfrOutputs xfrNote.aux_info.fee := C25_published xfrNote_eq

end Cap.Examples
