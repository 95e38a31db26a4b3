/-
Helper lemmas: field representatives, points, the error monad, byte strings.
-/
import Verif.Model.Txn
import Mathlib.Tactic.NormNum
import Mathlib.Tactic.Linarith

namespace Cap

/-! ### The error monad -/

section Monad
variable {α β : Type}

theorem bind_ok_iff {x : Res α} {f : α → Res β} {b : β} :
    (x >>= f) = .ok b ↔ ∃ a, x = .ok a ∧ f a = .ok b := by
  cases x with
  | error e => simp [bind, Except.bind]
  | ok a => simp [bind, Except.bind]

theorem bind_err_iff {x : Res α} {f : α → Res β} {e : Err} :
    (x >>= f) = .error e ↔ x = .error e ∨ ∃ a, x = .ok a ∧ f a = .error e := by
  cases x with
  | error e => simp [bind, Except.bind]
  | ok a => simp [bind, Except.bind]

theorem ser_bind_ok_iff {x : Except SerErr α} {f : α → Except SerErr β} {b : β} :
    (x >>= f) = .ok b ↔ ∃ a, x = .ok a ∧ f a = .ok b := by
  cases x with
  | error e => simp [bind, Except.bind]
  | ok a => simp [bind, Except.bind]

theorem ensure_ok_iff {c : Bool} {e : Err} {u : Unit} : ensure c e = .ok u ↔ c = true := by
  cases c <;> simp [ensure]

theorem ensure_err_iff {c : Bool} {e e' : Err} : ensure c e = .error e' ↔ c = false ∧ e = e' := by
  cases c <;> simp [ensure]

theorem ensure_true (e : Err) : ensure true e = .ok () := rfl

theorem mapM_nil {f : α → Res β} : List.mapM f [] = .ok [] := rfl

theorem mapM_cons_ok_iff {f : α → Res β} {a : α} {as : List α} {l : List β} :
    List.mapM f (a :: as) = .ok l ↔ ∃ b bs, f a = .ok b ∧ List.mapM f as = .ok bs ∧ l = b :: bs := by
  rw [List.mapM_cons, bind_ok_iff]
  constructor
  · rintro ⟨b, hb, h⟩
    rw [bind_ok_iff] at h
    obtain ⟨bs, hbs, h⟩ := h
    exact ⟨b, bs, hb, hbs, by simpa [pure, Except.pure, eq_comm] using h⟩
  · rintro ⟨b, bs, hb, hbs, rfl⟩
    exact ⟨b, hb, by rw [bind_ok_iff]; exact ⟨bs, hbs, rfl⟩⟩

theorem mapM_ok_forall₂ {f : α → Res β} : ∀ {l : List α} {l' : List β},
    List.mapM f l = .ok l' ↔ List.Forall₂ (fun a b => f a = .ok b) l l'
  | [], l' => by
    rw [mapM_nil]
    constructor
    · intro h; cases h; exact .nil
    · intro h; cases h; rfl
  | a :: as, l' => by
    rw [mapM_cons_ok_iff]
    constructor
    · rintro ⟨b, bs, hb, hbs, rfl⟩
      exact .cons hb (mapM_ok_forall₂.1 hbs)
    · intro h
      cases h with
      | cons hb hbs => exact ⟨_, _, hb, mapM_ok_forall₂.2 hbs, rfl⟩

end Monad

/-! ### Byte strings -/

theorem leBytes_length : ∀ n x, (leBytes n x).length = n
  | 0, _ => rfl
  | n + 1, x => by simp [leBytes, leBytes_length n]

theorem ofLe_leBytes : ∀ n x, x < 256 ^ n → ofLe (leBytes n x) = x
  | 0, x, h => by simp at h; simp [leBytes, ofLe, h]
  | n + 1, x, h => by
    have h1 : x / 256 < 256 ^ n := by
      apply Nat.div_lt_of_lt_mul; rw [pow_succ] at h; omega
    simp only [leBytes, ofLe]
    rw [ofLe_leBytes n _ h1]
    have : (UInt8.ofNat (x % 256)).toNat = x % 256 := by simp
    omega

theorem ofLe_lt : ∀ l : List Byte, ofLe l < 256 ^ l.length
  | [] => by simp [ofLe]
  | b :: bs => by
    have h := ofLe_lt bs
    have hb : b.toNat < 256 := b.toNat_lt
    simp only [ofLe, List.length_cons, pow_succ]
    omega

theorem leBytes_ofLe : ∀ l : List Byte, leBytes l.length (ofLe l) = l
  | [] => rfl
  | b :: bs => by
    have hb : b.toNat < 256 := b.toNat_lt
    simp only [ofLe, List.length_cons, leBytes]
    have h1 : (b.toNat + 256 * ofLe bs) % 256 = b.toNat := by omega
    have h2 : (b.toNat + 256 * ofLe bs) / 256 = ofLe bs := by omega
    rw [h1, h2, leBytes_ofLe bs]
    simp

theorem ofLe_append : ∀ a b : List Byte, ofLe (a ++ b) = ofLe a + 256 ^ a.length * ofLe b
  | [], b => by simp [ofLe]
  | x :: xs, b => by
    simp only [List.cons_append, ofLe, ofLe_append xs b, List.length_cons, pow_succ]
    ring

theorem ofLe_inj {a b : List Byte} (hl : a.length = b.length) (h : ofLe a = ofLe b) : a = b := by
  have h1 := leBytes_ofLe a
  rw [h, hl, leBytes_ofLe b] at h1
  exact h1.symm

theorem leBytes_inj {n x y : ℕ} (hx : x < 256 ^ n) (hy : y < 256 ^ n) (h : leBytes n x = leBytes n y) :
    x = y := by
  rw [← ofLe_leBytes n x hx, h, ofLe_leBytes n y hy]

theorem leBytes_add (n m x : ℕ) : leBytes (n + m) x = leBytes n x ++ leBytes m (x / 256 ^ n) := by
  induction n generalizing x with
  | zero => simp [leBytes]
  | succ n ih =>
    rw [Nat.succ_add]
    simp only [leBytes, List.cons_append]
    rw [ih, Nat.div_div_eq_div_mul, pow_succ, Nat.mul_comm]

theorem leBytes_take (n m x : ℕ) : (leBytes (n + m) x).take n = leBytes n x := by
  rw [leBytes_add, List.take_left' (leBytes_length n x)]

theorem readExact_append {n : ℕ} {a b : List Byte} (h : a.length = n) :
    readExact n (a ++ b) = .ok (a, b) := by
  unfold readExact
  rw [if_neg (by simp; omega), List.take_left' h, List.drop_left' h]

theorem readExact_ok {n : ℕ} {bs a b : List Byte} (h : readExact n bs = .ok (a, b)) :
    a.length = n ∧ bs = a ++ b := by
  unfold readExact at h
  split at h
  · cases h
  · simp only [Except.ok.injEq, Prod.mk.injEq] at h
    obtain ⟨rfl, rfl⟩ := h
    constructor
    · simp; omega
    · simp

variable [E : CapEnv]

/-! ### Field representatives -/

theorem natF_val {n : ℕ} (h : n < 2 ^ 252) : ((n : ℕ) : F).val = n :=
  ZMod.val_natCast_of_lt (lt_trans h E.p_gt)

theorem natF_inj {a b : ℕ} (ha : a < 2 ^ 252) (hb : b < 2 ^ 252) (h : (a : F) = (b : F)) : a = b := by
  have := congrArg ZMod.val h
  rwa [natF_val ha, natF_val hb] at this

theorem natF_inj_p {a b : ℕ} (ha : a < E.p) (hb : b < E.p) (h : (a : F) = (b : F)) : a = b := by
  have := congrArg ZMod.val h
  rwa [ZMod.val_natCast_of_lt ha, ZMod.val_natCast_of_lt hb] at this

instance : Nontrivial F := ⟨0, 1, fun h => by
  have := natF_inj (a := 0) (b := 1) (by norm_num) (by norm_num) (by simpa using h)
  omega⟩

theorem f_cast_val (x : F) : ((x.val : ℕ) : F) = x := by simp

theorem Amount.toF_val (a : Amount) : (Amount.toF a).val = a.val :=
  natF_val (lt_trans a.isLt (by norm_num))

theorem Amount.toF_inj {a b : Amount} (h : Amount.toF a = Amount.toF b) : a = b := by
  have := congrArg ZMod.val h
  rw [Amount.toF_val, Amount.toF_val] at this
  exact Fin.ext this

theorem u64_val (t : U64) : ((t.val : ℕ) : F).val = t.val := natF_val (lt_trans t.isLt (by norm_num))

theorem u64_inj {a b : U64} (h : ((a.val : ℕ) : F) = (b.val : F)) : a = b := by
  have := congrArg ZMod.val h
  rw [u64_val, u64_val] at this
  exact Fin.ext this

theorem frToFq_val (s : Fr) : (frToFq s).val = s.val := ZMod.val_natCast_of_lt (lt_trans s.val_lt E.r_lt)

theorem frToFq_inj {a b : Fr} (h : frToFq a = frToFq b) : a = b := by
  have := congrArg ZMod.val h
  rw [frToFq_val, frToFq_val] at this
  exact ZMod.val_injective _ this

theorem frToFq_ok (s : Fr) : okScalar (frToFq s) := by
  unfold okScalar
  rw [frToFq_val]
  exact lt_of_lt_of_le s.val_lt E.r_le_bits

/-! ### Points -/

theorem xy_inj {P Q : Pt} (h : E.xy P = E.xy Q) : P = Q := by
  have h1 := (E.ofXY_iff (E.xy Q) P).2 h
  have h2 := (E.ofXY_iff (E.xy Q) Q).2 rfl
  rw [h1] at h2
  exact Option.some.inj h2

theorem ofXY_xy (P : Pt) : E.ofXY (E.xy P) = some P := (E.ofXY_iff _ _).2 rfl

theorem xy_eq_neutral {P : Pt} : E.xy P = neutral ↔ P = 0 := by
  constructor
  · intro h
    exact xy_inj (h.trans E.xy_zero.symm)
  · rintro rfl
    exact E.xy_zero

theorem xy_eta (P : Pt) : (ptX P, ptY P) = E.xy P := rfl

theorem pt_xy_inj {P Q : Pt} (hx : ptX P = ptX Q) (hy : ptY P = ptY Q) : P = Q :=
  xy_inj (Prod.ext hx hy)

theorem smul_mod (n : ℕ) (P : Pt) : (n % E.r) • P = n • P := by
  conv_rhs => rw [← Nat.mod_add_div n E.r, add_nsmul, mul_nsmul, E.r_smul, nsmul_zero, add_zero]

theorem smul_gen_inj {a b : ℕ} (h : a • E.gen = b • E.gen) : a % E.r = b % E.r :=
  E.gen_inj _ _ (Nat.mod_lt _ (NeZero.pos _)) (Nat.mod_lt _ (NeZero.pos _)) (by rw [smul_mod, smul_mod, h])

theorem smulFr_gen_inj {a b : Fr} (h : smulFr a E.gen = smulFr b E.gen) : a = b :=
  ZMod.val_injective _ (E.gen_inj _ _ a.val_lt b.val_lt h)

theorem smulFr_natCast (n : ℕ) (P : Pt) : smulFr (n : Fr) P = n • P := by
  unfold smulFr
  rw [ZMod.val_natCast, smul_mod]

theorem smulFr_comm (a b : Fr) (P : Pt) : smulFr a (smulFr b P) = smulFr b (smulFr a P) := by
  unfold smulFr
  rw [← mul_nsmul, ← mul_nsmul, Nat.mul_comm]

theorem smulFr_zero (P : Pt) : smulFr 0 P = 0 := by
  unfold smulFr
  rw [ZMod.val_zero, zero_nsmul]

theorem smulFr_pt_zero (s : Fr) : smulFr s (0 : Pt) = 0 := by
  unfold smulFr
  rw [nsmul_zero]

theorem r_gt_one : 1 < E.r := lt_trans (by norm_num) E.r_gt

theorem gen_ne_zero : E.gen ≠ 0 := by
  intro h
  have := E.gen_inj 0 1 (lt_trans (by norm_num) r_gt_one) r_gt_one (by rw [h, nsmul_zero, nsmul_zero])
  omega

end Cap
