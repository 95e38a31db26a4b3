/-
A concrete instance of the external primitives, used in the non-vacuity examples next to the theorems
and nowhere else.  The two moduli are those of bn254 and of its embedded curve; the group is `ZMod r` itself
(coordinates `(s, 1)`), the hashes are polynomial evaluations, the proof system is an ideal one.
-/
import Verif.Lemmas.Basic
import Mathlib.Data.Countable.Basic
import Mathlib.Data.Countable.Defs
import Mathlib.Logic.Encodable.Basic
import Mathlib.Logic.Equiv.List

namespace Cap.Toy

/-- order of the bn254 scalar field -/
def p : ℕ := 21888242871839275222246405745257275088548364400416034343698204186575808495617
/-- order of the embedded curve's subgroup -/
def r : ℕ := 2736030358979909402780800718157159386076813972158567259200215660948447373041

instance : NeZero p := ⟨by decide +kernel⟩
instance : NeZero r := ⟨by decide +kernel⟩

/-- a polynomial "hash" of a list -/
def poly (k : ℕ) (l : List (ZMod p)) : ZMod p := l.foldl (fun acc x => acc * (k : ZMod p) + x) 1

/-- coordinates: the discrete logarithm and 1 -/
def xy (g : ZMod r) : ZMod p × ZMod p := ((g.val : ZMod p), 1)

/-- inverse of `xy` -/
def ofXY (c : ZMod p × ZMod p) : Option (ZMod r) :=
  if c.2 = 1 ∧ c.1.val < r then some (c.1.val : ZMod r) else none

/-- a self-delimiting encoding of byte strings -/
def encList : List Byte → List Byte
  | [] => [0]
  | b :: bs => 1 :: b :: encList bs

theorem encList_prefix : ∀ a b x y, encList a ++ x = encList b ++ y → a = b ∧ x = y
  | [], [], x, y, h => by simpa [encList] using h
  | [], _ :: _, x, y, h => by simp [encList] at h
  | _ :: _, [], x, y, h => by simp [encList] at h
  | c :: cs, d :: ds, x, y, h => by
    simp only [encList, List.cons_append, List.cons.injEq, true_and] at h
    obtain ⟨h1, h2⟩ := h
    obtain ⟨h3, h4⟩ := encList_prefix cs ds x y h2
    exact ⟨by rw [h1, h3], h4⟩

theorem r_lt_p : r < p := by decide +kernel

theorem xy_val (g : ZMod r) : ((g.val : ZMod p)).val = g.val :=
  ZMod.val_natCast_of_lt (lt_trans g.val_lt r_lt_p)

theorem ofXY_xy (g : ZMod r) : ofXY (xy g) = some g := by
  unfold ofXY xy
  rw [if_pos ⟨rfl, by rw [xy_val]; exact g.val_lt⟩, xy_val]
  simp

theorem xy_ofXY (c : ZMod p × ZMod p) (g : ZMod r) (h : ofXY c = some g) : xy g = c := by
  unfold ofXY at h
  split at h
  · rename_i hc
    obtain ⟨h2, h1⟩ := hc
    simp only [Option.some.injEq] at h
    subst h
    unfold xy
    rw [ZMod.val_natCast_of_lt h1]
    ext <;> simp [h2]
  · simp at h

/-- the environment, with a parameter for the width of the scalar decomposition -/
@[reducible] def env (bits : ℕ) (hb : r ≤ 2 ^ bits) : CapEnv where
  p := p
  r := r
  p_gt := by decide +kernel
  p_lt := by decide +kernel
  p_odd := by decide +kernel
  r_gt := by decide +kernel
  r_lt := r_lt_p
  Pt := ZMod r
  ptGroup := inferInstance
  ptDec := inferInstance
  gen := 1
  r_smul := fun P => by rw [nsmul_eq_mul]; simp
  gen_inj := fun a b ha hb h => by
    rw [nsmul_eq_mul, nsmul_eq_mul, mul_one, mul_one] at h
    have := congrArg ZMod.val h
    rwa [ZMod.val_natCast_of_lt ha, ZMod.val_natCast_of_lt hb] at this
  xy := xy
  ofXY := ofXY
  ofXY_iff := fun c P => ⟨fun h => xy_ofXY c P h, fun h => h ▸ ofXY_xy P⟩
  xy_zero := by unfold xy; rw [ZMod.val_zero]; simp
  xy_ne := fun P h => by
    exact absurd (congrArg Prod.snd h) (show (1 : ZMod p) ≠ 0 by decide +kernel)
  ecMul := fun n c => match ofXY c with
    | some P => xy (n • P)
    | none => c
  ecMul_xy := fun n P => by simp only [ofXY_xy]
  scalarBits := bits
  r_le_bits := hb
  commit := fun l b => poly 1000003 (b :: l)
  prf := fun k l => poly 1000033 (k :: l)
  hash3 := fun a b c => poly 1000037 [a, b, c]
  descDigest := fun bs => (ofLe bs : ZMod p) + 77
  keccakField := fun bs => (ofLe bs : ZMod p) + 12345
  leafHash := fun a b => poly 1000039 [a, b]
  nodeHash := fun a b c => poly 1000081 [a, b, c]
  keystream := fun c i => c.1 * 5 + c.2 * 3 + (i : ZMod p) + 9
  randViewerPk := fun s => s + 4
  Sig := ZMod p
  sigDec := inferInstance
  schnorrSign := fun sk m => (sk.val : ZMod p) + poly 1000099 m
  schnorrVerify := fun c m s => decide (s = c.1 + poly 1000099 m)
  schnorr_correct := fun sk m => by
    simp only [decide_eq_true_eq]
    unfold xy
    rw [nsmul_eq_mul, mul_one]
    simp
  hashToField := fun bs => (ofLe bs : ZMod p)
  AeadPk := UInt8
  AeadSk := UInt8
  AeadCt := UInt8 × List Byte × List Byte
  aeadPkDec := inferInstance
  aeadPkDefault := 0
  aeadPk := id
  aeadEnc := fun pk _ m l => some (pk, m, l)
  aeadDec := fun sk c l => if c.1 = sk ∧ c.2.2 = l then some c.2.1 else none
  aead_correct := fun sk ρ m l c h => by simp only [id, Option.some.injEq] at h; subst h; simp
  verKeyBytes := fun P => leBytes 32 P.val
  verKeyBytes_len := fun _ => leBytes_length _ _
  verKeyBytes_inj := fun P Q h => by
    have hlt : ∀ g : ZMod r, g.val < 256 ^ 32 := fun g => lt_trans g.val_lt (by decide +kernel)
    have := congrArg ofLe h
    rw [ofLe_leBytes _ _ (hlt P), ofLe_leBytes _ _ (hlt Q)] at this
    exact ZMod.val_injective r this
  memoBytes := fun c => c.1 :: (encList c.2.1 ++ encList c.2.2)
  memoBytes_ne := fun _ => by simp
  memoBytes_prefix := fun c c' x y h => by
    obtain ⟨a, b, d⟩ := c
    obtain ⟨a', b', d'⟩ := c'
    simp only [List.cons_append, List.append_assoc, List.cons.injEq] at h
    obtain ⟨h1, h2⟩ := h
    obtain ⟨h3, h4⟩ := encList_prefix _ _ _ _ h2
    obtain ⟨h5, h6⟩ := encList_prefix _ _ _ _ h4
    exact ⟨by rw [h1, h3, h5], h6⟩

/-- the instance used in examples: a 251-bit scalar decomposition, as the size of `r` suggests -/
scoped instance E : CapEnv := env 251 (by decide +kernel)

/-- a number, in unary -/
def encNat : ℕ → List Byte
  | 0 => [0]
  | n + 1 => 1 :: encNat n

theorem encNat_prefix : ∀ a b x y, encNat a ++ x = encNat b ++ y → a = b ∧ x = y
  | 0, 0, x, y, h => by simpa [encNat] using h
  | 0, _ + 1, x, y, h => by simp [encNat] at h
  | _ + 1, 0, x, y, h => by simp [encNat] at h
  | a + 1, b + 1, x, y, h => by
    simp only [encNat, List.cons_append, List.cons.injEq, true_and] at h
    obtain ⟨h1, h2⟩ := encNat_prefix a b x y h
    exact ⟨by rw [h1], h2⟩

/-- a shape, as bytes -/
def encShape : Shape → List Byte
  | .transfer n m d => 0 :: (encNat n ++ (encNat m ++ encNat d))
  | .mint d => 1 :: encNat d
  | .freeze n d => 2 :: (encNat n ++ encNat d)

theorem encShape_prefix (a b : Shape) (x y : List Byte) (h : encShape a ++ x = encShape b ++ y) : a = b ∧ x = y := by
  cases a <;> cases b <;> simp only [encShape, List.cons_append, List.append_assoc, List.cons.injEq, true_and] at h
  · obtain ⟨h1, h2⟩ := encNat_prefix _ _ _ _ h
    obtain ⟨h3, h4⟩ := encNat_prefix _ _ _ _ h2
    obtain ⟨h5, h6⟩ := encNat_prefix _ _ _ _ h4
    exact ⟨by rw [h1, h3, h5], h6⟩
  · exact absurd h.1 (by decide)
  · exact absurd h.1 (by decide)
  · exact absurd h.1 (by decide)
  · obtain ⟨h1, h2⟩ := encNat_prefix _ _ _ _ h
    exact ⟨by rw [h1], h2⟩
  · exact absurd h.1 (by decide)
  · exact absurd h.1 (by decide)
  · exact absurd h.1 (by decide)
  · obtain ⟨h1, h2⟩ := encNat_prefix _ _ _ _ h
    obtain ⟨h3, h4⟩ := encNat_prefix _ _ _ _ h2
    exact ⟨by rw [h1, h3], h4⟩

/-- public inputs, as bytes -/
def encFs {q : ℕ} : List (ZMod q) → List Byte
  | [] => [0]
  | x :: xs => 1 :: (leBytes 32 x.val ++ encFs xs)

theorem encFs_prefix {q : ℕ} [NeZero q] (hq : q ≤ 256 ^ 32) :
    ∀ (a b : List (ZMod q)) (x y : List Byte), encFs a ++ x = encFs b ++ y → a = b ∧ x = y
  | [], [], x, y, h => by simpa [encFs] using h
  | [], _ :: _, x, y, h => by simp [encFs] at h
  | _ :: _, [], x, y, h => by simp [encFs] at h
  | c :: cs, d :: ds, x, y, h => by
    simp only [encFs, List.cons_append, List.append_assoc, List.cons.injEq, true_and] at h
    obtain ⟨h1, h2⟩ := List.append_inj h (by rw [leBytes_length, leBytes_length])
    obtain ⟨h3, h4⟩ := encFs_prefix hq cs ds x y h2
    have h5 := leBytes_inj (lt_of_lt_of_le (ZMod.val_lt c) hq) (lt_of_lt_of_le (ZMod.val_lt d) hq) h1
    exact ⟨by rw [ZMod.val_injective q h5, h3], h4⟩

/-- the ideal proof of a statement: the statement, as bytes -/
def proofOf {q : ℕ} (sh : Shape) (pub : List (ZMod q)) (ext : List Byte) : List Byte := encShape sh ++ (encFs pub ++ ext)

theorem proofOf_inj {sh sh' : Shape} {pub pub' : List (ZMod p)} {ext ext' : List Byte}
    (h : proofOf sh pub ext = proofOf sh' pub' ext') : sh = sh' ∧ pub = pub' ∧ ext = ext' := by
  obtain ⟨h1, h2⟩ := encShape_prefix _ _ _ _ h
  obtain ⟨h3, h4⟩ := encFs_prefix (by decide +kernel) _ _ _ _ h2
  exact ⟨h1, h3, h4⟩

/-- The ideal proof system: a proof is its statement (key, public inputs and bound message); it verifies if
a satisfying assignment with these public inputs exists. -/
@[reducible] noncomputable def extOf (E : CapEnv) (ro : RecordOpening → Option (List Byte)) (pa : List Byte → Option RecordOpening)
    (h : ∀ x b, ro x = some b → pa b = some x) : @CapExt E where
  Proof := List Byte
  Pk := Shape
  Vk := Shape
  proofDec := inferInstance
  preprocess := fun sh => some (sh, sh)
  prove := fun sh inst ext _ => if inst.HasShape sh ∧ inst.Sat then some (proofOf sh inst.pub ext) else none
  verify := fun sh pub π ext =>
    @decide (π = proofOf sh pub ext ∧ ∃ inst : CircuitInst, inst.HasShape sh ∧ inst.Sat ∧ inst.pub = pub) (Classical.dec _)
  batchVerify := fun l => @decide (l ≠ [] ∧ ∀ x ∈ l, x.2.2.1 = proofOf x.1 x.2.1 x.2.2.2 ∧
    ∃ inst : CircuitInst, inst.HasShape x.1 ∧ inst.Sat ∧ inst.pub = x.2.1) (Classical.dec _)
  roBytes := ro
  roParse := pa
  roParse_roBytes := h

/-- record openings of the toy environment can be numbered -/
theorem exists_number : ∃ f : RecordOpening → ℕ, Function.Injective f := by
  let g : RecordOpening → (ℕ × ZMod p × ZMod r × UInt8) × (ZMod r × ZMod r × ZMod r) × (List Bool × ℕ × Bool × ZMod p) :=
    fun x => ((x.amount.val, x.asset_def.code, x.pub_key.address, x.pub_key.enc_key),
      (x.asset_def.policy.viewer_pk, x.asset_def.policy.cred_pk, x.asset_def.policy.freezer_pk),
      (x.asset_def.policy.reveal_map.toList, x.asset_def.policy.reveal_threshold.val, x.freeze_flag.toBool, x.blind))
  have hg : Function.Injective g := by
    rintro ⟨a, ⟨c, ⟨v, cr, fr, m, t⟩⟩, ⟨ad, ek⟩, fl, b⟩ ⟨a', ⟨c', ⟨v', cr', fr', m', t'⟩⟩, ⟨ad', ek'⟩, fl', b'⟩ h
    simp only [g, Prod.mk.injEq] at h
    obtain ⟨⟨h1, h2, h3, h4⟩, ⟨h5, h6, h7⟩, h8, h9, h10, h11⟩ := h
    have : fl = fl' := by cases fl <;> cases fl' <;> simp_all [FreezeFlag.toBool]
    have h8' : m = m' := Vector.toList_inj.1 h8
    rw [Fin.ext h1, h2, h3, h4, h5, h6, h7, h8', Fin.ext h9, this, h11]
  have : Countable (ZMod p) := inferInstanceAs (Countable (Fin p))
  have : Countable (ZMod r) := inferInstanceAs (Countable (Fin r))
  have : Countable UInt8 := Function.Injective.countable (f := UInt8.toNat) (fun a b h => UInt8.toNat_inj.1 h)
  obtain ⟨k, hk⟩ := exists_injective_nat
    ((ℕ × ZMod p × ZMod r × UInt8) × (ZMod r × ZMod r × ZMod r) × (List Bool × ℕ × Bool × ZMod p))
  exact ⟨k ∘ g, hk.comp hg⟩

/-- the number of a record opening -/
noncomputable def number : RecordOpening → ℕ := Classical.choose exists_number

/-- the opening with a number -/
noncomputable def unnumber (n : ℕ) : Option RecordOpening :=
  open Classical in if h : ∃ x, number x = n then some (Classical.choose h) else none

theorem unnumber_number (x : RecordOpening) : unnumber (number x) = some x := by
  have h : ∃ y, number y = number x := ⟨x, rfl⟩
  unfold unnumber
  rw [dif_pos h]
  exact congrArg some (Classical.choose_spec exists_number (Classical.choose_spec h))

/-- the proof system and codec used in examples -/
noncomputable scoped instance S : CapExt :=
  extOf E (fun x => some (List.replicate (number x) 0)) (fun b => unnumber b.length)
    (fun x b h => by cases h; simp [unnumber_number])

/-- The ideal proof system is complete. -/
theorem complete : SnarkComplete := by
  intro sh pk vk h inst hs hsat ext seed
  cases h
  exact ⟨proofOf sh inst.pub ext, if_pos ⟨hs, hsat⟩, (@decide_eq_true_iff _ (Classical.dec _)).2 ⟨rfl, inst, hs, hsat, rfl⟩⟩

/-- The ideal prover refuses what cannot be proved. -/
theorem refuses : SnarkRefuses := by
  intro sh pk vk h inst ext seed π _ _ hp
  cases h
  by_contra hn
  rw [show S.prove sh inst ext seed = none from if_neg (fun h => hn h.2)] at hp
  cases hp

/-- The ideal prover refuses circuits of another size. -/
theorem sized : SnarkSized := by
  intro sh pk vk h inst ext seed π hp
  cases h
  by_contra hn
  rw [show S.prove sh inst ext seed = none from if_neg (fun h => hn h.1)] at hp
  cases hp

/-- The ideal proof system is sound. -/
theorem sound : SnarkSound := by
  intro sh pk vk h pub π ext hv
  cases h
  exact ((@decide_eq_true_iff _ (Classical.dec _)).1 hv).2

/-- The ideal proof system verifies batches exactly. -/
theorem batch : SnarkBatch := by
  intro l hl
  constructor
  · intro h x hx
    exact (@decide_eq_true_iff _ (Classical.dec _)).2 (((@decide_eq_true_iff _ (Classical.dec _)).1 h).2 x hx)
  · intro h
    exact (@decide_eq_true_iff _ (Classical.dec _)).2
      ⟨hl, fun x hx => (@decide_eq_true_iff _ (Classical.dec _)).1 (h x hx)⟩

end Cap.Toy
