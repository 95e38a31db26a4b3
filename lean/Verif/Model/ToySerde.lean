/-
An instance of `SerdeEnv` for the toy instantiation, to show that its laws can be met.
-/
import Verif.Lemmas.Serde
import Verif.Model.ToyWire
import Verif.Model.ToyParams
import Verif.Props.C84

namespace Cap.Toy

/-- a tag and bytes as text: each character of the tag after a `1`, then a `0`, then a character for each byte -/
def toyText (t : String) (b : List Byte) : String :=
  String.ofList (t.toList.flatMap (fun c => ['1', c]) ++ '0' :: b.map (fun x => Char.ofNat x.toNat))

/-- reading it -/
def toyUntextAux : List Char → Option (List Char × List Byte)
  | [] => none
  | m :: cs =>
    if m = '0' then some ([], cs.map (fun c => UInt8.ofNat c.toNat))
    else match cs with
      | [] => none
      | c :: cs => (toyUntextAux cs).map (fun x => (c :: x.1, x.2))

theorem toyUntextAux_text (b : List Byte) : ∀ t : List Char,
    toyUntextAux (t.flatMap (fun c => ['1', c]) ++ '0' :: b.map (fun x => Char.ofNat x.toNat)) = some (t, b)
  | [] => by
    have h : ∀ x : Byte, UInt8.ofNat (Char.ofNat x.toNat).toNat = x := by
      intro x
      have h : ∀ n : Fin 256, UInt8.ofNat (Char.ofNat n.val).toNat = UInt8.ofNat n.val := by decide +kernel
      have := h ⟨x.toNat, x.toNat_lt⟩
      rwa [UInt8.ofNat_toNat] at this
    rw [List.flatMap_nil, List.nil_append, toyUntextAux.eq_def]
    simp [Function.comp_def, h]
  | c :: t => by
    have := toyUntextAux_text b t
    simp only [List.flatMap_cons, List.cons_append, List.nil_append]
    rw [toyUntextAux, if_neg (by decide)]
    simp only [this, Option.map_some]

def toyUntext (s : String) : Option (String × List Byte) :=
  (toyUntextAux s.toList).map (fun x => (String.ofList x.1, x.2))

theorem toyUntext_text (t : String) (b : List Byte) : toyUntext (toyText t b) = some (t, b) := by
  rw [toyUntext, toyText, String.toList_ofList, toyUntextAux_text]
  simp

/-- reading a toy ciphertext -/
def ctRead : Reader (UInt8 × List Byte × List Byte)
  | [] => .error .io
  | k :: bs => do
    let (a, bs) ← decList bs
    let (b, bs) ← decList bs
    .ok ((k, a, b), bs)

/-- the three verifying keys: the key, the numbers, the depth in one byte -/
def keyBytes (key : Shape) (n m : ℕ) (d : Fin 256) : List Byte :=
  shapeBytes key ++ (unary n ++ (unary m ++ [UInt8.ofNat d.val]))

def keyRead (bs : List Byte) : Except SerErr ((Shape × ℕ × ℕ × Fin 256) × List Byte) :=
  match shapeRead bs with
  | none => .error .invalidData
  | some (k, bs) => match unaryRead bs with
    | none => .error .invalidData
    | some (n, bs) => match unaryRead bs with
      | none => .error .invalidData
      | some (m, bs) => match bs with
        | [] => .error .io
        | d :: bs => .ok ((k, n, m, d.toFin), bs)

theorem keyRead_bytes (key : Shape) (n m : ℕ) (d : Fin 256) (t : List Byte) :
    keyRead (keyBytes key n m d ++ t) = .ok ((key, n, m, d), t) := by
  have hd : ∀ d : Fin 256, (UInt8.ofNat d.val).toFin = d := by decide +kernel
  simp only [keyRead, keyBytes, List.append_assoc, shapeRead_bytes, unaryRead_unary, List.cons_append, List.nil_append, hd]

/-- `strict` is a parameter, so that both readings of jf-utils can be tried -/
@[instance_reducible] noncomputable def serde (strict : Bool) : SerdeEnv where
  strict := strict
  signKey := ⟨frFormat.ser, frFormat.de, fun x rest => fr_good.round x rest trivial⟩
  viewKey := ⟨frFormat.ser, frFormat.de, fun x rest => fr_good.round x rest trivial⟩
  aeadKey := ⟨byteFormat.ser, byteFormat.de, fun x rest => byte_good.round x rest trivial⟩
  memo := ⟨fun c => c.1 :: (encList c.2.1 ++ encList c.2.2), ctRead, fun c rest => by
    show ctRead (c.1 :: (encList c.2.1 ++ encList c.2.2 ++ rest)) = _
    rw [List.append_assoc, ctRead, decList_encList]
    show (do let (b, bs) ← decList (encList c.2.2 ++ rest); _) = _
    rw [decList_encList]
    rfl⟩
  transferVk := ⟨fun k => keyBytes k.key k.n_inputs k.n_outputs k.tree_depth,
    fun bs => match keyRead bs with
      | .ok (x, rest) => .ok (⟨x.1, x.2.1, x.2.2.1, x.2.2.2⟩, rest)
      | .error e => .error e,
    fun k rest => by simp only [keyRead_bytes]⟩
  mintVk := ⟨fun k => keyBytes k.key 0 0 k.tree_depth,
    fun bs => match keyRead bs with
      | .ok (x, rest) => .ok (⟨x.1, x.2.2.2⟩, rest)
      | .error e => .error e,
    fun k rest => by simp only [keyRead_bytes]⟩
  freezeVk := ⟨fun k => keyBytes k.key k.num_input 0 k.tree_depth,
    fun bs => match keyRead bs with
      | .ok (x, rest) => .ok (⟨x.1, x.2.2.2, x.2.1⟩, rest)
      | .error e => .error e,
    fun k rest => by simp only [keyRead_bytes]⟩
  verKey := ptFormat
  verKey_round_trip x rest := pt_good.round x rest trivial
  verKey_more := pt_good.more
  node := fieldFormat
  node_round_trip x rest := field_good.round x rest trivial
  node_more := field_good.more
  proof := ⟨encList, decList⟩
  proof_round_trip := decList_encList
  proof_more := W.proof_more
  encKey_short k := by
    show ([k] : List Byte).length < 2 ^ 63
    norm_num
  text := toyText
  untext := toyUntext
  untext_text := toyUntext_text

end Cap.Toy
