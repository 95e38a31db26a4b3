/-
A circuit while it is being built (jf-relation `PlonkCircuit`): variables are numbers, every call of a gadget adds
gates, and the values that were given for the variables are kept beside them.

The gadgets that CAP calls in jf-relation and jf-primitives are the gates of this model; what each of them says about
the values of its variables is `Op.eval` and `Assertion.Holds`.  How jf lays them out as rows of a table is not modelled.
-/
import Verif.Model.Circuit.Structs

namespace Cap.Plonk

variable [E : CapEnv]

/- jf-relation `Variable` is an index into the list of values -/
scoped notation "Var" => ℕ

/-- jf-relation `BoolVar` -/
structure BVar where
  v : Var
deriving DecidableEq

/-- jf-relation `PointVariable` -/
structure PVar where
  x : Var
  y : Var
deriving DecidableEq

/-- gadgets that make new variables, whose values follow from those of the given variables -/
inductive Op where
  /-- the constants of `PlonkCircuit::new_turbo_plonk` -/
  | const (c : F)
  | add
  | sub
  | addConst (c : F)
  | sum
  /-- `lc` with its four coefficients -/
  | lc (q : List F)
  | mul
  | isZero
  | isEqual
  | neg
  | or
  | and
  | andAll
  /-- `conditional_select(bit, x0, x1)` -/
  | select
  /-- the bits of `unpack`, least significant first -/
  | unpack (n : ℕ)
  | isInRange (n : ℕ)
  | isPointEqual
  | isNeutral
  | fixedMul
  | varMul
  | sponge
  | prf
  | commit
  | merkle
  | elgamal
  | schnorr
deriving DecidableEq

/-- The nodes of a Merkle path, four values for each: two siblings, and whether the node is the left or the right
child. -/
def pathOf : List F → List PathNode
  | s1 :: s2 :: l :: r :: rest =>
    ⟨s1, s2, if l = 1 then .left else if r = 1 then .right else .middle⟩ :: pathOf rest
  | _ => []

/-- The values of the new variables.  The wrong number of variables gives no value. -/
def Op.eval : Op → List F → List E.Sig → List F
  | .const c, [], _ => [c]
  | .add, [a, b], _ => [a + b]
  | .sub, [a, b], _ => [a - b]
  | .addConst c, [a], _ => [a + c]
  | .sum, l, _ => [l.sum]
  | .lc q, l, _ => [(List.zipWith (· * ·) q l).sum]
  | .mul, [a, b], _ => [a * b]
  | .isZero, [a], _ => [boolF (decide (a = 0))]
  | .isEqual, [a, b], _ => [boolF (decide (a = b))]
  | .neg, [a], _ => [1 - a]
  | .or, [a, b], _ => [a + b - a * b]
  | .and, [a, b], _ => [a * b]
  | .andAll, l, _ => [l.prod]
  | .select, [b, x0, x1], _ => [b * x1 + (1 - b) * x0]
  | .unpack n, [v], _ => (List.range n).map fun i => boolF (v.val.testBit i)
  | .isInRange n, [v], _ => [boolF (decide (InRange v n))]
  | .isPointEqual, [x, y, x', y'], _ => [boolF (decide ((x, y) = (x', y')))]
  | .isNeutral, [x, y], _ => [boolF (decide ((x, y) = neutral))]
  | .fixedMul, [s], _ => [(E.xy (s.val • E.gen)).1, (E.xy (s.val • E.gen)).2]
  | .varMul, [s, x, y], _ => [(E.ecMul s.val (x, y)).1, (E.ecMul s.val (x, y)).2]
  | .sponge, [x, y, z], _ => [E.hash3 x y z]
  | .prf, k :: l, _ => [E.prf k l]
  | .commit, b :: l, _ => [E.commit l b]
  | .merkle, uid :: elem :: path, _ => [merkleRoot uid elem (pathOf path)]
  | .elgamal, x :: y :: r :: msg, _ => (MemoV.derive (x, y) msg r).ephemeral.1 :: (MemoV.derive (x, y) msg r).ephemeral.2 ::
      (MemoV.derive (x, y) msg r).data
  | .schnorr, x :: y :: msg, [g] => [boolF (E.schnorrVerify (x, y) msg g)]
  | _, _, _ => []

/-- gates that only constrain given variables -/
inductive Assertion where
  | const (c : F)
  | equal
  | addGate
  | mulGate
  /-- `mul_add_gate` with its two coefficients -/
  | mulAdd (q1 q2 : F)
  | orGate
  | inRange (n : ℕ)
  /-- the decomposition of a scalar in a scalar multiplication -/
  | scalar
  | pointEqual
deriving DecidableEq

/-- what the gate says -/
def Assertion.Holds : Assertion → List F → Prop
  | .const c, [v] => v = c
  | .equal, [a, b] => a = b
  | .addGate, [a, b, c] => a + b = c
  | .mulGate, [a, b, c] => a * b = c
  | .mulAdd q1 q2, [a, b, c, d, e] => q1 * a * b + q2 * c * d = e
  | .orGate, [a, b] => a + b - a * b = 1
  | .inRange n, [v] => InRange v n
  | .scalar, [v] => okScalar v
  | .pointEqual, [x, y, x', y'] => (x, y) = (x', y')
  | _, _ => False

/-- a gate with its variables; variables for signatures are numbered separately -/
inductive Gate where
  | op (o : Op) (ins sigs outs : List Var)
  | bool (v : Var)
  /-- the two flags of a node of a Merkle path -/
  | pos (l r : Var)
  | assert (c : Assertion) (ins : List Var)
deriving DecidableEq

/-- values for all variables -/
structure Asg where
  f : Var → F
  s : Var → E.Sig

/-- the gate holds for these values -/
def Gate.Holds (a : Asg) : Gate → Prop
  | .op o ins sigs outs => outs.map a.f = o.eval (ins.map a.f) (sigs.map a.s)
  | .bool v => a.f v = 0 ∨ a.f v = 1
  | .pos l r => (a.f l = 0 ∨ a.f l = 1) ∧ (a.f r = 0 ∨ a.f r = 1) ∧ (a.f l + a.f r = 0 ∨ a.f l + a.f r = 1)
  | .assert c ins => c.Holds (ins.map a.f)

/-- jf-relation `PlonkCircuit`: the values of the variables, the gates, and the public variables in their order.
A signature is kept as one value (in jf-primitives it is a scalar and a point). -/
structure Circ where
  vals : List F
  sigs : List E.Sig
  gates : List Gate
  pubs : List Var

/-- What preprocessing sees of a circuit, everything but the values: the number of variables, the gates and the public variables -/
structure Layout where
  vars : ℕ
  sigs : ℕ
  gates : List Gate
  pubs : List Var
deriving DecidableEq

/-- the layout of a circuit -/
def Circ.layout (s : Circ) : Layout := ⟨s.vals.length, s.sigs.length, s.gates, s.pubs⟩

/-- `PlonkCircuit::new_turbo_plonk`: variables 0 and 1 are the constants 0 and 1 -/
def Circ.init : Circ := ⟨[0, 1], [], [.op (.const 0) [] [] [0], .op (.const 1) [] [] [1]], []⟩

/-- the values that were given for the variables, `circuit.witness(var)` -/
def Circ.asg (s : Circ) : Asg := ⟨fun i => s.vals.getD i 0, fun i => s.sigs.getD i (E.schnorrSign 0 [])⟩

/-- The calls a function that builds a circuit makes. -/
inductive Prog (α : Type) where
  | pure (x : α)
  /-- `Err(CircuitError::..)` -/
  | fail
  | newVar (v : F) (k : Var → Prog α)
  | newBool (b : Bool) (k : Var → Prog α)
  | newPos (n : NodePos) (k : Var → Var → Prog α)
  | newSig (g : E.Sig) (k : Var → Prog α)
  | emit (o : Op) (ins sigs : List Var) (k : List Var → Prog α)
  | assert (c : Assertion) (ins : List Var) (k : Prog α)
  | setPublic (v : Var) (k : Prog α)

namespace Prog

/-- `?` -/
def bind {α β : Type} : Prog α → (α → Prog β) → Prog β
  | .pure x, f => f x
  | .fail, _ => .fail
  | .newVar v k, f => .newVar v fun x => (k x).bind f
  | .newBool b k, f => .newBool b fun x => (k x).bind f
  | .newPos n k, f => .newPos n fun x y => (k x y).bind f
  | .newSig g k, f => .newSig g fun x => (k x).bind f
  | .emit o ins sigs k, f => .emit o ins sigs fun x => (k x).bind f
  | .assert c ins k, f => .assert c ins (k.bind f)
  | .setPublic v k, f => .setPublic v (k.bind f)

instance : Monad Prog where
  pure := .pure
  bind := Prog.bind

/-- What the calls do to a circuit.  Every call checks that the variables it is given exist (`check_var_bound`). -/
def run {α : Type} : Prog α → Circ → Option (α × Circ)
  | .pure x, s => some (x, s)
  | .fail, _ => none
  | .newVar v k, s => (k s.vals.length).run { s with vals := s.vals ++ [v] }
  | .newBool b k, s =>
    (k s.vals.length).run { s with vals := s.vals ++ [boolF b], gates := s.gates ++ [.bool s.vals.length] }
  | .newPos n k, s =>
    (k s.vals.length (s.vals.length + 1)).run
      { s with vals := s.vals ++ [boolF (decide (n = .left)), boolF (decide (n = .right))],
               gates := s.gates ++ [.pos s.vals.length (s.vals.length + 1)] }
  | .newSig g k, s => (k s.sigs.length).run { s with sigs := s.sigs ++ [g] }
  | .emit o ins sigs k, s =>
    if (∀ i ∈ ins, i < s.vals.length) ∧ ∀ i ∈ sigs, i < s.sigs.length then
      let new := o.eval (ins.map s.asg.f) (sigs.map s.asg.s)
      let outs := List.range' s.vals.length new.length
      (k outs).run { s with vals := s.vals ++ new, gates := s.gates ++ [.op o ins sigs outs] }
    else none
  | .assert c ins k, s =>
    if ∀ i ∈ ins, i < s.vals.length then k.run { s with gates := s.gates ++ [.assert c ins] } else none
  | .setPublic v k, s => if v < s.vals.length then k.run { s with pubs := s.pubs ++ [v] } else none

end Prog

/-- `.iter().map(f).collect::<Result<Vec<_>, _>>()` -/
def collect {α β : Type} (f : α → Prog β) : List α → Prog (List β)
  | [] => pure []
  | x :: l => do
    let y ← f x
    let ys ← collect f l
    pure (y :: ys)

/-- `for x in l { f(x)? }` -/
def forEach {α : Type} (f : α → Prog Unit) : List α → Prog Unit
  | [] => pure ()
  | x :: l => do
    f x
    forEach f l

/-! ### The calls (jf-relation `Circuit`, `PlonkCircuit`, jf-primitives `circuit`) -/

/-- `create_variable` -/
def createVariable (v : F) : Prog Var := .newVar v .pure
/-- `create_boolean_variable` -/
def createBoolean (b : Bool) : Prog BVar := .newBool b fun v => .pure ⟨v⟩
/-- `create_point_variable`, `create_enc_key_variable`, `create_signature_vk_variable` -/
def createPoint (c : PtV) : Prog PVar := do
  let x ← createVariable c.1
  let y ← createVariable c.2
  pure ⟨x, y⟩
/-- `create_signature_variable` -/
def createSignature (g : E.Sig) : Prog Var := .newSig g .pure
/-- `set_variable_public` -/
def setVariablePublic (v : Var) : Prog Unit := .setPublic v (.pure ())
/-- `create_public_variable` -/
def createPublic (v : F) : Prog Var := do
  let x ← createVariable v
  setVariablePublic x
  pure x
/-- `zero()` -/
def zero : Var := 0
/-- `one()` -/
def one : Var := 1
/-- `neutral_point_variable()` -/
def neutralPoint : PVar := ⟨zero, one⟩

/-- a call that makes variables -/
def emits (o : Op) (ins : List Var) (sigs : List Var := []) : Prog (List Var) := .emit o ins sigs .pure

/-- a call that makes one variable -/
def emit1 (o : Op) (ins : List Var) (sigs : List Var := []) : Prog Var := do
  match ← emits o ins sigs with
  | [v] => pure v
  | _ => .fail

/-- a call that makes one Boolean variable -/
def emitB (o : Op) (ins : List Var) (sigs : List Var := []) : Prog BVar := do
  let v ← emit1 o ins sigs
  pure ⟨v⟩

/-- a call that makes a point -/
def emitP (o : Op) (ins : List Var) : Prog PVar := do
  match ← emits o ins with
  | [x, y] => pure ⟨x, y⟩
  | _ => .fail

/-- a call that only adds a gate -/
def assertG (c : Assertion) (ins : List Var) : Prog Unit := .assert c ins (.pure ())

/-- jf-relation `enforce_constant` -/
def enforceConstant (v : Var) (c : F) : Prog Unit := assertG (.const c) [v]
/-- jf-relation `enforce_equal` -/
def enforceEqual (a b : Var) : Prog Unit := assertG .equal [a, b]
/-- jf-relation `add_gate` -/
def addGate (a b c : Var) : Prog Unit := assertG .addGate [a, b, c]
/-- jf-relation `mul_gate` -/
def mulGate (a b c : Var) : Prog Unit := assertG .mulGate [a, b, c]
/-- jf-relation `mul_add_gate` -/
def mulAddGate (a b c d e : Var) (q1 q2 : F) : Prog Unit := assertG (.mulAdd q1 q2) [a, b, c, d, e]
/-- jf-relation `logic_or_gate` -/
def logicOrGate (a b : BVar) : Prog Unit := assertG .orGate [a.v, b.v]
/-- jf-relation `enforce_in_range` -/
def enforceInRange (v : Var) (n : ℕ) : Prog Unit := assertG (.inRange n) [v]
/-- jf-relation `enforce_point_equal` -/
def enforcePointEqual (P Q : PVar) : Prog Unit := assertG .pointEqual [P.x, P.y, Q.x, Q.y]

/-- jf-relation `add` -/
def add (a b : Var) : Prog Var := emit1 .add [a, b]
/-- jf-relation `sub` -/
def sub (a b : Var) : Prog Var := emit1 .sub [a, b]
/-- jf-relation `add_constant` -/
def addConstant (a : Var) (c : F) : Prog Var := emit1 (.addConst c) [a]
/-- jf-relation `sum` -/
def sum (l : List Var) : Prog Var := emit1 .sum l
/-- jf-relation `lc` -/
def lc (a b c d : Var) (q1 q2 q3 q4 : F) : Prog Var := emit1 (.lc [q1, q2, q3, q4]) [a, b, c, d]
/-- jf-relation `mul` -/
def mul (a b : Var) : Prog Var := emit1 .mul [a, b]
/-- jf-relation `is_zero` -/
def isZero (a : Var) : Prog BVar := emitB .isZero [a]
/-- jf-relation `is_equal` -/
def isEqual (a b : Var) : Prog BVar := emitB .isEqual [a, b]
/-- jf-relation `logic_neg` -/
def logicNeg (a : BVar) : Prog BVar := emitB .neg [a.v]
/-- jf-relation `logic_or` -/
def logicOr (a b : BVar) : Prog BVar := emitB .or [a.v, b.v]
/-- jf-relation `logic_and` -/
def logicAnd (a b : BVar) : Prog BVar := emitB .and [a.v, b.v]
/-- jf-relation `logic_and_all` -/
def logicAndAll (l : List BVar) : Prog BVar := emitB .andAll (l.map (·.v))
/-- jf-relation `conditional_select` -/
def conditionalSelect (b : BVar) (x0 x1 : Var) : Prog Var := emit1 .select [b.v, x0, x1]
/-- jf-relation `is_in_range` -/
def isInRange (v : Var) (n : ℕ) : Prog BVar := emitB (.isInRange n) [v]
/-- jf-relation `is_point_equal` -/
def isPointEqual (P Q : PVar) : Prog BVar := emitB .isPointEqual [P.x, P.y, Q.x, Q.y]
/-- jf-relation `is_neutral_point` -/
def isNeutralPoint (P : PVar) : Prog BVar := emitB .isNeutral [P.x, P.y]
/-- `unpack`: the value must have at most `n` bits -/
def unpack (v : Var) (n : ℕ) : Prog (List BVar) := do
  enforceInRange v n
  let l ← emits (.unpack n) [v]
  pure (l.map BVar.mk)
/-- `fixed_base_scalar_mul` with the generator -/
def fixedBaseScalarMul (s : Var) : Prog PVar := do
  assertG .scalar [s]
  emitP .fixedMul [s]
/-- `variable_base_scalar_mul` -/
def variableBaseScalarMul (s : Var) (P : PVar) : Prog PVar := do
  assertG .scalar [s]
  emitP .varMul [s, P.x, P.y]
/-- `rescue_sponge_no_padding` on three variables with one output -/
def sponge3 (a b c : Var) : Prog Var := emit1 .sponge [a, b, c]
/-- `eval_prf` -/
def evalPrf (key : Var) (l : List Var) : Prog Var := emit1 .prf (key :: l)
/-- `commit` -/
def commit (l : List Var) (blind : Var) : Prog Var := emit1 .commit (blind :: l)
/-- `check_signature_validity` -/
def checkSignature (vk : PVar) (msg : List Var) (sig : Var) : Prog BVar := emitB .schnorr (vk.x :: vk.y :: msg) [sig]

/-- jf-primitives `MerklePathNodeBooleanEncoding` -/
structure NodeVar where
  sibling1 : Var
  sibling2 : Var
  is_left : Var
  is_right : Var

/-- jf-primitives `AccMemberWitnessVar` -/
structure AccVar where
  uid : Var
  path : List NodeVar

/-- one node of jf-primitives `AccMemberWitnessVar::new` -/
def NodeVar.new (n : PathNode) : Prog NodeVar := do
  let s1 ← createVariable n.sibling1
  let s2 ← createVariable n.sibling2
  .newPos n.pos fun l r => .pure ⟨s1, s2, l, r⟩

/-- jf-primitives `AccMemberWitnessVar::new` -/
def AccVar.new (a : AccV) : Prog AccVar := do
  let uid ← createVariable a.uid
  let path ← collect NodeVar.new a.path
  pure ⟨uid, path⟩

/-- the variables of a path -/
def pathVars (l : List NodeVar) : List Var := l.flatMap fun n => [n.sibling1, n.sibling2, n.is_left, n.is_right]

/-- jf-primitives `compute_merkle_root` -/
def computeMerkleRoot (uid elem : Var) (path : List NodeVar) : Prog Var := emit1 .merkle (uid :: elem :: pathVars path)

/-- jf-primitives `ElGamalHybridCtxtVars` -/
structure MemoVar where
  ephemeral : PVar
  symm_ctxts : List Var

/-- jf-primitives `elgamal_encrypt` -/
def elgamalEncrypt (pk : PVar) (msg : List Var) (rand : Var) : Prog MemoVar := do
  assertG .scalar [rand]
  match ← emits .elgamal (pk.x :: pk.y :: rand :: msg) with
  | x :: y :: l => pure ⟨⟨x, y⟩, l⟩
  | _ => .fail

end Cap.Plonk
