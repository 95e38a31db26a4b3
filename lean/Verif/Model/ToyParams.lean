/-
An instance of `KeyCodec` for the toy instantiation, to show that its laws can be met.
-/
import Verif.Model.Params
import Verif.Model.ToyNotes
import Verif.SpecParams
import Verif.Lemmas.Basic

namespace Cap.Toy

/-- a number as that many zeros and a one -/
def unary (n : ℕ) : List Byte := List.replicate n 0 ++ [1]

/-- reading it -/
def unaryRead : List Byte → Option (ℕ × List Byte)
  | [] => none
  | b :: bs => if b = 0 then (unaryRead bs).map (fun x => (x.1 + 1, x.2)) else some (0, bs)

theorem unaryRead_unary (n : ℕ) (t : List Byte) : unaryRead (unary n ++ t) = some (n, t) := by
  induction n with
  | zero => rfl
  | succ n ih =>
    unfold unary at ih ⊢
    rw [List.replicate_succ, List.cons_append, List.cons_append, unaryRead, if_pos rfl, ih]
    rfl

theorem unaryRead_length {b : List Byte} : ∀ {n : ℕ} {t : List Byte}, unaryRead b = some (n, t) →
    (unary n).length + t.length = b.length := by
  induction b with
  | nil => intro n t h; cases h
  | cons x xs ih =>
    intro n t h
    unfold unaryRead at h
    split at h
    · obtain ⟨⟨m, u⟩, e, h⟩ := Option.map_eq_some_iff.1 h
      cases h
      have := ih e
      simp only [unary, List.length_append, List.length_replicate, List.length_cons, List.length_nil] at this ⊢
      omega
    · cases h
      simp [unary]; omega

/-- the bytes of a toy key -/
def shapeBytes : Shape → List Byte
  | .transfer n m d => 0 :: (unary n ++ (unary m ++ unary d))
  | .mint d => 1 :: unary d
  | .freeze n d => 2 :: (unary n ++ unary d)

/-- reading a toy key -/
def shapeRead : List Byte → Option (Shape × List Byte)
  | [] => none
  | b :: bs =>
    if b = 0 then do
      let x ← unaryRead bs
      let y ← unaryRead x.2
      let z ← unaryRead y.2
      some (.transfer x.1 y.1 z.1, z.2)
    else if b = 1 then do
      let x ← unaryRead bs
      some (.mint x.1, x.2)
    else if b = 2 then do
      let x ← unaryRead bs
      let y ← unaryRead x.2
      some (.freeze x.1 y.1, y.2)
    else none

theorem shapeRead_bytes (k : Shape) (t : List Byte) : shapeRead (shapeBytes k ++ t) = some (k, t) := by
  cases k with
  | transfer n m d =>
    rw [shapeBytes, List.cons_append, shapeRead, if_pos rfl]
    simp only [List.append_assoc, unaryRead_unary, Option.bind_eq_bind, Option.bind_some]
  | mint d =>
    rw [shapeBytes, List.cons_append, shapeRead, if_neg (by decide), if_pos rfl]
    simp only [unaryRead_unary, Option.bind_eq_bind, Option.bind_some]
  | freeze n d =>
    rw [shapeBytes, List.cons_append, shapeRead, if_neg (by decide), if_neg (by decide), if_pos rfl]
    simp only [List.append_assoc, unaryRead_unary, Option.bind_eq_bind, Option.bind_some]

theorem shapeRead_length {b : List Byte} {k : Shape} {t : List Byte} (h : shapeRead b = some (k, t)) :
    (shapeBytes k).length + t.length = b.length := by
  cases b with
  | nil => cases h
  | cons x xs =>
    rw [shapeRead] at h
    split at h
    · simp only [Option.bind_eq_bind, Option.bind_eq_some_iff, Option.some.injEq, Prod.mk.injEq] at h
      obtain ⟨⟨n, u⟩, e, ⟨m, v⟩, e', ⟨d, w⟩, e'', rfl, rfl⟩ := h
      have := unaryRead_length e
      have := unaryRead_length e'
      have := unaryRead_length e''
      simp only [shapeBytes, List.length_cons, List.length_append] at *
      omega
    · split at h
      · simp only [Option.bind_eq_bind, Option.bind_eq_some_iff, Option.some.injEq, Prod.mk.injEq] at h
        obtain ⟨⟨n, u⟩, e, rfl, rfl⟩ := h
        have := unaryRead_length e
        simp only [shapeBytes, List.length_cons] at *
        omega
      · split at h
        · simp only [Option.bind_eq_bind, Option.bind_eq_some_iff, Option.some.injEq, Prod.mk.injEq] at h
          obtain ⟨⟨n, u⟩, e, ⟨m, v⟩, e', rfl, rfl⟩ := h
          have := unaryRead_length e
          have := unaryRead_length e'
          simp only [shapeBytes, List.length_cons, List.length_append] at *
          omega
        · cases h

/-- a proving key is its verifying key with one byte in front -/
def pkRead : List Byte → Option (Shape × List Byte)
  | [] => none
  | _ :: bs => shapeRead bs

noncomputable scoped instance K : KeyCodec where
  pkBytes := fun k => 7 :: shapeBytes k
  pkRead := pkRead
  pkRead_bytes := fun k t => shapeRead_bytes k t
  vkBytes := shapeBytes
  vkRead := shapeRead
  vkRead_bytes := shapeRead_bytes
  pkRead_length := by
    intro b k t h
    cases b with
    | nil => cases h
    | cons x xs =>
      have := shapeRead_length h
      simp only [List.length_cons]
      omega
  vk_lt_pk := by
    intro sh pk vk h
    cases h
    simp

/-- an empty disk on which every file can be created -/
def emptyDisk : Disk := ⟨fun _ => none, fun _ => true⟩

end Cap.Toy
