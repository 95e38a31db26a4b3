/-
What the properties of the key files are stated with: sequences of store calls.
-/
import Verif.Model.Params

namespace Cap.Spec

variable [E : CapEnv] [S : CapExt] [K : KeyCodec]

/-- one call of a `store_*` function of `parameters.rs`, with its destination (`none`: the default path) -/
inductive StoreCall where
  | transferProvingKey (n m : ℕ) (d : Fin 256) (dest : Option FilePath)
  | transferVerifyingKey (n m : ℕ) (d : Fin 256) (dest : Option FilePath)
  | mintProvingKey (d : Fin 256) (dest : Option FilePath)
  | mintVerifyingKey (d : Fin 256) (dest : Option FilePath)
  | freezeProvingKey (n : ℕ) (d : Fin 256) (dest : Option FilePath)
  | freezeVerifyingKey (n : ℕ) (d : Fin 256) (dest : Option FilePath)

/-- the destination a call names -/
def StoreCall.dest : StoreCall → Option FilePath
  | .transferProvingKey _ _ _ dest => dest
  | .transferVerifyingKey _ _ _ dest => dest
  | .mintProvingKey _ dest => dest
  | .mintVerifyingKey _ dest => dest
  | .freezeProvingKey _ _ dest => dest
  | .freezeVerifyingKey _ _ dest => dest

/-- the call -/
def StoreCall.run (dir : FilePath) (disk : Disk) : StoreCall → Res Disk
  | .transferProvingKey n m d dest => storeTransferProvingKey dir disk n m d dest
  | .transferVerifyingKey n m d dest => storeTransferVerifyingKey dir disk n m d dest
  | .mintProvingKey d dest => storeMintProvingKey dir disk d dest
  | .mintVerifyingKey d dest => storeMintVerifyingKey dir disk d dest
  | .freezeProvingKey n d dest => storeFreezeProvingKey dir disk n d dest
  | .freezeVerifyingKey n d dest => storeFreezeVerifyingKey dir disk n d dest

/-- a sequence of calls that all succeed -/
def runCalls (dir : FilePath) : Disk → List StoreCall → Res Disk
  | disk, [] => .ok disk
  | disk, c :: cs => do
    let disk ← c.run dir disk
    runCalls dir disk cs

/-- none of the calls names this path as its destination -/
def SparesPath (calls : List StoreCall) (path : FilePath) : Prop := ∀ c ∈ calls, c.dest ≠ some path

end Cap.Spec
