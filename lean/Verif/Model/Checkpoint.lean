import Verif.Model.Loop
/-!
Model of `rad_ml::core::recovery::CheckpointManager<T>`
(/repo/include/rad_ml/core/recovery/checkpoint_manager.hpp).  Time points are integers (clock ticks); the
clock reading is an argument of the operations.
-/
namespace Verif.Ckpt

variable {α : Type _}

/-- checkpoint_manager.hpp:107-111 `Checkpoint`. -/
structure Checkpoint (α : Type _) where
  version : Nat
  data : α
  time : Int
  deriving DecidableEq, Repr

/-- checkpoint_manager.hpp:113-116. -/
structure State (α : Type _) where
  store : List (Checkpoint α)
  max : Nat
  interval : Int
  last : Int

/-- checkpoint_manager.hpp:27-31 constructor, at time `now`. -/
def new (max : Nat) (interval now : Int) : State α := ⟨[], max, interval, now⟩

/-- checkpoint_manager.hpp:39-54 `createCheckpoint`, at time `now`. -/
def createCheckpoint (s : State α) (data : α) (version : Nat) (now : Int) : State α :=
  if now - s.last < s.interval then s
  else
    let store := s.store ++ [⟨version, data, now⟩]
    { s with store := if store.length > s.max then store.drop 1 else store, last := now }

/-- checkpoint_manager.hpp:62-69 `getLatestCheckpoint`. -/
def getLatestCheckpoint (s : State α) : Option α := s.store.getLast?.map (·.data)

/-- checkpoint_manager.hpp:78-86 `rollbackToVersion`. -/
def rollbackToVersion (s : State α) (version : Nat) : Option α :=
  (s.store.reverse.find? fun c => c.version == version).map (·.data)

/-- checkpoint_manager.hpp:95-103 `rollbackToValid`. -/
def rollbackToValid (s : State α) (validator : α → Bool) : Option α :=
  (s.store.reverse.find? fun c => validator c.data).map (·.data)

/-- A history of `createCheckpoint` requests. -/
def run (s : State α) (h : List (Checkpoint α)) : State α :=
  h.foldl (fun s c => createCheckpoint s c.data c.version c.time) s

end Verif.Ckpt
