import Verif.Runner.Model
import Mathlib.Data.Int.Init

/-!
# The channels of a run as large as Go makes them

In `Model.lean` the capacity of the channels is twice the sum of the concurrency limits.  In the program it is computed
in an `int`, so it wraps around if the limits are large enough, and can be as small as 0.

Simplification: an `int` has 64 bits.
-/

namespace Verif.Runner
open Verif Sched

/-- What an `int` holds when the result of an operation is `z`. -/
def int64 (z : Int) : Int := Int.bmod z (2 ^ 64)

section
variable (targets : GoMap Str Int) (tasks : GoMap Str Task)

/-- runner.go:37-41: the capacity of the channels, in an `int`. -/
def room : Int := int64 ((targets.map Prod.snd).foldl (fun c l => int64 (c + l)) 0 * 2)

/-- runner.go:50-52: `make(chan ..., capacity)` panics unless the capacity is one the process can have (at most
`max`). -/
def Makes (max : Int) : Prop := 0 ≤ room targets ∧ room targets ≤ max

/-- No channel holds more than `n` messages. -/
structure Fits (n : Int) (st : St) : Prop where
  ready : (st.ready.length : Int) ≤ n
  ended : (st.ended.length : Int) ≤ n
  done : (st.done.length : Int) ≤ n

/-- A message that was sent in the first step is received in the second: the channel was empty, and is empty
again. -/
def Passed (st mid st' : St) : Prop :=
  st.ready = [] ∧ mid.ready ≠ [] ∧ st'.ready = [] ∨
  st.ended = [] ∧ mid.ended ≠ [] ∧ st'.ended = [] ∨
  st.done = [] ∧ mid.done ≠ [] ∧ st'.done = []

/-- What a run does with channels of capacity `n` (runner.go:50-52): an action after which no channel holds more than
that, or a message handed over from a goroutine that sends to one that waits for it, which needs no room. -/
inductive RoomStep (n : Int) : St → St → Prop
  | act {st st' : St} (hs : Step targets tasks st st') (hf : Fits n st') : RoomStep n st st'
  | handOver {st mid st' : St} (h1 : Step targets tasks st mid) (h2 : Step targets tasks mid st')
      (hp : Passed st mid st') (hf : Fits n st') : RoomStep n st st'

/-- The states of a run with channels of capacity `n`. -/
inductive RoomReach (n : Int) : St → Prop
  | init (order : List Str) (h : order.Perm targets.keys) : RoomReach n (init order)
  | step {st st' : St} (h : RoomReach n st) (hs : RoomStep targets tasks n st st') : RoomReach n st'

end

end Verif.Runner
