import Mathlib.Logic.Function.Basic
/-!
# Model of the thread registry of the signature accumulators

Source: src/chain/signatures.cpp (thread registry and `purge`), include/bitcoin/system/chain/batch/signatures.hpp (accumulators).

Threads interleave arbitrarily, one step at a time. A step is one access to shared memory: taking or releasing the mutex, reading the
vector of pointers, writing it back, beginning or ending an operation on an accumulator, releasing one accumulator. So `push_back` and the
operations on accumulators are not atomic. What is not modelled: exceptions and memory exhaustion; capacity; the thread-safe construction of
the function-local `registry()` (signatures.cpp:43-47), which the language guarantees. A row is a value of an arbitrary type.
-/
namespace Verif.Registry

/-- A thread: the address of its `thread_local` accumulators (signatures.cpp:52, 67). -/
abbrev Thread := Nat

/-- Which accumulator (signatures.cpp:39-40). -/
inductive Kind where
  | ecdsa | schnorr
deriving DecidableEq

/-- What is done with a thread's own accumulator: `append` (signatures.hpp:64-68, 131-154), `clear` (106-110, 237-244), and reading all of
it (`rows`, `for_each`: 77-80, 160-190). -/
inductive Action (α : Type) where
  | append (row : α)
  | clear
  | take

/-- Where a thread is. -/
inductive Place (α : Type) where
  /-- Outside of these functions. -/
  | idle
  /-- In the initializer of `once` (signatures.cpp:53-59 and 68-74), before the lock. -/
  | wantLock (k : Kind) (a : Action α)
  /-- After the lock, before `push_back` reads the vector. -/
  | locked (k : Kind) (a : Action α)
  /-- `push_back` has read the vector. -/
  | pushing (k : Kind) (a : Action α) (read : List Thread)
  /-- The pointer is stored; the lock is to be released. -/
  | pushed (k : Kind) (a : Action α)
  /-- The reference is returned (signatures.cpp:61, 76) and the operation has begun. -/
  | using (k : Kind) (a : Action α)
  /-- In `purge` (signatures.cpp:80-89), before the lock. -/
  | wantPurge
  /-- In the loops of `purge`, having released this many accumulators. -/
  | purging (done : Nat)
  /-- After the loops, before the lock is released. -/
  | purged
  /-- The thread has ended and its accumulators are destroyed. -/
  | ended

/-- What happened, for stating properties: it does not influence the run. -/
inductive Event (α : Type) where
  | appended (t : Thread) (k : Kind) (row : α)
  | cleared (t : Thread) (k : Kind)
  | took (t : Thread) (k : Kind) (rows : List α)
  | released (t : Thread) (k : Kind)

/-- The state of the process. Used for signatures.cpp:84-88. -/
structure State (α : Type) where
  /-- Who holds `registry().mutex` (signatures.cpp:38). -/
  mutex : Option Thread
  /-- The pointers `registry().ecdsa` and `registry().schnorr` (signatures.cpp:39-40). -/
  pointers : Kind → List Thread
  /-- The `thread_local` guards `once` (signatures.cpp:53, 68). -/
  once : Thread → Kind → Bool
  /-- The accumulators (signatures.cpp:52, 67). -/
  rows : Thread → Kind → List α
  place : Thread → Place α
  history : List (Event α)

/-- The process at its start. -/
def State.initial (α : Type) : State α := ⟨none, fun _ => [], fun _ _ => false, fun _ _ => [], fun _ => .idle, []⟩

/-- The pointers in the order in which `purge` follows them (signatures.cpp:84-88). -/
def State.order {α : Type} (s : State α) : List (Kind × Thread) :=
  (s.pointers .ecdsa).map (Prod.mk .ecdsa) ++ (s.pointers .schnorr).map (Prod.mk .schnorr)

/-- As above, signatures.cpp:84-88. -/
def State.at {α : Type} (s : State α) (t : Thread) (p : Place α) : State α := { s with place := Function.update s.place t p }

/-- An accumulator replaced. -/
def State.store {α : Type} (s : State α) (t : Thread) (k : Kind) (l : List α) : State α :=
  { s with rows := Function.update s.rows t (Function.update (s.rows t) k l) }

/-- As above, signatures.cpp:84-88. -/
def State.log {α : Type} (s : State α) (e : Event α) : State α := { s with history := s.history ++ [e] }

/-- The end of an operation on an accumulator. -/
def finish {α : Type} (s : State α) (t : Thread) (k : Kind) : Action α → State α
  | .append row => ((s.store t k (s.rows t k ++ [row])).at t .idle).log (.appended t k row)
  | .clear => ((s.store t k []).at t .idle).log (.cleared t k)
  | .take => (s.at t .idle).log (.took t k (s.rows t k))

/-- One step of one thread. -/
inductive Step {α : Type} : State α → State α → Prop where
  /-- A call that uses an accumulator (signatures.cpp:95-137): the first of a thread goes through the initializer. -/
  | call (s : State α) (t k a) : s.place t = .idle → Step s (s.at t (if s.once t k then .using k a else .wantLock k a))
  /-- `const std::unique_lock lock` (signatures.cpp:56, 71). -/
  | lock (s : State α) (t k a) : s.place t = .wantLock k a → s.mutex = none → Step s { s.at t (.locked k a) with mutex := some t }
  /-- `push_back` (signatures.cpp:57, 72) reads the vector. -/
  | read (s : State α) (t k a) : s.place t = .locked k a → Step s (s.at t (.pushing k a (s.pointers k)))
  /-- `push_back` (signatures.cpp:57, 72) writes it. -/
  | write (s : State α) (t k a l) : s.place t = .pushing k a l →
      Step s { s.at t (.pushed k a) with pointers := Function.update s.pointers k (l ++ [t]) }
  /-- The end of the initializer (signatures.cpp:58-59, 73-74): the lock is released, the guard is set. -/
  | unlock (s : State α) (t k a) : s.place t = .pushed k a →
      Step s { s.at t (.using k a) with mutex := none, once := Function.update s.once t (Function.update (s.once t) k true) }
  /-- The operation on the accumulator ends. -/
  | use (s : State α) (t k a) : s.place t = .using k a → Step s (finish s t k a)
  /-- A call of `purge` (signatures.cpp:80). -/
  | purge (s : State α) (t) : s.place t = .idle → Step s (s.at t .wantPurge)
  /-- `const std::unique_lock lock` (signatures.cpp:83). -/
  | lockPurge (s : State α) (t) : s.place t = .wantPurge → s.mutex = none → Step s { s.at t (.purging 0) with mutex := some t }
  /-- `rows->purge()` (signatures.cpp:85, 88). -/
  | release (s : State α) (t n k u) : s.place t = .purging n → s.order[n]? = some (k, u) →
      Step s (((s.store u k []).at t (.purging (n + 1))).log (.released u k))
  /-- The loops end (signatures.cpp:84, 87). -/
  | finished (s : State α) (t n) : s.place t = .purging n → s.order[n]? = none → Step s (s.at t .purged)
  /-- The end of `purge` (signatures.cpp:89). -/
  | unlockPurge (s : State α) (t) : s.place t = .purged → Step s { s.at t .idle with mutex := none }
  /-- A thread ends. -/
  | end (s : State α) (t) : s.place t = .idle → Step s (s.at t .ended)

end Verif.Registry
