import Verif.Model.Registry
/-! # What users of the signature accumulators rely on -/
namespace Verif.Registry

/-- The runs of any number of threads, every state of which satisfies a condition (what callers promise). -/
inductive Run {α : Type} (promise : State α → Prop) : State α → Prop where
  | start : promise (State.initial α) → Run promise (State.initial α)
  | next {s s'} : Run promise s → Step s s' → promise s' → Run promise s'

/-- No promise: every schedule. -/
def Any {α : Type} (_ : State α) : Prop := True

/-- A thread is using an accumulator, or is about to. -/
def Place.Captures {α : Type} : Place α → Prop
  | .wantLock .. | .locked .. | .pushing .. | .pushed .. | .using .. => True
  | _ => False

/-- A thread is in `purge`. -/
def Place.Purges {α : Type} : Place α → Prop
  | .wantPurge | .purging _ | .purged => True
  | _ => False

/-- "Caller must exclude capture" (signatures.hpp:327-330): while a thread is in `purge` no thread uses an accumulator. -/
def Excludes {α : Type} (s : State α) : Prop := ∀ t u, (s.place t).Purges → ¬ (s.place u).Captures

/-- "Pool threads live until process terminate" (signatures.cpp:33-34): no thread that has an accumulator ends. -/
def Lasts {α : Type} (s : State α) : Prop := ∀ t k, t ∈ s.pointers k → s.place t ≠ .ended

/-- What a thread has appended to an accumulator and not since cleared, nor `purge` released, according to what happened. -/
def pending {α : Type} (t : Thread) (k : Kind) (h : List (Event α)) : List α :=
  h.foldl (fun l e => match e with
    | .appended u j row => if u = t ∧ j = k then l ++ [row] else l
    | .cleared u j => if u = t ∧ j = k then [] else l
    | .released u j => if u = t ∧ j = k then [] else l
    | .took .. => l) []

/-- The next step of `purge` touches the accumulator of a thread that has ended. -/
def Dangles {α : Type} (s : State α) : Prop := ∃ t n k u, s.place t = .purging n ∧ s.order[n]? = some (k, u) ∧ s.place u = .ended

/-- The next step of `purge` touches an accumulator that its thread is using. -/
def Races {α : Type} (s : State α) : Prop := ∃ t n k u a, s.place t = .purging n ∧ s.order[n]? = some (k, u) ∧ s.place u = .using k a

/-- Two threads access the vectors of pointers at the same time, one of them writing. -/
def Collides {α : Type} (s : State α) : Prop := ∃ t u k a l, t ≠ u ∧ s.place t = .pushing k a l ∧
  ((∃ j b m, s.place u = .pushing j b m) ∨ (∃ n, s.place u = .purging n))

/-- In the middle of one of the functions. -/
def Place.Busy {α : Type} (p : Place α) : Prop := p.Captures ∨ p.Purges

end Verif.Registry
