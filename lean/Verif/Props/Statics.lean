import Verif.Model.Statics
import Verif.Props.ChainState
/-!
# C41: histories of `header::check` and `work_required`
-/
namespace Verif.State
open Verif Verif.State.Spec

/-- The answers of a process to a history of calls. -/
def runProcess : Statics → List ProcessCall → List Answer
  | _, [] => []
  | p, c :: calls => (stepProcess p c).1 :: runProcess (stepProcess p c).2 calls

/-- The answer of a process that has made no calls. -/
def fresh (c : ProcessCall) : Answer := (stepProcess {} c).1

/-- The limits of a call are those of a network. -/
def OfNetwork (timestampLimit powLimit : Nat) : ProcessCall → Prop
  | .check c => c.timestampLimit = timestampLimit ∧ c.powLimit = powLimit
  | .workRequired s _ => s.powLimit = powLimit

/-- What a check says in terms of its arguments alone: the claimed work is a number above zero, at most the limit, and the hash is at most it;
the time is at most the limit from now. -/
theorem C41_check (c : CheckCall) : fresh (.check c) = .checked (
    if expand c.bits = 0 ∨ expand c.powLimit < expand c.bits ∨ expand c.bits < c.hash then some .invalid_proof_of_work
    else if c.now + c.timestampLimit * 10 ^ 9 < c.timestamp * 10 ^ 9 then some .futuristic_timestamp else none) := by
  show Answer.checked (stepCheck {} c).1 = _
  congr 1
  unfold stepCheck stepProofOfWork isInvalidProofOfWork isFuturisticTimestamp callStatic
  by_cases h1 : expand c.bits = 0
  · simp [h1]
  · by_cases h2 : expand c.powLimit < expand c.bits
    · simp [h1, h2]
    · by_cases h3 : expand c.bits < c.hash
      · simp [h1, h2, h3]
      · simp [h1, h2, h3]

/-- The statics hold nothing, or what a network put there. -/
structure Holds (timestampLimit powLimit : Nat) (p : Statics) : Prop where
  pow : p.proofOfWork = none ∨ p.proofOfWork = some (expand powLimit)
  time : p.timestamp = none ∨ p.timestamp = some timestampLimit
  retarget : p.retarget = none ∨ p.retarget = some (expand powLimit)

theorem call_seen {p : Static} {n : Nat} (h : p = none ∨ p = some n) : callStatic p n = (n, some n) := by
  rcases h with rfl | rfl <;> rfl

theorem step_holds {tl pl : Nat} {p : Statics} (hp : Holds tl pl p) {c : ProcessCall} (hc : OfNetwork tl pl c) :
    (stepProcess p c).1 = fresh c ∧ Holds tl pl (stepProcess p c).2 := by
  obtain ⟨h1, h2, h3⟩ := hp
  cases c with
  | check c =>
    obtain ⟨rfl, rfl⟩ := hc
    unfold fresh stepProcess stepCheck stepProofOfWork
    dsimp only
    rw [call_seen h1, call_seen h2, call_seen (p := none) (n := expand c.powLimit) (.inl rfl),
      call_seen (p := none) (n := c.timestampLimit) (.inl rfl)]
    dsimp only
    split
    · exact ⟨rfl, .inr rfl, h2, h3⟩
    · exact ⟨rfl, .inr rfl, .inr rfl, h3⟩
  | workRequired s d =>
    obtain rfl := hc
    unfold fresh stepProcess stepWorkRequired
    dsimp only
    rw [call_seen h3, call_seen (p := none) (n := expand s.powLimit) (.inl rfl)]
    split
    · exact ⟨rfl, h1, h2, .inr rfl⟩
    · exact ⟨rfl, h1, h2, h3⟩

/-- **C41 (partial)** If all calls of a process, in any order, use the limits of one network, each answer is the one a fresh process gives. -/
theorem C41_history_partial (timestampLimit powLimit : Nat) (calls : List ProcessCall) (h : ∀ c ∈ calls, OfNetwork timestampLimit powLimit c) :
    runProcess {} calls = calls.map fresh := by
  have key : ∀ (calls : List ProcessCall) (p : Statics), Holds timestampLimit powLimit p → (∀ c ∈ calls, OfNetwork timestampLimit powLimit c) →
      runProcess p calls = calls.map fresh := by
    intro calls
    induction calls with
    | nil => intro _ _ _; rfl
    | cons c calls ih =>
      intro p hp hc
      obtain ⟨h1, h2⟩ := step_holds hp (hc c (by simp))
      rw [runProcess, List.map_cons, h1, ih _ h2 fun c' hc' => hc c' (List.mem_cons_of_mem _ hc')]
  exact key calls {} ⟨.inl rfl, .inl rfl, .inl rfl⟩ h

/-- Missing for the full claim: a time an hour ahead, allowed to the first caller by its limit, is allowed to the second against its own. -/
theorem C41_timestamp_counterexample : ∃ calls : List ProcessCall, runProcess {} calls ≠ calls.map fresh :=
  ⟨[.check ⟨7200, 0x207fffff, 0x207fffff, 0, 3600, 0⟩, .check ⟨60, 0x207fffff, 0x207fffff, 0, 3600, 0⟩], by decide +kernel⟩

-- A history of one network with both calls; the checks differ, and the work is retargeted.
example : runProcess {} [.check ⟨7200, 0x1d00ffff, 0x1d00ffff, 0, 7201, 0⟩, .workRequired cexSettings (fromStore cexSettings cexChain 4),
    .check ⟨7200, 0x1d00ffff, 0x1d00ffff, 0, 7200, 0⟩, .check ⟨7200, 0x1d00ffff, 0x1e00ffff, 0, 0, 0⟩] =
    [.checked (some .futuristic_timestamp), .required 486588415, .checked none, .checked (some .invalid_proof_of_work)] := by decide +kernel

end Verif.State
