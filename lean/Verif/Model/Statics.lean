import Verif.Model.ChainState
/-!
# A process that checks headers

src/chain/header.cpp: `check`; src/chain/chain_state.cpp: `work_required`. The functions keep the first limits they are called with in
function-local statics. Calls are taken one at a time (C++ initialises a static once, whichever thread is first).
-/
namespace Verif.State

/-- `header::is_futuristic_timestamp` (src/chain/header.cpp:349-357): `span` is the function-local static, in seconds, `now` the clock, in
nanoseconds since 1970. Neither side overflows 64 bits with times of 32 bits and clocks before the year 2116. -/
def isFuturisticTimestamp (span timestamp : Nat) (now : Int) : Bool := decide (now + span * 10 ^ 9 < timestamp * 10 ^ 9)

/-- The statics of a process (header.cpp:328, header.cpp:353, chain_state.cpp:465). -/
structure Statics where
  proofOfWork : Static := none
  timestamp : Static := none
  retarget : Static := none

/-- What `header::check` reads: its arguments (but for the choice of scrypt, which is in the hash), the header, and the clock
(header.cpp:362-371). -/
structure CheckCall where
  timestampLimit : Nat
  powLimit : Nat
  bits : Nat
  hash : Nat
  timestamp : Nat
  now : Int

/-- `header::check` (src/chain/header.cpp:362-371) in a process. -/
def stepCheck (p : Statics) (c : CheckCall) : Option HeaderCode × Statics :=
  let (invalid, pow) := stepProofOfWork p.proofOfWork c.powLimit c.bits c.hash
  let p := { p with proofOfWork := pow }
  if invalid then (some .invalid_proof_of_work, p)
  else
    let (span, time) := callStatic p.timestamp c.timestampLimit
    (if isFuturisticTimestamp span c.timestamp c.now then some .futuristic_timestamp else none, { p with timestamp := time })

/-- A call of `header::check` (header.cpp:362-371) or `chain_state::work_required` (chain_state.cpp:365-396, 457-480). -/
inductive ProcessCall where
  | check (call : CheckCall)
  | workRequired (settings : Settings) (data : Data)

/-- Its answer (header.cpp:362-371, chain_state.cpp:365-396, 457-480). -/
inductive Answer where
  | checked (code : Option HeaderCode)
  | required (bits : Nat)
deriving DecidableEq

/-- One call of a process (header.cpp:362-371, chain_state.cpp:365-396, 457-480). -/
def stepProcess (p : Statics) : ProcessCall → Answer × Statics
  | .check c => let (code, p) := stepCheck p c; (.checked code, p)
  | .workRequired s d => let (bits, r) := stepWorkRequired p.retarget s d; (.required bits, { p with retarget := r })

end Verif.State
