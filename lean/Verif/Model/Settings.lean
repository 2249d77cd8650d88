import Verif.Model.Validate

/-! # Computed settings: the amount of money

`src/settings.cpp`. None is an exception of `safe_add` or `safe_multiply`, which the code leaves to the configuration. -/

namespace Verif.Settings

/-- The recursion of `max_money` (settings.cpp:487-493). -/
def total (subsidy : Nat) : Option Nat :=
  if h : subsidy = 0 then some 0
  else (total (subsidy / 2)).bind fun rest => if subsidy + rest < 2 ^ 64 then some (subsidy + rest) else none
termination_by subsidy
decreasing_by omega

/-- `max_money` (settings.cpp:485-500). -/
def maxMoney (initial interval : Nat) : Option Nat :=
  (total initial).bind fun sum => if sum * interval < 2 ^ 64 then some (sum * interval) else none

/-- `bitcoin_to_satoshi`, `initial_subsidy` (settings.cpp:502-514). -/
def initialSubsidy (bitcoin : Nat) : Option Nat := if bitcoin * 100000000 < 2 ^ 64 then some (bitcoin * 100000000) else none

end Verif.Settings
