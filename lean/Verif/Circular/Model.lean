import Verif.Basic
/-!
# Circular index navigation
-/
namespace Verif.Circular

/-- `NextCircularForwardIndex`, `Operations.cpp:116-129`. -/
def nextForward (i n : Nat) : Res Nat :=
  if n = 0 then .throw
  else if i ≥ n then .throw
  else .ok (if i = n - 1 then 0 else i + 1)

/-- `NextCircularBackwardIndex`, `Operations.cpp:131-144`. -/
def nextBackward (i n : Nat) : Res Nat :=
  if n = 0 then .throw
  else if i ≥ n then .throw
  else .ok (if i = 0 then n - 1 else i - 1)

/-- `RotateIndex`, `NumericFunctions.hpp:72-92`. -/
def rotateIndex (i n : Nat) (forward : Bool) : Res Nat :=
  if n = 0 then .throw
  else if i ≥ n then .throw
  else if forward then .ok (if i = n - 1 then 0 else i + 1)
  else .ok (if i = 0 then n - 1 else i - 1)

/-- Step forward `k` times. -/
def forwardN (n : Nat) : Nat → Nat → Res Nat
  | 0, i => .ok i
  | k + 1, i => do
    let j ← nextForward i n
    forwardN n k j

end Verif.Circular
