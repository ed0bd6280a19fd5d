/-
Model of /repo/fossil/utils.py:468-527: the `timer` decorator and `Timer`. Clock readings are rationals.
-/
import Verif.Py
import Mathlib.Data.Rat.Defs
import Mathlib.Order.Lattice
import Mathlib.Algebra.Order.Field.Rat

namespace Fossil

/-- `Timer` (utils.py:484-499). -/
structure Timer where
  min : ℚ
  max : ℚ
  n : ℕ
  sum : ℚ
  start : ℚ
deriving DecidableEq, Repr

/-- `Timer.reset` (utils.py:489-499); also the state after `__init__`. -/
def Timer.fresh : Timer := ⟨2 ^ 63, 0, 0, 0, 0⟩

/-- What happens to a timer: `start()`/`stop()` with the clock reading at that moment, `reset()`. -/
inductive TEvent where
  | start (now : ℚ)
  | stop (now : ℚ)
  | reset
deriving DecidableEq, Repr

/-- `start` (utils.py:501-502), `stop` (504-512: `assert now >= self._start > 0` before anything is updated), `reset`. -/
def Timer.step (t : Timer) : TEvent → Except Err Timer
  | .start now => .ok { t with start := now }
  | .stop now =>
    if t.start ≤ now ∧ 0 < t.start then
      .ok ⟨Min.min t.min (now - t.start), Max.max t.max (now - t.start), t.n + 1, t.sum + (now - t.start), 0⟩
    else .error .assertionError
  | .reset => .ok Timer.fresh

/-- A history of events. -/
def Timer.run : Timer → List TEvent → Except Err Timer
  | t, [] => .ok t
  | t, e :: es =>
    match t.step e with
    | .error err => .error err
    | .ok t' => t'.run es

/-- `avg` (utils.py:514-519): 0 if never stopped, an AssertionError if the total is not positive. -/
def Timer.avg (t : Timer) : Except Err ℚ :=
  if t.n = 0 then .ok 0 else if 0 < t.sum then .ok (t.sum / t.n) else .error .assertionError

/-- One call of a decorated function (utils.py:468-481): the clock at entry and at exit, or only at entry if the body raises (`t.stop()` is
not in a `finally`); `nested` is a call whose body makes the calls `inner` of functions decorated with the same timer. -/
inductive TCall where
  | returned (a b : ℚ)
  | raised (a : ℚ)
deriving DecidableEq, Repr

/-- The timer events of a sequence of calls, one after the other. -/
def callEvents : List TCall → List TEvent
  | [] => []
  | .returned a b :: cs => .start a :: .stop b :: callEvents cs
  | .raised a :: cs => .start a :: callEvents cs

/-- The timer events of one call from `a` to `b` whose body makes the calls `inner` of functions decorated with the same timer. -/
def nestedEvents (a b : ℚ) (inner : List TCall) : List TEvent := .start a :: callEvents inner ++ [.stop b]

end Fossil
