import Verif.Model.Py
/-!
# Listeners

`Listenable` (util.py:123-162).
-/
namespace Model.Listen

/-- Values returned by callbacks, as far as the callers look at them (truth value, `is True`, `is False`). -/
inductive Ret
  | none
  | bool (b : Bool)
  | other (truthy : Bool)
  deriving DecidableEq, Repr

/-- Python's `bool(value)`. -/
def Ret.truthy : Ret → Bool
  | .none => false
  | .bool b => b
  | .other t => t

/-- What `getattr(listener, message, None)` yields for one listener: nothing, a function or a coroutine function. `σ` is everything callbacks can read
and change. Simplification: a coroutine runs as a whole, and callbacks do not register listeners with the speaker that is calling them. -/
inductive Callback (σ : Type)
  | missing
  | sync (f : σ → σ × Py Ret)
  | async (f : σ → σ × Py Ret)

/-- The futures returned by speak(), with the index of the listener. -/
inductive Fut (σ : Type)
  | ready (i : Nat) (r : Ret)
  | task (i : Nat) (f : σ → σ × Py Ret)

/-- What became of one call. -/
abbrev Answer := Nat × Py Ret

variable {σ : Type}

/-- util.py:141-162; `i` is the index of the first listener. Also returns what the functions called by speak() itself answered, in the order of the calls. -/
def speak (i : Nat) : List (Callback σ) → σ → σ × List Answer × List (Fut σ)
  | [], w => (w, [], [])
  | .missing :: ls, w => speak (i + 1) ls w                                   -- util.py:149-151
  | .async f :: ls, w =>                                                      -- util.py:152-155
    let r := speak (i + 1) ls w
    (r.1, r.2.1, .task i f :: r.2.2)
  | .sync f :: ls, w =>                                                       -- util.py:156-161
    let a := f w
    let r := speak (i + 1) ls a.1
    (r.1, (i, a.2) :: r.2.1, match a.2 with
      | .ok v => .ready i v :: r.2.2
      | .error _ => r.2.2)

/-- `asyncio.gather` (util.py:139): runs all coroutines. -/
def runTasks : List (Fut σ) → σ → σ × List Answer
  | [], w => (w, [])
  | .ready _ _ :: fs, w => runTasks fs w
  | .task i f :: fs, w =>
    let a := f w
    let r := runTasks fs a.1
    (r.1, (i, a.2) :: r.2)

/-- `asyncio.gather` (util.py:139): the results in the order of the futures, or the first exception. -/
def gather : List (Fut σ) → σ → Py (List Ret)
  | [], _ => .ok []
  | .ready _ v :: fs, w => (gather fs w).map (v :: ·)
  | .task _ f :: fs, w =>
    match (f w).2 with
    | .error e => .error e
    | .ok v => (gather fs (f w).1).map (v :: ·)

/-- util.py:134-139. Returns the new state, the answers in the order of the calls, and the result. -/
def ask (ls : List (Callback σ)) (w : σ) : σ × List Answer × Py (List Ret) :=
  let s := speak 0 ls w
  let t := runTasks s.2.2 s.1
  (t.1, s.2.1 ++ t.2, gather s.2.2 s.1)

end Model.Listen
