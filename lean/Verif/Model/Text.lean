import Verif.Model.Msg
/-!
# Text forms

Python strings, `str(int)`, `int(str)`, `str.split`, and the text forms of DSKs (types.py:335-369) and association node lists
(commandclass/Association.py:37-57).
-/
namespace Model
open Spec (Bytes)

/-- A Python string. -/
abbrev Str := List Char

/-- One decimal digit. -/
def digit (d : Nat) : Char := Char.ofNat (48 + d)

/-- Decimal digits of `n`; the first argument bounds the number of divisions. -/
def natStrF : Nat → Nat → Str
  | 0, n => [digit n]
  | f + 1, n => if n < 10 then [digit n] else natStrF f (n / 10) ++ [digit (n % 10)]

/-- `str(n)` for `n >= 0`. -/
def natStr (n : Nat) : Str := natStrF n n

/-- `str(n)` -/
def intStr (n : Int) : Str := if n < 0 then '-' :: natStr n.natAbs else natStr n.natAbs

/-- `"{:05d}".format(n)` for `n >= 0`. -/
def pad5 (n : Nat) : Str := List.replicate (5 - (natStr n).length) '0' ++ natStr n

/-- Value of a decimal digit. Simplification: Python's `int` also accepts the digits of other scripts. -/
def digitVal (c : Char) : Option Nat := if 48 ≤ c.toNat ∧ c.toNat ≤ 57 then some (c.toNat - 48) else none

/-- The digits of an integer literal; single underscores are allowed between digits. `last` tells whether the previous
character was a digit. -/
def digitsLoop : Str → Nat → Bool → Option Nat
  | [], acc, last => if last then some acc else none
  | c :: cs, acc, last =>
    if c = '_' then (if last then digitsLoop cs acc false else none)
    else match digitVal c with
      | some d => digitsLoop cs (acc * 10 + d) true
      | none => none

/-- Whitespace that `int` strips. Simplification: only ASCII whitespace. -/
def isSpace (c : Char) : Bool := c = ' ' || (9 ≤ c.toNat && c.toNat ≤ 13)

/-- `s.strip()` -/
def strip (s : Str) : Str := ((s.dropWhile isSpace).reverse.dropWhile isSpace).reverse

/-- `int(s)`; ValueError if `s` is not an integer literal. -/
def pyInt (s : Str) : Py Int :=
  match strip s with
  | '-' :: ds => match digitsLoop ds 0 false with
    | some n => .ok (-(n : Int))
    | none => .error .value
  | '+' :: ds => match digitsLoop ds 0 false with
    | some n => .ok n
    | none => .error .value
  | ds => match digitsLoop ds 0 false with
    | some n => .ok n
    | none => .error .value

/-- `s.split(c)` -/
def pySplit (c : Char) : Str → List Str
  | [] => [[]]
  | x :: xs =>
    if x = c then [] :: pySplit c xs
    else match pySplit c xs with
      | [] => [[x]]
      | h :: t => (x :: h) :: t

/-- `a, b = s.split(c, 1)` if `c in s` -/
def pySplit1 (c : Char) : Str → Option (Str × Str)
  | [] => none
  | x :: xs =>
    if x = c then some ([], xs)
    else match pySplit1 c xs with
      | some (h, t) => some (x :: h, t)
      | none => none

/-- `c.join(l)` -/
def pyJoin (c : Char) : List Str → Str
  | [] => []
  | [s] => s
  | s :: l => s ++ c :: pyJoin c l

/-! ## DSK -/

/-- The list comprehension of types.py:343-345; a key of odd length raises IndexError. -/
def dskGroups : Bytes → Py (List Str)
  | [] => .ok []
  | [_] => .error .index
  | a :: b :: l => do
    let t ← dskGroups l
    pure (pad5 ((a.toNat <<< 8) ||| b.toNat) :: t)

/-- `dsk_t.__getstate__` (types.py:341-347) -/
def dskGetState (key : Bytes) : Py Str := do
  let g ← dskGroups key
  pure (pyJoin '-' g)

/-- The loop of types.py:366-369. `(word >> 8) & 0xFF` and `word & 0xFF` of a Python integer. -/
def dskFields : List Str → Py Bytes
  | [] => .ok []
  | f :: fs => do
    let word ← pyInt f
    let t ← dskFields fs
    pure (UInt8.ofNat (word / 256 % 256).toNat :: UInt8.ofNat (word % 256).toNat :: t)

/-- Argument of `dsk_t.__setstate__`. -/
inductive DskState
  | raw (b : Bytes)
  | text (s : Str)

/-- `dsk_t.__setstate__` (types.py:355-370) of an object holding `key`: the new key. -/
def dskSetState (key : Bytes) : DskState → Py Bytes
  | .raw b => if b.length = 16 ∨ b.length = 0 then .ok b else .error .value
  | .text s =>
    let fields := pySplit '-' s
    if fields.length ≠ 8 then .ok key
    else dskFields fields

/-! ## Association node lists -/

/-- Elements of the argument of `Nodes.__setstate__`. -/
inductive NodeState
  | tup (n : Nat) (e : Option Nat)
  | int (n : Int)
  | str (s : Str)
  deriving DecidableEq

/-- `Nodes.__getstate__` (Association.py:37-44) -/
def nodesGetState (l : List (Nat × Option Nat)) : List Str :=
  l.map fun
    | (n, none) => natStr n
    | (n, some e) => natStr n ++ ':' :: natStr e

/-- One iteration of Association.py:47-57. Simplification: negative numbers, which no Z-Wave device sends, are clamped to 0. -/
def nodeOfState : NodeState → Py (Nat × Option Nat)
  | .tup n e => .ok (n, e)
  | .int n => .ok (n.toNat, none)
  | .str s =>
    match pySplit1 ':' s with
    | some (a, b) => do
      let e ← pyInt b
      let n ← pyInt a
      pure (n.toNat, some e.toNat)
    | none => do
      let n ← pyInt s
      pure (n.toNat, none)

/-- `Nodes.__setstate__` (Association.py:46-57): appends to the object `l`. Simplification: when an element raises, the elements
appended before it are forgotten together with the object. -/
def nodesSetState (l : List (Nat × Option Nat)) : List NodeState → Py (List (Nat × Option Nat))
  | [] => .ok l
  | s :: ss => do
    let p ← nodeOfState s
    nodesSetState (l ++ [p]) ss

/-- `Nodes.contains` (Association.py:28-35) -/
def nodesContains (l : List (Nat × Option Nat)) (nodeId : Nat) (endpoint : Nat := 0) : Bool :=
  match l with
  | [] => false
  | (n, e) :: l =>
    let e := match e with
      | none => 0
      | some e => e
    if nodeId = n ∧ endpoint = e then true else nodesContains l nodeId endpoint

end Model
