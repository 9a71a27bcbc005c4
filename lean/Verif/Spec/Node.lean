/-!
# Reading a node information frame, and lock histories

Used to state C48, C51 and C52.
-/
namespace Spec.Node

/-- The items of a node information frame: a command class, the mark between supported and controlled classes, and the mark that starts the classes
that are accessed with S0 security. -/
inductive Tok
  | cls (c : Nat)
  | control
  | secure
  deriving DecidableEq, Repr

/-- How items are written. -/
def Tok.wire : Tok → List Nat
  | .cls c => [c]
  | .control => [0xEF]
  | .secure => [0xF1, 0x00]

/-- How a frame is written. -/
def wire (toks : List Tok) : List Nat := toks.flatMap Tok.wire

/-- The items can be told apart when followed by `tail`: no class looks like a mark. -/
def Legal : List Tok → List Nat → Prop
  | [], _ => True
  | .cls c :: ts, tail => c ≠ 0xEF ∧ (c = 0xF1 → ∃ b r, wire ts ++ tail = b :: r ∧ b ≠ 0) ∧ Legal ts tail
  | _ :: ts, tail => Legal ts tail

/-- After these items, classes are supported ones: every support/control mark is followed by a later security mark. -/
def Open (before : List Tok) : Prop := ∀ j : Nat, before[j]? = some Tok.control → ∃ k : Nat, j < k ∧ before[k]? = some Tok.secure

/-- Position `i` names class `c` as a supported class. -/
def SupportedAt (toks : List Tok) (i c : Nat) : Prop := toks[i]? = some (Tok.cls c) ∧ Open (toks.take i)

/-- Position `i` names class `c` as a controlled class. -/
def ControlledAt (toks : List Tok) (i c : Nat) : Prop := toks[i]? = some (Tok.cls c) ∧ ¬ Open (toks.take i)

/-- Position `i` comes after a security mark. -/
def SecureAt (toks : List Tok) (i : Nat) : Prop := Tok.secure ∈ toks.take i

/-- A history without nesting: updates without the lock, and locked sections with a number of updates. -/
inductive Item
  | update
  | locked (updates : Nat)
  deriving DecidableEq, Repr

end Spec.Node
