import Verif.Lemmas.Text
/-!
# Property theorems C17 and C21: text forms used for persistence and display
-/
namespace Props
open Spec Model

/-- **C17.** The saved form of a node list, a list of strings, restores the same list. -/
theorem C17_nodes_state (l : List (Nat × Option Nat)) :
    nodesSetState [] ((nodesGetState l).map NodeState.str) = .ok l := by
  have key : ∀ l acc, nodesSetState acc ((nodesGetState l).map NodeState.str) = .ok (acc ++ l) := by
    intro l
    induction l with
    | nil => intro acc; simp [nodesGetState, nodesSetState]
    | cons p l ih =>
      intro acc
      obtain ⟨n, e⟩ := p
      have h1 : nodeOfState (.str (match e with | none => natStr n | some e => natStr n ++ ':' :: natStr e)) = .ok (n, e) := by
        have hn : ':' ∉ natStr n := digits_not_mem (natStr_digits n) (by decide)
        cases e with
        | none => simp only [nodeOfState, pySplit1_none _ _ hn, pyInt_natStr, bind, Except.bind, pure, Except.pure]; simp
        | some e =>
          simp only [nodeOfState, pySplit1_cons _ _ _ hn, pyInt_natStr, bind, Except.bind, pure, Except.pure]; simp
      have := ih (acc ++ [(n, e)])
      simp only [nodesGetState] at this ⊢
      cases e <;> simp only [List.map_cons, nodesSetState, h1, bind, Except.bind] <;>
        (rw [this]; simp)
  simpa using key l []

/-- **C17.** Restoring from the pairs themselves (as done when a report is stored) also gives the list. -/
theorem C17_nodes_tuples (l : List (Nat × Option Nat)) :
    nodesSetState [] (l.map fun p => NodeState.tup p.1 p.2) = .ok l := by
  have key : ∀ l acc, nodesSetState acc (l.map fun p => NodeState.tup p.1 p.2) = .ok (acc ++ l) := by
    intro l
    induction l with
    | nil => intro acc; simp [nodesSetState]
    | cons p l ih => intro acc; simp [nodesSetState, nodeOfState, ih, bind, Except.bind]
  simpa using key l []

/-- A list with a node that has no end point, one with end point 0, and one with a large end point. -/
example : nodesGetState [(5, none), (17, some 0), (232, some 127)] = ["5".toList, "17:0".toList, "232:127".toList] := by
  decide +kernel

/-- **C21.** The text of a DSK is eight groups of five decimal digits, and reading it restores the key. -/
theorem C21_dsk_text (key old : Bytes) (h : key.length = 16) :
    dskGetState key = .ok (dskPrinted key) ∧ (words key).length = 8 ∧ dskSetState old (.text (dskPrinted key)) = .ok key := by
  have hw : ((words key).map pad5) = (words key).map (fixedDec 5) :=
    List.map_congr_left fun w hw => pad5_eq (words_lt key w hw)
  have hl : (words key).length = 8 := by rw [words_length, h]
  refine ⟨?_, hl, ?_⟩
  · simp only [dskGetState, dskGroups_ok key (by omega), bind, Except.bind, pure, Except.pure, pyJoin_eq, hw, dskPrinted]
  · have hs : pySplit '-' (dskPrinted key) = (words key).map pad5 := by
      rw [dskPrinted, ← hw, ← pyJoin_eq]
      apply pySplit_join
      · intro e; have := congrArg List.length e; simp [hl] at this
      · intro s hs
        simp only [List.mem_map] at hs
        obtain ⟨w, -, rfl⟩ := hs
        exact digits_not_mem (pad5_digits w) (by decide)
    simp only [dskSetState, hs, List.length_map, hl]
    exact dskFields_ok key (by omega)

/-- **C21.** A text that does not consist of eight groups separated by dashes changes nothing. -/
theorem C21_other_text (old : Bytes) (groups : List (List Char)) (hg : ∀ g ∈ groups, '-' ∉ g) (h0 : groups ≠ []) (h8 : groups.length ≠ 8) :
    dskSetState old (.text (joined '-' groups)) = .ok old := by
  simp only [dskSetState]
  rw [← pyJoin_eq, pySplit_join '-' groups h0 hg, if_pos h8]

/-- **C21.** Raw keys are accepted exactly if they have 16 or no bytes. -/
theorem C21_raw (old b : Bytes) :
    (b.length = 16 ∨ b.length = 0 → dskSetState old (.raw b) = .ok b) ∧
    (b.length ≠ 16 → b.length ≠ 0 → dskSetState old (.raw b) = .error .value) := by
  constructor
  · intro h; simp only [dskSetState]; rw [if_pos h]
  · intro h1 h2; simp only [dskSetState]; rw [if_neg (by omega)]

example : dskPrinted [0, 1, 0, 255, 255, 255, 1, 0, 0, 0, 0, 0, 0, 0, 0, 9] =
    "00001-00255-65535-00256-00000-00000-00000-00009".toList := by decide +kernel

end Props
