import Verif.Model.Classes
import Verif.Lemmas.Dict
import Verif.Lemmas.Conn
import Verif.Lemmas.Fields
/-!
# Association group information and copied reports (C63, C92)
-/
namespace Props.GroupInfo
open Model Model.Classes Model.Classes.Agi
open Model.Listen (Ret)

/-- What the node has reported: a group with its profile, the name of a group, its commands. -/
inductive Atom
  | group (g profile : Int)
  | name (g : Int) (n : List Nat)
  | commands (g : Int) (l : List (UInt8 × UInt8))
  deriving DecidableEq, Repr

/-- What an operation reports: an information report counts group by group, at the moment the handler gets to the group (and asks for its name). `hs` are the handlers
at that moment. -/
def atom (hs : List (Option Info)) : Op → List Atom
  | .info ((g, p) :: _) => [.group g p]
  | .info [] => []
  | .sent i (.ok _) =>
    match hs[i]? with
    | some (some ⟨_, true, (g, p) :: _⟩) => [.group g p]
    | _ => []
  | .sent _ (.error _) => []
  | .name g n => [.name g n]
  | .commands g l => [.commands g l]

/-- What a history reports, in order. -/
def atoms (s : State) : List Op → List Atom
  | [] => []
  | o :: os => atom s.handlers o ++ atoms (step s o).1 os

/-- The last reported profile; newest first. -/
def lastProfile (g : Int) : List Atom → Option Int
  | [] => none
  | .group k p :: r => if k = g then some p else lastProfile g r
  | _ :: r => lastProfile g r

/-- The last name reported since the group was last reported; newest first. -/
def lastName (g : Int) : List Atom → Option (List Nat)
  | [] => none
  | .name k n :: r => if k = g then some n else lastName g r
  | .group k _ :: r => if k = g then none else lastName g r
  | _ :: r => lastName g r

/-- The last commands reported since the group was last reported; newest first. -/
def lastCommands (g : Int) : List Atom → Option (List (UInt8 × UInt8))
  | [] => none
  | .commands k l :: r => if k = g then some l else lastCommands g r
  | .group k _ :: r => if k = g then none else lastCommands g r
  | _ :: r => lastCommands g r

/-- What is held for `g`. -/
def expected (g : Int) (a : List Atom) : Option Group := (lastProfile g a).map fun p => ⟨lastName g a, p, lastCommands g a⟩

private theorem atoms_snoc (s : State) (ops : List Op) (o : Op) : atoms s (ops ++ [o]) = atoms s ops ++ atom (run s ops).handlers o := by
  induction ops generalizing s with
  | nil => simp [atoms, run]
  | cons a l ih => simp only [List.cons_append, atoms, ih, List.append_assoc]; rfl

private theorem expected_group (g k p : Int) (a : List Atom) : expected g (.group k p :: a) = if k = g then some ⟨none, p, none⟩ else expected g a := by
  by_cases e : k = g <;> simp [expected, lastProfile, lastName, lastCommands, e]

private theorem expected_name (g k : Int) (n : List Nat) (a : List Atom) :
    expected g (.name k n :: a) = if k = g then (expected g a).map (fun x => { x with name := some n }) else expected g a := by
  by_cases e : k = g <;> simp [expected, lastProfile, lastName, lastCommands, e, Function.comp_def]

private theorem expected_commands (g k : Int) (l : List (UInt8 × UInt8)) (a : List Atom) :
    expected g (.commands k l :: a) = if k = g then (expected g a).map (fun x => { x with commands := some l }) else expected g a := by
  by_cases e : k = g <;> simp [expected, lastProfile, lastName, lastCommands, e, Function.comp_def]

/-- C63: after every history, in which reports of all three kinds interleave in any way with the handling of information reports and sends may fail: a group is held
exactly if it has been reported, with the last reported profile and the last name and commands reported since. -/
theorem C63_groups (ops : List Op) (g : Int) : (run fresh ops).groups.get? g = expected g (atoms fresh ops).reverse := by
  induction ops using Conn.snoc_ind generalizing g with
  | nil => rfl
  | snoc l o ih =>
    have hr : run fresh (l ++ [o]) = (step (run fresh l) o).1 := by simp [run]
    rw [hr, atoms_snoc, List.reverse_append]
    generalize run fresh l = s at *
    generalize (atoms fresh l).reverse = a at *
    have nx : ∀ rest : List (Int × Int), (next s.groups rest).1.get? g =
        expected g ((match rest with | (k, p) :: _ => [Atom.group k p] | [] => []).reverse ++ a) := by
      intro rest
      match rest with
      | [] => exact ih g
      | (k, p) :: _ => simp only [next, List.reverse_singleton, List.singleton_append, expected_group, Dict.get?_set, ih g]
    cases o with
    | info gs =>
      have := nx gs
      match gs with
      | [] => simpa [step, atom] using this
      | (k, p) :: r => simpa [step, atom] using this
    | sent i r =>
      cases hh : s.handlers[i]? with
      | none => cases r <;> simp [step, atom, hh, ih]
      | some x =>
        cases x with
        | none => cases r <;> simp [step, atom, hh, ih]
        | some h =>
          cases r with
          | error e => simp [step, atom, hh, ih]
          | ok b =>
            obtain ⟨c, sec, rest⟩ := h
            cases sec with
            | false => simp [step, atom, hh, ih]
            | true =>
              have := nx rest
              match rest with
              | [] => simpa [step, atom, hh] using this
              | (k, p) :: r => simpa [step, atom, hh] using this
    | name k n =>
      simp only [atom, List.reverse_singleton, List.singleton_append, expected_name, ← ih]
      cases hk : s.groups.get? k with
      | none =>
        simp only [step, hk]
        by_cases e : k = g
        · subst e; simp [hk]
        · simp [e]
      | some grp =>
        simp only [step, hk, Dict.get?_set]
        by_cases e : k = g
        · subst e; simp [hk]
        · simp [e]
    | commands k n =>
      simp only [atom, List.reverse_singleton, List.singleton_append, expected_commands, ← ih]
      cases hk : s.groups.get? k with
      | none =>
        simp only [step, hk]
        by_cases e : k = g
        · subst e; simp [hk]
        · simp [e]
      | some grp =>
        simp only [step, hk, Dict.get?_set]
        by_cases e : k = g
        · subst e; simp [hk]
        · simp [e]

/-- C63: a name or commands for a group that has not been reported change nothing; the name is accepted silently, the commands raise KeyError. -/
theorem C63_unknown (s : State) (g : Int) (n : List Nat) (l : List (UInt8 × UInt8)) (h : s.groups.get? g = none) :
    step s (.name g n) = (s, some (.ok (.bool true))) ∧ step s (.commands g l) = (s, some (.error .key)) := by
  simp [step, h]

private theorem sent_loop (s : State) (hs : List (Option Info)) (g : Int) (rest : List (Int × Int)) (h : s.handlers = hs ++ [some ⟨g, false, rest⟩]) :
    let s' := run s (List.replicate (2 * (rest.length + 1)) (.sent hs.length (.ok true)))
    s'.handlers = hs ++ [none] ∧ s'.sent = s.sent ++ .commandListGet g :: rest.flatMap (fun x => [.nameGet x.1, .commandListGet x.1]) ∧
      atoms s (List.replicate (2 * (rest.length + 1)) (.sent hs.length (.ok true))) = rest.map (fun x => Atom.group x.1 x.2) := by
  induction rest generalizing s g with
  | nil =>
    refine ⟨?_, ?_, ?_⟩ <;> simp [List.replicate, run, step, h, next, atoms, atom]
  | cons x xs ih =>
    obtain ⟨k, p⟩ := x
    have e : 2 * (((k, p) :: xs).length + 1) = 2 * (xs.length + 1) + 1 + 1 := by simp only [List.length_cons]; omega
    rw [e, List.replicate_succ, List.replicate_succ]
    have h1 : (step s (.sent hs.length (.ok true))).1 = ⟨s.groups, hs ++ [some ⟨g, true, (k, p) :: xs⟩], s.sent ++ [.commandListGet g]⟩ := by simp [step, h]
    have h2 : (step (step s (.sent hs.length (.ok true))).1 (.sent hs.length (.ok true))).1 =
        ⟨s.groups.set k ⟨none, p, none⟩, hs ++ [some ⟨k, false, xs⟩], s.sent ++ [.commandListGet g] ++ [.nameGet k]⟩ := by
      rw [h1]; simp [step, next]
    obtain ⟨i1, i2, i3⟩ := ih ⟨s.groups.set k ⟨none, p, none⟩, hs ++ [some ⟨k, false, xs⟩], s.sent ++ [.commandListGet g] ++ [.nameGet k]⟩ k rfl
    refine ⟨?_, ?_, ?_⟩
    · simp only [run, List.foldl_cons, h2] at i1 ⊢; exact i1
    · simp only [run, List.foldl_cons, h2] at i2 ⊢; rw [i2]; simp
    · simp only [atoms, h2, i3]
      rw [h1]
      simp [atom, h]

/-- C63: an information report whose sends succeed, with nothing in between, reports all its groups in order and asks for the name and then the commands of each. -/
theorem C63_information (s : State) (l : List (Int × Int)) :
    let ops := Op.info l :: List.replicate (2 * l.length) (.sent s.handlers.length (.ok true))
    atoms s ops = l.map (fun x => Atom.group x.1 x.2) ∧ (run s ops).sent = s.sent ++ l.flatMap (fun x => [.nameGet x.1, .commandListGet x.1]) ∧
      (run s ops).handlers = s.handlers ++ [none] := by
  cases l with
  | nil => simp [atoms, atom, run, step, next]
  | cons x xs =>
    obtain ⟨g, p⟩ := x
    have hst : (step s (.info ((g, p) :: xs))).1 = ⟨s.groups.set g ⟨none, p, none⟩, s.handlers ++ [some ⟨g, false, xs⟩], s.sent ++ [.nameGet g]⟩ := by simp [step, next]
    obtain ⟨h1, h2, h3⟩ := sent_loop ⟨s.groups.set g ⟨none, p, none⟩, s.handlers ++ [some ⟨g, false, xs⟩], s.sent ++ [.nameGet g]⟩ s.handlers g xs rfl
    refine ⟨?_, ?_, ?_⟩
    · simp only [atoms, hst, List.length_cons, h3]; simp [atom]
    · simp only [run, List.foldl_cons, hst, List.length_cons] at h2 ⊢; rw [h2]; simp
    · simp only [run, List.foldl_cons, hst, List.length_cons] at h1 ⊢; exact h1

/-- A name that arrives while the second group is still being handled, a repeated group, commands for an unknown group. -/
example : let ops := [.info [(1, 7), (2, 9)], .sent 0 (.ok true), .name 1 [65], .name 2 [66], .commands 2 [(1, 2)], .sent 0 (.ok true), .name 2 [67], .commands 1 [(0x20, 1)],
      .info [(1, 8)]]
    atoms fresh ops = [.group 1 7, .name 1 [65], .name 2 [66], .commands 2 [(1, 2)], .group 2 9, .name 2 [67], .commands 1 [(0x20, 1)], .group 1 8] ∧
    (run fresh ops).groups = [(1, ⟨none, 8, none⟩), (2, ⟨some [67], 9, none⟩)] := by decide +kernel

/-! ## C92 -/
open Model.Classes.Copy

/-- C92: if every attribute is in the report the interview ends with exactly the reported values and everything else untouched; without an answer nothing changes. -/
theorem C92_copied (names : List String) (d : Dict String Int) (m : Msg) (h : ∀ n ∈ names, (numAttr m n).isSome = true) :
    (interview names d (.ok m)).2 = .ok () ∧
    ∀ n, (interview names d (.ok m)).1.get? n = if n ∈ names then numAttr m n else d.get? n := by
  simp only [interview]
  induction names generalizing d with
  | nil => simp [copy]
  | cons x xs ih =>
    obtain ⟨v, hv⟩ := Option.isSome_iff_exists.1 (h x List.mem_cons_self)
    obtain ⟨h1, h2⟩ := ih (d.set x v) (fun n hn => h n (List.mem_cons_of_mem _ hn))
    simp only [copy, needNum, hv]
    refine ⟨h1, fun n => ?_⟩
    rw [h2, Dict.get?_set]
    by_cases e : x = n
    · subst e
      rw [if_pos rfl, if_pos List.mem_cons_self, hv]
      split <;> rfl
    · have e' : ¬ n = x := fun y => e y.symm
      simp [e, e']

/-- C92: a request that is not answered leaves everything as it was. -/
theorem C92_unanswered (names : List String) (d : Dict String Int) (e : PyErr) : interview names d (.error e) = (d, .error e) := rfl

/-- C92: with a truncated report the interview raises; each attribute holds the reported value or what it held before. -/
theorem C92_truncated (names : List String) (d : Dict String Int) (m : Msg) (h : ∃ n ∈ names, numAttr m n = none) :
    (interview names d (.ok m)).2 = .error .type ∧
    ∀ n, (interview names d (.ok m)).1.get? n = d.get? n ∨ (n ∈ names ∧ (interview names d (.ok m)).1.get? n = numAttr m n) := by
  simp only [interview]
  induction names generalizing d with
  | nil => obtain ⟨n, hn, -⟩ := h; cases hn
  | cons x xs ih =>
    simp only [copy, needNum]
    cases hx : numAttr m x with
    | none => exact ⟨rfl, fun n => Or.inl rfl⟩
    | some v =>
      have : ∃ n ∈ xs, numAttr m n = none := by
        obtain ⟨n, hn, hm⟩ := h
        rcases List.mem_cons.1 hn with rfl | hn
        · rw [hx] at hm; cases hm
        · exact ⟨n, hn, hm⟩
      obtain ⟨h1, h2⟩ := ih (d.set x v) this
      refine ⟨h1, fun n => ?_⟩
      rcases h2 n with h | ⟨h, h'⟩
      · rw [h, Dict.get?_set]
        by_cases e : x = n
        · subst e; exact Or.inr ⟨List.mem_cons_self, by rw [if_pos rfl, hx]⟩
        · exact Or.inl (if_neg e)
      · exact Or.inr ⟨List.mem_cons_of_mem _ h, h'⟩

/-- C92 on the wire: the version report has five bytes. -/
theorem C92_version (d : Dict String Int) (a b c e f : UInt8) : ∃ m, decode [0x86, 0x12, a, b, c, e, f] = .ok m ∧ (interview versionNames d (.ok m)).2 = .ok () ∧
    ∀ n, (interview versionNames d (.ok m)).1.get? n =
      if n = "zwaveLibraryType" then some (a.toNat : Int) else if n = "zwaveProtocolVersion" then some (b.toNat : Int) else if n = "zwaveProtocolSubVersion" then some (c.toNat : Int)
      else if n = "applicationVersion" then some (e.toNat : Int) else if n = "applicationSubVersion" then some (f.toNat : Int) else d.get? n := by
  rw [decode_def (d := Reg.Version.VersionReport) (by decide +kernel) _ _ (by decide)]
  simp only [Reg.Version.VersionReport]
  step_u8 a
  step_u8 b
  step_u8 c
  step_u8 e
  step_u8 f
  refine ⟨_, rfl, (C92_copied versionNames d _ ?h).1, fun n => ((C92_copied versionNames d _ ?h).2 n).trans ?_⟩
  case h => intro n hn; simp only [versionNames, List.mem_cons, List.not_mem_nil, or_false] at hn; rcases hn with rfl | rfl | rfl | rfl | rfl <;> rfl
  simp only [versionNames, List.mem_cons, List.not_mem_nil, or_false]
  by_cases h1 : n = "zwaveLibraryType"; · subst h1; rfl
  by_cases h2 : n = "zwaveProtocolVersion"; · subst h2; rfl
  by_cases h3 : n = "zwaveProtocolSubVersion"; · subst h3; rfl
  by_cases h4 : n = "applicationVersion"; · subst h4; rfl
  by_cases h5 : n = "applicationSubVersion"; · subst h5; rfl
  simp only [h1, h2, h3, h4, h5, or_self, if_false]

/-- C92 on the wire: the manufacturer report has three numbers of two bytes. -/
theorem C92_manufacturer (d : Dict String Int) (a a' b b' c c' : UInt8) : ∃ m, decode [0x72, 0x05, a, a', b, b', c, c'] = .ok m ∧ (interview manufacturerNames d (.ok m)).2 = .ok () ∧
    ∀ n, (interview manufacturerNames d (.ok m)).1.get? n =
      if n = "manufacturerID" then some ((a.toNat * 256 + a'.toNat : Nat) : Int) else if n = "productTypeID" then some ((b.toNat * 256 + b'.toNat : Nat) : Int)
      else if n = "productID" then some ((c.toNat * 256 + c'.toNat : Nat) : Int) else d.get? n := by
  rw [decode_def (d := Reg.ManufacturerSpecific.Report) (by decide +kernel) _ _ (by decide)]
  simp only [Reg.ManufacturerSpecific.Report]
  step_u16 a a'
  step_u16 b b'
  step_u16 c c'
  refine ⟨_, rfl, (C92_copied manufacturerNames d _ ?h).1, fun n => ((C92_copied manufacturerNames d _ ?h).2 n).trans ?_⟩
  case h => intro n hn; simp only [manufacturerNames, List.mem_cons, List.not_mem_nil, or_false] at hn; rcases hn with rfl | rfl | rfl <;> rfl
  simp only [manufacturerNames, List.mem_cons, List.not_mem_nil, or_false]
  by_cases h1 : n = "manufacturerID"; · subst h1; rfl
  by_cases h2 : n = "productTypeID"; · subst h2; rfl
  by_cases h3 : n = "productID"; · subst h3; rfl
  simp only [h1, h2, h3, or_self, if_false]

/-- C92 on the wire: the Z-Wave Plus report has three bytes and two numbers of two bytes. -/
theorem C92_plus (d : Dict String Int) (a b c e e' f f' : UInt8) : ∃ m, decode [0x5E, 0x02, a, b, c, e, e', f, f'] = .ok m ∧ (interview plusNames d (.ok m)).2 = .ok () ∧
    ∀ n, (interview plusNames d (.ok m)).1.get? n =
      if n = "zwavePlusVersion" then some (a.toNat : Int) else if n = "roleType" then some (b.toNat : Int) else if n = "nodeType" then some (c.toNat : Int)
      else if n = "installerIconType" then some ((e.toNat * 256 + e'.toNat : Nat) : Int) else if n = "userIconType" then some ((f.toNat * 256 + f'.toNat : Nat) : Int) else d.get? n := by
  rw [decode_def (d := Reg.ZwavePlusInfo.Report) (by decide +kernel) _ _ (by decide)]
  simp only [Reg.ZwavePlusInfo.Report]
  step_u8 a
  step_u8 b
  step_u8 c
  step_u16 e e'
  step_u16 f f'
  refine ⟨_, rfl, (C92_copied plusNames d _ ?h).1, fun n => ((C92_copied plusNames d _ ?h).2 n).trans ?_⟩
  case h => intro n hn; simp only [plusNames, List.mem_cons, List.not_mem_nil, or_false] at hn; rcases hn with rfl | rfl | rfl | rfl | rfl <;> rfl
  simp only [plusNames, List.mem_cons, List.not_mem_nil, or_false]
  by_cases h1 : n = "zwavePlusVersion"; · subst h1; rfl
  by_cases h2 : n = "roleType"; · subst h2; rfl
  by_cases h3 : n = "nodeType"; · subst h3; rfl
  by_cases h4 : n = "installerIconType"; · subst h4; rfl
  by_cases h5 : n = "userIconType"; · subst h5; rfl
  simp only [h1, h2, h3, h4, h5, or_self, if_false]

/-- The report `86 12 03 04 05 06 07` of the Version class, one that is two octets short, and reports of the other two classes. -/
example : (∃ m, decode [0x86, 0x12, 3, 4, 5, 6, 7] = .ok m ∧ (∀ n ∈ versionNames, (numAttr m n).isSome = true) ∧
      interview versionNames [] (.ok m) = ([("zwaveLibraryType", 3), ("zwaveProtocolVersion", 4), ("zwaveProtocolSubVersion", 5), ("applicationVersion", 6),
        ("applicationSubVersion", 7)], .ok ())) ∧
    (∃ m, decode [0x86, 0x12, 3, 4, 5] = .ok m ∧ ∃ n ∈ versionNames, numAttr m n = none) ∧
    (∃ m, decode [0x72, 0x05, 0, 1, 0, 2, 0, 3] = .ok m ∧ ∀ n ∈ manufacturerNames, (numAttr m n).isSome = true) ∧
    (∃ m, decode [0x5E, 0x02, 1, 2, 3, 0, 4, 0, 5] = .ok m ∧ ∀ n ∈ plusNames, (numAttr m n).isSome = true) := by
  refine ⟨⟨_, rfl, by decide +kernel, by decide +kernel⟩, ⟨_, rfl, by decide +kernel⟩, ⟨_, rfl, by decide +kernel⟩, ⟨_, rfl, by decide +kernel⟩⟩

end Props.GroupInfo
