import Verif.Spec.Body
import Verif.Lemmas.Application
/-!
# Property theorems C148: what the interviewed mark says
-/
namespace Props.Body
open Model Model.Body Model.Classes
open Model.Listen (Ret)

/-- As `Honest`, for any requirement. -/
private def Good {σ : Type} (P : Item → Prop) (p : Prog σ) : Prop :=
  ∀ (s : σ) (xs : List (Reply σ)) (r : Py Ret), (exec p s xs).result = some r → Marks r → ∀ i ∈ (exec p s xs).items, P i

/-- It does not end in a way that marks the class. -/
private def Never {σ : Type} (p : Prog σ) : Prop := ∀ (s : σ) (xs : List (Reply σ)) (r : Py Ret), (exec p s xs).result = some r → ¬ Marks r

private theorem Never.good {σ : Type} {P : Item → Prop} {p : Prog σ} (h : Never p) : Good P p := fun s xs r h1 h2 => (h s xs r h1 h2).elim

private theorem never_raise {σ : Type} (e : PyErr) : Never (.ret (.error e) : Prog σ) := by
  intro s xs r h
  simp only [exec, Option.some.injEq] at h
  subst h
  rintro ⟨v, hv, -⟩
  cases hv

private theorem good_ret {σ : Type} {P : Item → Prop} (r : Py Ret) : Good P (.ret r : Prog σ) := by
  intro s xs r' _ _ i hi
  simp [exec] at hi

private theorem good_ask {σ : Type} {P : Item → Prop} {q : Query} {k : Py Msg → Prog σ} (h : ∀ r, (Good P (k r) ∧ P (.asked q (some r))) ∨ Never (k r)) : Good P (.ask q k) := by
  intro s xs r hr hm i hi
  cases xs with
  | nil => simp [exec] at hr
  | cons x xs =>
    simp only [exec, Out.after] at hr hi
    rcases h x.msg with ⟨h1, h2⟩ | h
    · rcases List.mem_cons.mp hi with rfl | hi
      · exact h2
      · exact h1 _ _ _ hr hm i hi
    · exact (h _ _ _ hr hm).elim

private theorem good_send {σ : Type} {P : Item → Prop} {c : Command} {k : Py Bool → Prog σ} (h : ∀ r, (Good P (k r) ∧ P (.sent c (some r))) ∨ Never (k r)) : Good P (.send c k) := by
  intro s xs r hr hm i hi
  cases xs with
  | nil => simp [exec] at hr
  | cons x xs =>
    simp only [exec, Out.after] at hr hi
    rcases h x.ack with ⟨h1, h2⟩ | h
    · rcases List.mem_cons.mp hi with rfl | hi
      · exact h2
      · exact h1 _ _ _ hr hm i hi
    · exact (h _ _ _ hr hm).elim

private theorem good_look {σ : Type} {P : Item → Prop} {k : σ → Prog σ} (h : ∀ s, Good P (k s)) : Good P (.look k) := fun s xs r hr hm i hi => h s s xs r hr hm i hi

private theorem good_write {σ : Type} {P : Item → Prop} {f : σ → σ} {p : Prog σ} (h : Good P p) : Good P (.write f p) := fun s xs r hr hm i hi => h (f s) xs r hr hm i hi

private theorem good_copy {P : Item → Prop} (m : Msg) (names : List String) : Good P (copy m names) := by
  induction names with
  | nil => exact good_ret _
  | cons n ns ih =>
    unfold copy
    split
    · exact good_ret _
    · exact good_write ih

private theorem honest_copying (q : Query) (names : List String) (hq : ∀ m, AnswerTo q m) : Honest (copying q names) := by
  refine good_ask fun r => ?_
  cases r with
  | error e => exact .inr (never_raise e)
  | ok m => exact .inl ⟨good_copy m names, m, rfl, hq m⟩

private theorem good_sensorLoop (l : List Nat) : Good Settled (sensorLoop l) := by
  induction l with
  | nil => exact good_ret _
  | cons t ts ih =>
    refine good_ask fun r => ?_
    cases r with
    | error e => exact .inr (never_raise e)
    | ok m =>
      refine .inl ⟨?_, m, rfl, trivial⟩
      dsimp only
      split
      · exact good_ret _
      · exact good_write ih

private theorem honest_sensor : Honest sensor := by
  refine good_look fun s => ?_
  split
  · exact good_ret _
  · refine good_ask fun r => ?_
    cases r with
    | error e => exact .inr (never_raise e)
    | ok m =>
      refine .inl ⟨?_, m, rfl, trivial⟩
      dsimp only
      split
      · exact good_sensorLoop _
      · exact good_ret _

/-- **C148.** A class that is marked as interviewed has got an answer to everything it asked, and everything it sent was acknowledged. -/
def C148_statement : Prop :=
  Honest version ∧ Honest manufacturer ∧ Honest plusInfo ∧ Honest sensor ∧ (∀ supp, Honest (association supp)) ∧ Honest (groupInfo (σ := Unit)) ∧ Honest (base (σ := Unit))

/-- AssociationGrpInfo does not look at the result of its send: the node did not acknowledge and the class is marked. -/
theorem C148_violated : ¬ C148_statement := by
  rintro ⟨-, -, -, -, -, h, -⟩
  have := h () [⟨id, .error .timeout, .ok false⟩] (.ok (.bool true)) rfl ⟨_, rfl, by simp⟩ (.sent .groupInfo (some (.ok false))) (by simp [exec, groupInfo, Out.after])
  simp [Settled] at this

/-- A node with one group that it does not tell about: `Association` is marked as well. -/
def silentGroup : Py Msg := decode [0x85, 0x06, 0x01]

theorem C148_violated_silent : ¬ ∀ supp, Honest (association supp) := by
  intro h
  have := h (fun _ => false) [] [⟨id, silentGroup, .ok true⟩, ⟨id, .error .timeout, .ok true⟩] (.ok .none) (by decide +kernel) ⟨_, rfl, by simp⟩
    (.asked (.group false 1) (some (.error .timeout))) (by decide +kernel)
  obtain ⟨m, hm, -⟩ := this
  cases hm

/-- **C148**, the classes for which it holds: Version, ManufacturerSpecific, ZwavePlusInfo and SensorMultilevel, and trivially the classes without an interview of their own. -/
theorem C148_partial : Honest version ∧ Honest manufacturer ∧ Honest plusInfo ∧ Honest sensor ∧ ∀ σ : Type, Honest (base (σ := σ)) :=
  ⟨honest_copying _ _ fun _ => trivial, honest_copying _ _ fun _ => trivial, honest_copying _ _ fun _ => trivial, honest_sensor, fun _ => good_ret _⟩

/-- What was asked. -/
def queryOf : Item → Option Query
  | .asked q _ => some q
  | .sent _ _ => none

/-- **C148**, what these classes ask: the first three ask their one question, whatever happens. -/
theorem C148_asks_partial (q : Query) (names : List String) (d : Dict String Int) (xs : List (Reply (Dict String Int))) :
    (exec (copying q names) d xs).items.filterMap queryOf = [q] := by
  have hc : ∀ (m : Msg) (names : List String) d xs, (exec (copy m names) d xs).items = [] := by
    intro m names
    induction names with
    | nil => intro d xs; rfl
    | cons n ns ih =>
      intro d xs
      simp only [copy]
      split
      · rfl
      · exact ih _ _
  cases xs with
  | nil => rfl
  | cons x xs =>
    obtain ⟨f, r, b⟩ := x
    cases r with
    | error e => rfl
    | ok m => simp only [copying, exec, Out.after, hc]; rfl

/-- **C148**, what SensorMultilevel asks: from version 5 on for the sensors and then, if it ends well, for the scales of each sensor that was reported, in this order. -/
theorem C148_sensors_partial (s : Sensor.State) (xs : List (Reply Sensor.State)) (r : Py Ret) (h : (exec sensor s xs).result = some r) (hr : Marks r) :
    (exec sensor s xs).items.filterMap queryOf = if s.version < 5 then [] else
      match (exec sensor s xs).items.head? with
      | some (.asked .sensors (some (.ok m))) =>
        match getAttr registry m "bitMask" with
        | some (.sensors l) => .sensors :: l.map .scales
        | _ => []
      | _ => [] := by
  have hl : ∀ (l : List Nat) (s : Sensor.State) (xs : List (Reply Sensor.State)) (r : Py Ret), (exec (Body.sensorLoop l) s xs).result = some r → Marks r →
      (exec (Body.sensorLoop l) s xs).items.filterMap queryOf = l.map .scales := by
    intro l
    induction l with
    | nil => intro s xs r _ _; rfl
    | cons t ts ih =>
      intro s xs r h hr
      cases xs with
      | nil => simp [exec, Body.sensorLoop] at h
      | cons x xs =>
        simp only [Body.sensorLoop, exec, Out.after] at h ⊢
        rw [List.filterMap_cons_some (f := queryOf) (b := Query.scales t) rfl, List.map_cons]
        congr 1
        revert h
        split
        · intro h; exact (never_raise _ _ _ _ h hr).elim
        · split
          · intro h; exact (never_raise _ _ _ _ h hr).elim
          · intro h; exact ih _ _ _ h hr
  revert h
  simp only [sensor, exec]
  split
  · intro _; rfl
  · intro h
    cases xs with
    | nil => simp [exec] at h
    | cons x xs =>
      obtain ⟨f, m, b⟩ := x
      cases m with
      | error e => exact (never_raise e (f s) xs r h hr).elim
      | ok m =>
        simp only [exec, Out.after, List.head?_cons] at h ⊢
        rw [List.filterMap_cons_some (f := queryOf) (b := Query.sensors) rfl]
        cases hb : getAttr registry m "bitMask" with
        | none => rw [hb] at h; exact (never_raise _ _ _ _ h hr).elim
        | some v =>
          rw [hb] at h
          cases v with
          | sensors l => exact congrArg _ (hl l _ _ _ h hr)
          | _ => exact (never_raise _ _ _ _ h hr).elim

/-- What can be missing if Association is marked: the answer for a group did not come in time or was about another group, or the lifeline was not acknowledged. -/
def Missing : Item → Prop
  | .asked (.group _ _) (some (.error .timeout)) => True
  | .asked (.group _ g) (some (.ok m)) => numAttr m "groupingIdentifier" ≠ some g
  | .sent (.lifeLine _) (some (.ok false)) => True
  | _ => False

private theorem group_item (multi : Bool) (g : Int) (m : Msg) : Settled (.asked (.group multi g) (some (.ok m))) ∨ Missing (.asked (.group multi g) (some (.ok m))) := by
  by_cases h : numAttr m "groupingIdentifier" = some g
  · exact .inl ⟨m, rfl, h⟩
  · exact .inr h

private theorem good_lifeLine (supp : Nat → Bool) (g : Int) : Good (fun i => Settled i ∨ Missing i) (lifeLine supp g) := by
  unfold lifeLine
  dsimp only
  split
  · refine good_look fun d => ?_
    split
    · exact good_ret _
    · split
      · exact good_ret _
      · split
        · exact good_ret _
        · rename_i msg _
          refine good_send fun r => ?_
          cases r with
          | error e => exact .inr (never_raise e)
          | ok b =>
            refine .inl ⟨?_, by cases b <;> simp [Settled, Missing]⟩
            refine good_look fun d => ?_
            split
            · refine good_ask fun r => ?_
              cases r with
              | error e => exact .inr (never_raise e)
              | ok m => exact .inl ⟨good_look fun d => good_write (good_ret _), group_item _ _ m⟩
            · exact good_ret _
  · exact good_ret _

private theorem good_groupLoop (supp : Nat → Bool) (size : Nat) (l : List Int) : Good (fun i => Settled i ∨ Missing i) (groupLoop supp size l) := by
  induction l with
  | nil =>
    refine good_look fun d => ?_
    split
    · exact good_lifeLine supp 1
    · exact good_ret _
  | cons g gs ih =>
    have goOn : ∀ r : Py Unit, Good (fun i => Settled i ∨ Missing i) (match r with
        | .ok () | .error .timeout => groupLoop supp size gs
        | .error e => .ret (.error e)) := by
      intro r
      split
      · exact ih
      · exact ih
      · exact good_ret _
    refine good_look fun d => ?_
    split
    · refine good_look fun d => ?_
      split
      · refine good_ask fun r => ?_
        cases r with
        | error e =>
          by_cases he : e = .timeout
          · subst he
            exact .inl ⟨ih, .inr trivial⟩
          · refine .inr ?_
            cases e <;> first | exact absurd rfl he | exact never_raise _
        | ok m => exact .inl ⟨good_look fun d => good_write (goOn _), group_item _ _ m⟩
      · exact goOn (.error .key)
    · exact good_ret _

/-- **C148**, what is missing at most if Association is marked: answers for groups that did not come in time or were about another group, and the acknowledgement of the
lifeline. The number of groups was answered. -/
theorem C148_association_partial (supp : Nat → Bool) (d : Dict Int Assoc.Group) (xs : List (Reply (Dict Int Assoc.Group))) (r : Py Ret)
    (h : (exec (association supp) d xs).result = some r) (hr : Marks r) : ∀ i ∈ (exec (association supp) d xs).items, Settled i ∨ Missing i := by
  have : Good (fun i => Settled i ∨ Missing i) (association supp) := by
    refine good_ask fun r => ?_
    cases r with
    | error e => exact .inr (never_raise e)
    | ok m =>
      refine .inl ⟨?_, .inl ⟨m, rfl, trivial⟩⟩
      dsimp only
      split
      · exact good_ret _
      · exact good_write (good_look fun d => good_groupLoop _ _ _)
  exact this d xs r h hr

/-- **C148**, AssociationGrpInfo: it sends one question and is marked whether or not it was acknowledged, unless sending raises. -/
theorem C148_groupInfo_partial {σ : Type} (s : σ) (x : Reply σ) (xs : List (Reply σ)) :
    (exec groupInfo s (x :: xs)).result = some (match x.ack with | .ok _ => .ok (.bool true) | .error e => .error e) ∧
    (exec groupInfo s (x :: xs)).items = [.sent .groupInfo (some x.ack)] := by
  cases hx : x.ack <;> simp [exec, groupInfo, Out.after, hx]

/-- **C148**, the bytes of the requests. -/
theorem C148_wire_partial : ((Query.version.request >>= compose) = .ok [0x86, 0x11]) ∧ ((Query.manufacturer.request >>= compose) = .ok [0x72, 0x04]) ∧
    ((Query.plusInfo.request >>= compose) = .ok [0x5E, 0x01]) ∧ ((Query.sensors.request >>= compose) = .ok [0x31, 0x01]) ∧
    ((Query.groupings.request >>= compose) = .ok [0x85, 0x05]) ∧ ((Command.groupInfo.message >>= compose) = .ok [0x59, 0x03, 0x40, 0x00]) ∧
    (∀ t < 256, ((Query.scales t).request >>= compose) = .ok [0x31, 0x03, UInt8.ofNat t]) ∧
    (∀ g < 256, ((Query.group false (g : Nat)).request >>= compose) = .ok [0x85, 0x02, UInt8.ofNat g]) ∧
    (∀ g < 256, ((Query.group true (g : Nat)).request >>= compose) = .ok [0x8E, 0x02, UInt8.ofNat g]) := by
  refine ⟨?_, ?_, ?_, ?_, ?_, ?_, ?_, ?_, ?_⟩ <;> decide +kernel

/-- **C148**, what is waited for: the report that belongs to the question. -/
theorem C148_awaits_partial (t : Nat) (g : Int) : [Query.version, .manufacturer, .plusInfo, .sensors, .scales t, .groupings, .group false g, .group true g].map (fun q => q.awaits.hid) =
    [0x8612, 0x7205, 0x5E02, 0x3102, 0x3106, 0x8506, 0x8503, 0x8E03] := by
  simp only [List.map_cons, List.map_nil, Query.awaits]
  decide +kernel

/-- A Z-Wave Plus node with one empty group: the group is asked for, the lifeline is sent and the group is asked for again. -/
def lifeLineRun : List (Reply (Dict Int Assoc.Group)) :=
  [⟨id, decode [0x85, 0x06, 0x01], .ok true⟩, ⟨id, decode [0x85, 0x03, 0x01, 0x05, 0x00], .ok true⟩, ⟨id, .error .timeout, .ok true⟩,
   ⟨id, decode [0x85, 0x03, 0x01, 0x05, 0x00, 0x01], .ok true⟩]

example : let o := exec (association fun c => c == 0x5E) [] lifeLineRun
    o.result = some (.ok .none) ∧ o.attrs = [(1, ⟨5, [(1, none)]⟩)] ∧ o.items.length = 4 := by decide +kernel

/-- Another interview of the class learns of a second group while this one waits: taking the next group raises RuntimeError. -/
example : (exec (association fun c => c == 0x5E) []
    [⟨id, decode [0x85, 0x06, 0x01], .ok true⟩, ⟨fun d => Assoc.setNumGroups d 2, decode [0x85, 0x03, 0x01, 0x05, 0x00], .ok true⟩]).result = some (.error .runtime) := by
  decide +kernel

/-- Sensors: both answers are there. -/
example : let o := exec sensor ⟨5, []⟩ [⟨id, decode [0x31, 0x02, 0x01], .ok true⟩, ⟨id, decode [0x31, 0x06, 0x01, 0x03], .ok true⟩]
    o.result = some (.ok .none) ∧ o.attrs.types = [(1, 3)] ∧ o.items.length = 2 := by decide +kernel

/-! ## The programs do what the models of the other properties say

Without interference the attributes and the result are those of `Model/Classes.lean`, which C60, C61, C62 and C92 are about. -/

/-- Nobody else touches the class while it waits. -/
def quiet {σ : Type} (m : Py Msg) : Reply σ := ⟨id, m, .ok true⟩

/-- The event of `Model/Classes.lean` for something that was done. -/
def evOf : Item → Option Assoc.Ev
  | .asked .groupings _ => some .askGroups
  | .asked (.group multi g) _ => some (.ask multi g)
  | .sent (.lifeLine m) _ => some (.set m)
  | _ => none

theorem copy_agrees (m : Msg) (names : List String) (d : Dict String Int) (xs : List (Reply (Dict String Int))) :
    (exec (copy m names) d xs).attrs = (Copy.copy m names d).1 ∧ (exec (copy m names) d xs).result = some ((Copy.copy m names d).2.map fun _ => .none) := by
  induction names generalizing d with
  | nil => exact ⟨rfl, rfl⟩
  | cons n ns ih =>
    simp only [copy, Copy.copy]
    cases needNum m n with
    | error e => exact ⟨rfl, rfl⟩
    | ok v => exact ih _

/-- Version, ManufacturerSpecific and ZwavePlusInfo. -/
theorem copying_agrees (q : Query) (names : List String) (d : Dict String Int) (r : Py Msg) :
    (exec (copying q names) d [quiet r]).attrs = (Copy.interview names d r).1 ∧
    (exec (copying q names) d [quiet r]).result = some ((Copy.interview names d r).2.map fun _ => .none) := by
  cases r with
  | error e => exact ⟨rfl, rfl⟩
  | ok m => exact copy_agrees m names d []

theorem sensorLoop_agrees (ans : Nat → Py Msg) (l : List Nat) (s : Sensor.State) :
    (exec (sensorLoop l) s (l.map fun t => quiet (ans t))).attrs = { s with types := (Sensor.scales ans l s.types).1 } ∧
    (exec (sensorLoop l) s (l.map fun t => quiet (ans t))).result = some ((Sensor.scales ans l s.types).2.map fun _ => .none) := by
  induction l generalizing s with
  | nil => exact ⟨rfl, rfl⟩
  | cons t ts ih =>
    simp only [Body.sensorLoop, List.map_cons, exec, Out.after, quiet, id, Sensor.scales]
    cases ans t with
    | error e => exact ⟨rfl, rfl⟩
    | ok m =>
      dsimp only
      cases needNum m "scaleBitMask" with
      | error e => exact ⟨rfl, rfl⟩
      | ok mask => exact ih { s with types := s.types.set t mask }

/-- SensorMultilevel. -/
theorem sensor_agrees (s : Sensor.State) (m : Msg) (l : List Nat) (hl : getAttr registry m "bitMask" = some (.sensors l)) (ans : Nat → Py Msg) :
    (exec sensor s (quiet (.ok m) :: l.map fun t => quiet (ans t))).attrs = (Sensor.interview s (.ok m) ans).1 ∧
    (exec sensor s (quiet (.ok m) :: l.map fun t => quiet (ans t))).result = some ((Sensor.interview s (.ok m) ans).2.map fun _ => .none) := by
  simp only [sensor, Sensor.interview, exec]
  split
  · exact ⟨rfl, rfl⟩
  · simp only [exec, Out.after, quiet, id, hl]
    exact sensorLoop_agrees ans l s

private theorem length_set {d : Dict Int Assoc.Group} {g : Int} (h : d.mem g = true) (v : Assoc.Group) : (Dict.set d g v).length = d.length := by
  induction d with
  | nil => cases h
  | cons p d ih =>
    obtain ⟨k, w⟩ := p
    by_cases e : k = g
    · simp [Dict.set, e]
    · simp only [Dict.set, e, if_false, List.length_cons]
      rw [ih]
      simpa [Dict.mem, Dict.get?, e] using h

private theorem mem_set {d : Dict Int Assoc.Group} {g k : Int} (h : d.mem k = true) (v : Assoc.Group) : (Dict.set d g v).mem k = true := by
  simp only [Dict.mem, Dict.get?_set]
  split
  · rfl
  · exact h

private theorem update_keeps {d : Dict Int Assoc.Group} {g : Int} (m : Msg) (h : d.mem g = true) :
    (Assoc.update d g m).1.length = d.length ∧ ∀ k, d.mem k = true → (Assoc.update d g m).1.mem k = true := by
  unfold Assoc.update
  split
  · split
    · exact ⟨rfl, fun _ h => h⟩
    · split
      · exact ⟨length_set h _, fun k hk => mem_set hk _⟩
      · exact ⟨rfl, fun _ h => h⟩
  · exact ⟨rfl, fun _ h => h⟩

theorem lifeLine_agrees (supp : Nat → Bool) (d : Dict Int Assoc.Group) (g : Int) (sent : Py Bool) (r : Py Msg) :
    let o := exec (lifeLine supp g) d [⟨id, .error .timeout, sent⟩, quiet r]
    o.attrs = (Assoc.setupLifeLine supp d g sent r).1 ∧ o.items.filterMap evOf = (Assoc.setupLifeLine supp d g sent r).2.1 ∧
    o.result = some ((Assoc.setupLifeLine supp d g sent r).2.2.map fun _ => .none) := by
  intro o
  subst o
  simp only [lifeLine, Assoc.setupLifeLine]
  split
  · simp only [exec]
    cases hg : d.get? g with
    | none => exact ⟨rfl, rfl, rfl⟩
    | some grp =>
      by_cases hc : Assoc.contains grp.nodes 1 0 = true
      · simp only [hc, if_true]; exact ⟨rfl, rfl, rfl⟩
      · simp only [hc, Bool.false_eq_true, if_false]
        cases Assoc.lifeLineMsg supp g with
        | error e => exact ⟨rfl, rfl, rfl⟩
        | ok msg =>
          cases sent with
          | error e => exact ⟨rfl, rfl, rfl⟩
          | ok b =>
            have hm : d.mem g = true := by simp [Dict.mem, hg]
            simp only [exec, Out.after, grouping, id, Assoc.interviewGrouping, hm, if_true, quiet]
            cases r with
            | error e => exact ⟨rfl, rfl, rfl⟩
            | ok m => exact ⟨rfl, rfl, rfl⟩
  · exact ⟨rfl, rfl, rfl⟩

theorem groupLoop_agrees (supp : Nat → Bool) (ans : Int → Py Msg) (sent : Py Bool) (r : Py Msg) (l : List Int) (d : Dict Int Assoc.Group) (size : Nat) (hs : d.length = size)
    (hl : ∀ g ∈ l, d.mem g = true) :
    let o := exec (groupLoop supp size l) d (l.map (fun g => quiet (ans g)) ++ [⟨id, .error .timeout, sent⟩, quiet r])
    let a := Assoc.interviewAll supp ans l d
    match a.2.2 with
    | .error e => o.attrs = a.1 ∧ o.items.filterMap evOf = a.2.1 ∧ o.result = some (.error e)
    | .ok () => o.attrs = (Assoc.setupLifeLine supp a.1 1 sent r).1 ∧ o.items.filterMap evOf = a.2.1 ++ (Assoc.setupLifeLine supp a.1 1 sent r).2.1 ∧ o.result = some ((Assoc.setupLifeLine supp a.1 1 sent r).2.2.map fun _ => .none) := by
  induction l generalizing d with
  | nil =>
    simp only [groupLoop, List.map_nil, List.nil_append, exec, hs, if_true, Assoc.interviewAll]
    exact lifeLine_agrees supp d 1 sent r
  | cons g gs ih =>
    have hg := hl g (by simp)
    have hgs : ∀ k ∈ gs, d.mem k = true := fun k hk => hl k (List.mem_cons_of_mem _ hk)
    simp only [groupLoop, List.map_cons, List.cons_append, exec, hs, if_true, grouping, hg, Out.after, quiet, id, Assoc.interviewAll, Assoc.interviewGrouping]
    have more : ∀ {a : Dict Int Assoc.Group × List Assoc.Ev × Py Unit} {o : Out (Dict Int Assoc.Group)} {x : Option (Py Msg)},
        (match a.2.2 with
          | .error e => o.attrs = a.1 ∧ o.items.filterMap evOf = a.2.1 ∧ o.result = some (.error e)
          | .ok () => o.attrs = (Assoc.setupLifeLine supp a.1 1 sent r).1 ∧ o.items.filterMap evOf = a.2.1 ++ (Assoc.setupLifeLine supp a.1 1 sent r).2.1 ∧
            o.result = some ((Assoc.setupLifeLine supp a.1 1 sent r).2.2.map fun _ => .none)) →
        match a.2.2 with
          | .error e => o.attrs = a.1 ∧ (Item.asked (.group (supp 0x8E) g) x :: o.items).filterMap evOf = [.ask (supp 0x8E) g] ++ a.2.1 ∧ o.result = some (.error e)
          | .ok () => o.attrs = (Assoc.setupLifeLine supp a.1 1 sent r).1 ∧
            (Item.asked (.group (supp 0x8E) g) x :: o.items).filterMap evOf = [.ask (supp 0x8E) g] ++ a.2.1 ++ (Assoc.setupLifeLine supp a.1 1 sent r).2.1 ∧
            o.result = some ((Assoc.setupLifeLine supp a.1 1 sent r).2.2.map fun _ => .none) := by
      intro a o x h
      obtain ⟨a1, a2, a3⟩ := a
      cases a3 with
      | error e =>
        exact ⟨h.1, by rw [List.filterMap_cons_some (f := evOf) (b := Assoc.Ev.ask (supp 0x8E) g) rfl, h.2.1]; rfl, h.2.2⟩
      | ok u =>
        exact ⟨h.1, by rw [List.filterMap_cons_some (f := evOf) (b := Assoc.Ev.ask (supp 0x8E) g) rfl, h.2.1]; rfl, h.2.2⟩
    cases hr : ans g with
    | error e =>
      by_cases he : e = .timeout
      · subst he
        exact more (ih d hs hgs)
      · cases e <;> first | exact absurd rfl he | exact ⟨rfl, rfl, rfl⟩
    | ok m =>
      obtain ⟨k1, k2⟩ := update_keeps m hg
      have hi := ih (Assoc.update d g m).1 (k1.trans hs) fun k hk => k2 k (hgs k hk)
      simp only [exec]
      cases hu : (Assoc.update d g m).2 with
      | ok u => exact more hi
      | error e =>
        by_cases he : e = .timeout
        · subst he
          exact more hi
        · cases e <;> first | exact absurd rfl he | exact ⟨rfl, rfl, rfl⟩

/-- Association. -/
theorem association_agrees (supp : Nat → Bool) (d : Dict Int Assoc.Group) (m : Msg) (n : Int) (hn : needNum m "supportedGroupings" = .ok n) (ans : Int → Py Msg)
    (sent : Py Bool) (r : Py Msg) :
    let o := exec (association supp) d (quiet (.ok m) :: ((Assoc.setNumGroups d n).keys.map (fun g => quiet (ans g)) ++ [⟨id, .error .timeout, sent⟩, quiet r]))
    let a := Assoc.interview supp d (.ok m) ans sent r
    o.attrs = a.1 ∧ o.items.filterMap evOf = a.2.1 ∧ o.result = some (a.2.2.map fun _ => .none) := by
  have h := groupLoop_agrees supp ans sent r (Assoc.setNumGroups d n).keys (Assoc.setNumGroups d n) _ rfl fun g hg => (Lemmas.App.mem_iff _ _).mpr hg
  simp only [association, exec, Out.after, quiet, id, hn, Assoc.interview] at h ⊢
  revert h
  split
  · rename_i e he
    simp only [he]
    intro h
    exact ⟨h.1, by rw [List.filterMap_cons_some (f := evOf) (b := Assoc.Ev.askGroups) rfl, h.2.1], h.2.2⟩
  · rename_i he
    simp only [he]
    intro h
    exact ⟨h.1, by rw [List.filterMap_cons_some (f := evOf) (b := Assoc.Ev.askGroups) rfl, h.2.1]; rfl, h.2.2⟩

end Props.Body
