import Verif.Props.ClassNet
/-!
# Property theorems C150: late answers in the network
-/
namespace Props.ClassNet
open Model Model.ClassNet Spec.System Spec.ClassNet
open Model.App (Nd)
open Model.ClassRun (Cls pcOf itemsOf reports Says)
open Model.Body (Query Command Prog Item)

/-- The question number `n` is acknowledged. -/
def ackTurn (n : Nat) : List System.Op :=
  [.net (.gw (.link 0 (.packet [0x23, 0x02, 0x40, 0x10, UInt8.ofNat (n + 1), 0, 0]))), .net (.gw (.link 0 (.resume n))), .net (.resume n), .sent n]

/-- A packet with the command `b` arrives and is delivered as number `d`; the question number `n` goes on. -/
def answerTurn (d n : Nat) (b : List UInt8) : List System.Op :=
  [.net (.gw (.link 0 (.packet ([0x23, 0x02, 0, 0x50, 8, 2, 0] ++ b)))), .deliver d, .waiter 3 (.resume n)]

/-- Nothing arrives for 3 seconds. -/
def silence (n : Nat) : List System.Op := [.waiter 3 .tick, .waiter 3 .tick, .waiter 3 .tick, .waiter 3 (.timer n), .waiter 3 (.resume n), .waiter 3 (.cancelDone n)]

/-- The first interview gives up after the question for the scales of sensor 1; the second one gets that answer for its question for sensor 1, and the answer to this question for its
question for sensor 2. -/
def lateOps : List (Op Classes.Sensor.State) :=
  .interview :: ((Props.System.after100 2).take 5).map .sys ++
  (ackTurn 0 ++ answerTurn 0 0 [0x86, 0x14, 0x31, 0x05]).map .sys ++ [.proceed 0] ++
  (ackTurn 1 ++ answerTurn 1 1 [0x31, 0x02, 0x03]).map .sys ++ [.proceed 0] ++
  (ackTurn 2 ++ silence 2).map .sys ++ [.proceed 0] ++
  [.interview] ++
  (ackTurn 3 ++ answerTurn 2 3 [0x31, 0x02, 0x03]).map .sys ++ [.proceed 1] ++
  (ackTurn 4 ++ answerTurn 3 4 [0x31, 0x06, 0x01, 0x03]).map .sys ++ [.proceed 1] ++
  (ackTurn 5 ++ answerTurn 4 5 [0x31, 0x06, 0x01, 0x03]).map .sys ++ [.proceed 1]

def lateLife : Life Classes.Sensor.State where
  own := 1
  nd := Props.System.asked
  c := Model.ClassRun.sensor
  id := 0x31
  attrs := ⟨0, []⟩
  pre := Props.System.before100
  ops := lateOps
  known := by decide +kernel

/-- The datagram that arrives. -/
def datagram {σ : Type} : Op σ → Option (List UInt8)
  | .sys (.net (.gw (.link _ (.packet b)))) => some b
  | .sys (.net (.gw (.unsolicited b _ _))) => some b
  | _ => none

/-- The message, the command in it and the command in that. -/
def inside (b : List UInt8) : List Msg :=
  match decode b with
  | .error _ => []
  | .ok p => p :: (match p.command with | none => [] | some c => c :: c.command.toList)

/-- The sensors of the scale reports that arrive. -/
def reported {σ : Type} (ops : List (Op σ)) : List Int :=
  ((ops.filterMap datagram).flatMap inside).filterMap fun m => if m.hid = 0x3106 then Classes.numAttr m "sensorType" else none

/-- The number of questions for the scales of the sensor that were sent. -/
def questions {σ : Type} (s : State σ) (t : Int) : Nat := s.sys.net.calls.countP fun c => (Query.scales t.toNat).request = .ok c.cmd

/-- The node only answers questions: at no time have more reports for a sensor arrived than were asked for. -/
def OnlyAnswers {σ : Type} (h : Life σ) : Prop := ∀ n t, (reported (h.all.take n)).count t ≤ questions (h.after (h.all.take n)) t

/-- The property in the network: the scales that are held for a sensor were reported by the node for this sensor, if the node only answers questions. -/
def C150_network_statement : Prop := ∀ h : Life Classes.Sensor.State, h.c = Model.ClassRun.sensor → h.attrs = ⟨0, []⟩ → h.OnlyAsked → OnlyAnswers h →
  ∀ t mask, h.now.cls.attrs.types.get? t = some mask → ∃ m, h.Said m ∧ Says m "sensorType" t ∧ Says m "scaleBitMask" mask

theorem said_inside {σ : Type} {h : Life σ} {m : Msg} (hm : h.Said m) : ∃ o ∈ h.all, ∃ b, datagram o = some b ∧ m ∈ inside b := by
  obtain ⟨x, hx, before, o, after, e, hf⟩ := hm
  have key : ∀ b p, decode b = .ok p → (p.command = some x ∨ x = p) → m ∈ inside b := by
    intro b p hd hp
    unfold inside
    rw [hd]
    rcases hp with hp | rfl
    · rcases hx with rfl | ⟨-, hx⟩
      · simp [hp]
      · simp [hp, hx]
    · rcases hx with rfl | ⟨-, hx⟩
      · simp
      · simp [hx]
  refine ⟨.sys (.net (.gw o)), by rw [e]; simp, ?_⟩
  rcases hf with ⟨k, l, b, p, rfl, -, -, hd, hp⟩ | ⟨b, sender, order, p, rfl, -, hd, hp⟩
  · exact ⟨b, rfl, key b p hd (hp.imp (·.2) (·.2.2))⟩
  · exact ⟨b, rfl, key b p hd (.inl hp.2)⟩

theorem late_only : lateLife.OnlyAsked := by
  have : ∀ o ∈ lateOps, (match o with | .load _ _ _ | .others _ => False | _ => True) := by
    simp [lateOps, Props.System.after100, ackTurn, answerTurn, silence]
  intro o ho
  have := this o ho
  constructor
  · rintro v b f rfl; exact this
  · rintro f rfl; exact this

/-- The node only answers, and late. -/
theorem late_answers : OnlyAnswers lateLife := by
  have h1 : ∀ n < lateLife.all.length + 1, (reported (lateLife.all.take n)).count 1 ≤ questions (lateLife.after (lateLife.all.take n)) 1 := by decide +kernel
  have h2 : reported lateLife.all = [1, 1] := by decide +kernel
  intro n t
  by_cases ht : t = 1
  · subst ht
    rcases Nat.lt_or_ge n (lateLife.all.length + 1) with hn | hn
    · exact h1 n hn
    · have := h1 lateLife.all.length (Nat.lt_succ_self _)
      rw [List.take_length] at this
      rw [List.take_of_length_le (by omega)]
      exact this
  · have : (reported (lateLife.all.take n)).Sublist (reported lateLife.all) := by
      unfold reported
      refine List.Sublist.filterMap _ ?_
      rw [← List.take_append_drop n lateLife.all]
      simp only [List.filterMap_append, List.flatMap_append]
      simp
    have hc := this.count_le t
    rw [h2] at hc
    have h0 : List.count t [(1 : Int), 1] = 0 := by
      rw [List.count_eq_zero]
      simpa using ht
    omega

/-- **C150**, in the network. -/
theorem C150_network_violated : ¬ C150_network_statement := by
  intro h
  obtain ⟨m, hm, h1, -⟩ := h lateLife rfl rfl late_only late_answers 2 3 (by decide +kernel)
  obtain ⟨o, ho, b, hb, hm⟩ := said_inside hm
  have : ∀ o ∈ lateLife.all, ∀ b ∈ datagram o, ∀ m ∈ inside b, Classes.needNum m "sensorType" ≠ .ok 2 := by decide +kernel
  exact this o ho b hb m hm h1

end Props.ClassNet
