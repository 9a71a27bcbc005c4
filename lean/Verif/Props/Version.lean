import Verif.Model.Version
import Verif.Model.Interview
import Verif.Props.Waiter
import Verif.Props.Values
/-!
# Property theorems C106: versions of command classes
-/
namespace Props.Version
open Spec Model Model.Waiter

/-- A report of the version of class `c`. -/
def ReportOf (m : Msg) (c : Nat) : Prop := m.hid = 0x8614 ∧ m.num? "requestedCommandClass" = some (c : Int)

/-- Call `j` asks for the version of class `asked j`, and the node answers questions: every version report that arrives is for a class that was asked for in a call that was made and
sent before. -/
def Answered (asked : Nat → Nat) (ops : List Op) : Prop :=
  ∀ a m b, ops = a ++ .message m :: b → m.hid = 0x8614 → ∃ j, .sendDone j true ∈ a ∧ ReportOf m (asked j)

/-- The full property: the answer that is taken for the version of a class is a report for that class. -/
def C106_statement : Prop := ∀ (asked : Nat → Nat) (ops : List Op) (i : Nat) (t : Task) (m : Msg), Answered asked ops →
  (run init ops).tasks[i]? = some t → t.kind = .node → t.hid = 0x8614 → t.pc = .done (.ok m) → ReportOf m (asked i)

/-- Binary switch, version 2. -/
def switchReport : Msg := .known 0x8614 [("requestedCommandClass", .num (.uint 1) 0x25), ("commandClassVersion", .num (.uint 1) 2)]

example : decode [0x86, 0x14, 0x25, 0x02] = .ok switchReport := by decide +kernel

/-- **C106.** The versions of two classes are asked for at the same time; the report for one of them is taken for both. -/
theorem C106_violated : ¬ C106_statement := by
  intro h
  have := h (fun i => if i = 0 then 0x25 else 0x31)
    [.call .node 0x8614 3, .call .node 0x8614 3, .sendDone 0 true, .sendDone 1 true, .message switchReport, .resume 0, .resume 1] 1
    ⟨.node, 0x8614, 3, some 0, 3, .done (.ok switchReport)⟩ switchReport (by
      intro a m b e hm
      have : a.length = 4 := by
        rcases a with _ | ⟨a0, _ | ⟨a1, _ | ⟨a2, _ | ⟨a3, _ | ⟨a4, _ | ⟨a5, _ | ⟨a6, a⟩⟩⟩⟩⟩⟩⟩ <;> simp at e ⊢
      rcases a with _ | ⟨a0, _ | ⟨a1, _ | ⟨a2, _ | ⟨a3, _ | ⟨a4, a⟩⟩⟩⟩⟩ <;> simp at this
      simp at e
      obtain ⟨rfl, rfl, rfl, rfl, rfl, -⟩ := e
      exact ⟨0, by simp, by unfold ReportOf; decide +kernel⟩) (by decide +kernel) rfl rfl rfl
  revert this
  unfold ReportOf
  decide +kernel

/-- **C106.** What holds: if all version reports that arrive after the call are for the class that was asked for, the answer is. -/
theorem C106_answer_partial (ops ops' : List Op) (k : Kind) (timeout : Nat) (c : Nat) (m : Msg) :
    let s := run init ops
    (∀ m', .message m' ∈ ops' → m'.hid = 0x8614 → ReportOf m' c) → Ended (run (step s (.call k 0x8614 timeout)) ops') s.tasks.length (.ok m) → ReportOf m c := by
  intro s hc he
  refine hc m (C89_fresh ops ops' k 0x8614 timeout m he) ?_
  obtain ⟨t, ht, hd⟩ := he
  obtain ⟨tag, hi⟩ := inv_run ops
  have hrun : run (step s (.call k 0x8614 timeout)) ops' = run init (ops ++ .call k 0x8614 timeout :: ops') := by rw [run_append, run_cons]
  have ht' := ht
  rw [hrun] at ht'
  rw [C38_requested_type _ _ t m ht' hd]
  obtain ⟨tag', hi'⟩ := hi.run [.call k 0x8614 timeout]
  obtain ⟨u, hu, e, -, -⟩ := (Prov.call (P := fun _ => True) hi k 0x8614 timeout).run ops' hi' (fun m hm => trivial)
  rw [show t = u from Option.some.inj (ht.symm.trans hu)]
  exact e

/-- **C106.** The question names the class. -/
theorem C106_question_partial (c : Nat) (h : c < 256) : ∃ m, Version.question c = .ok m ∧ compose m = .ok [0x86, 0x13, UInt8.ofNat c] := by
  have key : ∀ c : Fin 256, (Version.question c.val >>= compose) = .ok [0x86, 0x13, UInt8.ofNat c.val] := by decide +kernel
  obtain ⟨m, h1, h2⟩ := bind_ok (key ⟨c, h⟩)
  exact ⟨m, h1, h2⟩

/-- **C106.** The version that is taken from an answer is the one in the report; a report that ends before the version raises TypeError. -/
theorem C106_taken_partial (c v : UInt8) (tl : Bytes) :
    (∃ m, decode (0x86 :: 0x14 :: c :: v :: tl) = .ok m ∧ ReportOf m c.toNat ∧ Version.taken (.ok m) = .ok v.toNat) ∧
    ∃ m, decode [0x86, 0x14, c] = .ok m ∧ Version.taken (.ok m) = .error .type := by
  have hf : registry.find? (fun d => d.hid = Reg.Version.VersionCommandClassReport.hid) = some Reg.Version.VersionCommandClassReport := by decide +kernel
  constructor
  · rw [decode_def (d := Reg.Version.VersionCommandClassReport) (by decide +kernel) _ _ (by decide)]
    simp only [Reg.Version.VersionCommandClassReport]
    step_u8 c
    step_u8 v
    refine ⟨_, rfl, ⟨rfl, rfl⟩, ?_⟩
    rfl
  · rw [decode_def (d := Reg.Version.VersionCommandClassReport) (by decide +kernel) _ _ (by decide)]
    simp only [Reg.Version.VersionCommandClassReport]
    step_u8 c
    rw [show ∀ all dec fs acc, parseFields all dec fs ⟨[0x86, 0x14, c], 24⟩ acc = .ok (acc, none, ⟨[0x86, 0x14, c], 24⟩) from fun all dec fs acc => by
      cases fs <;> simp [parseFields, Reader.bytesLeft]]
    refine ⟨_, rfl, ?_⟩
    have key : ∀ h a, registry.find? (fun d => d.hid = h) = some Reg.Version.VersionCommandClassReport → Dict.get? a "commandClassVersion" = none →
        Version.taken (.ok (.known h a)) = .error .type := by
      intro h a hf ha
      have hg : getAttr registry (.known h a) "commandClassVersion" = none := by
        unfold getAttr
        rw [show Msg.attr (.known h a) "commandClassVersion" = none from ha]
        simp only [show (Msg.known h a).hid = h from rfl]
        rw [hf]
        rfl
      simp only [Version.taken, hg]
    exact key _ _ hf rfl

/-- **C106.** The call stores it and tells listeners, and an exception changes nothing. -/
theorem C106_stored_partial (ops : List Interview.Op) (id i : Nat) (c : Interview.Call) (r : Py Msg) (hc : (Interview.run (Interview.fresh id) ops).calls[i]? = some c)
    (hp : c.pc = .version) :
    let s := Interview.run (Interview.fresh id) ops
    let s' := Interview.step s (.versionAnswer i (Version.taken r))
    (∀ v, Version.taken r = .ok v → s'.version = v ∧ s'.told = s.told + 1) ∧
    (∀ e, (r = .error e ∨ Version.taken r = .error e) → s'.version = s.version ∧ s'.told = s.told ∧ s'.interviewed = s.interviewed) := by
  intro s s'
  simp only [s', Interview.step, show s.calls[i]? = some c from hc, hp, if_true]
  constructor
  · intro v hv
    rw [hv]
    simp only
    split
    · exact ⟨rfl, rfl⟩
    · split <;> exact ⟨rfl, rfl⟩
  · intro e he
    have he : Version.taken r = .error e := by
      rcases he with rfl | he
      · rfl
      · exact he
    rw [he]
    cases e <;> exact ⟨rfl, rfl, rfl⟩

end Props.Version
