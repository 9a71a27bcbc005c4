import Verif.Props.Device
/-!
# Property theorems C130, continued: what counts as handled
-/
namespace Props.Device
open Spec Model Model.Device Spec.System
open Model.App (Nd)
open Model.Listen (Ret Fut speak gather ask)
open Model.System (Hands)

/-- A true value: True or an object that is. -/
def IsTrue (r : Ret) : Prop := r = .bool true ∨ r = .other true

/-- One of the listeners returned a true value. -/
def SomeoneHandled (l : List (Option (Py Ret))) : Prop := ∃ r, some (.ok r) ∈ l ∧ IsTrue r

theorem truthy_iff (r : Ret) : r.truthy = true ↔ IsTrue r := by
  cases r with
  | none => simp [Ret.truthy, IsTrue]
  | bool b => simp [Ret.truthy, IsTrue]
  | other b => simp [Ret.truthy, IsTrue]

section
attribute [local instance low] Classical.propDecidable

theorem gather_speak (f : List (Option (Py Ret))) : ∀ (i : Nat) (d d' : Dev), gather (speak i (callbacks f) d).2.2 d' = .ok (f.filterMap fun a => a.bind Except.toOption) := by
  induction f with
  | nil => intro i d d'; rfl
  | cons a f ih =>
    intro i d d'
    cases a with
    | none => exact ih (i + 1) d d'
    | some r =>
      cases r with
      | error e => exact ih (i + 1) d d'
      | ok v =>
        have := ih (i + 1) d d'
        show (gather (speak (i + 1) (callbacks f) d).2.2 d').map (v :: ·) = _
        rw [this]
        rfl

theorem ask_callbacks (f : List (Option (Py Ret))) (d : Dev) : ((ask (callbacks f) d).2.2.map (·.any Ret.truthy)) = .ok (decide (SomeoneHandled f)) := by
  unfold ask
  dsimp only
  rw [gather_speak]
  simp only [Except.map]
  congr 1
  rw [Bool.eq_iff_iff, decide_eq_true_iff, List.any_eq_true]
  constructor
  · rintro ⟨r, hr, ht⟩
    obtain ⟨a, ha, hb⟩ := List.mem_filterMap.1 hr
    cases a with
    | none => cases hb
    | some q =>
      cases q with
      | error e => cases hb
      | ok v => cases hb; exact ⟨_, ha, (truthy_iff _).1 ht⟩
  · rintro ⟨r, hr, ht⟩
    exact ⟨r, List.mem_filterMap.2 ⟨_, hr, rfl⟩, (truthy_iff r).2 ht⟩

/-- The messages that the library handles itself. -/
def handled : List Nat := [0x7006, 0x3105, 0x5902, 0x5904, 0x5906]

theorem handler_none (cls hid : Nat) (h : hid ∉ handled) : handler cls hid = none := by
  simp only [handled, List.mem_cons, List.not_mem_nil, or_false, not_or] at h
  obtain ⟨h1, h2, h3, h4, h5⟩ := h
  unfold handler
  split
  · unfold builtin
    rw [if_neg (show ¬ hid = Reg.Configuration.Report.hid from h1), if_neg (show ¬ hid = Reg.SensorMultilevel.Report.hid from h2),
      if_neg (show ¬ hid = Reg.AssociationGrpInfo.GroupNameReport.hid from h3), if_neg (show ¬ hid = Reg.AssociationGrpInfo.GroupCommandListReport.hid from h5)]
  · rfl

/-- **C130.** A supervised command that the library does not handle itself counts as handled exactly if a call was waiting for it, or the node supports its class and a listener of
the class returned a true value, or a listener of the node did. Listeners that raise do not count, and nothing else does. -/
theorem C130_heard {s : State} {i : Nat} {nd : Nd} {m c : Msg} (hh : Hands s.sys i nd m c) (hm : m.hid = 0x6C01) (hc : c.hid ∉ handled) (hn : ∃ d ∈ registry, d.hid = c.hid)
    (hk : (∃ a, c = .known c.hid a) ∨ ∃ a q, c = .wrap c.hid a q) (x : Heard)
    (hw : ∀ f, (s.sys.waiters nd.obj).sessions.get? c.hid = some f → (s.sys.waiters nd.obj).futs[f]? = some .pending) (v : Int) (hv : m.num? "sessionID" = some v) (v0 : 0 ≤ v)
    (v1 : v < 64) :
    ∃ call b, (step s (.deliver i x)).sys.net.calls[s.sys.net.calls.length]? = some call ∧ call.node = nd.root ∧ call.destEP = nd.ep ∧
      compose call.cmd = .ok [0x6C, 0x02, UInt8.ofNat v.toNat, if b then 0xFF else 0x00, 0x00] ∧
      (b = true ↔ (∃ f, (s.sys.waiters nd.obj).sessions.get? c.hid = some f) ∨ (supports nd c.cmdClass = true ∧ SomeoneHandled x.cls) ∨ SomeoneHandled x.node) := by
  have hr := C130_result hh hm (fun h => hc (by rw [h]; decide)) x hw v hv v0 v1
  obtain ⟨t, ht⟩ := hands_waiter hh hw
  have htaken : t = true ↔ ∃ f, (s.sys.waiters nd.obj).sessions.get? c.hid = some f := by
    unfold Waiter.messageReceived at ht
    cases hg : (s.sys.waiters nd.obj).sessions.get? c.hid with
    | none => rw [hg] at ht; cases ht; simp
    | some f => rw [hg] at ht; simp only [hw f hg] at ht; cases ht; simp
  have hname : ∃ name, Node.nameOf c = some name := by
    obtain ⟨d, hd, he⟩ := hn
    have : ∃ d, registry.find? (fun d => d.hid = c.hid) = some d := by
      cases hf : registry.find? (fun d => d.hid = c.hid) with
      | some d => exact ⟨d, rfl⟩
      | none => exact absurd (by simpa using he) (List.find?_eq_none.1 hf d hd)
    obtain ⟨d', hd'⟩ := this
    refine ⟨d'.msgName, ?_⟩
    rcases hk with ⟨a, ha⟩ | ⟨a, q, ha⟩ <;>
    · unfold Node.nameOf
      rw [ha]
      dsimp only
      rw [hd']
      rfl
  obtain ⟨name, hname⟩ := hname
  have key : (Node.handlePlain (env nd x) ⟨s.sys.waiters nd.obj, s.devs nd.obj, []⟩ c).2 =
      .ok (decide (t = true ∨ (supports nd c.cmdClass = true ∧ SomeoneHandled x.cls) ∨ SomeoneHandled x.node)) := by
    have hfall : ∀ w : Node.World Dev, (Node.fallback (env nd x) w t c).2 = .ok (decide (t = true ∨ SomeoneHandled x.node)) := by
      intro w
      unfold Node.fallback Node.askNode
      cases t with
      | true => simp
      | false =>
        rw [if_neg (by simp)]
        show ((ask (callbacks x.node) w.user).2.2.map (·.any Ret.truthy)) = _
        rw [ask_callbacks]
        simp
    have hcls : ∀ w : Node.World Dev, (Node.classHandle (env nd x) w c.cmdClass c).2 = .ok (decide (SomeoneHandled x.cls)) := by
      intro w
      unfold Node.classHandle
      rw [hname]
      dsimp only
      rw [show (env nd x).handler c.cmdClass c.hid = none from handler_none _ _ hc]
      exact ask_callbacks x.cls w.user
    unfold Node.handlePlain
    dsimp only
    rw [ht]
    dsimp only
    by_cases hs : supports nd c.cmdClass = true
    · rw [if_pos (show (env nd x).supported c.cmdClass = true from hs)]
      rw [hcls]
      by_cases hp : SomeoneHandled x.cls
      · simp [hp, hs]
      · simp only [hp, decide_false, and_false, false_or]
        rw [hfall]
    · rw [if_neg (show ¬ (env nd x).supported c.cmdClass = true from hs), hfall]
      simp [hs]
  rw [key] at hr
  obtain ⟨-, call, c1, c2, c3, -, c5⟩ := hr
  refine ⟨call, _, c1, c2, c3, c5, ?_⟩
  rw [decide_eq_true_iff, htaken]

end

/-- A supervised Configuration.Get that only a listener of the class handles, and one that nobody handles. -/
example : let s := run (init 1) (up ++ [.sys (.net (.gw (rcv [0x6C, 0x01, 0x05, 3, 0x70, 0x05, 0x01]))), .deliver 0 ⟨[none, some (.ok (.bool true))], [some (.error .key)]⟩,
      .sys (.net (.gw (rcv [0x6C, 0x01, 0x06, 3, 0x70, 0x05, 0x01]))), .deliver 1 ⟨[some (.ok .none)], [some (.error .key)]⟩])
    (s.sys.net.calls.drop 1).map (fun c => (c.node, c.destEP, compose c.cmd)) = [(2, 0, .ok [0x6C, 0x02, 5, 0xFF, 0]), (2, 0, .ok [0x6C, 0x02, 6, 0, 0])] := by decide +kernel

end Props.Device
