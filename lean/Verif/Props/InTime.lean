import Verif.Lemmas.InTime
/-!
# Property theorems C143: startup while the answers arrive in time
-/
namespace Props.InTime
open Spec Spec.App Spec.Peer Model Model.Boot
open Model.App (Nd)

/-- **C143**, nothing goes wrong: whatever happens in time, `startup()` has not raised. If it has ended, the table has the nodes of the network (in some order) without the gateway itself, each followed
by its end points, with what the gateway knows of them; and the listeners have been told of all of them and then of each of them, once. -/
theorem C143_safe (w : Network) (hw : w.Regular) (g : Gateway.State) (hg : Ready w g) (ops : List Op) (ht : InTime w (starting g) ops) :
    ∃ pc, (Boot.run (starting g) ops).app.calls = [pc] ∧ ∀ r, pc = .done r → r = .ok () ∧
      ∃ (list : List Nat) (new : List Nd), list.Nodup ∧ (∀ n, n ∈ list ↔ MarkedIn w.mask n) ∧ (Boot.run (starting g) ops).app.nodes = new.map (fun nd => (nd.id, nd)) ∧
        new.map descr = newNodes w.own.toNat (w.net list) (fun _ => false) list ∧ told (Boot.run (starting g) ops).app.trace = .addedAll 0 new :: new.map (.added 0) := by
  have hs : Stage w (Boot.run (starting g) ops) := Stage.run hw ops (.inl ⟨_, start_stage hw hg⟩) ht
  generalize Boot.run (starting g) ops = s at hs
  rcases hs with ⟨n, ⟨g', app, J, a, K, T, hid, m, d, N, r, rfl, h1, h2, h3, pc, h4, h5⟩ | ⟨g', app, J, r, rfl, h1, h2, pc, h4, h5⟩⟩ | ⟨g', app, list, pc, rfl, h1, h2, h3, h4, h5, h6⟩
  · refine ⟨pc, h4, fun r' e => ?_⟩
    subst e
    obtain ⟨a, list, ha, -⟩ := h5 []
    cases ha
  · refine ⟨pc, h4, fun r' e => ?_⟩
    subst e
    obtain ⟨a, list, ha, -⟩ := h5 []
    cases ha
  · refine ⟨pc, h5, fun r e => ?_⟩
    subst e
    cases h6
    obtain ⟨answers, e6, e7⟩ := h4
    obtain ⟨new, n1, n2, n3⟩ := Props.App.C95_started (s0 := App.fresh w.own.toNat) (s := app) (net := w.net list) (answers := answers) h3.nodup rfl e6 e7 (by rw [h5]; rfl)
    exact ⟨rfl, list, new, h3.nodup, fun n => by rw [h3.mem, mem_nodes hw.mask], n1, n2, n3⟩

/-- **C143**, it never gets stuck: whatever has happened in time, startup ends without an exception if what is still missing arrives in time. -/
theorem C143_live (w : Network) (hw : w.Regular) (g : Gateway.State) (hg : Ready w g) (ops : List Op) (ht : InTime w (starting g) ops) :
    ∃ more, InTime w (starting g) (ops ++ more) ∧ (Boot.run (starting g) (ops ++ more)).app.calls = [.done (.ok ())] := by
  have hs : Stage w (Boot.run (starting g) ops) := Stage.run hw ops (.inl ⟨_, start_stage hw hg⟩) ht
  obtain ⟨more, h1, h2⟩ := hs.live hw
  exact ⟨more, inTime_append ops more ht h1, by rw [Boot.run_append]; exact h2⟩

/-! ## Examples -/

/-- A gateway that has just been connected. -/
def fresh : Gateway.State := Gateway.run Gateway.init [.conn .connect]

theorem fresh_ready : Ready Props.Startup.home fresh where
  reached := ⟨_, rfl⟩
  connected := rfl
  sends := fun u hu => by cases hu
  tasks := fun t ht => by cases ht
  jobs := fun a t k h => by cases h
  list := .inl rfl
  enough := by decide +kernel

/-- The report on the first question. -/
def first : Bytes := [0x23, 0x02, 0x00, 0x40, 1, 0, 0, 0x52, 0x02, 1, 0, 1, 7] ++ List.replicate 27 0

/-- The answer arrives twice and before the acknowledgement, the clock ticks, there is a keep-alive, and the listeners of the gateway are asked: this is in time, and startup then asks for node 2. -/
def early : List Op := [.gw (.conn (.packet first)), .gw (.conn .tick), .gw (.conn (.packet first)), .gw (.conn (.waiter (.call .plain 0x2501 3))), .gw (.conn (.packet [0x23, 0x02, 0x40, 0x10, 1, 0, 0])),
  .gw (.conn (.resume 0)), .resume 0 [], .gw (.job 0 []), .gw (.conn (.waiter (.resume 0))), .gw (.job 0 []), .resume 0 [3, 2, 1]]

theorem early_inTime : InTime Props.Startup.home (starting fresh) early := by
  have hl : ∀ c : Conn.State, lastQuestion c.out = lastQuestion (starting fresh).gw.conn.out → FineConn Props.Startup.home c (.packet first) := by
    intro c hc p m _ _ _
    rw [hc]
    exact ⟨_, rfl, by decide +kernel⟩
  have ha : ∀ c : Conn.State, FineConn Props.Startup.home c (.packet [0x23, 0x02, 0x40, 0x10, 1, 0, 0]) := by
    intro c p m h1 h2
    have : decode [0x23, 0x02, 0x40, 0x10, 1, 0, 0] = .ok (.known 0x2302 (zipAll 0x40 0x10 1 0 0 none)) := by rw [zip_decode]; rfl
    rw [this] at h1
    cases h1
    exact absurd h2 (by simp [Msg.command])
  exact ⟨hl _ rfl, trivial, hl _ (by decide +kernel), (rfl : proxy 0x2501 = false), ha _, trivial, trivial, trivial, trivial, trivial, trivial, trivial⟩

example : (Boot.run (starting fresh) early).app.calls.map query = [some (.getNodeInfo 3)] := by decide +kernel

example : ∃ more, (Boot.run (starting fresh) (early ++ more)).app.calls = [.done (.ok ())] := by
  obtain ⟨more, -, h⟩ := C143_live Props.Startup.home Props.Startup.home_regular fresh fresh_ready early early_inTime
  exact ⟨more, h⟩

end Props.InTime
