import Verif.Lemmas.InTimeUpdate
import Verif.Props.InTime
/-!
# Property theorems C144: updates while the answers arrive in time
-/
namespace Props.InTimeUpdate
open Spec Spec.App Spec.Peer Model Model.Boot
open Model.App (Nd key)

attribute [local irreducible] Gateway.step decode

/-- What an update leaves behind. -/
theorem ended {w : Network} {s0 app : App.State} {list : List Nat} (hor : Orderly s0.nodes) (hoth : ∀ k nd, (k, nd) ∈ s0.nodes → nd.root ≠ w.own.toNat) (h0 : s0.own = w.own.toNat)
    (hs : Sofar w s0 app list) (hh : Lemmas.App.Honest (w.net list) s0.trace app) (hd : app.calls[s0.calls.length]? = some (.done (.ok ()))) :
    (Orderly app.nodes ∧ ∀ k nd, (k, nd) ∈ app.nodes → nd.root ≠ w.own.toNat) ∧ (∀ n, key n 0 ∈ Dict.keys app.nodes ↔ n ∈ w.nodes ∧ n ≠ w.own.toNat) ∧
      ∃ (gone : List Str) (new : List Nd), gone = Dict.keys (s0.nodes.filter fun p => p.2.root ∉ list) ∧
        app.nodes = s0.nodes.filter (fun p => p.2.root ∈ list) ++ new.map (fun nd => (nd.id, nd)) ∧
        new.map descr = newNodes w.own.toNat (w.net list) (fun n => key n 0 ∈ Dict.keys s0.nodes) list ∧
        told (since s0 app) = gone.map (.removed s0.calls.length) ++ (if gone = [] then [] else [.removedAll s0.calls.length gone]) ++
          if new = [] then [] else .addedAll s0.calls.length new :: new.map (.added s0.calls.length) := by
  obtain ⟨answers, ha⟩ := hs.run
  have hrep := hh.since
  have l1 := hs.listed.nodup
  obtain ⟨new, n1, n2, n3, n4⟩ := Props.App.C53_nodes (net := w.net list) (k := .update) hor l1 (by simp) ha hrep hd
  obtain ⟨gone, new', t1, t2, t3⟩ := Props.App.C54_told (net := w.net list) hor l1 ha hrep hd
  have hnew : new' = new := by
    have := t2.symm.trans n1
    have := List.append_cancel_left this
    have := congrArg (List.map Prod.snd) this
    simpa [List.map_map, Function.comp_def] using this
  subst hnew
  rw [h0] at n2
  refine ⟨⟨n4, fun k nd hk => ?_⟩, fun n => ?_, gone, new', t1, n1, n2, t3⟩
  · rw [n1, List.mem_append] at hk
    rcases hk with hk | hk
    · exact hoth k nd (List.mem_filter.1 hk).1
    · obtain ⟨nd', hnd, e'⟩ := List.mem_map.1 hk
      obtain ⟨-, rfl⟩ := Prod.mk.inj e'
      exact Props.Follow.new_others n2 hnd
  · rw [Props.App.C53_ids (net := w.net list) (k := .update) hor (by rw [h0]; exact hoth) l1 (by simp) ha hrep hd n 0, h0]
    show n ∈ list ∧ _ ↔ _
    rw [hs.listed.mem]
    refine and_congr_right fun _ => ⟨fun h => h.1, fun h => ⟨h, ?_⟩⟩
    split
    · assumption
    · exact .inl rfl

/-- **C144**, nothing goes wrong: the gateway has a new list of nodes and has said so, and the update has begun. Whatever happens in time (reports with further lists of nodes too), the update has not
raised. If it has ended, the table has the nodes it had before and that are in the list, as they were, followed by the new nodes and their end points with what the gateway knows of them; the
listeners have been told of the nodes removed and added, in this order; and everything is as it was before the call, so that the next one can begin. -/
theorem C144_safe (w : Network) (hw : w.Regular) (s : State) (hs : Informed w s) (ops : List Op) (ht : InTimeFor w s.app.calls.length (step s .update) ops) :
    ∃ pc, (Boot.run (step s .update) ops).app.calls[s.app.calls.length]? = some pc ∧ ∀ r, pc = .done r → r = .ok () ∧
      let t := Boot.run (step s .update) ops
      Between w.own.toNat t ∧ (∀ n, key n 0 ∈ Dict.keys t.app.nodes ↔ MarkedIn w.mask n ∧ n ≠ w.own.toNat) ∧
      ∃ (list : List Nat) (gone : List Str) (new : List Nd), list.Nodup ∧ (∀ n, n ∈ list ↔ MarkedIn w.mask n) ∧ gone = Dict.keys (s.app.nodes.filter fun p => p.2.root ∉ list) ∧
        t.app.nodes = s.app.nodes.filter (fun p => p.2.root ∈ list) ++ new.map (fun nd => (nd.id, nd)) ∧
        new.map descr = newNodes w.own.toNat (w.net list) (fun n => key n 0 ∈ Dict.keys s.app.nodes) list ∧
        told (since s.app t.app) = gone.map (.removed s.app.calls.length) ++ (if gone = [] then [] else [.removedAll s.app.calls.length gone]) ++
          if new = [] then [] else .addedAll s.app.calls.length new :: new.map (.added s.app.calls.length) := by
  have hst : UStage w s.app s.waits (s.updates + 1) (Boot.run (step s .update) ops) := UStage.run hw hs.self ops ⟨_, .inr (.inl (update_back hs))⟩ ht
  obtain ⟨gops, hg⟩ := run_reached hs.reached (.update :: ops)
  have hg : (Boot.run (step s .update) ops).gw = Gateway.run Gateway.init gops := hg
  generalize Boot.run (step s .update) ops = t at hst hg
  obtain ⟨n, ⟨g, app, J, a, K, T, hid, m, d, N, r, rfl, h1, h2, h3, hN, h4, h5, pc, h6, h7⟩ | ⟨g, app, J, r, rfl, h1, h2, h4, h5, pc, h6, h7⟩ |
    ⟨b, g, app, list, pc, rfl, h1, h2, h3, h4, h5, h6, h7, h8, h9⟩⟩ := hst
  · refine ⟨pc, h6, fun r' e => ?_⟩
    subst e
    obtain ⟨a, list, b, ha, -⟩ := h7 []
    cases ha
  · refine ⟨pc, h6, fun r' e => ?_⟩
    subst e
    obtain ⟨a, list, b, ha, -⟩ := h7 []
    cases ha
  · refine ⟨pc, h6, fun r e => ?_⟩
    subst e
    obtain rfl : r = .ok () := h7
    obtain ⟨⟨e1, e2⟩, e3, gone, new, e4, e5, e6, e7⟩ := ended hs.orderly hs.others hs.self h3 h5 h6
    refine ⟨rfl, ⟨calm_idle h1 ⟨gops, hg⟩, h2, h3.own.trans hs.self, fun pc hpc => ?_, e1, e2⟩, fun n => by rw [← mem_nodes hw.mask]; exact e3 n, list, gone, new, h3.listed.nodup,
      fun n => by rw [h3.listed.mem, mem_nodes hw.mask], e4, e5, e6, e7⟩
    obtain ⟨j, hj, e⟩ := List.getElem_of_mem hpc
    have hj' : app.calls[j]? = some pc := List.getElem?_eq_some_iff.2 ⟨hj, e⟩
    by_cases hi : j = s.app.calls.length
    · subst hi
      rw [h6] at hj'
      cases hj'
      exact ⟨_, rfl⟩
    · exact h3.alone j pc hi hj'

/-- **C144**, it never gets stuck: whatever has happened in time, the update ends without an exception if what is still missing arrives in time. -/
theorem C144_live (w : Network) (hw : w.Regular) (s : State) (hs : Informed w s) (ops : List Op) (ht : InTimeFor w s.app.calls.length (step s .update) ops) :
    ∃ more, InTimeFor w s.app.calls.length (step s .update) (ops ++ more) ∧ (Boot.run (step s .update) (ops ++ more)).app.calls[s.app.calls.length]? = some (.done (.ok ())) := by
  have hst : UStage w s.app s.waits (s.updates + 1) (Boot.run (step s .update) ops) := UStage.run hw hs.self ops ⟨_, .inr (.inl (update_back hs))⟩ ht
  obtain ⟨more, h1, h2⟩ := hst.live hw hs.self
  exact ⟨more, inTimeFor_append ops more ht h1, by rw [Boot.run_append]; exact h2⟩

/-- **C144**, the beginning: when startup has ended in time (C143), everything is as an update needs it. -/
theorem C144_started (w : Network) (hw : w.Regular) (g : Gateway.State) (hg : Ready w g) (ops : List Op) (ht : InTime w (starting g) ops) (r : Py Unit)
    (hd : (Boot.run (starting g) ops).app.calls = [.done r]) : Between w.own.toNat (Boot.run (starting g) ops) := by
  have hs : Stage w (Boot.run (starting g) ops) := Stage.run hw ops (.inl ⟨_, start_stage hw hg⟩) ht
  obtain ⟨gops, hr⟩ := run_reached (s := ⟨g, App.fresh 0, fun _ => none, 0⟩) hg.reached (.startup :: ops)
  have hr : (Boot.run (starting g) ops).gw = Gateway.run Gateway.init gops := hr
  generalize Boot.run (starting g) ops = t at hs hr hd
  rcases hs with ⟨n, ⟨g', app, J, a, K, T, hid, m, d, N, r', rfl, h1, h2, h3, pc, h4, h5⟩ | ⟨g', app, J, r', rfl, h1, h2, pc, h4, h5⟩⟩ | ⟨g', app, list, pc, rfl, h1, h2, h3, h4, h5, h6⟩
  · have e : pc = .done r := by
      have hd : app.calls = [.done r] := hd
      rw [hd] at h4; cases h4; rfl
    subst e
    obtain ⟨a, list, ha, -⟩ := h5 []
    cases ha
  · have e : pc = .done r := by
      have hd : app.calls = [.done r] := hd
      rw [hd] at h4; cases h4; rfl
    subst e
    obtain ⟨a, list, ha, -⟩ := h5 []
    cases ha
  · have hd : app.calls = [.done r] := hd
    have e : pc = .done r := by rw [hd] at h5; cases h5; rfl
    subst e
    cases h6
    have hown : app.own = w.own.toNat := h4.own
    obtain ⟨answers, e6, e7⟩ := h4
    obtain ⟨new, n1, n2, -, n4⟩ := Props.App.C53_nodes (s0 := App.fresh w.own.toNat) (s := app) (net := w.net list) (k := .startup) (answers := answers)
      ⟨by simp [App.fresh, Dict.keys], by simp [App.fresh], by simp [App.fresh]⟩ h3.nodup (fun _ => rfl) e6 e7 (by rw [hd]; rfl)
    refine ⟨calm_idle h1 ⟨gops, hr⟩, h2, hown, fun pc hpc => ?_, n4, fun k nd hk => ?_⟩
    · have hpc : pc ∈ app.calls := hpc
      rw [hd, List.mem_singleton] at hpc
      exact ⟨_, hpc⟩
    · have hk : (k, nd) ∈ app.nodes := hk
      rw [n1, List.mem_append] at hk
      rcases hk with hk | hk
      · cases hk
      · obtain ⟨nd', hnd, e'⟩ := List.mem_map.1 hk
        obtain ⟨-, rfl⟩ := Prod.mk.inj e'
        exact Props.Follow.new_others n2 hnd

/-- **C144**, in between: what happens to the gateway in time while no call runs, reports with new lists of nodes among them, leaves everything as an update needs it. -/
theorem C144_between (w : Network) (s : State) (hs : Between w.own.toNat s) (o : Gateway.Op) (hf : FineGateway w s.gw o) : Between w.own.toNat (step s (.gw o)) := by
  obtain ⟨e1, e2, e3⟩ := (idle_calm hs.toIdle).step hf
  obtain ⟨gops, hg⟩ := run_reached hs.reached [.gw o]
  refine ⟨calm_idle e1 ⟨gops, hg⟩, ?_, hs.self, hs.calls, hs.orderly, hs.others⟩
  rw [← hs.id]
  show ((Gateway.step s.gw o).nodeId.getD 0).toNat = _
  rw [e2]
  rfl

/-! ## Examples -/

open Props.Follow (alone addresses freedom)

/-- Question `k` is acknowledged and answered. -/
def exchange (w : Network) (c : Gateway.Nm) (k : Nat) : List Op :=
  [.gw (.conn (.packet [0x23, 0x02, 0x40, 0x10, UInt8.ofNat (k + 1), 0, 0])), .gw (.conn (.resume k)), .gw (.job k []),
   .gw (.conn (.packet ([0x23, 0x02, 0x00, 0x40, UInt8.ofNat (k + 1), 0, 0] ++ w.report (nmBytes (k + 1) c)))), .gw (.conn (.waiter (.resume k))), .gw (.job k []), .resume 0 []]

/-- Startup with the gateway alone; then nodes 2 and 3 join. -/
def history : List Op := [.gw (.conn .connect), .startup] ++ exchange alone .getNodeList 0 ++ exchange alone .getFailedNodeList 1 ++ [.asked 0 (.ok ()),
  .gw (.unsolicited (Props.Startup.home.notice freedom.header 1 0) [] []),
  .gw (.conn (.packet (addresses.advertisement 2))), .gw (.conn (.waiter (.resume 2))), .gw (.job 2 []),
  .gw (.conn (.packet (addresses.advertisement 3))), .gw (.conn (.waiter (.resume 3))), .gw (.job 2 [])]

def grown : State := Boot.run Boot.init history

theorem grown_app : grown.app.calls = [.done (.ok ())] ∧ grown.app.nodes = [] ∧ grown.app.own = 1 := by decide +kernel

theorem grown_jobs : (grown.gw.jobs.map fun j => match j with | .ask _ _ _ => true | _ => false) = [false, false, false] := by decide +kernel

theorem grown_sends : grown.gw.conn.sends.map (·.pc) = [.done (.ok true), .done (.ok true)] := by decide +kernel

theorem grown_tasks : (grown.gw.conn.w.tasks.map fun t => match t.pc with | .done _ => true | _ => false) = [true, true, true, true] := by decide +kernel

theorem grown_keys : Dict.keys grown.gw.nodes = [1, 2, 3] := by decide +kernel

theorem grown_informed : Informed Props.Startup.home grown where
  reached := run_reached (s := Boot.init) ⟨[], rfl⟩ history
  connected := by decide +kernel
  sends := fun u hu => by
    have := List.mem_map_of_mem (f := (·.pc)) hu
    rw [grown_sends] at this
    exact ⟨.ok true, by simpa using this, by simp⟩
  tasks := fun t ht _ => by
    have := List.mem_map_of_mem (f := fun t : Waiter.Task => match t.pc with | .done _ => true | _ => false) ht
    rw [grown_tasks] at this
    cases hp : t.pc with
    | done r => exact ⟨r, rfl⟩
    | _ => rw [hp] at this; simp at this
  jobs := fun a t k hj => by
    have := List.mem_map_of_mem (f := fun j : Gateway.Job => match j with | .ask _ _ _ => true | _ => false) hj
    rw [grown_jobs] at this
    simp at this
  id := by decide +kernel
  self := grown_app.2.2
  calls := fun pc hpc => by
    rw [grown_app.1, List.mem_singleton] at hpc
    exact ⟨_, hpc⟩
  orderly := by rw [grown_app.2.1]; exact ⟨by simp [Dict.keys], by simp, by simp⟩
  others := by rw [grown_app.2.1]; simp
  said := by decide +kernel
  some := by decide +kernel
  table := by rw [grown_keys]; decide
  list := fun n => by rw [grown_keys, show Props.Startup.home.nodes = [1, 2, 3] by decide +kernel]
  enough := by decide +kernel

/-- Node 3 leaves again while the update is going on, and node 2 has been asked for: this is in time. -/
def leaving : List Op := [.resume 1 [], .gw (.unsolicited ({ Props.Startup.home with mask := 3 :: List.replicate 27 0 }.notice freedom.header 2 0) [] []), .gw (.conn .tick), .resume 0 []]

theorem leaving_inTime : InTimeFor Props.Startup.home grown.app.calls.length (step grown .update) leaving := ⟨trivial, trivial, trivial, trivial, trivial⟩

example : (Boot.run (step grown .update) leaving).app.calls.map query = [none, some (.getNodeInfo 2)] ∧ Dict.keys (Boot.run (step grown .update) leaving).gw.nodes = [1, 2] := by decide +kernel

example : ∃ more, (Boot.run (step grown .update) (leaving ++ more)).app.calls[1]? = some (.done (.ok ())) ∧
    ∀ n, key n 0 ∈ Dict.keys (Boot.run (step grown .update) (leaving ++ more)).app.nodes ↔ MarkedIn Props.Startup.home.mask n ∧ n ≠ 1 := by
  have hlen : grown.app.calls.length = 1 := by rw [grown_app.1]; rfl
  obtain ⟨more, h1, h2⟩ := C144_live Props.Startup.home Props.Startup.home_regular grown grown_informed leaving leaving_inTime
  obtain ⟨pc, h3, h4⟩ := C144_safe Props.Startup.home Props.Startup.home_regular grown grown_informed _ h1
  obtain ⟨-, -, h5, -⟩ := h4 _ (by rw [h2] at h3; exact (Option.some.inj h3).symm)
  rw [hlen] at h2
  exact ⟨more, h2, h5⟩

end Props.InTimeUpdate
