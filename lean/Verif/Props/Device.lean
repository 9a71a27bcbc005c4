import Verif.Lemmas.Device
import Verif.Props.Configuration
import Verif.Props.Node
import Verif.Props.Wire
import Verif.Props.System
/-!
# Property theorems C129 to C131: what the node objects hold and which supervised commands are answered
-/
namespace Props.Device
open Spec Model Model.Device Spec.System
open Model.App (Nd)
open Model.Classes
open Model.System (Hands)

/-! ## Where a message came from -/

/-- The command `c` came in a datagram from the end point. -/
def Came (own : Nat) (ops : List Op) (nd : Nd) (c : Msg) : Prop :=
  ∃ before o after, ops = before ++ .sys (.net (.gw o)) :: after ∧ FromNode (run (init own) before).sys.net.gw o nd.root nd.ep c

/-- The message came in a datagram from the end point, perhaps in a Supervision Get. -/
def Said (own : Nat) (ops : List Op) (nd : Nd) (m : Msg) : Prop := ∃ c, Wraps c m ∧ Came own ops nd c

/-- The node object has been in the table. -/
def Known (own : Nat) (ops : List Op) (nd : Nd) : Prop := ∃ pre post, ops = pre ++ post ∧ (nd.id, nd) ∈ (run (init own) pre).sys.app.nodes

theorem Came.mono {own : Nat} {ops : List Op} {nd : Nd} {c : Msg} (h : Came own ops nd c) (o : Op) : Came own (ops ++ [o]) nd c := by
  obtain ⟨b, x, a, e, h⟩ := h
  exact ⟨b, x, a ++ [o], by rw [e]; simp, h⟩

theorem Said.mono {own : Nat} {ops : List Op} {nd : Nd} {m : Msg} (h : Said own ops nd m) (o : Op) : Said own (ops ++ [o]) nd m := by
  obtain ⟨c, h1, h2⟩ := h
  exact ⟨c, h1, h2.mono o⟩

theorem Known.mono {own : Nat} {ops : List Op} {nd : Nd} (h : Known own ops nd) (o : Op) : Known own (ops ++ [o]) nd := by
  obtain ⟨b, a, e, h⟩ := h
  exact ⟨b, a ++ [o], by rw [e]; simp, h⟩

theorem hands_came {own : Nat} {ops : List Op} {i : Nat} {nd : Nd} {m c : Msg} (h : Hands (run (init own) ops).sys i nd m c) :
    Known own ops nd ∧ Wraps m c ∧ Came own ops nd m := by
  obtain ⟨os, e, hsplit⟩ := sys_run own ops
  have h' := h
  rw [e] at h'
  obtain ⟨h1, h2, before, o, after, h3, h4⟩ := System.hands_origin h'
  obtain ⟨pre, post, h5, h6⟩ := hsplit before o after h3
  refine ⟨⟨ops, [], by simp, by rw [e]; exact h1⟩, h2, pre, o, post, h5, ?_⟩
  rw [h6]; exact h4

/-- Objects are told apart by their numbers. -/
theorem known_unique {own : Nat} {ops : List Op} {a b : Nd} (ha : Known own ops a) (hb : Known own ops b) (ho : a.obj = b.obj) : a = b := by
  have key : ∀ {pre post : List Op} {a b : Nd}, (a.id, a) ∈ (run (init own) pre).sys.app.nodes → (b.id, b) ∈ (run (init own) (pre ++ post)).sys.app.nodes →
      b.obj = a.obj → b = a := by
    intro pre post a b h1 h2 h3
    obtain ⟨os, e1, -⟩ := sys_run own pre
    have hinv : System.Inv (run (init own) pre).sys := by rw [e1]; exact (System.inv_init own).run os
    have later : ∃ os, (run (run (init own) pre) post).sys = System.run (run (init own) pre).sys os := by
      clear h2
      generalize run (init own) pre = s
      induction post using Conn.snoc_ind with
      | nil => exact ⟨[], rfl⟩
      | snoc l o ih =>
        obtain ⟨os, h⟩ := ih
        rw [run_snoc]
        rcases (step_effect (run s l) o).2.2 with ⟨new, h3, -⟩ | ⟨g, -, h3⟩
        · exact ⟨os ++ new, by rw [h3, h, System.run_append]⟩
        · exact ⟨os ++ [.net (.gw g)], by rw [h3, h, System.run_snoc]⟩
    obtain ⟨os2, e2⟩ := later
    rw [run_append, e2] at h2
    exact System.same_object hinv ⟨_, h1⟩ os2 h2 h3
  obtain ⟨p1, q1, e1, h1⟩ := ha
  obtain ⟨p2, q2, e2, h2⟩ := hb
  rw [e1] at e2
  rcases List.append_eq_append_iff.mp e2 with ⟨z, e3, -⟩ | ⟨z, e3, -⟩
  · rw [e3] at h2; exact (key h1 h2 ho.symm).symm
  · rw [e3] at h1; exact key h2 h1 ho

/-! ## Examples -/

/-- Node 2, with Configuration and Association Group Information. -/
def rich : App.Info := ⟨[0x70, 0x59], 4, 16, 1, true⟩
def node2 : Nd := ⟨0, 2, 0, rich⟩

/-- The application starts, and a connection to node 2 is opened. -/
def up : List Op :=
  ((.start .startup :: [App.Ans.list (.ok [1, 2]), .info (.ok rich), .failed (.ok ()), .asked (.ok ()), .asked (.ok ())].map (.answer 0)).map (fun o => Op.sys (.app o))) ++
  [.sys (.net (.gw (.conn .connect))), .sys (.net (.send 2 (.known 0x2502 []) 0 0 3)),
   .sys (.net (.gw (.conn (.packet ([0x58, 0x01, 0, 2] ++ List.replicate 15 0xFD ++ [2] ++ [1, 2, 3, 4]))))),
   .sys (.net (.gw (.conn (.waiter (.resume 0))))), .sys (.net (.gw (.job 0 []))), .sys (.net (.gw (.opened 0 true))), .sys (.net (.resume 0))]

def packet : ZipHeader := { cmd := true, secure := true, seq := 7, src := 0, dst := 0 }

/-- A packet with these command bytes arrives on the connection to node 2. -/
def rcv (cb : Bytes) : Gateway.Op := .link 0 (.packet (packet.bytes ++ cb))

/-- There are no listeners. -/
def quiet : Heard := ⟨[], []⟩

/-! ## C129 -/

/-- A configuration report `m` for the parameter. -/
def IsConfig (m : Msg) (n : Int) : Prop := m.hid = 0x7006 ∧ numAttr m "parameterNumber" = some n

/-- A group information report that lists the group with the profile. -/
def Lists (m : Msg) (g profile : Int) : Prop := m.hid = 0x5904 ∧ ∃ l, infoGroups m = .ok l ∧ (g, profile) ∈ l

/-- What an object holds, if `S` are the messages from its node and `L` the settings that were loaded. -/
structure Held (S : Msg → Prop) (L : Dict Int Config.Param → Dict Int Agi.Group → Prop) (d : Dev) : Prop where
  param : ∀ n p, d.config.get? n = some p → (∃ c g q, L c g ∧ c.get? n = some q) ∨ ∃ m, S m ∧ IsConfig m n
  value : ∀ n p, d.config.get? n = some p → (∃ c g q, L c g ∧ c.get? n = some q ∧ q.value = p.value) ∨ (∃ m, S m ∧ IsConfig m n ∧ numAttr m "value" = some p.value) ∨
    p.value = 0 ∧ ∃ m, S m ∧ IsConfig m n ∧ numAttr m "value" = none
  size : ∀ n p, d.config.get? n = some p → (∃ c g q, L c g ∧ c.get? n = some q ∧ q.size = p.size) ∨ (∃ m, S m ∧ IsConfig m n ∧ numAttr m "size" = some p.size) ∨
    p.size = 0 ∧ ∃ m, S m ∧ IsConfig m n ∧ (numAttr m "value" = none ∨ numAttr m "size" = none)
  profile : ∀ g grp, d.agi.groups.get? g = some grp → (∃ c gs q, L c gs ∧ gs.get? g = some q ∧ q.profile = grp.profile) ∨ ∃ m, S m ∧ Lists m g grp.profile
  name : ∀ g grp x, d.agi.groups.get? g = some grp → grp.name = some x → (∃ c gs q, L c gs ∧ gs.get? g = some q ∧ q.name = some x) ∨
    ∃ m, S m ∧ m.hid = 0x5902 ∧ numAttr m "groupingIdentifier" = some g ∧ (getAttr registry m "name" = some (.str x) ∨ (∀ y, getAttr registry m "name" ≠ some (.str y)) ∧ x = [78, 111, 110, 101])
  commands : ∀ g grp x, d.agi.groups.get? g = some grp → grp.commands = some x → (∃ c gs q, L c gs ∧ gs.get? g = some q ∧ q.commands = some x) ∨
    ∃ m, S m ∧ m.hid = 0x5906 ∧ numAttr m "groupingIdentifier" = some g ∧ getAttr registry m "commandClass" = some (.pairs x)
  rest : ∀ h : Agi.Info, some h ∈ d.agi.handlers → ∀ p ∈ h.rest, ∃ m, S m ∧ Lists m p.1 p.2

theorem Held.mono {S S' L L'} {d : Dev} (h : Held S L d) (hS : ∀ m, S m → S' m) (hL : ∀ c g, L c g → L' c g) : Held S' L' d := by
  constructor
  · intro n p hp
    exact (h.param n p hp).imp (fun ⟨c, g, q, a, b⟩ => ⟨c, g, q, hL _ _ a, b⟩) (fun ⟨m, a, b⟩ => ⟨m, hS _ a, b⟩)
  · intro n p hp
    exact (h.value n p hp).imp (fun ⟨c, g, q, a, b⟩ => ⟨c, g, q, hL _ _ a, b⟩) (Or.imp (fun ⟨m, a, b⟩ => ⟨m, hS _ a, b⟩) (fun ⟨z, m, a, b⟩ => ⟨z, m, hS _ a, b⟩))
  · intro n p hp
    exact (h.size n p hp).imp (fun ⟨c, g, q, a, b⟩ => ⟨c, g, q, hL _ _ a, b⟩) (Or.imp (fun ⟨m, a, b⟩ => ⟨m, hS _ a, b⟩) (fun ⟨z, m, a, b⟩ => ⟨z, m, hS _ a, b⟩))
  · intro n p hp
    exact (h.profile n p hp).imp (fun ⟨c, g, q, a, b⟩ => ⟨c, g, q, hL _ _ a, b⟩) (fun ⟨m, a, b⟩ => ⟨m, hS _ a, b⟩)
  · intro n p x hp hx
    exact (h.name n p x hp hx).imp (fun ⟨c, g, q, a, b⟩ => ⟨c, g, q, hL _ _ a, b⟩) (fun ⟨m, a, b⟩ => ⟨m, hS _ a, b⟩)
  · intro n p x hp hx
    exact (h.commands n p x hp hx).imp (fun ⟨c, g, q, a, b⟩ => ⟨c, g, q, hL _ _ a, b⟩) (fun ⟨m, a, b⟩ => ⟨m, hS _ a, b⟩)
  · intro x hx p hp
    obtain ⟨m, a, b⟩ := h.rest x hx p hp
    exact ⟨m, hS _ a, b⟩

theorem Held.config {S L} {d : Dev} (h : Held S L d) (m : Msg) (hS : S m) (hm : m.hid = 0x7006) : Held S L { d with config := (Config.report d.config m).1 } := by
  have key : ∀ n p, (Config.report d.config m).1.get? n = some p → (d.config.get? n = some p ∨
      IsConfig m n ∧ (numAttr m "value" = some p.value ∨ numAttr m "value" = none ∧ (p.value = 0 ∨ ∃ q, d.config.get? n = some q ∧ q.value = p.value)) ∧
        (numAttr m "size" = some p.size ∨ (numAttr m "value" = none ∨ numAttr m "size" = none) ∧ (p.size = 0 ∨ ∃ q, d.config.get? n = some q ∧ q.size = p.size))) := by
    intro n p hp
    simp only [Config.report, needNum] at hp
    cases hk : numAttr m "parameterNumber" with
    | none => simp only [hk] at hp; exact .inl hp
    | some k =>
      simp only [hk] at hp
      have old : ((d.config.get? k).getD ⟨0, 0⟩).value = 0 ∨ ∃ q, d.config.get? k = some q ∧ q.value = ((d.config.get? k).getD ⟨0, 0⟩).value := by
        cases d.config.get? k with
        | none => exact .inl rfl
        | some q => exact .inr ⟨q, rfl, rfl⟩
      have olds : ((d.config.get? k).getD ⟨0, 0⟩).size = 0 ∨ ∃ q, d.config.get? k = some q ∧ q.size = ((d.config.get? k).getD ⟨0, 0⟩).size := by
        cases d.config.get? k with
        | none => exact .inl rfl
        | some q => exact .inr ⟨q, rfl, rfl⟩
      by_cases e : k = n
      · subst e
        right
        refine ⟨⟨hm, hk⟩, ?_⟩
        cases hv : numAttr m "value" with
        | none =>
          simp only [hv, Dict.get?_set, if_true, Option.some.injEq] at hp
          subst hp
          exact ⟨.inr ⟨rfl, old⟩, .inr ⟨.inl rfl, olds⟩⟩
        | some v =>
          cases hz : numAttr m "size" with
          | none =>
            simp only [hv, hz, Dict.get?_set, if_true, Option.some.injEq] at hp
            subst hp
            exact ⟨.inl rfl, .inr ⟨.inr rfl, olds⟩⟩
          | some z =>
            simp only [hv, hz, Dict.get?_set, if_true, Option.some.injEq] at hp
            subst hp
            exact ⟨.inl rfl, .inl rfl⟩
      · left
        cases hv : numAttr m "value" with
        | none => simpa [hv, Dict.get?_set, e] using hp
        | some v =>
          cases hz : numAttr m "size" with
          | none => simpa [hv, hz, Dict.get?_set, e] using hp
          | some z => simpa [hv, hz, Dict.get?_set, e] using hp
  refine ⟨fun n p hp => ?_, fun n p hp => ?_, fun n p hp => ?_, h.profile, h.name, h.commands, h.rest⟩
  · rcases key n p hp with h' | ⟨h', -⟩
    · exact h.param n p h'
    · exact .inr ⟨m, hS, h'⟩
  · rcases key n p hp with h' | ⟨h', hv | ⟨hv, h0 | ⟨q, h1, h2⟩⟩, -⟩
    · exact h.value n p h'
    · exact .inr (.inl ⟨m, hS, h', hv⟩)
    · exact .inr (.inr ⟨h0, m, hS, h', hv⟩)
    · rw [← h2]; exact h.value n q h1
  · rcases key n p hp with h' | ⟨h', -, hv | ⟨hv, h0 | ⟨q, h1, h2⟩⟩⟩
    · exact h.size n p h'
    · exact .inr (.inl ⟨m, hS, h', hv⟩)
    · exact .inr (.inr ⟨h0, m, hS, h', hv⟩)
    · rw [← h2]; exact h.size n q h1

/-- The group is replaced: what is new about it was said. -/
theorem Held.setGroup {S L} {d : Dev} (h : Held S L d) (g : Int) (new : Agi.Group)
    (hp : (∃ m, S m ∧ Lists m g new.profile) ∨ ∃ old, d.agi.groups.get? g = some old ∧ old.profile = new.profile)
    (hn : ∀ x, new.name = some x → (∃ m, S m ∧ m.hid = 0x5902 ∧ numAttr m "groupingIdentifier" = some g ∧ (getAttr registry m "name" = some (.str x) ∨ (∀ y, getAttr registry m "name" ≠ some (.str y)) ∧ x = [78, 111, 110, 101])) ∨
      ∃ old, d.agi.groups.get? g = some old ∧ old.name = some x)
    (hc : ∀ x, new.commands = some x → (∃ m, S m ∧ m.hid = 0x5906 ∧ numAttr m "groupingIdentifier" = some g ∧ getAttr registry m "commandClass" = some (.pairs x)) ∨
      ∃ old, d.agi.groups.get? g = some old ∧ old.commands = some x)
    (hs : List (Option Agi.Info)) (hr : ∀ x : Agi.Info, some x ∈ hs → ∀ p ∈ x.rest, ∃ m, S m ∧ Lists m p.1 p.2) (sent : List Agi.Sent) :
    Held S L { d with agi := ⟨d.agi.groups.set g new, hs, sent⟩ } := by
  refine ⟨h.param, h.value, h.size, fun k grp hk => ?_, fun k grp x hk hx => ?_, fun k grp x hk hx => ?_, hr⟩
  all_goals
    simp only [Dict.get?_set] at hk
    split at hk
    · rename_i e
      subst e
      cases hk
      first
        | rcases hp with hp | ⟨old, h1, h2⟩
          · exact .inr hp
          · rw [← h2]; exact h.profile _ old h1
        | rcases hn x hx with hn | ⟨old, h1, h2⟩
          · exact .inr hn
          · exact h.name _ old x h1 h2
        | rcases hc x hx with hc | ⟨old, h1, h2⟩
          · exact .inr hc
          · exact h.commands _ old x h1 h2
    · first
        | exact h.profile k grp hk
        | exact h.name k grp x hk hx
        | exact h.commands k grp x hk hx

theorem Held.sameGroups {S L} {d : Dev} (h : Held S L d) (hs : List (Option Agi.Info)) (hr : ∀ x : Agi.Info, some x ∈ hs → ∀ p ∈ x.rest, ∃ m, S m ∧ Lists m p.1 p.2)
    (sent : List Agi.Sent) : Held S L { d with agi := ⟨d.agi.groups, hs, sent⟩ } := ⟨h.param, h.value, h.size, h.profile, h.name, h.commands, hr⟩

theorem Held.agiName {S L} {d : Dev} (h : Held S L d) (m : Msg) (hS : S m) (hm : m.hid = 0x5902) : Held S L (nameReport m d).1 := by
  unfold nameReport
  split
  · exact h
  · rename_i g hg
    simp only [Agi.step]
    split
    · exact h
    · rename_i grp hgrp
      refine h.setGroup g { grp with name := some (groupName m) } (.inr ⟨grp, hgrp, rfl⟩) (fun x hx => .inl ⟨m, hS, hm, hg, ?_⟩) (fun x hx => .inr ⟨grp, hgrp, hx⟩) _ h.rest _
      simp only [Option.some.injEq] at hx
      subst hx
      unfold groupName
      split
      · rename_i e; exact .inl e
      · rename_i e; exact .inr ⟨e, rfl⟩

theorem Held.agiCommands {S L} {d : Dev} (h : Held S L d) (m : Msg) (hS : S m) (hm : m.hid = 0x5906) : Held S L (commandsReport m d).1 := by
  unfold commandsReport
  split
  · rename_i l hl
    split
    · exact h
    · rename_i g hg
      simp only [Agi.step]
      split
      · exact h
      · rename_i grp hgrp
        refine h.setGroup g { grp with commands := some l } (.inr ⟨grp, hgrp, rfl⟩) (fun x hx => .inr ⟨grp, hgrp, hx⟩) (fun x hx => .inl ⟨m, hS, hm, hg, ?_⟩) _ h.rest _
        simp only [Option.some.injEq] at hx
        subst hx
        exact hl
  · exact h

theorem Held.next {S L} {d : Dev} (h : Held S L d) (l : List (Int × Int)) (hl : ∀ p ∈ l, ∃ m, S m ∧ Lists m p.1 p.2) (f : Option Agi.Info → List (Option Agi.Info))
    (hf : ∀ a x, x ∈ f a → x = a ∨ x ∈ d.agi.handlers) (sent : List Agi.Sent) :
    Held S L { d with agi := ⟨(Agi.next d.agi.groups l).1, f (Agi.next d.agi.groups l).2.1, sent⟩ } := by
  cases l with
  | nil =>
    refine h.sameGroups _ (fun x hx => ?_) _
    rcases hf _ _ hx with e | e
    · cases e
    · exact h.rest x e
  | cons p rest =>
    obtain ⟨g, pr⟩ := p
    refine h.setGroup g ⟨none, pr, none⟩ (.inl (hl _ List.mem_cons_self)) (fun x hx => by cases hx) (fun x hx => by cases hx) _ (fun x hx => ?_) _
    rcases hf _ _ hx with e | e
    · cases e; exact fun q hq => hl q (List.mem_cons_of_mem _ hq)
    · exact h.rest x e

theorem mem_set' {α} {l : List α} {i : Nat} {a x : α} (h : x ∈ l.set i a) : x = a ∨ x ∈ l := (List.mem_or_eq_of_mem_set h).symm

theorem Held.sent {S L} {d : Dev} (h : Held S L d) (i : Nat) (r : Py Bool) : Held S L { d with agi := (Agi.step d.agi (.sent i r)).1 } := by
  simp only [Agi.step]
  split
  · rename_i x hx
    split
    · refine h.sameGroups _ (fun y hy => ?_) _
      rcases mem_set' hy with e | e
      · cases e
      · exact h.rest y e
    · split
      · exact h.next x.rest (h.rest x (List.mem_of_getElem? hx)) (fun a => d.agi.handlers.set i a) (fun a y hy => mem_set' hy) _
      · refine h.sameGroups _ (fun y hy => ?_) _
        rcases mem_set' hy with e | e
        · cases e; exact h.rest x (List.mem_of_getElem? hx)
        · exact h.rest y e
  · exact h

theorem Held.info {S L} {d : Dev} (h : Held S L d) (m : Msg) (hS : S m) (hm : m.hid = 0x5904) (l : List (Int × Int)) (hl : infoGroups m = .ok l) :
    Held S L { d with agi := (Agi.step d.agi (.info l)).1 } :=
  h.next l (fun p hp => ⟨m, hS, hm, l, hl, hp⟩) (fun a => d.agi.handlers ++ [a]) (fun a y hy => by
    rcases List.mem_append.mp hy with h | h
    · exact .inr h
    · exact .inl (List.mem_singleton.mp h)) _

/-- The messages that came from the node of an object. -/
def FromObj (own : Nat) (ops : List Op) (obj : Nat) (m : Msg) : Prop := ∃ nd, nd.obj = obj ∧ Known own ops nd ∧ Said own ops nd m

theorem held_run (own : Nat) (ops : List Op) (obj : Nat) :
    Held (FromObj own ops obj) (fun c g => .load obj c g ∈ ops) ((run (init own) ops).devs obj) := by
  induction ops using Conn.snoc_ind with
  | nil => constructor <;> simp [run, init, Dev.fresh, Agi.fresh]
  | snoc ops o ih =>
    have ih' : Held (FromObj own (ops ++ [o]) obj) (fun c g => .load obj c g ∈ ops ++ [o]) ((run (init own) ops).devs obj) :=
      ih.mono (fun m ⟨nd, h1, h2, h3⟩ => ⟨nd, h1, h2.mono o, h3.mono o⟩) (fun c g h => List.mem_append_left _ h)
    have hands : ∀ {i nd m c}, Hands (run (init own) ops).sys i nd m c → nd.obj = obj → FromObj own (ops ++ [o]) obj c := by
      intro i nd m c h e
      obtain ⟨h1, h2, h3⟩ := hands_came h
      exact ⟨nd, e, h1.mono o, m, h2, h3.mono o⟩
    rw [run_snoc]
    have hch := (step_effect (run (init own) ops) o).1
    generalize (step (run (init own) ops) o).devs = devs' at hch
    generalize hs : run (init own) ops = s at *
    cases hch with
    | none => exact ih'
    | does i nd m c d hh hd =>
      simp only
      split
      · rename_i e
        subst e
        have hS := hands hh rfl
        cases hd with
        | same => exact ih'
        | config h => exact ih'.config c hS h
        | name h => exact ih'.agiName c hS h
        | commands h => exact ih'.agiCommands c hS h
      · exact ih'
    | agi x o' os ho hos =>
      simp only
      split
      · rename_i e
        subst e
        have h1 : Held (FromObj own (ops ++ [o]) obj) (fun c g => .load obj c g ∈ ops ++ [o]) { s.devs obj with agi := (Agi.step (s.devs obj).agi o').1 } := by
          rcases ho with ⟨i, nd, m, c, l, hh, e, hc, hl, rfl⟩ | ⟨i, r, rfl⟩
          · exact ih'.info c (hands hh e) hc l hl
          · exact ih'.sent i r
        have h2 : ∀ (os : List Agi.Op) (a : Agi.State), (∀ x ∈ os, ∃ i e, x = .sent i (.error e)) →
            Held (FromObj own (ops ++ [o]) obj) (fun c g => .load obj c g ∈ ops ++ [o]) { s.devs obj with agi := a } →
            Held (FromObj own (ops ++ [o]) obj) (fun c g => .load obj c g ∈ ops ++ [o]) { s.devs obj with agi := Agi.run a os } := by
          intro os
          induction os with
          | nil => intro a _ h; exact h
          | cons x os ih =>
            intro a hx h
            obtain ⟨i, e, rfl⟩ := hx x List.mem_cons_self
            exact ih _ (fun y hy => hx y (List.mem_cons_of_mem _ hy)) (h.sent i (.error e))
        exact h2 os _ hos h1
      · exact ih'
    | load x config groups ho =>
      simp only
      split
      · rename_i e
        subst e
        have hl : Op.load obj config groups ∈ ops ++ [o] := by rw [ho]; simp
        exact ⟨fun n p hp => .inl ⟨_, _, _, hl, hp⟩, fun n p hp => .inl ⟨_, _, _, hl, hp, rfl⟩, fun n p hp => .inl ⟨_, _, _, hl, hp, rfl⟩,
          fun g grp hg => .inl ⟨_, _, _, hl, hg, rfl⟩, fun g grp x hg hx => .inl ⟨_, _, _, hl, hg, hx⟩, fun g grp x hg hx => .inl ⟨_, _, _, hl, hg, hx⟩, ih'.rest⟩
      · exact ih'
    | sensor x v ho =>
      simp only
      split
      · rename_i e
        subst e
        exact ⟨ih'.param, ih'.value, ih'.size, ih'.profile, ih'.name, ih'.commands, ih'.rest⟩
      · exact ih'

theorem held_node (own : Nat) (ops : List Op) (nd : Nd) (hk : (nd.id, nd) ∈ (run (init own) ops).sys.app.nodes) :
    Held (Said own ops nd) (fun c g => .load nd.obj c g ∈ ops) ((run (init own) ops).devs nd.obj) := by
  refine (held_run own ops nd.obj).mono (fun m ⟨nd', h1, h2, h3⟩ => ?_) (fun _ _ h => h)
  have : nd' = nd := known_unique h2 ⟨ops, [], by simp, hk⟩ h1
  rw [← this]; exact h3

/-- **C129**, configuration. For every history and every node object in the table: a parameter is known if it was loaded or the node reported it, and the value and size are
the loaded ones or came in a report for this parameter, in a datagram from this node and this end point. They are 0 if the report ended before them. -/
theorem C129_parameters (own : Nat) (ops : List Op) (nd : Nd) (hk : (nd.id, nd) ∈ (run (init own) ops).sys.app.nodes) (n : Int) (p : Config.Param)
    (hp : ((run (init own) ops).devs nd.obj).config.get? n = some p) :
    ((∃ c g q, .load nd.obj c g ∈ ops ∧ c.get? n = some q ∧ q.value = p.value) ∨ (∃ m, Said own ops nd m ∧ IsConfig m n ∧ numAttr m "value" = some p.value) ∨
      p.value = 0 ∧ ∃ m, Said own ops nd m ∧ IsConfig m n ∧ numAttr m "value" = none) ∧
    ((∃ c g q, .load nd.obj c g ∈ ops ∧ c.get? n = some q ∧ q.size = p.size) ∨ (∃ m, Said own ops nd m ∧ IsConfig m n ∧ numAttr m "size" = some p.size) ∨
      p.size = 0 ∧ ∃ m, Said own ops nd m ∧ IsConfig m n ∧ (numAttr m "value" = none ∨ numAttr m "size" = none)) :=
  ⟨(held_node own ops nd hk).value n p hp, (held_node own ops nd hk).size n p hp⟩

/-- **C129**, association groups: a group with its profile was loaded or listed in an information report from this node and this end point, and the commands of a group were
loaded or came in a report for this group from this node and this end point. -/
theorem C129_groups (own : Nat) (ops : List Op) (nd : Nd) (hk : (nd.id, nd) ∈ (run (init own) ops).sys.app.nodes) (g : Int) (grp : Agi.Group)
    (hg : ((run (init own) ops).devs nd.obj).agi.groups.get? g = some grp) :
    ((∃ c gs q, .load nd.obj c gs ∈ ops ∧ gs.get? g = some q ∧ q.profile = grp.profile) ∨ ∃ m, Said own ops nd m ∧ Lists m g grp.profile) ∧
    ∀ l, grp.commands = some l → (∃ c gs q, .load nd.obj c gs ∈ ops ∧ gs.get? g = some q ∧ q.commands = some l) ∨
      ∃ m, Said own ops nd m ∧ m.hid = 0x5906 ∧ numAttr m "groupingIdentifier" = some g ∧ getAttr registry m "commandClass" = some (.pairs l) :=
  ⟨(held_node own ops nd hk).profile g grp hg, fun l hl => (held_node own ops nd hk).commands g grp l hg hl⟩

/-! ### What a delivery does -/

theorem hands_waiter {s : System.State} {i : Nat} {nd : Nd} {m c : Msg} (_ : Hands s i nd m c)
    (hw : ∀ f, (s.waiters nd.obj).sessions.get? c.hid = some f → (s.waiters nd.obj).futs[f]? = some .pending) :
    ∃ t, (Waiter.messageReceived (s.waiters nd.obj) c).2 = .ok t := by
  unfold Waiter.messageReceived
  split
  · exact ⟨false, rfl⟩
  · rename_i f hf
    rw [hw f hf]
    exact ⟨true, rfl⟩

theorem deliver_hands {s : State} {i : Nat} {nd : Nd} {m c : Msg} (hh : Hands s.sys i nd m c) (x : Heard) : deliver s i x = handle s i nd m c x := by
  obtain ⟨h1, t, ht, hm, hoff, hrec⟩ := hh
  simp only [deliver, if_neg h1, ht, hrec, hm, hoff]

/-- The message is not a group information report: it is handled at once. -/
theorem deliver_plain {s : State} {i : Nat} {nd : Nd} {m c : Msg} (hh : Hands s.sys i nd m c) (hc : c.hid ≠ 0x5904) (x : Heard)
    (hw : ∀ f, (s.sys.waiters nd.obj).sessions.get? c.hid = some f → (s.sys.waiters nd.obj).futs[f]? = some .pending) :
    step s (.deliver i x) = finish (({ s with sys := System.step s.sys (.deliver i) } : State).put nd.obj (if supports nd c.cmdClass then classDoes c (s.devs nd.obj) else s.devs nd.obj))
      i nd m (Node.handlePlain (env nd x) ⟨s.sys.waiters nd.obj, s.devs nd.obj, []⟩ c).2 := by
  obtain ⟨t, ht⟩ := hands_waiter hh hw
  have hu := handlePlain_user nd x (s.sys.waiters nd.obj) (s.devs nd.obj) c
  simp only [ht] at hu
  rw [← hu]
  have hn : ¬ (c.hid = Reg.AssociationGrpInfo.GroupInfoReport.hid ∧ supports nd c.cmdClass = true) := fun h => hc h.1
  simp only [step, deliver_hands hh, handle, ht, if_neg hn]

theorem config_handler : handler 0x70 0x7006 = some fun m d => ({ d with config := (Config.report d.config m).1 }, (Config.report d.config m).2) := by
  have : (Dispatch.load 0x70 false).handles.any (fun d => d.hid == 0x7006) = true := by decide +kernel
  have e : (0x7006 : Nat) = Reg.Configuration.Report.hid := by decide +kernel
  unfold handler
  rw [if_pos this]
  unfold builtin
  rw [if_pos e]

theorem config_name {m : Msg} (hm : m.hid = 0x7006) {n : String} {v : Int} (hn : m.num? n = some v) : Node.nameOf m = some "REPORT" := by
  have key : (registry.find? (fun d => d.hid = 0x7006)).map (·.msgName) = some "REPORT" := by decide +kernel
  cases m with
  | pure => simp [Msg.num?, Msg.attr, Msg.attrs] at hn
  | unknown h => simp [Msg.num?, Msg.attr, Msg.attrs] at hn
  | known h a => cases hm; exact key
  | wrap h a c => cases hm; exact key

/-- What a configuration report does to the object it is handed to. -/
theorem config_does {m : Msg} (hm : m.hid = 0x7006) {n : String} {v : Int} (hn : m.num? n = some v) (d : Dev) :
    classDoes m d = { d with config := (Config.report d.config m).1 } := by
  have h2 : m.cmdClass = 0x70 := by rw [Msg.cmdClass, hm]; decide
  simp only [classDoes, config_name hm hn, h2, hm, config_handler]

theorem numAttr_of_num {m : Msg} {n : String} {v : Int} (h : m.num? n = some v) : numAttr m n = some v := by
  unfold Msg.num? at h
  unfold numAttr getAttr
  cases ha : m.attr n with
  | none => rw [ha] at h; cases h
  | some x => rw [ha] at h; exact h

theorem get_of_mem {κ α : Type} [DecidableEq κ] {t : Dict κ α} {k : κ} {v : α} (hn : (Dict.keys t).Nodup) (h : (k, v) ∈ t) : t.get? k = some v := by
  have hs : (t.get? k).isSome := (Dict.get?_isSome_iff _ _).2 (List.mem_map.2 ⟨_, h, rfl⟩)
  obtain ⟨u, hu⟩ := Option.isSome_iff_exists.1 hs
  have hm := Dict.mem_of_get? hu
  have : u = v := by
    clear hs hu
    induction t with
    | nil => simp at h
    | cons p t ih =>
      simp only [Dict.keys, List.map_cons, List.nodup_cons] at hn
      rcases List.mem_cons.1 hm with hm | hm <;> rcases List.mem_cons.1 h with h | h
      · rw [← hm] at h; exact (Prod.mk.inj h).2.symm
      · rw [← hm] at hn; exact absurd (List.mem_map.2 ⟨_, h, rfl⟩) hn.1
      · rw [← h] at hn; exact absurd (List.mem_map.2 ⟨_, hm, rfl⟩) hn.1
      · exact ih hn.2 h hm
  rw [this] at hu; exact hu

/-- A Z/IP packet with the command bytes `cb` arrives from an end point of node `n`, and the connection has no use for it: on the unsolicited connection, from the address that the
gateway has for node `n` and for no other node; or on the connection to the node, without flags for acknowledgements, when no call waits there for the message `hid`. -/
def Brings (g : Gateway.State) (o : Gateway.Op) (n : Nat) (h : ZipHeader) (cb : Bytes) (hid : Nat) : Prop :=
  (∃ sender order, o = .unsolicited (h.bytes ++ cb) sender order ∧ g.nodes.get? n = some (some sender) ∧ ∀ e ∈ g.nodes, e.2 = some sender → e.1 = n) ∨
  ∃ k l, o = .link k (.packet (h.bytes ++ cb)) ∧ g.conns.get? n = some k ∧ g.links[k]? = some l ∧ h.cmd = true ∧ h.ackRequest = false ∧ h.ackResponse = false ∧
    h.nackResponse = false ∧ l.conn.w.sessions.get? hid = none

theorem brings_told {s : Gateway.State} (hinv : Gateway.LinkInv s) {o : Gateway.Op} {n : Nat} {h : ZipHeader} (hf : h.Fits) (hx : h.ext = false) {cb : Bytes} {c : Msg} (hne : cb ≠ [])
    (hc : decode cb = .ok c) (hid : c.hid ≠ 0x5202) (hb : Brings s o n h cb c.hid) :
    ∃ told, (Gateway.step s o).told = s.told ++ [told] ∧ told.node = n ∧ told.sourceEP = some (h.src : Int) ∧ told.message = some c := by
  obtain ⟨p, hp, hd, hpc⟩ := Props.Wire.zip_plain h hf hx cb c hne hc
  rcases hb with ⟨sender, order, rfl, hn, honly⟩ | ⟨k, l, rfl, hk, hl, hcmd, hq, ha, hnk, hw⟩
  · have hfind : ∃ v, s.nodes.find? (fun e => e.2 = some sender) = some (n, v) := by
      cases hf : s.nodes.find? (fun e => e.2 = some sender) with
      | none => have := List.find?_eq_none.mp hf _ (Dict.mem_of_get? hn); simp at this
      | some p =>
        obtain ⟨m, v⟩ := p
        have hv : v = some sender := by have := List.find?_some hf; simpa using this
        have : m = n := honly _ (List.mem_of_find?_eq_some hf) hv
        exact ⟨v, by rw [this]⟩
    obtain ⟨v, hfind⟩ := hfind
    have ht := (Props.Gateway.unsolicited_known s h hf cb p hp hd (by rw [hpc]; simpa using hid) sender order).1 n v hfind
    exact ⟨⟨n, some (h.src : Int), p.command, getAttr registry p "headerExtension"⟩, by rw [ht]; rfl, rfl, rfl, hpc⟩
  · obtain ⟨d1, d2, d3, d4, -, -, -, -, d9, -, -, -, d13, -⟩ := hd
    have hnode : ∃ v, s.conns.find? (fun p => p.2 = k) = some (n, v) := by
      have hmem : (n, k) ∈ s.conns := Dict.mem_of_get? hk
      cases hf : s.conns.find? (fun p => p.2 = k) with
      | none => have := List.find?_eq_none.mp hf _ hmem; simp at this
      | some p =>
        obtain ⟨m, v⟩ := p
        have hv : v = k := by have := List.find?_some hf; simpa using this
        have e1 := hinv.conns m v (List.mem_of_find?_eq_some hf)
        have e2 := hinv.conns n k hmem
        rw [hv, e2] at e1
        cases e1
        exact ⟨v, rfl⟩
    obtain ⟨v, hfind⟩ := hnode
    have ht := Props.Gateway.link_told s k n v l hl hfind (.packet (h.bytes ++ cb))
    obtain ⟨hdel, -⟩ := Props.C35_command_partial l.conn (h.bytes ++ cb) p c hp ⟨d1, by rw [d3, ha], by rw [d4, hnk], by rw [d2, hq], by rw [d9, hcmd], hpc⟩
      (fun f hf => by rw [hw] at hf; cases hf)
    have hheard : (Conn.step l.conn (.packet (h.bytes ++ cb))).heard = l.conn.heard ++ [p] := by
      rcases hdel with ⟨h1, -⟩ | ⟨-, f, h1, -⟩
      · exact h1
      · rw [hw] at h1; cases h1
    rw [hheard, List.drop_left] at ht
    refine ⟨Gateway.toldOf n p, ht, rfl, ?_, ?_⟩
    · simp only [Gateway.toldOf, d1, if_true, d13]
    · simp only [Gateway.toldOf, d1, if_true, hpc]

/-- After `pre` the packet arrives, then other things happen, but its task does not run yet, and then the node object is in the table. -/
structure Waits (own : Nat) (pre mid : List Op) (o : Gateway.Op) (nd : Nd) (h : ZipHeader) (cb : Bytes) (hid : Nat) : Prop where
  fits : h.Fits
  plain : h.ext = false
  brings : Brings (run (init own) pre).sys.net.gw o nd.root h cb hid
  ep : nd.ep = h.src
  later : ∀ x, .deliver (run (init own) pre).sys.net.gw.told.length x ∉ mid
  known : (nd.id, nd) ∈ (run (init own) (pre ++ .sys (.net (.gw o)) :: mid)).sys.app.nodes

theorem waits_hands {own : Nat} {pre mid : List Op} {o : Gateway.Op} {nd : Nd} {h : ZipHeader} {cb : Bytes} {m c : Msg} (hne : cb ≠ []) (hc : decode cb = .ok m) (hid : m.hid ≠ 0x5202)
    (hoff : System.offered (some m) = some c) (w : Waits own pre mid o nd h cb m.hid) :
    Hands (run (init own) (pre ++ .sys (.net (.gw o)) :: mid)).sys (run (init own) pre).sys.net.gw.told.length nd m c := by
  obtain ⟨hf, hx, hb, hep, hmid, hnd⟩ := w
  generalize hs0 : run (init own) pre = s0 at *
  generalize hops : pre ++ .sys (.net (.gw o)) :: mid = ops at *
  have hgw : ∀ l, Gateway.LinkInv (run (init own) l).sys.net.gw := by
    intro l
    obtain ⟨os, e, -⟩ := sys_run own l
    rw [e, System.run_net]
    obtain ⟨os', e'⟩ := ToNode.gw_run (os.flatMap System.netOps)
    have : (System.init own).net = ToNode.init := rfl
    rw [this, e']
    exact Gateway.linkInv_init.run os'
  obtain ⟨told, ht, t1, t2, t3⟩ := brings_told (hs0 ▸ hgw pre) hf hx hne hc hid hb
  obtain ⟨os, e, -⟩ := sys_run own ops
  obtain ⟨aos, happ⟩ := System.app_run own os
  rw [← e] at happ
  have hw := Lemmas.App.w_run own aos
  rw [← happ] at hw
  have hrec : (Wire.received (run (init own) ops).sys.app.nodes (run (init own) ops).sys.app.own (fun _ => .ok (.bool true)) (.ok ()) told).1 = [.handed nd] := by
    have hget : (run (init own) ops).sys.app.nodes.get? (App.key nd.root h.src) = some nd := by
      rw [← hep]; exact get_of_mem hw.nodup hnd
    simp only [Wire.received, t2]
    show (App.messageReceived _ _ _ _ told.node h.src).1 = _
    simp only [App.messageReceived, t1, hget]
  refine ⟨fun hdel => ?_, told, ?_, t3, hoff, hrec⟩
  · obtain ⟨a, x, b, h1, h2⟩ := delivered_op own ops _ hdel
    rw [← hops] at h1
    rcases List.append_eq_append_iff.mp h1 with ⟨z, z1, z2⟩ | ⟨z, z1, z2⟩
    · cases z with
      | nil => simp at z2
      | cons y z =>
        simp only [List.cons_append, List.cons.injEq] at z2
        exact hmid x (by rw [z2.2]; simp)
    · obtain ⟨new, h3⟩ := told_append own a z
      rw [← z1, hs0] at h3
      rw [h3, List.length_append] at h2
      omega
  · have h1 : (run (init own) (pre ++ [.sys (.net (.gw o))])).sys.net.gw.told = s0.sys.net.gw.told ++ [told] := by
      rw [run_snoc, hs0]; exact ht
    obtain ⟨new, h2⟩ := told_append own (pre ++ [.sys (.net (.gw o))]) mid
    rw [show pre ++ [.sys (.net (.gw o))] ++ mid = ops by rw [← hops]; simp, h1] at h2
    rw [h2]; simp

/-- A complete configuration report for parameter `n`. -/
def configReport (n size : UInt8) (value tl : Bytes) : Bytes := 0x70 :: 0x06 :: n :: size :: (value ++ tl)

/-- The object holds the parameter with this value, and nothing else has changed. -/
structure Stores (s s' : State) (obj : Nat) (n value size : Int) : Prop where
  stored : (s'.devs obj).config.get? n = some ⟨value, size⟩
  others : ∀ k, k ≠ n → (s'.devs obj).config.get? k = (s.devs obj).config.get? k
  groups : (s'.devs obj).agi = (s.devs obj).agi
  sensor : (s'.devs obj).sensor = (s.devs obj).sensor
  objects : ∀ x, x ≠ obj → s'.devs x = s.devs x

theorem config_stores {s : State} {i : Nat} {nd : Nd} {m c : Msg} (hh : Hands s.sys i nd m c) (hc : c.hid = 0x7006) (n v z : Int) (h1 : c.num? "parameterNumber" = some n)
    (h2 : c.num? "value" = some v) (h3 : c.num? "size" = some z) (hsup : supports nd 0x70 = true)
    (hw : ∀ f, (s.sys.waiters nd.obj).sessions.get? 0x7006 = some f → (s.sys.waiters nd.obj).futs[f]? = some .pending) (x : Heard) :
    Stores s (step s (.deliver i x)) nd.obj n v z ∧
    ∃ s1 : State, step s (.deliver i x) = finish s1 i nd m (.ok true) ∧ s1.sys = System.step s.sys (.deliver i) ∧ s1.answers = s.answers := by
  have hcls : c.cmdClass = 0x70 := by rw [Msg.cmdClass, hc]; decide
  have e := deliver_plain hh (by rw [hc]; decide) x (by rw [hc]; exact hw)
  rw [hcls, if_pos hsup, config_does hc h1] at e
  have hget : ∀ k, (Config.report (s.devs nd.obj).config c).1.get? k = if n = k then some ⟨v, z⟩ else (s.devs nd.obj).config.get? k := by
    intro k
    simp only [Config.report, needNum, numAttr_of_num h1, numAttr_of_num h2, numAttr_of_num h3, Dict.get?_set]
    by_cases e : n = k <;> simp [e]
  have hres : (Node.handlePlain (env nd x) ⟨s.sys.waiters nd.obj, s.devs nd.obj, []⟩ c).2 = .ok true := by
    obtain ⟨t, ht⟩ := hands_waiter hh (by rw [hc]; exact hw)
    have hr : ∀ w : Node.World Dev, (Node.classHandle (env nd x) w 0x70 c).2 = .ok true := by
      intro w
      have hrep : (Config.report w.user.config c).2 = .ok (.bool true) := by
        simp only [Config.report, needNum, numAttr_of_num h1, numAttr_of_num h2, numAttr_of_num h3]
      unfold Node.classHandle
      simp only [config_name hc h1, hc, show (env nd x).handler = handler from rfl, config_handler, hrep, Listen.Ret.truthy, if_true]
    simp only [Node.handlePlain, ht, hcls, show (env nd x).supported = supports nd from rfl, hsup, if_true, hr]
  rw [hres] at e
  refine ⟨?_, _, e, rfl, rfl⟩
  rw [e]
  refine ⟨?_, fun k hk => ?_, ?_, ?_, fun y hy => ?_⟩ <;> rw [finish_devs] <;> simp only [State.put, if_true]
  · rw [hget, if_pos rfl]
  · rw [hget, if_neg (Ne.symm hk)]
  · rw [if_neg hy]

/-- **C129**, the reports are stored: a complete report for parameter `n` arrives in a packet from the end point of a node. Whatever happens between the arrival and the task for it, if
the node object then is in the table and lists the class, then with the task the object holds the reported value and size for this parameter. Nothing else changes in any object. -/
theorem C129_stored (own : Nat) (pre mid : List Op) (o : Gateway.Op) (nd : Nd) (h : ZipHeader) (n size : UInt8) (value tl : Bytes) (hs : size.toNat % 8 = value.length)
    (hne : value ++ tl ≠ []) (w : Waits own pre mid o nd h (configReport n size value tl) 0x7006) (s : State) (hs' : s = run (init own) (pre ++ .sys (.net (.gw o)) :: mid))
    (hsup : supports nd 0x70 = true) (hw : ∀ f, (s.sys.waiters nd.obj).sessions.get? 0x7006 = some f → (s.sys.waiters nd.obj).futs[f]? = some .pending) (x : Heard) :
    Stores s (step s (.deliver (run (init own) pre).sys.net.gw.told.length x)) nd.obj n.toNat (beNat value) value.length := by
  obtain ⟨m, h0, h1, h2, h3, h4⟩ := Props.C23_report n size value tl hs hne
  have hh := waits_hands (c := m) (by simp) h0 (by rw [h1]; decide) (by
    have : ¬ m.hid = Reg.Supervision.Get.hid := by rw [h1]; decide
    simp only [System.offered, if_neg this]) (by rw [h1]; exact w)
  rw [← hs'] at hh
  exact (config_stores hh h1 _ _ _ h2 h4 h3 hsup hw x).1

/-- Node 2 reports the value 258 for parameter 9. The assumptions hold with another message and its task between. -/
example : Waits 1 up [.sys (.net (.gw (rcv [0x25, 0x03, 0xFF]))), .deliver 1 quiet] (rcv (configReport 9 2 [1, 2] [])) node2 packet (configReport 9 2 [1, 2] []) 0x7006 where
  fits := by unfold ZipHeader.Fits; decide
  plain := rfl
  brings := .inr ⟨0, _, rfl, by decide +kernel, rfl, rfl, rfl, rfl, rfl, by decide +kernel⟩
  ep := rfl
  later := by
    intro x h
    have : (run (init 1) up).sys.net.gw.told.length = 0 := by decide +kernel
    rw [this] at h
    rcases List.mem_cons.mp h with h | h
    · cases h
    · rcases List.mem_cons.mp h with h | h <;> cases h
  known := by decide +kernel

example : let s := run (init 1) (up ++ [.sys (.net (.gw (rcv (configReport 9 2 [1, 2] [])))), .sys (.net (.gw (rcv [0x25, 0x03, 0xFF]))), .deliver 1 quiet])
    supports node2 0x70 = true ∧ (s.devs 0).config = [] ∧ ((s.sys.waiters 0).sessions.get? 0x7006) = none ∧ ((step s (.deliver 0 quiet)).devs 0).config = [(9, ⟨258, 2⟩)] := by
  decide +kernel

/-! ## C130 -/

theorem sys_delivered (s : State) (o : Op) : ∀ i ∈ s.sys.delivered, i ∈ (step s o).sys.delivered := by
  intro i hi
  rcases (step_effect s o).2.2 with h | ⟨g, -, h⟩
  · exact h.delivered i hi
  · rw [h]; exact System.step_delivered _ _ i hi

theorem reports_step {s : State} {k : Nat} {nd : Nd} {m : Msg} (h : Reports s.sys k nd m) (o : Op) : Reports (step s o).sys k nd m := by
  obtain ⟨h0, b, rep, c, h1, h2, h3, h4, h5, h6⟩ := h
  have : ∃ os, (step s o).sys = System.run s.sys os := by
    rcases (step_effect s o).2.2 with ⟨os, h, -⟩ | ⟨g, -, h⟩
    · exact ⟨os, h⟩
    · exact ⟨[.net (.gw g)], h⟩
  obtain ⟨os, e⟩ := this
  obtain ⟨d, d1, a1, a2, a3, a4, -⟩ := ToNode.run_same (os.flatMap System.netOps) s.sys.net h2
  refine ⟨h0, b, rep, d, h1, ?_, by rw [a1, h3], by rw [a2, h4], by rw [a3, h5], by rw [a4, h6]⟩
  rw [e, System.run_net]; exact d1

/-- The answers of a history. -/
structure AInv (own : Nat) (ops : List Op) (s : State) : Prop where
  del : ∀ a ∈ s.answers, a.told ∈ s.sys.delivered
  tdel : ∀ t ∈ s.tasks, t.told ∈ s.sys.delivered
  nodup : (s.answers.map (·.told)).Nodup
  tnodup : (s.tasks.map (·.told)).Nodup
  live : ∀ t ∈ s.tasks, t.pc.isSome = true → ∀ a ∈ s.answers, a.told ≠ t.told
  orig : ∀ a ∈ s.answers, ∃ nd m, Known own ops nd ∧ Came own ops nd m ∧ Reports s.sys a.call nd m
  torig : ∀ t ∈ s.tasks, Known own ops t.nd ∧ Came own ops t.nd t.msg

theorem answered_cases {s s' : State} {i : Nat} {nd : Nd} {m : Msg} (h : Answered s s' i nd m) :
    ∃ new, s'.answers = s.answers ++ new ∧ (new = [] ∨ ∃ k, new = [⟨i, k⟩] ∧ Reports s'.sys k nd m) := by
  rcases h with h | ⟨k, h1, h2⟩
  · exact ⟨[], by rw [h]; simp, .inl rfl⟩
  · exact ⟨_, h1, .inr ⟨k, rfl, h2⟩⟩

theorem nodup_snoc {α : Type} {l : List α} {a : α} (h : l.Nodup) (ha : a ∉ l) : (l ++ [a]).Nodup := by
  rw [List.nodup_append]
  refine ⟨h, by simp, fun x hx y hy e => ?_⟩
  rw [List.mem_singleton.mp hy] at e
  exact ha (e ▸ hx)

theorem ainv_run (own : Nat) (ops : List Op) : AInv own ops (run (init own) ops) := by
  induction ops using Conn.snoc_ind with
  | nil => constructor <;> simp [run, init]
  | snoc ops o ih =>
    rw [run_snoc]
    have hmono := sys_delivered (run (init own) ops) o
    have hrep := fun {k nd m} (h : Reports (run (init own) ops).sys k nd m) => reports_step h o
    have hands : ∀ {i nd m c}, Hands (run (init own) ops).sys i nd m c → Known own (ops ++ [o]) nd ∧ Came own (ops ++ [o]) nd m := by
      intro i nd m c h
      obtain ⟨h1, -, h3⟩ := hands_came h
      exact ⟨h1.mono o, h3.mono o⟩
    have hte := (step_effect (run (init own) ops) o).2.1
    generalize step (run (init own) ops) o = s' at *
    generalize run (init own) ops = s at *
    have orig : ∀ a ∈ s.answers, ∃ nd m, Known own (ops ++ [o]) nd ∧ Came own (ops ++ [o]) nd m ∧ Reports s'.sys a.call nd m := by
      intro a ha
      obtain ⟨nd, m, h1, h2, h3⟩ := ih.orig a ha
      exact ⟨nd, m, h1.mono o, h2.mono o, hrep h3⟩
    have torig : ∀ t ∈ s.tasks, Known own (ops ++ [o]) t.nd ∧ Came own (ops ++ [o]) t.nd t.msg := fun t ht => ⟨(ih.torig t ht).1.mono o, (ih.torig t ht).2.mono o⟩
    -- one answer at most is added, for a message that has none
    have add : ∀ {i nd m} (tasks : List Task), i ∈ s'.sys.delivered → (∀ a ∈ s.answers, a.told ≠ i) → Known own (ops ++ [o]) nd → Came own (ops ++ [o]) nd m → Answered s s' i nd m →
        s'.tasks = tasks → (∀ t ∈ tasks, t.told ∈ s'.sys.delivered) → (tasks.map (·.told)).Nodup → (∀ t ∈ tasks, t.pc.isSome = true → ∀ a ∈ s.answers, a.told ≠ t.told) →
        (s'.answers ≠ s.answers → ∀ t ∈ tasks, t.pc.isSome = true → i ≠ t.told) → (∀ t ∈ tasks, Known own (ops ++ [o]) t.nd ∧ Came own (ops ++ [o]) t.nd t.msg) →
        AInv own (ops ++ [o]) s' := by
      intro i nd m tasks hi hno hk hc ha ht h1 h2 h3 h4 h5
      obtain ⟨new, e, hnew⟩ := answered_cases ha
      rcases hnew with rfl | ⟨k, rfl, hr⟩
      · rw [List.append_nil] at e
        exact ⟨fun a h => hmono _ (ih.del a (e ▸ h)), ht ▸ h1, by rw [e]; exact ih.nodup, ht ▸ h2, fun t h => by rw [e]; exact h3 t (ht ▸ h), by rw [e]; exact orig, ht ▸ h5⟩
      · have hne : s'.answers ≠ s.answers := by
          intro h; rw [h] at e
          have := congrArg List.length e
          simp at this
        refine ⟨fun a h => ?_, ht ▸ h1, ?_, ht ▸ h2, fun t h hp a h' => ?_, fun a h => ?_, ht ▸ h5⟩
        · rw [e] at h
          rcases List.mem_append.mp h with h | h
          · exact hmono _ (ih.del a h)
          · rw [List.mem_singleton.mp h]; exact hi
        · rw [e, List.map_append]
          refine nodup_snoc ih.nodup (fun h => ?_)
          obtain ⟨a, h6, h7⟩ := List.mem_map.mp h
          exact hno a h6 h7
        · rw [e] at h'
          rcases List.mem_append.mp h' with h' | h'
          · exact h3 t (ht ▸ h) hp a h'
          · rw [List.mem_singleton.mp h']; exact h4 hne t (ht ▸ h) hp
        · rw [e] at h
          rcases List.mem_append.mp h with h | h
          · exact orig a h
          · rw [List.mem_singleton.mp h]; exact ⟨nd, m, hk, hc, hr⟩
    cases hte with
    | none h1 h2 =>
      exact ⟨fun a h => hmono _ (ih.del a (h2 ▸ h)), fun t h => hmono _ (ih.tdel t (h1 ▸ h)), by rw [h2]; exact ih.nodup, by rw [h1]; exact ih.tnodup,
        fun t h => by rw [h2]; exact ih.live t (h1 ▸ h), by rw [h2]; exact orig, by rw [h1]; exact torig⟩
    | now i nd m c hh hi ht ha =>
      obtain ⟨hk, hc⟩ := hands hh
      exact add s.tasks hi (fun a h e => hh.1 (e ▸ ih.del a h)) hk hc ha ht (fun t h => hmono _ (ih.tdel t h)) ih.tnodup ih.live
        (fun _ t h _ e => hh.1 (e ▸ ih.tdel t h)) torig
    | start i nd m c pc hh hi ht ha =>
      obtain ⟨hk, hc⟩ := hands hh
      refine add (s.tasks ++ [⟨i, nd, m, pc⟩]) hi (fun a h e => hh.1 (e ▸ ih.del a h)) hk hc (ha.elim .inl (·.2)) ht (fun t h => ?_) ?_ (fun t h hp a h' => ?_) (fun hne t h hp => ?_) (fun t h => ?_)
      · rcases List.mem_append.mp h with h | h
        · exact hmono _ (ih.tdel t h)
        · rw [List.mem_singleton.mp h]; exact hi
      · rw [List.map_append]
        refine nodup_snoc ih.tnodup (fun h => ?_)
        obtain ⟨t, h6, h7⟩ := List.mem_map.mp h
        exact hh.1 ((show t.told = i from h7) ▸ ih.tdel t h6)
      · rcases List.mem_append.mp h with h | h
        · exact ih.live t h hp a h'
        · rw [List.mem_singleton.mp h]; exact fun e => hh.1 ((show a.told = i from e) ▸ ih.del a h')
      · rcases List.mem_append.mp h with h | h
        · exact fun e => hh.1 (e ▸ ih.tdel t h)
        · rw [List.mem_singleton.mp h] at hp
          rcases ha with ha | ⟨ha, -⟩
          · exact absurd ha hne
          · rw [ha] at hp; cases hp
      · rcases List.mem_append.mp h with h | h
        · exact torig t h
        · rw [List.mem_singleton.mp h]; exact ⟨hk, hc⟩
    | resume j t pc hj hp ht ha =>
      have hmem := List.mem_of_getElem? hj
      obtain ⟨hk, hc⟩ := torig t hmem
      have hmap : ((s.tasks.set j { t with pc := pc }).map (·.told)) = s.tasks.map (·.told) := by
        rw [List.map_set]
        have : t.told = (s.tasks.map (·.told))[j]'(by simpa using (List.getElem?_eq_some_iff.mp hj).1) := by
          rw [List.getElem_map]
          rw [(List.getElem?_eq_some_iff.mp hj).2]
        show (s.tasks.map (·.told)).set j t.told = _
        rw [this, List.set_getElem_self]
      refine add (s.tasks.set j { t with pc := pc }) (hmono _ (ih.tdel t hmem)) (ih.live t hmem hp) hk hc (ha.elim .inl (·.2)) ht (fun y h => ?_) (by rw [hmap]; exact ih.tnodup)
        (fun y h hy a h' => ?_) (fun hne y h hy => ?_) (fun y h => ?_)
      · rcases mem_set' h with rfl | h
        · exact hmono _ (ih.tdel t hmem)
        · exact hmono _ (ih.tdel y h)
      · rcases mem_set' h with rfl | h
        · exact ih.live t hmem hp a h'
        · exact ih.live y h hy a h'
      · rcases ha with ha | ⟨ha, -⟩
        · exact absurd ha hne
        · -- the other tasks are for other messages
          obtain ⟨q, hq⟩ := List.getElem?_of_mem h
          by_cases hqj : q = j
          · subst hqj
            rw [List.getElem?_set_self (List.getElem?_eq_some_iff.mp hj).1] at hq
            cases hq
            rw [ha] at hy; cases hy
          · rw [List.getElem?_set_ne (Ne.symm hqj)] at hq
            intro e
            have h1 : (s.tasks.map (·.told))[q]? = some t.told := by simp [List.getElem?_map, hq, e]
            have h2 : (s.tasks.map (·.told))[j]? = some t.told := by simp [List.getElem?_map, hj]
            obtain ⟨l1, e1⟩ := List.getElem?_eq_some_iff.mp h1
            obtain ⟨l2, e2⟩ := List.getElem?_eq_some_iff.mp h2
            exact hqj ((List.getElem_inj ih.tnodup).mp (e1.trans e2.symm))
      · rcases mem_set' h with rfl | h
        · exact torig t hmem
        · exact torig y h

/-- **C130.** For every history: no two reports are sent on one supervised command, whatever happens while its handler waits. -/
theorem C130_once (own : Nat) (ops : List Op) (i j : Nat) (a b : Answer) (ha : (run (init own) ops).answers[i]? = some a) (hb : (run (init own) ops).answers[j]? = some b)
    (he : a.told = b.told) : i = j := by
  have h1 : ((run (init own) ops).answers.map (·.told))[i]? = some a.told := by simp [List.getElem?_map, ha]
  have h2 : ((run (init own) ops).answers.map (·.told))[j]? = some a.told := by simp [List.getElem?_map, hb, he]
  obtain ⟨l1, e1⟩ := List.getElem?_eq_some_iff.mp h1
  obtain ⟨l2, e2⟩ := List.getElem?_eq_some_iff.mp h2
  exact (List.getElem_inj (ainv_run own ops).nodup).mp (e1.trans e2.symm)

/-- What a report on the supervised command `m` looks like. -/
def ReportBytes (m cmd : Msg) (handled : Bool) : Prop :=
  ∀ v, m.num? "sessionID" = some v → 0 ≤ v → v < 64 → compose cmd = .ok [0x6C, 0x02, UInt8.ofNat v.toNat, if handled then 0xFF else 0x00, 0x00]

/-- **C130.** Every report is sent to the node and end point from which the Supervision Get came in a datagram, with its session id. -/
theorem C130_origin (own : Nat) (ops : List Op) (a : Answer) (ha : a ∈ (run (init own) ops).answers) :
    ∃ nd m, Known own ops nd ∧ m.hid = 0x6C01 ∧ Came own ops nd m ∧
      ∃ c b, (run (init own) ops).sys.net.calls[a.call]? = some c ∧ c.node = nd.root ∧ c.destEP = nd.ep ∧ c.sourceEP = 0 ∧ ReportBytes m c.cmd b := by
  obtain ⟨nd, m, h1, h2, h0, b, rep, c, h3, h4, h5, h6, h7, h8⟩ := (ainv_run own ops).orig a ha
  refine ⟨nd, m, h1, h0, h2, c, b, h4, h5, h8, h7, fun v hv v0 v1 => ?_⟩
  obtain ⟨rep', r1, r2⟩ := Props.Node.report_bytes m v hv v0 v1 b
  rw [h3] at r1
  cases r1
  rw [h6]; exact r2

theorem finish_ok (s : State) (i : Nat) (nd : Nd) (m : Msg) (hm : m.hid = 0x6C01) (v : Int) (hv : m.num? "sessionID" = some v) (v0 : 0 ≤ v) (v1 : v < 64) (b : Bool) :
    (finish s i nd m (.ok b)).answers = s.answers ++ [⟨i, s.sys.net.calls.length⟩] ∧
    ∃ c, (finish s i nd m (.ok b)).sys.net.calls[s.sys.net.calls.length]? = some c ∧ c.node = nd.root ∧ c.destEP = nd.ep ∧ c.sourceEP = 0 ∧
      compose c.cmd = .ok [0x6C, 0x02, UInt8.ofNat v.toNat, if b then 0xFF else 0x00, 0x00] := by
  obtain ⟨rep, r1, r2⟩ := Props.Node.report_bytes m v hv v0 v1 b
  have hm1 : m.hid = Reg.Supervision.Get.hid := hm
  obtain ⟨c, c1, c2, c3, c4, c5, -⟩ := ToNode.send_new s.sys.net nd.root rep 0 nd.ep 3
  simp only [finish, if_pos hm1, r1]
  refine ⟨by first | trivial | rfl, c, c1, c2, c5, c4, by rw [c3]; exact r2⟩

/-- **C130.** A supervised command (not a group information report) whose handling ends with true or false is answered at once with a report that says so; if it raises, nothing is sent. -/
theorem C130_result {s : State} {i : Nat} {nd : Nd} {m c : Msg} (hh : Hands s.sys i nd m c) (hm : m.hid = 0x6C01) (hc : c.hid ≠ 0x5904) (x : Heard)
    (hw : ∀ f, (s.sys.waiters nd.obj).sessions.get? c.hid = some f → (s.sys.waiters nd.obj).futs[f]? = some .pending) (v : Int) (hv : m.num? "sessionID" = some v) (v0 : 0 ≤ v)
    (v1 : v < 64) :
    match (Node.handlePlain (env nd x) ⟨s.sys.waiters nd.obj, s.devs nd.obj, []⟩ c).2 with
    | .ok b => (step s (.deliver i x)).answers = s.answers ++ [⟨i, s.sys.net.calls.length⟩] ∧
        ∃ call, (step s (.deliver i x)).sys.net.calls[s.sys.net.calls.length]? = some call ∧ call.node = nd.root ∧ call.destEP = nd.ep ∧ call.sourceEP = 0 ∧
          compose call.cmd = .ok [0x6C, 0x02, UInt8.ofNat v.toNat, if b then 0xFF else 0x00, 0x00]
    | .error _ => (step s (.deliver i x)).answers = s.answers ∧ (step s (.deliver i x)).sys.net = s.sys.net := by
  have e := deliver_plain hh hc x hw
  have hnet : (System.step s.sys (.deliver i)).net = s.sys.net := System.run_net [.deliver i] s.sys
  split
  · rename_i b hb
    rw [hb] at e
    have := finish_ok (({ s with sys := System.step s.sys (.deliver i) } : State).put nd.obj (if supports nd c.cmdClass then classDoes c (s.devs nd.obj) else s.devs nd.obj))
      i nd m hm v hv v0 v1 b
    rw [← e] at this
    simp only [State.put, hnet] at this
    exact this
  · rename_i b hb
    rw [hb] at e
    have hm1 : m.hid = Reg.Supervision.Get.hid := hm
    simp only [finish, if_pos hm1] at e
    rw [e]
    exact ⟨rfl, hnet⟩

/-- **C130**, from the wire: a supervised complete configuration report from an end point of a node is stored, and the end point is sent the report `6C 02 session FF 00`, once. -/
theorem C130_supervised (own : Nat) (pre mid : List Op) (o : Gateway.Op) (nd : Nd) (h : ZipHeader) (b n size : UInt8) (value tl rest : Bytes) (hs : size.toNat % 8 = value.length)
    (hne : value ++ tl ≠ []) (hlen : (configReport n size value tl).length < 256)
    (w : Waits own pre mid o nd h (0x6C :: 0x01 :: b :: UInt8.ofNat (configReport n size value tl).length :: (configReport n size value tl ++ rest)) 0x6C01)
    (s : State) (hs' : s = run (init own) (pre ++ .sys (.net (.gw o)) :: mid)) (i : Nat) (hi : i = (run (init own) pre).sys.net.gw.told.length)
    (hsup : supports nd 0x70 = true) (hw : ∀ f, (s.sys.waiters nd.obj).sessions.get? 0x7006 = some f → (s.sys.waiters nd.obj).futs[f]? = some .pending) (x : Heard) :
    Stores s (step s (.deliver i x)) nd.obj n.toNat (beNat value) value.length ∧
    (step s (.deliver i x)).answers = s.answers ++ [⟨i, s.sys.net.calls.length⟩] ∧
    ∃ call, (step s (.deliver i x)).sys.net.calls[s.sys.net.calls.length]? = some call ∧ call.node = nd.root ∧ call.destEP = nd.ep ∧ call.sourceEP = 0 ∧
      compose call.cmd = .ok [0x6C, 0x02, UInt8.ofNat (b.toNat % 64), 0xFF, 0x00] := by
  obtain ⟨m, h0, h1, h2, h3, h4⟩ := Props.C23_report n size value tl hs hne
  have hdec := Props.C24_decode_partial b (configReport n size value tl) rest hlen
  rw [show decode (configReport n size value tl) = .ok m from h0] at hdec
  simp only [bind, Except.bind, pure, Except.pure] at hdec
  have hh := waits_hands (c := m) (by simp) hdec (by show (0x6C01 : Nat) ≠ 0x5202; decide) (by
    have : (Msg.wrap 0x6C01 [("statusUpdates", .num .flag (b.toNat / 128 % 2 : Nat)), ("-", .num (.reserved 1) (b.toNat / 64 % 2 : Nat)),
            ("sessionID", .num (.bits 6) (b.toNat % 64 : Nat))] m).hid = Reg.Supervision.Get.hid := rfl
    simp only [System.offered, if_pos this]; rfl) w
  rw [← hs', ← hi] at hh
  obtain ⟨hst, s1, e, e1, e2⟩ := config_stores hh h1 _ _ _ h2 h4 h3 hsup hw x
  refine ⟨hst, ?_⟩
  have hnet : (System.step s.sys (.deliver i)).net = s.sys.net := System.run_net [.deliver i] s.sys
  have := finish_ok s1 i nd (.wrap 0x6C01 [("statusUpdates", .num .flag (b.toNat / 128 % 2 : Nat)), ("-", .num (.reserved 1) (b.toNat / 64 % 2 : Nat)),
            ("sessionID", .num (.bits 6) (b.toNat % 64 : Nat))] m) rfl (b.toNat % 64 : Nat) rfl (by omega) (by omega) true
  rw [← e, e1, e2, hnet] at this
  exact this

/-- A supervised configuration report and a supervised group information report: the first is answered at once. The handler of the second waits for its sends; it is answered when
they have ended, if they have. -/
example : let s := run (init 1) (up ++ [.sys (.net (.gw (rcv [0x6C, 0x01, 0x05, 6, 0x70, 0x06, 9, 2, 1, 2]))), .deliver 0 quiet,
      .sys (.net (.gw (rcv [0x6C, 0x01, 0x06, 10, 0x59, 0x04, 1, 1, 0, 0, 1, 0, 0, 0]))), .deliver 1 quiet])
    s.answers = [⟨0, 1⟩] ∧ (s.sys.net.calls[1]?).map (fun c => (c.node, c.destEP, compose c.cmd)) = some (2, 0, .ok [0x6C, 0x02, 5, 0xFF, 0]) ∧
    s.tasks.map (fun t => (t.told, t.pc)) = [(1, some (0, 2))] ∧ (s.sys.net.calls[2]?).map (fun c => compose c.cmd) = some (.ok [0x59, 0x01, 1]) := by decide +kernel

/-! ## C131 -/

/-- **C131.** The name of a group is one that was loaded or that the node has reported for this group. -/
def C131_statement : Prop :=
  ∀ (own : Nat) (ops : List Op) (nd : Nd) (g : Int) (grp : Agi.Group) (name : List Nat), (nd.id, nd) ∈ (run (init own) ops).sys.app.nodes →
    ((run (init own) ops).devs nd.obj).agi.groups.get? g = some grp → grp.name = some name →
    (∃ c gs q, .load nd.obj c gs ∈ ops ∧ gs.get? g = some q ∧ q.name = some name) ∨
    ∃ m, Said own ops nd m ∧ m.hid = 0x5902 ∧ numAttr m "groupingIdentifier" = some g ∧ getAttr registry m "name" = some (.str name)

/-- C131: what holds. Missing: a report that ends before the name gives the group the name `None` (`C131_violated`). -/
theorem C131_name_partial (own : Nat) (ops : List Op) (nd : Nd) (g : Int) (grp : Agi.Group) (name : List Nat) (hk : (nd.id, nd) ∈ (run (init own) ops).sys.app.nodes)
    (hg : ((run (init own) ops).devs nd.obj).agi.groups.get? g = some grp) (hn : grp.name = some name) :
    (∃ c gs q, .load nd.obj c gs ∈ ops ∧ gs.get? g = some q ∧ q.name = some name) ∨
    ∃ m, Said own ops nd m ∧ m.hid = 0x5902 ∧ numAttr m "groupingIdentifier" = some g ∧
      (getAttr registry m "name" = some (.str name) ∨ (∀ y, getAttr registry m "name" ≠ some (.str y)) ∧ name = "None".toList.map Char.toNat) :=
  (held_node own ops nd hk).name g grp name hg hn

/-- Node 2 lists group 1, and then sends a report with the number of the group but without its name. -/
def unnamed : List Op :=
  up ++ [.sys (.net (.gw (rcv [0x59, 0x04, 0x01, 0x01, 0x00, 0x00, 0x01, 0x00, 0x00, 0x00]))), .deliver 0 quiet, .sys (.net (.gw (rcv [0x59, 0x02, 0x01]))), .deliver 1 quiet]

theorem unnamed_said {nd : Nd} {m : Msg} (h : Said 1 unnamed nd m) (hm : m.hid = 0x5902) : m = .known 0x5902 [("groupingIdentifier", .num (.uint 1) 1)] := by
  obtain ⟨c, hw, before, o, after, e, hf⟩ := h
  have hmem : Op.sys (.net (.gw o)) ∈ unnamed := by rw [e]; simp
  have key : ∀ cb q, decode (packet.bytes ++ cb) = .ok q → q.hid = 0x2302 → o = rcv cb → q.command = some c := by
    intro cb q hq hid ho
    rcases hf with ⟨k, l, b, p, h1, -, -, h2, h3⟩ | ⟨b, sender, order, p, h1, -⟩
    · rw [ho] at h1
      simp only [rcv, Gateway.Op.link.injEq, Conn.Op.packet.injEq] at h1
      rw [← h1.2, hq] at h2
      cases h2
      rcases h3 with h3 | ⟨h3, -⟩
      · exact h3.2
      · exact absurd hid h3
    · rw [ho] at h1; cases h1
  have cases' : o = rcv [0x59, 0x04, 0x01, 0x01, 0x00, 0x00, 0x01, 0x00, 0x00, 0x00] ∨ o = rcv [0x59, 0x02, 0x01] := by
    rcases hf with ⟨k, l, b, p, h1, -⟩ | ⟨b, sender, order, p, h1, -⟩
    · subst h1
      simpa [unnamed, up, rcv] using hmem
    · subst h1
      simp [unnamed, up, rcv] at hmem
  have hinfo : (decode (packet.bytes ++ [0x59, 0x04, 0x01, 0x01, 0x00, 0x00, 0x01, 0x00, 0x00, 0x00])).toOption.map (fun q => (q.hid, q.command.map Msg.hid)) =
      some (0x2302, some 0x5904) := by decide +kernel
  have hname : (decode (packet.bytes ++ [0x59, 0x02, 0x01])).toOption.map (fun q => (q.hid, q.command)) =
      some (0x2302, some (.known 0x5902 [("groupingIdentifier", .num (.uint 1) 1)])) := by decide +kernel
  rcases cases' with ho | ho
  · cases hq : decode (packet.bytes ++ [0x59, 0x04, 0x01, 0x01, 0x00, 0x00, 0x01, 0x00, 0x00, 0x00]) with
    | error x => rw [hq] at hinfo; cases hinfo
    | ok q =>
      rw [hq] at hinfo
      simp only [Except.toOption, Option.map_some, Option.some.injEq, Prod.mk.injEq] at hinfo
      rw [key _ q hq hinfo.1 ho] at hinfo
      have hc : c.hid = 0x5904 := by simpa using hinfo.2
      rcases hw with rfl | ⟨h1, -⟩
      · rw [hm] at hc; cases hc
      · rw [h1] at hc; cases hc
  · cases hq : decode (packet.bytes ++ [0x59, 0x02, 0x01]) with
    | error x => rw [hq] at hname; cases hname
    | ok q =>
      rw [hq] at hname
      simp only [Except.toOption, Option.map_some, Option.some.injEq, Prod.mk.injEq] at hname
      rw [key _ q hq hname.1 ho] at hname
      have hc := Option.some.inj hname.2
      rcases hw with rfl | ⟨h1, -⟩
      · exact hc
      · rw [hc] at h1; cases h1

/-- C131 is violated: the group is named `None` although the node has not said a name. -/
theorem C131_violated : ¬ C131_statement := by
  intro h
  have h1 : ((run (init 1) unnamed).devs node2.obj).agi.groups.get? 1 = some ⟨some [78, 111, 110, 101], 1, none⟩ := by decide +kernel
  rcases h 1 unnamed node2 1 _ _ (by decide +kernel) h1 rfl with ⟨c, gs, q, hl, -⟩ | ⟨m, hm, hid, -, hn⟩
  · simp [unnamed, up] at hl
  · rw [unnamed_said hm hid] at hn
    have : getAttr registry (.known 0x5902 [("groupingIdentifier", .num (.uint 1) 1)]) "name" ≠ some (.str [78, 111, 110, 101]) := by decide +kernel
    exact this hn

end Props.Device
