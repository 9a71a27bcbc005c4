import Verif.Spec.System
import Verif.Props.Gateway
import Verif.Lemmas.System
/-!
# Lemmas: where the messages the listeners are told come from
-/
namespace Model.Conn

theorem ackReceived_heard (s : State) (p : Msg) : (ackReceived s p).1.heard = s.heard := by
  unfold ackReceived
  repeat' split
  all_goals rfl

theorem commandReceived_heard (s : State) (p : Msg) : (commandReceived s p).1.heard = s.heard ∨ (commandReceived s p).1.heard = s.heard ++ [p] := by
  unfold commandReceived
  split
  · exact .inl rfl
  · split
    · exact .inl rfl
    · exact .inr rfl
    · exact .inl rfl

/-- Only a datagram makes the connection speak, and only about itself. -/
theorem heard_step (s : State) (o : Op) : (step s o).heard = s.heard ∨ ∃ b p, o = .packet b ∧ decode b = .ok p ∧ (step s o).heard = s.heard ++ [p] := by
  cases o with
  | packet b =>
    simp only [step, onPacket]
    split
    · exact .inl rfl
    · rename_i p hp
      have ha := ackReceived_heard s p
      have hc : ∀ x : State, (commandReceived s p).1 = x → x.heard = s.heard ∨ ∃ b' p', Op.packet b = .packet b' ∧ decode b' = .ok p' ∧ x.heard = s.heard ++ [p'] := by
        rintro x rfl
        rcases commandReceived_heard s p with h | h
        · exact .inl h
        · exact .inr ⟨b, p, rfl, hp, h⟩
      split
      · split
        · left; split <;> (rename_i e; rw [e] at ha; exact ha)
        · split
          · split
            · left; split <;> (rename_i e; rw [e] at ha; exact ha)
            · exact .inl rfl
          · split
            · exact .inl rfl
            · split
              · split <;> (rename_i e; exact hc _ (by rw [e]))
              · exact .inl rfl
      · split
        · exact .inl rfl
        · split
          · split <;> (rename_i e; exact hc _ (by rw [e]))
          · exact .inl rfl
  | connect => exact .inl rfl
  | send cmd src dst timeout =>
    left
    simp only [step, send, transmitAndWait, resetKeepAlive, transmit]
    repeat' split
    all_goals rfl
  | tick => exact .inl rfl
  | fire k =>
    left
    simp only [step, keepAlive, resetKeepAlive, transmit]
    repeat' split
    all_goals rfl
  | _ =>
    left
    simp only [step]
    repeat' split
    all_goals rfl

end Model.Conn

namespace Model.Gateway
open Spec.System

/-- What the told message says. -/
def Told.Says (t : Told) (n ep : Nat) (c : Msg) : Prop := t.node = n ∧ t.sourceEP = some (ep : Int) ∧ t.message = some c

theorem origin_step (ops : List Op) (o : Op) : let s := run init ops
    ∃ new, (step s o).told = s.told ++ new ∧ ∀ t ∈ new, ∀ n ep c, t.Says n ep c → FromNode s o n ep c := by
  intro s
  have same : (step s o).told = s.told → ∃ new, (step s o).told = s.told ++ new ∧ ∀ t ∈ new, ∀ n ep c, t.Says n ep c → FromNode s o n ep c :=
    fun h => ⟨[], by rw [h, List.append_nil], by simp⟩
  cases o with
  | nm c =>
    obtain ⟨x, j, h⟩ := startNm_frame s c
    exact same (by simp only [step, h, State.addJob])
  | setMode mode =>
    obtain ⟨c, j, h⟩ := startAsk_frame s (.mode mode) (.known Reg.ZipGateway.GatewayModeGet.hid []) 0x5F03 3
    exact same (by simp only [step, h]; rfl)
  | setup order =>
    refine same ?_
    simp only [step]
    split
    · obtain ⟨c, j, h⟩ := setupLoop_frame (iter s.nodes.keys order) s
      rw [h]; rfl
    · split
      · rfl
      · rename_i cmd _
        obtain ⟨c, j, h⟩ := startAsk_frame { s with nmSeq := s.nmSeq + 1 } .setup cmd 0x5202 3
        rw [h]; rfl
  | connectToNode n =>
    refine same ?_
    obtain ⟨c, j, h⟩ := connectToNode_frame s n
    simp only [step, h]; rfl
  | opened i ok =>
    refine same ?_
    simp only [step]
    split
    · split <;> rfl
    · rfl
  | job i order =>
    refine same ?_
    obtain ⟨c, d, n, k, l, js, h⟩ := stepJob_frame s i order
    simp only [step, h]
  | conn o =>
    refine same ?_
    simp only [step]
    split <;> rfl
  | unsolicited pkt sender order =>
    simp only [step, onUnsolicitedMessage]
    cases hd : decode pkt with
    | error e => exact ⟨[], by simp, by simp⟩
    | ok p =>
      dsimp only
      cases p.command.filter (fun c => c.hid = 0x5202) with
      | some report =>
        obtain ⟨c, k, n, j, h⟩ := handle_frame s report order
        dsimp only
        rw [h]
        exact ⟨[], by simp [State.addJob], by simp⟩
      | none =>
        dsimp only
        cases hf : s.nodes.find? (fun e => e.2 = some sender) with
        | none => exact ⟨[], by simp, by simp⟩
        | some x =>
          obtain ⟨n, v⟩ := x
          have hv : v = some sender := by have := List.find?_some hf; simpa using this
          have hn : (n, some sender) ∈ s.nodes := hv ▸ List.mem_of_find?_eq_some hf
          have key : ∀ t ∈ [(⟨n, p.num? "sourceEP", p.command, getAttr registry p "headerExtension"⟩ : Told)], ∀ n' ep c, t.Says n' ep c →
              FromNode s (.unsolicited pkt sender order) n' ep c := by
            intro t ht n' ep c hs
            simp only [List.mem_singleton] at ht
            subst ht
            obtain ⟨h1, h2, h3⟩ := hs
            cases h1
            exact .inr ⟨pkt, sender, order, p, rfl, hn, hd, h2, h3⟩
          dsimp only
          split
          · split
            · split
              · exact ⟨[], by simp, by simp⟩
              · exact ⟨_, rfl, key⟩
            · exact ⟨[], by simp, by simp⟩
          · exact ⟨_, rfl, key⟩
  | link k o =>
    have hinv : LinkInv s := linkInv_init.run ops
    cases hl : s.links[k]? with
    | none => exact same (by simp only [step, hl])
    | some l =>
      cases hf : s.conns.find? (fun p => p.2 = k) with
      | none =>
        refine same ?_
        simp only [step, hl]
        rw [told_none k _ _ (by exact hf)]
      | some p =>
        obtain ⟨n, v⟩ := p
        have hv : v = k := by have := List.find?_some hf; simpa using this
        have hnode : l.node = n := by
          have h := hinv.conns n v (List.mem_of_find?_eq_some hf)
          rw [hv, List.getElem?_map, hl] at h
          simpa using h
        refine ⟨_, Props.Gateway.link_told s k n v l hl hf o, fun t ht n' ep c hs => ?_⟩
        rcases Conn.heard_step l.conn o with h | ⟨b, p, rfl, hp, h⟩
        · rw [h, List.drop_length] at ht; cases ht
        · rw [h, List.drop_left] at ht
          simp only [List.map_cons, List.map_nil, List.mem_singleton] at ht
          subst ht
          obtain ⟨h1, h2, h3⟩ := hs
          refine .inl ⟨k, l, b, p, rfl, hl, hnode.trans h1, hp, ?_⟩
          simp only [toldOf] at h2 h3
          by_cases hz : p.hid = 0x2302
          · rw [if_pos hz] at h2 h3; exact .inl ⟨h2, h3⟩
          · rw [if_neg hz] at h2 h3
            simp only [Option.some.injEq] at h2 h3
            exact .inr ⟨hz, by omega, h3.symm⟩

end Model.Gateway

namespace Model.ToNode
open Spec.System

/-- The gateway is a gateway. -/
theorem gw_run (ops : List Op) : ∃ os, (run init ops).gw = Gateway.run Gateway.init os := by
  induction ops using Conn.snoc_ind with
  | nil => exact ⟨[], rfl⟩
  | snoc ops o ih =>
    obtain ⟨os, h⟩ := ih
    have hp : ∀ (s : State) (os : List Gateway.Op) (i : Nat), s.gw = Gateway.run Gateway.init os → ∃ os, (proceed s i).gw = Gateway.run Gateway.init os := by
      intro s os i hs
      rw [proceed_gw]
      split
      · rename_i k o _
        exact ⟨os ++ [.link k o], by rw [hs]; simp [Gateway.run]⟩
      · exact ⟨os, hs⟩
    rw [run_snoc]
    cases o with
    | gw o => exact ⟨os ++ [o], by simp only [step]; rw [h]; simp [Gateway.run]⟩
    | resume i => exact hp _ os i h
    | send node cmd src dst timeout => exact hp _ (os ++ [.connectToNode node]) _ (by simp only; rw [h]; simp [Gateway.run])

theorem send_told (os : List Gateway.Op) (k : Nat) (cmd : Msg) (src dst : Int) (timeout : Nat) :
    (Gateway.step (Gateway.run Gateway.init os) (.link k (.send cmd src dst timeout))).told = (Gateway.run Gateway.init os).told := by
  generalize Gateway.run Gateway.init os = g
  simp only [Gateway.step]
  cases hl : g.links[k]? with
  | none => rfl
  | some l =>
    rcases Conn.heard_step l.conn (.send cmd src dst timeout) with h | ⟨b, p, h, -⟩
    · dsimp only
      rw [h, List.drop_length]; rfl
    · cases h

theorem issued_send {s : State} {i k : Nat} {o : Conn.Op} (h : issued s i = some (k, o)) : ∃ cmd src dst timeout, o = .send cmd src dst timeout := by
  unfold issued at h
  split at h
  · cases h
  · split at h
    · split at h
      · cases h; exact ⟨_, _, _, _, rfl⟩
      · cases h
    · cases h

/-- What has been told stays. -/
theorem told_snoc (ops : List Op) (o : Op) : ∃ new, (run init (ops ++ [o])).gw.told = (run init ops).gw.told ++ new := by
  have hp : ∀ (s : State) (os : List Gateway.Op) (j : Nat), s.gw = Gateway.run Gateway.init os → (proceed s j).gw.told = s.gw.told := by
    intro s os j hs
    rw [proceed_gw]
    split
    · rename_i k o' hi
      obtain ⟨cmd, src, dst, timeout, rfl⟩ := issued_send hi
      rw [hs]; exact send_told os k cmd src dst timeout
    · rfl
  obtain ⟨os, hos⟩ := gw_run ops
  rw [run_snoc]
  cases o with
  | resume j => exact ⟨[], by rw [List.append_nil]; exact hp _ os j hos⟩
  | send node cmd src dst timeout =>
    refine ⟨[], ?_⟩
    simp only [step, sendToNode]
    rw [hp _ (os ++ [.connectToNode node]) _ (by simp only; rw [hos]; simp [Gateway.run])]
    obtain ⟨c, j, h'⟩ := Gateway.connectToNode_frame (run init ops).gw node
    simp only [Gateway.step, h', List.append_nil]; rfl
  | gw o' =>
    obtain ⟨new, h1, -⟩ := Gateway.origin_step os o'
    rw [← hos] at h1
    exact ⟨new, h1⟩

theorem told_append (ops l : List Op) : ∃ new, (run init (ops ++ l)).gw.told = (run init ops).gw.told ++ new := by
  induction l using Conn.snoc_ind with
  | nil => exact ⟨[], by simp⟩
  | snoc l o ih =>
    obtain ⟨x, h1⟩ := ih
    obtain ⟨y, h2⟩ := told_snoc (ops ++ l) o
    exact ⟨x ++ y, by rw [← List.append_assoc, h2, h1, List.append_assoc]⟩

/-- Everything the listeners are told came in a datagram. -/
theorem origin (ops : List Op) : ∀ (i : Nat) (t : Gateway.Told), (run init ops).gw.told[i]? = some t → ∀ n ep c, t.Says n ep c →
    ∃ pre o post, ops = pre ++ .gw o :: post ∧ FromNode (run init pre).gw o n ep c := by
  induction ops using Conn.snoc_ind with
  | nil => intro i t h; simp [run, init, Gateway.init] at h
  | snoc ops o ih =>
    intro i t h n ep c hs
    have old : (run init ops).gw.told[i]? = some t → ∃ pre o' post, ops ++ [o] = pre ++ .gw o' :: post ∧ FromNode (run init pre).gw o' n ep c := by
      intro h
      obtain ⟨pre, o', post, h1, h2⟩ := ih i t h n ep c hs
      exact ⟨pre, o', post ++ [o], by rw [h1]; simp, h2⟩
    have hp : ∀ (s : State) (os : List Gateway.Op) (j : Nat), s.gw = Gateway.run Gateway.init os → (proceed s j).gw.told = s.gw.told := by
      intro s os j hs
      rw [proceed_gw]
      split
      · rename_i k o' hi
        obtain ⟨cmd, src, dst, timeout, rfl⟩ := issued_send hi
        rw [hs]; exact send_told os k cmd src dst timeout
      · rfl
    obtain ⟨os, hos⟩ := gw_run ops
    rw [run_snoc] at h
    cases o with
    | resume j =>
      refine old ?_
      simp only [step] at h
      rw [hp _ os j hos] at h
      exact h
    | send node cmd src dst timeout =>
      refine old ?_
      simp only [step, sendToNode] at h
      rw [hp _ (os ++ [.connectToNode node]) _ (by simp only; rw [hos]; simp [Gateway.run])] at h
      dsimp only at h
      obtain ⟨c, j, h'⟩ := Gateway.connectToNode_frame (run init ops).gw node
      simp only [Gateway.step, h'] at h
      exact h
    | gw o' =>
      obtain ⟨new, h1, h2⟩ := Gateway.origin_step os o'
      rw [← hos] at h1 h2
      simp only [step] at h
      rw [h1] at h
      rcases Nat.lt_or_ge i (run init ops).gw.told.length with hl | hl
      · rw [List.getElem?_append_left hl] at h; exact old h
      · rw [List.getElem?_append_right hl] at h
        exact ⟨ops, o', [], rfl, h2 t (List.mem_of_getElem? h) n ep c hs⟩

end Model.ToNode
