import Verif.Lemmas.Grows
import Verif.Props.GatewayCalls
/-! Helper lemmas: what becomes of a call of `setGatewayMode`. -/
namespace Model.Gateway
open Spec (Bytes)
open Props.Gateway (gatewayHeader)

variable {R : Nat → PyErr → Prop}

/-- A call of `send` has ended with `r`. -/
def Ended (k : Nat) (r : Py Bool) (c : Conn.State) : Prop := ∃ u, c.sends[k]? = some u ∧ u.pc = .done r

theorem Ended.step {k : Nat} {r : Py Bool} {c : Conn.State} (h : Ended k r c) (o : Conn.Op) : Ended k r (Conn.step c o) := by
  obtain ⟨u, hu, hp⟩ := h
  obtain ⟨u', hu', tr⟩ := Conn.step_send c o k u hu
  refine ⟨u', hu', ?_⟩
  cases tr <;> first | exact hp | (exfalso; simp_all)

theorem CEvo.ended {c c' : Conn.State} (h : CEvo R c c') {k : Nat} {r : Py Bool} (hb : Ended k r c) : Ended k r c' := by
  induction h with
  | refl => exact hb
  | op o _ _ ih => exact ih.step o
  | transmit b _ ih =>
    obtain ⟨u, hu, hp⟩ := ih
    exact ⟨u, by rw [(Conn.transmit_sends _ b).1]; exact hu, hp⟩
  | raised t e _ _ ih => exact ih

theorem sendResult_ended {s : State} {k : Nat} {r : Py Bool} : sendResult s k = some r ↔ Ended k r s.conn := by
  unfold sendResult Ended
  constructor
  · intro h
    split at h
    · rename_i u hu
      split at h
      · rename_i r' hr; cases h; exact ⟨u, hu, hr⟩
      · cases h
    · cases h
  · rintro ⟨u, hu, hp⟩
    rw [hu]; simp only [hp]

/-- The command that sets the mode, as transmitted by the send number `k`. -/
def modeSet (k mode : Nat) : Bytes := (gatewayHeader ((k + 1) % 256)).bytes ++ [0x5F, 0x01, UInt8.ofNat mode]

/-- The coroutine `i` is `setGatewayMode(mode)`, not giving up before `T`, that was called when nothing was transmitted but `out`. -/
def ModeCall (P : Msg → Prop) (mode T i : Nat) (s : State) : Prop :=
  ∃ x, s.jobs[i]? = some x ∧ ((∃ t k, x = .ask (.mode mode) t k ∧ Waiter.Prov P 0x5F03 t s.conn.w ∧ Waiter.GivesUp T t s.conn.w) ∨ (∃ e, x = .done (.error e)) ∨
    (T ≤ s.conn.now ∧ x = .done (.ok (.bool false))) ∨
    (∃ m, P m ∧ m.hid = 0x5F03 ∧ m.num? "mode" = some (mode : Int) ∧ x = .done (.ok (.bool true))) ∨
    ∃ m k, P m ∧ m.hid = 0x5F03 ∧ m.num? "mode" ≠ some (mode : Int) ∧ modeSet k mode ∈ s.conn.out ∧
      (x = .sent k ∨ (x = .done (.ok (.bool true)) ∧ ∃ b, Ended k (.ok b) s.conn)))

theorem ModeCall.step {P : Msg → Prop} {mode T i : Nat} {s : State} (hm : mode < 256) (h : ModeCall P mode T i s) {tag : Nat → Nat} (hi : Waiter.Inv tag s.conn.w)
    (hc : Conn.Inv s.conn) (hcon : s.conn.connected = true) (hs : Asking s) (op : Op) (hop : ∀ b m, op = .conn (.packet b) → Delivers b m → P m) :
    ModeCall P mode T i (Gateway.step s op) := by
  obtain ⟨x, hx, hx'⟩ := h
  have hlen := (List.getElem?_eq_some_iff.mp hx).1
  have hev := step_c s op
  have hnow : s.conn.now ≤ (Gateway.step s op).conn.now := hev.now
  have hprov : ∀ t, Waiter.Prov P 0x5F03 t s.conn.w → Waiter.Prov P 0x5F03 t (Gateway.step s op).conn.w := by
    intro t ht
    obtain ⟨ws, e, hq⟩ := step_w s op
    rw [e]
    exact ht.run ws hi (fun m hm => by obtain ⟨b, rfl, hd⟩ := hq m hm; exact hop b m rfl hd)
  have keep : (Gateway.step s op).jobs[i]? = some x → ModeCall P mode T i (Gateway.step s op) := by
    intro hk
    refine ⟨x, hk, ?_⟩
    rcases hx' with ⟨t, k, rfl, ht, hg⟩ | h | ⟨h1, h2⟩ | h | ⟨m, k, h1, h2, h3, h4, h5⟩
    · exact .inl ⟨t, k, rfl, hprov t ht, GivesUp.step hs hg op⟩
    · exact .inr (.inl h)
    · exact .inr (.inr (.inl ⟨Nat.le_trans h1 hnow, h2⟩))
    · exact .inr (.inr (.inr (.inl h)))
    · refine .inr (.inr (.inr (.inr ⟨m, k, h1, h2, h3, hev.grows.mem h4, ?_⟩)))
      rcases h5 with h5 | ⟨h5, b, h6⟩
      · exact .inl h5
      · exact .inr ⟨h5, b, hev.ended h6⟩
  have hshape : (∃ t k, x = .ask (.mode mode) t k) ∨ (∃ k, x = .sent k) ∨ ∃ r, x = .done r := by
    rcases hx' with ⟨t, k, h, -⟩ | ⟨e, h⟩ | ⟨-, h⟩ | ⟨m, -, -, -, h⟩ | ⟨m, k, -, -, -, -, h | ⟨h, -⟩⟩
    · exact .inl ⟨t, k, h⟩
    · exact .inr (.inr ⟨_, h⟩)
    · exact .inr (.inr ⟨_, h⟩)
    · exact .inr (.inr ⟨_, h⟩)
    · exact .inr (.inl ⟨_, h⟩)
    · exact .inr (.inr ⟨_, h⟩)
  have ho : ∀ n k, x ≠ .opening n k := by
    rintro n k rfl
    rcases hshape with ⟨t, k, h⟩ | ⟨k, h⟩ | ⟨r, h⟩ <;> cases h
  by_cases hj : ∀ order, op ≠ .job i order
  · exact keep (jobs_keep s op i x hx hj ho)
  · obtain ⟨order, rfl⟩ : ∃ order, op = .job i order := Classical.byContradiction (fun h => hj (fun o e => h ⟨o, e⟩))
    rcases hshape with ⟨t, k, rfl⟩ | ⟨k, rfl⟩ | ⟨r, rfl⟩
    · obtain ⟨ht, hg⟩ : Waiter.Prov P 0x5F03 t s.conn.w ∧ Waiter.GivesUp T t s.conn.w := by
        rcases hx' with ⟨t', k', h, h'⟩ | ⟨e, h⟩ | ⟨-, h⟩ | ⟨m, -, -, -, h⟩ | ⟨m, k, -, -, -, -, h | ⟨h, -⟩⟩
        · cases h; exact h'
        all_goals cases h
      cases hd : taskDone s t with
      | none =>
        refine keep ?_
        simp only [Gateway.step, stepJob, hx, hd]
        split <;> exact hx
      | some r =>
        obtain ⟨u', hu', hr⟩ := taskDone_ok hd
        cases r with
        | ok m =>
          obtain ⟨u, hu, hh, -, h2⟩ := ht
          rw [hu] at hu'; cases hu'
          have hP := h2 m hr
          have hid : m.hid = 0x5F03 := by rw [← hh]; exact hi.done t _ m hu hr
          obtain ⟨c1, c2⟩ := Props.GatewayCalls.C86_sets_if_different s i t k mode m order hx hd hm hcon
          by_cases hq : m.num? "mode" = some (mode : Int)
          · exact ⟨_, (c1 hq).2, .inr (.inr (.inr (.inl ⟨m, hP, hid, hq, rfl⟩)))⟩
          · obtain ⟨c, hcc, hb⟩ := Props.GatewayCalls.modeSet_bytes mode hm
            have hout := c2 hq
            have hseq : (s.conn.seq + 1) % 256 = (s.conn.sends.length + 1) % 256 := by rw [hc.last]; omega
            rw [hseq] at hout
            have hjob : (∃ e, (Gateway.step s (.job i order)).jobs[i]? = some (.done (.error e))) ∨
                (Gateway.step s (.job i order)).jobs[i]? = some (.sent s.conn.sends.length) := by
              simp only [Gateway.step, stepJob, hx, hd, afterAsk, if_neg hq, hcc, State.setJob, startSend]
              generalize Conn.send s.conn c 0 0 3 = d
              simp only [afterSend]
              split
              · rename_i e _; exact .inl ⟨e, List.getElem?_set_self hlen⟩
              · exact .inr (List.getElem?_set_self hlen)
            rcases hjob with ⟨e, he⟩ | hjob
            · exact ⟨_, he, .inr (.inl ⟨e, rfl⟩)⟩
            · refine ⟨_, hjob, .inr (.inr (.inr (.inr ⟨m, _, hP, hid, hq, ?_, .inl rfl⟩)))⟩
              rw [hout]; simp [modeSet]
        | error e =>
          by_cases he : e = .timeout
          · subst he
            refine ⟨_, (Props.GatewayCalls.C86_no_report s i t k mode order hx hd).2, .inr (.inr (.inl ⟨?_, rfl⟩))⟩
            obtain ⟨u, hu, -, hg⟩ := hg
            rw [hu] at hu'; cases hu'
            rw [hr] at hg
            exact Nat.le_trans (hg rfl) hnow
          · refine ⟨.done (.error e), ?_, .inr (.inl ⟨e, rfl⟩)⟩
            have ha : afterAsk s (.mode mode) (.error e) order = (s, .done (.error e)) := by cases e <;> first | rfl | exact absurd rfl he
            simp only [Gateway.step, stepJob, hx, hd, ha, State.setJob]
            exact List.getElem?_set_self hlen
    · cases hd : sendResult s k with
      | none => exact keep (by simp only [Gateway.step, stepJob, hx, hd])
      | some r =>
        cases r with
        | error e =>
          refine ⟨.done (.error e), ?_, .inr (.inl ⟨e, rfl⟩)⟩
          simp only [Gateway.step, stepJob, hx, hd, State.setJob]
          exact List.getElem?_set_self hlen
        | ok b =>
          refine ⟨.done (.ok (.bool true)), ?_, .inr (.inr (.inr (.inr ?_)))⟩
          · simp only [Gateway.step, stepJob, hx, hd, State.setJob]
            exact List.getElem?_set_self hlen
          · rcases hx' with ⟨t', k', h, h'⟩ | ⟨e, h⟩ | ⟨-, h⟩ | ⟨m, -, -, -, h⟩ | ⟨m, k', h1, h2, h3, h4, h | ⟨h, -⟩⟩
            all_goals first | cases h | skip
            exact ⟨m, k, h1, h2, h3, hev.grows.mem h4, .inr ⟨rfl, b, hev.ended (sendResult_ended.mp hd)⟩⟩
    · exact keep (by simp only [Gateway.step, stepJob, hx])

/-- A call of `setGatewayMode` after its first turn. -/
theorem modeCall_start (P : Msg → Prop) (s : State) {tag : Nat → Nat} (hi : Waiter.Inv tag s.conn.w) (mode : Nat) :
    ModeCall P mode (s.conn.now + 3) s.jobs.length (Gateway.step s (.setMode mode)) := by
  have hj : (Gateway.step s (.setMode mode)).jobs[s.jobs.length]? =
      some (startAsk s (.mode mode) (.known Reg.ZipGateway.GatewayModeGet.hid []) 0x5F03 3).2 := by
    obtain ⟨c, j, h⟩ := startAsk_frame s (.mode mode) (.known Reg.ZipGateway.GatewayModeGet.hid []) 0x5F03 3
    simp only [Gateway.step, State.addJob, h]; simp
  have hcw : (Gateway.step s (.setMode mode)).conn.w = (startAsk s (.mode mode) (.known Reg.ZipGateway.GatewayModeGet.hid []) 0x5F03 3).1.conn.w := by
    simp only [Gateway.step, State.addJob]
  refine ⟨_, hj, ?_⟩
  rw [hcw]
  simp only [startAsk, afterAskSend]
  split
  · rename_i e _; exact .inr (.inl ⟨e, rfl⟩)
  · refine .inl ⟨_, _, rfl, ?_⟩
    simp only
    rw [(Conn.send_frame _ _ _ _ _).2]
    exact ⟨Waiter.Prov.call hi .adapter 0x5F03 3, Waiter.GivesUp.call _ _ _⟩

theorem modeCall_run (ops ops' : List Op) (mode : Nat) (hm : mode < 256) (hcon : (run init ops).conn.connected = true) :
    ModeCall (fun m => ∃ b, .conn (.packet b) ∈ ops' ∧ Delivers b m) mode ((run init ops).conn.now + 3) (run init ops).jobs.length
      (run (Gateway.step (run init ops) (.setMode mode)) ops') := by
  have e : ∀ l, run (Gateway.step (run init ops) (.setMode mode)) l = run init (ops ++ .setMode mode :: l) := fun l => by simp [run]
  have H : ∀ l : List Op, (∀ o ∈ l, o ∈ ops') → ModeCall (fun m => ∃ b, .conn (.packet b) ∈ ops' ∧ Delivers b m) mode ((run init ops).conn.now + 3)
      (run init ops).jobs.length (run (Gateway.step (run init ops) (.setMode mode)) l) := by
    intro l
    refine Conn.snoc_ind (P := fun l => (∀ o ∈ l, o ∈ ops') → ModeCall (fun m => ∃ b, .conn (.packet b) ∈ ops' ∧ Delivers b m) mode ((run init ops).conn.now + 3)
      (run init ops).jobs.length (run (Gateway.step (run init ops) (.setMode mode)) l)) ?_ ?_ l
    · intro _
      obtain ⟨tag, hi⟩ := Props.GatewayCalls.waiter_inv ops
      exact modeCall_start _ _ hi mode
    · intro l op ih hl
      have ih := ih (fun o ho => hl o (List.mem_append_left _ ho))
      rw [show run (Gateway.step (run init ops) (.setMode mode)) (l ++ [op]) = Gateway.step (run (Gateway.step (run init ops) (.setMode mode)) l) op by simp [run]]
      have hcn : (run (Gateway.step (run init ops) (.setMode mode)) l).conn.connected = true :=
        (grows_run l _).connected ((grows_step (run init ops) (.setMode mode)).connected hcon)
      rw [e] at ih hcn ⊢
      obtain ⟨tag, hi⟩ := Props.GatewayCalls.waiter_inv (ops ++ .setMode mode :: l)
      exact ih.step hm hi (conn_inv _) hcn (asking_run _) op (fun b m h hd => ⟨b, h ▸ hl op (by simp), hd⟩)
  exact H ops' (fun o ho => ho)

end Model.Gateway
