import Verif.Lemmas.AskTime
/-! Helper lemmas: what the calls of the gateway return. -/
namespace Model.Gateway
open Spec

theorem setJob_ne {js : List Job} {m i : Nat} {j x : Job} (hm : m ≠ i) (hx : js[i]? = some x) : (js.set m j)[i]? = some x := by
  rw [List.getElem?_set_ne hm]; exact hx

theorem stepJob_ne (s : State) (m : Nat) (order : List Nat) (i : Nat) (x : Job) (hm : m ≠ i) (hx : s.jobs[i]? = some x) :
    (stepJob s m order).jobs[i]? = some x := by
  simp only [stepJob]
  split
  · exact hx
  · split
    · exact hx
    · exact setJob_ne hm hx
    · exact setJob_ne hm hx
  · split
    · rename_i _ a t k _ _ r _
      obtain ⟨c, d, n, j, h⟩ := afterAsk_frame s a r order
      rw [h]
      exact setJob_ne hm hx
    · split <;> exact hx
  · split
    · exact hx
    · exact setJob_ne hm hx
    · rename_i _ n todo t _ _ m' _
      obtain ⟨c, k, j, h⟩ := reportLoop_frame todo { s with nodes := s.nodes.set n (advertised m') }
      rw [h]
      exact setJob_ne hm hx
  · split
    · exact hx
    · exact setJob_ne hm hx
    · rename_i _ n todo t _ _ m' _
      obtain ⟨c, j, h⟩ := setupLoop_frame todo { s with nodes := s.nodes.set n (advertised m') }
      rw [h]
      exact setJob_ne hm hx
  · split
    · exact hx
    · exact setJob_ne hm hx
    · split <;> exact setJob_ne hm hx
  · exact hx
  · exact hx

/-- A coroutine only changes when it continues. -/
theorem jobs_keep (s : State) (op : Op) (i : Nat) (x : Job) (hx : s.jobs[i]? = some x) (hop : ∀ order, op ≠ .job i order) (ho : ∀ n k, x ≠ .opening n k) :
    (step s op).jobs[i]? = some x := by
  have hi : i < s.jobs.length := (List.getElem?_eq_some_iff.mp hx).1
  have hadd : ∀ j, (s.jobs ++ [j])[i]? = some x := fun j => by rw [List.getElem?_append_left hi]; exact hx
  cases op with
  | nm c => obtain ⟨k, j, h⟩ := startNm_frame s c; simp only [step, h, State.addJob]; exact hadd j
  | setMode mode =>
    obtain ⟨c, j, h⟩ := startAsk_frame s (.mode mode) (.known Reg.ZipGateway.GatewayModeGet.hid []) 0x5F03 3
    simp only [step, h, State.addJob]; exact hadd j
  | setup order =>
    simp only [step]
    split
    · obtain ⟨c, j, h⟩ := setupLoop_frame (iter s.nodes.keys order) s
      simp only [h, State.addJob]; exact hadd j
    · split
      · exact hadd _
      · rename_i cmd _
        obtain ⟨c, j, h⟩ := startAsk_frame { s with nmSeq := s.nmSeq + 1 } .setup cmd 0x5202 3
        simp only [h, State.addJob]; exact hadd j
  | connectToNode n => obtain ⟨c, j, h⟩ := connectToNode_frame s n; simp only [step, h, State.addJob]; exact hadd j
  | opened m ok =>
    simp only [step]
    split
    · rename_i n k hm
      have hne : m ≠ i := by rintro rfl; rw [hx] at hm; cases hm; exact ho n k rfl
      split <;> exact setJob_ne hne hx
    · exact hx
  | unsolicited pkt sender order =>
    simp only [step, onUnsolicitedMessage]
    split
    · exact hx
    · split
      · rename_i a _
        obtain ⟨c, k, n, j, h⟩ := handle_frame s a order
        rw [h]
        exact hadd j
      · split
        · exact hx
        · split
          · split
            · split <;> exact hx
            · exact hx
          · exact hx
  | job m order => exact stepJob_ne s m order i x (fun e => hop order (by rw [e])) hx
  | conn o => simp only [step]; split <;> exact hx
  | link k o =>
    simp only [step]
    split
    · exact hx
    · rename_i l _
      obtain ⟨t, h⟩ := onMessageReceived_frame k ((Conn.step l.conn o).heard.drop l.conn.heard.length)
        { s with links := s.links.set k ({ l with conn := Conn.step l.conn o } : Link) }
      rw [h]; exact hx

/-- The queries: the network management calls that wait for a report. -/
def Ask.Query : Ask → Prop
  | .nm _ => True
  | .list => True
  | _ => False

/-- What becomes of a query that got `r`. -/
def Ask.ended (a : Ask) (r : Py Msg) : Job := (afterAsk init a r []).2

theorem afterAsk_ended (s : State) {a : Ask} (ha : a.Query) (r : Py Msg) (order : List Nat) : (afterAsk s a r order).2 = a.ended r := by
  unfold Ask.ended afterAsk
  cases a with
  | nm c => cases r with
    | ok m => rfl
    | error e => cases e <;> rfl
  | list => cases r with
    | ok m => simp only [storeList]; cases reportNodes m <;> rfl
    | error e => cases e <;> rfl
  | setup => cases ha
  | mode m => cases ha

theorem ended_error {a : Ask} (ha : a.Query) {e : PyErr} (he : e ≠ .timeout) : a.ended (.error e) = .done (.error e) := by
  cases a with
  | nm c => cases e <;> first | rfl | exact absurd rfl he
  | list => cases e <;> first | rfl | exact absurd rfl he
  | setup => cases ha
  | mode m => cases ha

theorem ended_done {a : Ask} (ha : a.Query) (r : Py Msg) : ∃ x, a.ended r = .done x := by
  cases r with
  | error e =>
    by_cases he : e = .timeout
    · subst he
      cases a with
      | nm c => exact ⟨_, rfl⟩
      | list => exact ⟨_, rfl⟩
      | setup => cases ha
      | mode m => cases ha
    · exact ⟨_, ended_error ha he⟩
  | ok m =>
    cases a with
    | nm c => exact ⟨_, rfl⟩
    | list => simp only [Ask.ended, afterAsk, storeList]; cases reportNodes m <;> exact ⟨_, rfl⟩
    | setup => cases ha
    | mode m => cases ha

/-- The coroutine `i` asks `a` and waits for a message `hid` satisfying `P`, not giving up before `T`, or has ended with an exception, without an answer, or with what it makes of
such a message. -/
def AskCall (P : Msg → Prop) (a : Ask) (hid T i : Nat) (s : State) : Prop :=
  ∃ x, s.jobs[i]? = some x ∧ ((∃ t k, x = .ask a t k ∧ Waiter.Prov P hid t s.conn.w ∧ Waiter.GivesUp T t s.conn.w) ∨ (∃ e, x = .done (.error e)) ∨
    (T ≤ s.conn.now ∧ x = a.ended (.error .timeout)) ∨ ∃ m, P m ∧ m.hid = hid ∧ x = a.ended (.ok m))

theorem taskDone_ok {s : State} {t : Nat} {r : Py Msg} (h : taskDone s t = some r) : ∃ u, s.conn.w.tasks[t]? = some u ∧ u.pc = .done r := by
  unfold taskDone at h
  split at h
  · rename_i u hu
    split at h
    · rename_i r' hr; cases h; exact ⟨u, hu, hr⟩
    · cases h
  · cases h

theorem AskCall.step {P : Msg → Prop} {a : Ask} {hid T i : Nat} {s : State} (ha : a.Query) (h : AskCall P a hid T i s) {tag : Nat → Nat} (hi : Waiter.Inv tag s.conn.w)
    (hs : Asking s) (op : Op) (hop : ∀ b m, op = .conn (.packet b) → Delivers b m → P m) : AskCall P a hid T i (Gateway.step s op) := by
  obtain ⟨x, hx, hc⟩ := h
  have hlen := (List.getElem?_eq_some_iff.mp hx).1
  have hnow : s.conn.now ≤ (Gateway.step s op).conn.now := (step_c s op).now
  have hprov : ∀ t, Waiter.Prov P hid t s.conn.w → Waiter.Prov P hid t (Gateway.step s op).conn.w := by
    intro t ht
    obtain ⟨ws, e, hq⟩ := step_w s op
    rw [e]
    exact ht.run ws hi (fun m hm => by obtain ⟨b, rfl, hd⟩ := hq m hm; exact hop b m rfl hd)
  have keep : (Gateway.step s op).jobs[i]? = some x → AskCall P a hid T i (Gateway.step s op) := by
    intro hx'
    refine ⟨x, hx', ?_⟩
    rcases hc with ⟨t, k, rfl, ht, hg⟩ | hc | ⟨h1, hc⟩ | hc
    · exact .inl ⟨t, k, rfl, hprov t ht, GivesUp.step hs hg op⟩
    · exact .inr (.inl hc)
    · exact .inr (.inr (.inl ⟨Nat.le_trans h1 hnow, hc⟩))
    · exact .inr (.inr (.inr hc))
  have hdone : (∃ t k, x = .ask a t k) ∨ ∃ r, x = .done r := by
    rcases hc with ⟨t, k, h, -⟩ | ⟨e, h⟩ | ⟨-, h⟩ | ⟨m, -, -, h⟩
    · exact .inl ⟨t, k, h⟩
    · exact .inr ⟨_, h⟩
    · obtain ⟨r, hr⟩ := ended_done ha (.error .timeout); exact .inr ⟨r, h.trans hr⟩
    · obtain ⟨r, hr⟩ := ended_done ha (.ok m); exact .inr ⟨r, h.trans hr⟩
  have ho : ∀ n k, x ≠ .opening n k := by
    rintro n k rfl
    rcases hdone with ⟨t, k, h⟩ | ⟨r, h⟩ <;> cases h
  by_cases hj : ∀ order, op ≠ .job i order
  · exact keep (jobs_keep s op i x hx hj ho)
  · obtain ⟨order, rfl⟩ : ∃ order, op = .job i order := Classical.byContradiction (fun h => hj (fun o e => h ⟨o, e⟩))
    rcases hdone with ⟨t, k, rfl⟩ | ⟨r, rfl⟩
    · obtain ⟨ht, hg⟩ : Waiter.Prov P hid t s.conn.w ∧ Waiter.GivesUp T t s.conn.w := by
        rcases hc with ⟨t', k', h, h'⟩ | ⟨e, h⟩ | ⟨-, h⟩ | ⟨m, -, -, h⟩
        · cases h; exact h'
        · cases h
        · obtain ⟨r, hr⟩ := ended_done ha (.error .timeout); rw [hr] at h; cases h
        · obtain ⟨r, hr⟩ := ended_done ha (.ok m); rw [hr] at h; cases h
      cases hd : taskDone s t with
      | none =>
        refine keep ?_
        simp only [Gateway.step, stepJob, hx, hd]
        split <;> exact hx
      | some r =>
        have hend : (Gateway.step s (.job i order)).jobs[i]? = some (a.ended r) := by
          simp only [Gateway.step, stepJob, hx, hd]
          obtain ⟨c, d, n, j, hf⟩ := afterAsk_frame s a r order
          have := afterAsk_ended s ha r order
          rw [hf] at this ⊢
          rw [← this]
          exact List.getElem?_set_self hlen
        obtain ⟨u', hu', hr⟩ := taskDone_ok hd
        cases r with
        | ok m =>
          obtain ⟨u, hu, hh, -, h2⟩ := ht
          rw [hu] at hu'; cases hu'
          exact ⟨_, hend, .inr (.inr (.inr ⟨m, h2 m hr, by rw [← hh]; exact hi.done t _ m hu hr, rfl⟩))⟩
        | error e =>
          by_cases he : e = .timeout
          · subst he
            refine ⟨_, hend, .inr (.inr (.inl ⟨?_, rfl⟩))⟩
            obtain ⟨u, hu, -, hg⟩ := hg
            rw [hu] at hu'; cases hu'
            rw [hr] at hg
            exact Nat.le_trans (hg rfl) hnow
          · exact ⟨_, hend, .inr (.inl ⟨e, ended_error ha he⟩)⟩
    · exact keep (by simp only [Gateway.step, stepJob, hx])

theorem AskCall.run {P : Msg → Prop} {a : Ask} {hid T i : Nat} (ha : a.Query) (ops : List Op) : ∀ {s : State} {tag : Nat → Nat}, AskCall P a hid T i s → Waiter.Inv tag s.conn.w →
    Asking s → (∀ b m, .conn (.packet b) ∈ ops → Delivers b m → P m) → AskCall P a hid T i (Gateway.run s ops) := by
  induction ops with
  | nil => intro s tag h _ _ _; exact h
  | cons op ops ih =>
    intro s tag h hi hs hop
    obtain ⟨ws, e, -⟩ := step_w s op
    obtain ⟨tag', hi'⟩ := hi.run ws
    rw [← e] at hi'
    exact ih (h.step ha hi hs op (fun b m e => hop b m (by rw [e]; exact .head _))) hi' (hs.step op) (fun b m hb => hop b m (.tail _ hb))

theorem askCall_start (P : Msg → Prop) (s : State) {tag : Nat → Nat} (hi : Waiter.Inv tag s.conn.w) (c : Nm) (hid timeout : Nat) (hc : ¬ (c = .getNodeList ∧ s.nodes ≠ []))
    (hw : c.waitsFor = some (hid, timeout)) : AskCall P (if c = .getNodeList then .list else .nm c) hid (s.conn.now + timeout) s.jobs.length (Gateway.step s (.nm c)) := by
  obtain ⟨k, j, hfr⟩ := startNm_frame s c
  have hj : (Gateway.step s (.nm c)).jobs[s.jobs.length]? = some (startNm s c).2 := by
    simp only [Gateway.step, State.addJob, hfr]; simp
  have hcw : (Gateway.step s (.nm c)).conn.w = (startNm s c).1.conn.w := rfl
  refine ⟨_, hj, ?_⟩
  rw [Conn.State.now, hcw]
  simp only [startNm, if_neg hc, hw]
  split
  · rename_i e _; exact .inr (.inl ⟨e, rfl⟩)
  · rename_i cmd _
    simp only [startAsk, afterAskSend]
    split
    · rename_i e _; exact .inr (.inl ⟨e, rfl⟩)
    · refine .inl ⟨_, _, rfl, ?_⟩
      simp only
      rw [(Conn.send_frame _ _ _ _ _).2]
      exact ⟨Waiter.Prov.call hi .adapter hid timeout, Waiter.GivesUp.call _ _ _⟩

end Model.Gateway
