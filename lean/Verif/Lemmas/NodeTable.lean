import Verif.Lemmas.Gateway
/-! Helper lemmas: which operations change the node table. -/
namespace Model.Gateway
open Spec

/-- The packet carries a node list report. -/
def carriesNodeList (pkt : Bytes) : Bool :=
  match decode pkt with
  | .ok p => (p.command.filter (fun c => c.hid = 0x5202)).isSome
  | .error _ => false

/-- Operations that start a coroutine that changes the node table. -/
def touchesTable : Op → Bool
  | .setup _ => true
  | .nm c => decide (c = .getNodeList)
  | .unsolicited pkt _ _ => carriesNodeList pkt
  | _ => false

/-- Coroutines that change the node table when they continue. -/
def tableJob : Job → Bool
  | .report .. => true
  | .setup .. => true
  | .ask .list _ _ => true
  | .ask .setup _ _ => true
  | _ => false

theorem afterSend_job' (s : State) (c : Conn.State) (k : Nat) : tableJob (afterSend s c k).2 = false := by
  unfold afterSend; split <;> rfl

theorem afterAskSend_job' (s : State) (a : Ask) (t : Nat) (c : Conn.State) (k : Nat) (h1 : a ≠ .list) (h2 : a ≠ .setup) :
    tableJob (afterAskSend s a t c k).2 = false := by
  unfold afterAskSend
  split
  · rfl
  · cases a <;> simp_all [tableJob]

theorem startNm_job (s : State) (c : Nm) (h : c ≠ .getNodeList) : tableJob (startNm s c).2 = false := by
  simp only [startNm]
  split
  · rfl
  · split
    · rfl
    · split
      · exact afterSend_job' _ _ _
      · exact afterAskSend_job' _ _ _ _ _ (by simp [h]) (by simp [h])

theorem connectToNode_job (s : State) (n : Nat) : tableJob (Gateway.connectToNode s n).2 = false := by
  simp only [Gateway.connectToNode]
  split
  · rfl
  · split <;> rfl

theorem afterAsk_quiet (s : State) (a : Ask) (r : Py Msg) (order : List Nat) (h1 : a ≠ .list) (h2 : a ≠ .setup) :
    ∃ c j, afterAsk s a r order = ({ s with conn := c }, j) ∧ tableJob j = false := by
  unfold afterAsk
  split
  · exact ⟨_, _, rfl, rfl⟩
  · exact ⟨_, _, rfl, rfl⟩
  · exact absurd rfl h1
  · exact absurd rfl h1
  · exact absurd rfl h2
  · exact absurd rfl h2
  · split
    · exact ⟨_, _, rfl, rfl⟩
    · split
      · exact ⟨_, _, rfl, rfl⟩
      · rename_i cmd _
        obtain ⟨c, j, h⟩ := startSend_frame s cmd
        refine ⟨c, j, h, ?_⟩
        have := afterSend_job' s (Conn.send s.conn cmd 0 0 3) s.conn.sends.length
        rw [show (afterSend s (Conn.send s.conn cmd 0 0 3) s.conn.sends.length) = startSend s cmd from rfl, h] at this
        exact this
  · exact ⟨_, _, rfl, rfl⟩
  · exact ⟨_, _, rfl, rfl⟩

/-- What a coroutine does that is not about the table. -/
theorem stepJob_quiet (s : State) (i : Nat) (order : List Nat) (h : ∀ j, s.jobs[i]? = some j → tableJob j = false) :
    ∃ c l js, stepJob s i order = { s with conn := c, links := l, jobs := js } ∧
      (js = s.jobs ∨ ∃ j, js = s.jobs.set i j ∧ tableJob j = false) := by
  simp only [stepJob]
  split
  · exact ⟨_, _, _, rfl, .inl rfl⟩
  · split
    · exact ⟨_, _, _, rfl, .inl rfl⟩
    · exact ⟨_, _, _, rfl, .inr ⟨_, rfl, rfl⟩⟩
    · exact ⟨_, _, _, rfl, .inr ⟨_, rfl, rfl⟩⟩
  · rename_i _ a t k hj
    split
    · rename_i _ r _
      obtain ⟨c, j, h1, h2⟩ := afterAsk_quiet s a r order (by rintro rfl; simpa [tableJob] using h _ hj) (by rintro rfl; simpa [tableJob] using h _ hj)
      rw [h1]
      exact ⟨c, s.links, _, rfl, .inr ⟨j, rfl, h2⟩⟩
    · split <;> exact ⟨_, _, _, rfl, .inl rfl⟩
  · rename_i hj; simpa [tableJob] using h _ hj
  · rename_i hj; simpa [tableJob] using h _ hj
  · split
    · exact ⟨_, _, _, rfl, .inl rfl⟩
    · exact ⟨_, _, _, rfl, .inr ⟨_, rfl, rfl⟩⟩
    · split
      · exact ⟨_, _, _, rfl, .inr ⟨_, rfl, rfl⟩⟩
      · exact ⟨_, _, _, rfl, .inr ⟨_, rfl, rfl⟩⟩
  · exact ⟨_, _, _, rfl, .inl rfl⟩
  · exact ⟨_, _, _, rfl, .inl rfl⟩

theorem unsolicited_quiet (s : State) (pkt sender : Bytes) (order : List Nat) (h : carriesNodeList pkt = false) :
    ∃ t a r, onUnsolicitedMessage s pkt sender order = ({ s with told := t, acks := a }, r) := by
  simp only [carriesNodeList] at h
  simp only [onUnsolicitedMessage]
  split
  · exact ⟨_, _, _, rfl⟩
  · rename_i p hp
    rw [hp] at h
    simp only [] at h
    split
    · rename_i a ha
      rw [ha] at h; simp at h
    · split
      · exact ⟨_, _, _, rfl⟩
      · split
        · split
          · split <;> exact ⟨_, _, _, rfl⟩
          · exact ⟨_, _, _, rfl⟩
        · exact ⟨_, _, _, rfl⟩

/-- The job at `i` is in progress about the table, or over. -/
def settled : Job → Bool
  | .report .. => true
  | .done _ => true
  | _ => false

/-- The list of jobs keeps its entry `i` and gets no new job about the table. -/
def JobsKeep (i : Nat) (js js' : List Job) : Prop :=
  js'[i]? = js[i]? ∧ ∀ k j, k ≠ i → js'[k]? = some j → tableJob j = true → js[k]? = some j

theorem handler_started (s0 : State) (pkt sender : Bytes) (order : List Nat) (p c : Msg) (l : List Nat) (hd : decode pkt = .ok p) (hc : p.command = some c)
    (hh : c.hid = 0x5202) (hl : reportNodes c = some l) :
    let r := reportLoop { s0 with nodes := s0.nodes.filter (fun p => p.1 ∈ l) } (iter l order)
    step s0 (.unsolicited pkt sender order) = r.1.addJob r.2 := by
  have hf : (some c).filter (fun c => decide (c.hid = 0x5202)) = some c := by simp [Option.filter, hh]
  simp only [step, onUnsolicitedMessage, hd, hc, hf, handleNodeListReport, hl]

theorem JobsKeep.refl (i : Nat) (js : List Job) : JobsKeep i js js := ⟨rfl, fun _ _ _ h _ => h⟩

theorem JobsKeep.add {i : Nat} {js : List Job} {j : Job} (hi : i < js.length) (hj : tableJob j = false) : JobsKeep i js (js ++ [j]) := by
  refine ⟨by rw [List.getElem?_append_left hi], fun k j' _ h ht => ?_⟩
  by_cases hk : k < js.length
  · rwa [List.getElem?_append_left hk] at h
  · rw [List.getElem?_append_right (by omega)] at h
    rcases Nat.eq_or_lt_of_le (Nat.le_of_not_lt hk) with rfl | hk
    · simp at h; subst h; simp [hj] at ht
    · rw [List.getElem?_eq_none (by simp; omega)] at h; cases h

theorem JobsKeep.set {i m : Nat} {js : List Job} {j : Job} (hm : m ≠ i) (hj : tableJob j = false) : JobsKeep i js (js.set m j) := by
  refine ⟨by rw [List.getElem?_set_ne hm], fun k j' _ h ht => ?_⟩
  by_cases hk : m = k
  · subst hk
    rw [List.getElem?_set_self'] at h
    cases hm' : js[m]? with
    | none => simp [hm'] at h
    | some x => simp [hm'] at h; subst h; simp [hj] at ht
  · rwa [List.getElem?_set_ne hk] at h

/-- Operations that do not start or continue a coroutine about the table leave the table alone. -/
theorem step_quiet' (s : State) (op : Op) (i : Nat) (x : Job) (hx : s.jobs[i]? = some x) (hs : ∀ n k, x ≠ .opening n k) (hop : ∀ order, op ≠ .job i order)
    (hq : touchesTable op = false) (hj : ∀ k j, k ≠ i → s.jobs[k]? = some j → tableJob j = false) :
    (step s op).nodes = s.nodes ∧ (step s op).listUpdated = s.listUpdated ∧ JobsKeep i s.jobs (step s op).jobs := by
  have hi : i < s.jobs.length := by
    rcases Nat.lt_or_ge i s.jobs.length with h | h
    · exact h
    · rw [List.getElem?_eq_none h] at hx; cases hx
  cases op with
  | nm c =>
    obtain ⟨k, j, h⟩ := startNm_frame s c
    have hjob := startNm_job s c (by simpa [touchesTable] using hq)
    rw [h] at hjob
    simp only [step, h, State.addJob]
    exact ⟨by trivial, by trivial, .add hi hjob⟩
  | setMode mode =>
    have hjob := afterAskSend_job' s (.mode mode) s.conn.w.tasks.length
      (Conn.send { s.conn with w := Waiter.step s.conn.w (.call .adapter 0x5F03 3) } (.known Reg.ZipGateway.GatewayModeGet.hid []) 0 0 3)
      s.conn.sends.length (by simp) (by simp)
    obtain ⟨c, j, h⟩ := startAsk_frame s (.mode mode) (.known Reg.ZipGateway.GatewayModeGet.hid []) 0x5F03 3
    have hjob : tableJob (startAsk s (.mode mode) (.known Reg.ZipGateway.GatewayModeGet.hid []) 0x5F03 3).2 = false := hjob
    rw [h] at hjob
    simp only [step, h, State.addJob]
    exact ⟨by trivial, by trivial, .add hi hjob⟩
  | setup order => simp [touchesTable] at hq
  | connectToNode n =>
    obtain ⟨c, j, h⟩ := connectToNode_frame s n
    have hjob := connectToNode_job s n
    rw [h] at hjob
    simp only [step, h, State.addJob]
    exact ⟨by trivial, by trivial, .add hi hjob⟩
  | opened m ok =>
    simp only [step]
    split
    · rename_i n k hm
      have hne : m ≠ i := by rintro rfl; rw [hx] at hm; cases hm; exact hs n k rfl
      split
      · exact ⟨by trivial, by trivial, .set hne rfl⟩
      · exact ⟨by trivial, by trivial, .set hne rfl⟩
    · exact ⟨by trivial, by trivial, .refl _ _⟩
  | unsolicited pkt sender order =>
    obtain ⟨t, a, r, h⟩ := unsolicited_quiet s pkt sender order (by simpa [touchesTable] using hq)
    simp only [step, h]
    exact ⟨by trivial, by trivial, .refl _ _⟩
  | job m order =>
    have hm : m ≠ i := by rintro rfl; exact hop order rfl
    obtain ⟨c, l, js, h1, h2⟩ := stepJob_quiet s m order (fun j h => hj m j hm h)
    simp only [step, h1]
    refine ⟨by trivial, by trivial, ?_⟩
    rcases h2 with rfl | ⟨j, rfl, h2⟩
    · exact .refl _ _
    · exact .set hm h2
  | conn o => simp only [step]; split <;> exact ⟨by trivial, by trivial, .refl _ _⟩
  | link k o =>
    simp only [step]
    split
    · exact ⟨by trivial, by trivial, .refl _ _⟩
    · rename_i l _
      obtain ⟨t, h⟩ := onMessageReceived_frame k ((Conn.step l.conn o).heard.drop l.conn.heard.length)
        { s with links := s.links.set k ({ l with conn := Conn.step l.conn o } : Link) }
      rw [h]; exact ⟨by trivial, by trivial, .refl _ _⟩

theorem step_quiet (s : State) (op : Op) (i : Nat) (x : Job) (hx : s.jobs[i]? = some x) (hs : settled x = true) (hop : ∀ order, op ≠ .job i order)
    (hq : touchesTable op = false) (hj : ∀ k j, k ≠ i → s.jobs[k]? = some j → tableJob j = false) :
    (step s op).nodes = s.nodes ∧ (step s op).listUpdated = s.listUpdated ∧ JobsKeep i s.jobs (step s op).jobs :=
  step_quiet' s op i x hx (by rintro n k rfl; cases hs) hop hq hj

/-! ### The handler of a node list report -/

/-- What holds while the handler `i` of the report with the nodes `l`, started in `s0`, has the nodes `rest` still to look at. -/
structure Handling (s0 : State) (l : List Nat) (rest : List Nat) (s : State) : Prop where
  sub : ∀ n, n ∈ s.nodes.keys → n ∈ l
  all : ∀ n, n ∈ l → n ∈ s.nodes.keys ∨ n ∈ rest
  keep : ∀ n v, n ∈ l → s0.nodes.get? n = some v → s.nodes.get? n = some v
  nodup : s0.nodes.keys.Nodup → s.nodes.keys.Nodup

/-- The handler: `k` is the count of announcements before it. -/
structure Handler (s0 : State) (l : List Nat) (k : Nat) (s : State) (j : Job) : Prop where
  job : settled j = true
  report : ∀ cur todo t, j = .report cur todo t → Handling s0 l (cur :: todo) s ∧ cur ∈ l ∧ (∀ n ∈ todo, n ∈ l) ∧ cur ∉ s.nodes.keys ∧ s.listUpdated = k
  ok : ∀ r, j = .done (.ok r) → r = .unit ∧ Handling s0 l [] s ∧ s.listUpdated = k + 1
  error : ∀ e, j = .done (.error e) → s.listUpdated = k

theorem Handling.congr {s0 : State} {l rest : List Nat} {s s' : State} (h : Handling s0 l rest s) (he : s'.nodes = s.nodes) : Handling s0 l rest s' := by
  obtain ⟨h1, h2, h3, h4⟩ := h
  constructor <;> simpa only [he]

theorem Handler.congr {s0 : State} {l : List Nat} {k : Nat} {s s' : State} {j : Job} (h : Handler s0 l k s j) (he : s'.nodes = s.nodes)
    (hl : s'.listUpdated = s.listUpdated) : Handler s0 l k s' j := by
  obtain ⟨h1, h2, h3, h4⟩ := h
  refine ⟨h1, fun cur todo t hj => ?_, fun r hr => ?_, fun e he' => hl.trans (h4 e he')⟩
  · obtain ⟨g1, g2, g3, g4, g5⟩ := h2 cur todo t hj
    exact ⟨g1.congr he, g2, g3, by rwa [he], hl.trans g5⟩
  · obtain ⟨g1, g2, g3⟩ := h3 r hr
    exact ⟨g1, g2.congr he, hl.trans g3⟩

theorem mem_iff (d : Dict Nat (Option Bytes)) (n : Nat) : d.mem n = true ↔ n ∈ d.keys := by
  rw [← Dict.get?_isSome_iff]
  rfl

theorem reportLoop_handler (s0 : State) (l : List Nat) : ∀ (todo : List Nat) (s : State), (∀ n ∈ todo, n ∈ l) → Handling s0 l todo s →
    Handler s0 l s.listUpdated (reportLoop s todo).1 (reportLoop s todo).2 := by
  intro todo
  induction todo with
  | nil =>
    intro s _ h
    refine ⟨rfl, fun _ _ _ h => by simp [reportLoop] at h, fun r hr => ?_, fun e he => by simp [reportLoop] at he⟩
    simp [reportLoop] at hr
    exact ⟨hr.symm, h.congr rfl, rfl⟩
  | cons n todo ih =>
    intro s hsub h
    simp only [reportLoop]
    split
    · rename_i hm
      rw [mem_iff] at hm
      refine ih s (fun m hm => hsub m (.tail _ hm)) ⟨h.sub, fun m hml => ?_, h.keep, h.nodup⟩
      rcases h.all m hml with h1 | h1
      · exact .inl h1
      · rcases List.mem_cons.mp h1 with rfl | h1
        · exact .inl hm
        · exact .inr h1
    · rename_i hm
      rw [mem_iff] at hm
      obtain ⟨c, r, hf⟩ := ipOfNode_frame s n
      rw [hf]
      cases r with
      | error e =>
        refine ⟨rfl, fun _ _ _ h => by simp at h, fun r hr => by simp at hr, fun e he => rfl⟩
      | ok t =>
        refine ⟨rfl, fun cur todo' t' hj => ?_, fun r hr => by simp at hr, fun e he => by simp at he⟩
        simp only [Job.report.injEq] at hj
        obtain ⟨rfl, rfl, rfl⟩ := hj
        exact ⟨h.congr rfl, hsub _ (.head _), fun m hm => hsub m (.tail _ hm), hm, rfl⟩

theorem keys_set' (d : Dict Nat (Option Bytes)) (k : Nat) (v : Option Bytes) (n : Nat) : n ∈ (d.set k v).keys ↔ n = k ∨ n ∈ d.keys := by
  rw [← Dict.get?_isSome_iff, ← Dict.get?_isSome_iff, Dict.get?_set]
  split
  · rename_i h; simp [h.symm]
  · rename_i h
    constructor
    · exact .inr
    · rintro (rfl | h'); exact absurd rfl h; exact h'

/-- The handler's coroutine continues. -/
theorem stepJob_handler (s0 : State) (l : List Nat) (k : Nat) (s : State) (i : Nat) (order : List Nat) (x : Job) (hx : s.jobs[i]? = some x)
    (h : Handler s0 l k s x) : ∃ y, (stepJob s i order).jobs = s.jobs.set i y ∧ Handler s0 l k (stepJob s i order) y := by
  have hset : s.jobs = s.jobs.set i x := by
    apply List.ext_getElem?
    intro m
    by_cases hm : i = m
    · subst hm; rw [List.getElem?_set_self']; simp [hx]
    · rw [List.getElem?_set_ne hm]
  cases x with
  | done r => simp only [stepJob, hx]; exact ⟨_, hset, h⟩
  | report cur todo t =>
    obtain ⟨g1, g2, g3, g4, g5⟩ := h.report cur todo t rfl
    simp only [stepJob, hx]
    split
    · exact ⟨_, hset, h⟩
    · rename_i e _
      exact ⟨.done (.error e), rfl, rfl, fun _ _ _ h => by simp at h, fun r hr => by simp at hr, fun e he => g5⟩
    · rename_i m _
      have hh : Handling s0 l todo { s with nodes := s.nodes.set cur (advertised m) } := by
        refine ⟨fun n hn => ?_, fun n hn => ?_, fun n v hn hv => ?_, fun hn => Dict.nodup_set (g1.nodup hn)⟩
        · rcases (keys_set' _ _ _ n).mp hn with rfl | hn
          · exact g2
          · exact g1.sub n hn
        · rcases g1.all n hn with h1 | h1
          · exact .inl ((keys_set' _ _ _ n).mpr (.inr h1))
          · rcases List.mem_cons.mp h1 with rfl | h1
            · exact .inl ((keys_set' _ _ _ n).mpr (.inl rfl))
            · exact .inr h1
        · have h1 := g1.keep n v hn hv
          have : cur ≠ n := by
            rintro rfl
            apply g4
            rw [← Dict.get?_isSome_iff, h1]; rfl
          show (s.nodes.set cur (advertised m)).get? n = some v
          rw [Dict.get?_set_ne _ _ this]
          exact h1
      have hl := reportLoop_handler s0 l todo _ g3 hh
      obtain ⟨c, kk, j, hf⟩ := reportLoop_frame todo { s with nodes := s.nodes.set cur (advertised m) }
      have hk : ({ s with nodes := s.nodes.set cur (advertised m) } : State).listUpdated = k := g5
      rw [hf, hk] at hl
      rw [hf]
      exact ⟨j, rfl, hl.congr rfl rfl⟩
  | _ => exact absurd h.job (by simp [settled])

theorem get?_filterKeys (d : Dict Nat (Option Bytes)) (l : List Nat) (n : Nat) :
    Dict.get? (d.filter (fun p => p.1 ∈ l)) n = if n ∈ l then d.get? n else none := by
  induction d with
  | nil => simp [Dict.get?]
  | cons p d ih =>
    obtain ⟨k, v⟩ := p
    by_cases hk : k ∈ l
    · rw [List.filter_cons_of_pos (by simpa using hk)]
      simp only [Dict.get?] at ih ⊢
      by_cases hkn : k = n
      · subst hkn; simp [hk]
      · simp only [hkn, decide_false] at ih ⊢
        exact ih
    · rw [List.filter_cons_of_neg (by simpa using hk)]
      rw [ih]
      split
      · rename_i hn
        have hkn : k ≠ n := by rintro rfl; exact hk hn
        simp [Dict.get?, hkn]
      · rfl

theorem mem_iter (l order : List Nat) (n : Nat) : n ∈ iter l order ↔ n ∈ l := by
  unfold iter
  split
  · rename_i h
    exact (List.isPerm_iff.mp h).mem_iff
  · exact Iff.rfl

theorem handling_start (s0 : State) (l order : List Nat) : Handling s0 l (iter l order) { s0 with nodes := s0.nodes.filter (fun p => p.1 ∈ l) } := by
  have hg := get?_filterKeys s0.nodes l
  refine ⟨fun n hn => ?_, fun n hn => .inr ((mem_iter l order n).mpr hn), fun n v hn hv => ?_, fun hn => ?_⟩
  · rw [← Dict.get?_isSome_iff] at hn
    rw [show ({ s0 with nodes := s0.nodes.filter (fun p => p.1 ∈ l) } : State).nodes = s0.nodes.filter (fun p => p.1 ∈ l) from rfl, hg] at hn
    split at hn
    · assumption
    · cases hn
  · show Dict.get? (s0.nodes.filter (fun p => p.1 ∈ l)) n = some v
    rw [hg, if_pos hn, hv]
  · exact hn.sublist (List.filter_sublist.map _)

/-- The handler through a schedule without other operations on the table. -/
theorem run_handler (s0 : State) (l : List Nat) (k i : Nat) : ∀ (ops : List Op) (s : State) (x : Job), s.jobs[i]? = some x → Handler s0 l k s x →
    (∀ k j, k ≠ i → s.jobs[k]? = some j → tableJob j = false) → (∀ op ∈ ops, touchesTable op = false) →
    ∃ y, (run s ops).jobs[i]? = some y ∧ Handler s0 l k (run s ops) y := by
  intro ops
  induction ops with
  | nil => intro s x hx hh _ _; exact ⟨x, hx, hh⟩
  | cons op ops ih =>
    intro s x hx hh hj hops
    rw [run_cons]
    have hq := hops op (.head _)
    have hops' := fun o ho => hops o (.tail _ ho)
    have hi : i < s.jobs.length := (List.getElem?_eq_some_iff.mp hx).1
    by_cases hop : ∃ order, op = .job i order
    · obtain ⟨order, rfl⟩ := hop
      obtain ⟨y, h1, h2⟩ := stepJob_handler s0 l k s i order x hx hh
      refine ih _ y ?_ h2 ?_ hops'
      · rw [show (step s (.job i order)).jobs = s.jobs.set i y from h1, List.getElem?_set_self hi]
      · intro m j hm hmj
        rw [show (step s (.job i order)).jobs = s.jobs.set i y from h1, List.getElem?_set_ne (Ne.symm hm)] at hmj
        exact hj m j hm hmj
    · obtain ⟨h1, h2, h3, h4⟩ := step_quiet s op i x hx hh.job (fun order he => hop ⟨order, he⟩) hq hj
      refine ih _ x (h3.trans hx) (hh.congr h1 h2) ?_ hops'
      intro m j hm hmj
      cases ht : tableJob j with
      | false => rfl
      | true => rw [← ht]; exact hj m j hm (h4 m j hm hmj ht)

end Model.Gateway
