import Verif.Lemmas.Asks
import Verif.Lemmas.NodeTable
/-! Helper lemmas: what can enter the node table while several handlers are running. -/
namespace Model.Gateway
open Spec

/-- The coroutine enters only nodes with `P` and replaces no table. -/
def Enters (P : Nat → Prop) : Job → Prop
  | .report cur todo _ => P cur ∧ ∀ n ∈ todo, P n
  | .setup cur todo _ => P cur ∧ ∀ n ∈ todo, P n
  | .ask .list _ _ => False
  | .ask .setup _ _ => False
  | _ => True

/-- The table has, and gets, only nodes with `P`. -/
structure Bound (P : Nat → Prop) (s : State) : Prop where
  sub : ∀ n ∈ s.nodes.keys, P n
  jobs : ∀ j ∈ s.jobs, Enters P j

theorem enters_quiet {P : Nat → Prop} {j : Job} (h : tableJob j = false) : Enters P j := by
  cases j with
  | report => cases h
  | setup => cases h
  | ask a t k => cases a <;> first | exact True.intro | cases h
  | _ => trivial

theorem reportLoop_enters {P : Nat → Prop} (todo : List Nat) : ∀ s : State, (∀ n ∈ todo, P n) → Enters P (reportLoop s todo).2 := by
  induction todo with
  | nil => intro s _; trivial
  | cons n todo ih =>
    intro s h
    simp only [reportLoop]
    split
    · exact ih s fun m hm => h m (.tail _ hm)
    · split
      · trivial
      · exact ⟨h n (.head _), fun m hm => h m (.tail _ hm)⟩

theorem setupLoop_enters {P : Nat → Prop} (todo : List Nat) : ∀ s : State, (∀ n ∈ todo, P n) → Enters P (setupLoop s todo).2 := by
  induction todo with
  | nil => intro s _; trivial
  | cons n todo ih =>
    intro s h
    simp only [setupLoop]
    split
    · trivial
    · exact ih s fun m hm => h m (.tail _ hm)
    · split
      · trivial
      · exact ⟨h n (.head _), fun m hm => h m (.tail _ hm)⟩

theorem enters_set {P : Nat → Prop} {js : List Job} (h : ∀ j ∈ js, Enters P j) {i : Nat} {j : Job} (hj : Enters P j) : ∀ x ∈ js.set i j, Enters P x := by
  intro x hx
  rcases List.mem_or_eq_of_mem_set hx with hx | rfl
  · exact h x hx
  · exact hj

theorem stepJob_bound {P : Nat → Prop} {s : State} (h : Bound P s) (i : Nat) (order : List Nat) :
    Bound P (stepJob s i order) ∧ ∀ n ∈ s.nodes.keys, n ∈ (stepJob s i order).nodes.keys := by
  cases hj : s.jobs[i]? with
  | none => simp only [stepJob, hj]; exact ⟨h, fun n hn => hn⟩
  | some j =>
    have hm := h.jobs j (List.mem_of_getElem? hj)
    by_cases hq : tableJob j = false
    · obtain ⟨c, l, js, h1, h2⟩ := stepJob_quiet s i order (fun j' e => by rw [hj] at e; cases e; exact hq)
      rw [h1]
      refine ⟨⟨h.sub, ?_⟩, fun n hn => hn⟩
      rcases h2 with rfl | ⟨j', rfl, h2⟩
      · exact h.jobs
      · exact enters_set h.jobs (enters_quiet h2)
    · have sub : ∀ {cur : Nat} (v : Option Bytes), P cur → ∀ n ∈ (s.nodes.set cur v).keys, P n := by
        intro cur v hc n hn
        rcases (keys_set' _ _ _ n).mp hn with rfl | hn
        · exact hc
        · exact h.sub n hn
      cases j with
      | report cur todo t =>
        simp only [stepJob, hj]
        split
        · exact ⟨h, fun n hn => hn⟩
        · exact ⟨⟨h.sub, enters_set h.jobs trivial⟩, fun n hn => hn⟩
        · rename_i m _
          obtain ⟨c, kk, j', hf⟩ := reportLoop_frame todo { s with nodes := s.nodes.set cur (advertised m) }
          have he := reportLoop_enters (P := P) todo { s with nodes := s.nodes.set cur (advertised m) } hm.2
          rw [hf] at he ⊢
          exact ⟨⟨sub _ hm.1, enters_set h.jobs he⟩, fun n hn => (keys_set' _ _ _ n).mpr (.inr hn)⟩
      | setup cur todo t =>
        simp only [stepJob, hj]
        split
        · exact ⟨h, fun n hn => hn⟩
        · exact ⟨⟨h.sub, enters_set h.jobs trivial⟩, fun n hn => hn⟩
        · rename_i m _
          obtain ⟨c, j', hf⟩ := setupLoop_frame todo { s with nodes := s.nodes.set cur (advertised m) }
          have he := setupLoop_enters (P := P) todo { s with nodes := s.nodes.set cur (advertised m) } hm.2
          rw [hf] at he ⊢
          exact ⟨⟨sub _ hm.1, enters_set h.jobs he⟩, fun n hn => (keys_set' _ _ _ n).mpr (.inr hn)⟩
      | ask a t k => cases a <;> first | exact hm.elim | exact absurd rfl hq
      | _ => exact absurd rfl hq

theorem step_bound {P : Nat → Prop} {s : State} (h : Bound P s) {op : Op} (hq : touchesTable op = false) :
    Bound P (step s op) ∧ ∀ n ∈ s.nodes.keys, n ∈ (step s op).nodes.keys := by
  have add : ∀ {j : Job} {c : Conn.State} {k : Nat}, tableJob j = false → Bound P { s with conn := c, nmSeq := k, jobs := s.jobs ++ [j] } := by
    intro j c k hj
    refine ⟨h.sub, fun x hx => ?_⟩
    rcases List.mem_append.mp hx with hx | hx
    · exact h.jobs x hx
    · rw [List.mem_singleton.mp hx]; exact enters_quiet hj
  cases op with
  | nm c =>
    obtain ⟨k, j, h'⟩ := startNm_frame s c
    have hjob := startNm_job s c (by simpa [touchesTable] using hq)
    rw [h'] at hjob
    simp only [step, h', State.addJob]
    exact ⟨add hjob, fun n hn => hn⟩
  | setMode mode =>
    have hjob := afterAskSend_job' s (.mode mode) s.conn.w.tasks.length
      (Conn.send { s.conn with w := Waiter.step s.conn.w (.call .adapter 0x5F03 3) } (.known Reg.ZipGateway.GatewayModeGet.hid []) 0 0 3)
      s.conn.sends.length (by simp) (by simp)
    obtain ⟨c, j, h'⟩ := startAsk_frame s (.mode mode) (.known Reg.ZipGateway.GatewayModeGet.hid []) 0x5F03 3
    have hjob : tableJob (startAsk s (.mode mode) (.known Reg.ZipGateway.GatewayModeGet.hid []) 0x5F03 3).2 = false := hjob
    rw [h'] at hjob
    simp only [step, h', State.addJob]
    exact ⟨add hjob, fun n hn => hn⟩
  | setup order => simp [touchesTable] at hq
  | connectToNode n =>
    obtain ⟨c, j, h'⟩ := connectToNode_frame s n
    have hjob := connectToNode_job s n
    rw [h'] at hjob
    simp only [step, h', State.addJob]
    exact ⟨add hjob, fun n hn => hn⟩
  | opened m ok =>
    simp only [step]
    split
    · split
      · exact ⟨⟨h.sub, enters_set h.jobs trivial⟩, fun n hn => hn⟩
      · exact ⟨⟨h.sub, enters_set h.jobs trivial⟩, fun n hn => hn⟩
    · exact ⟨h, fun n hn => hn⟩
  | unsolicited pkt sender order =>
    obtain ⟨t, a, r, h'⟩ := unsolicited_quiet s pkt sender order (by simpa [touchesTable] using hq)
    simp only [step, h']
    exact ⟨⟨h.sub, h.jobs⟩, fun n hn => hn⟩
  | job m order => exact stepJob_bound h m order
  | conn o => simp only [step]; split <;> exact ⟨⟨h.sub, h.jobs⟩, fun n hn => hn⟩
  | link k o =>
    simp only [step]
    split
    · exact ⟨h, fun n hn => hn⟩
    · rename_i l _
      obtain ⟨t, h'⟩ := onMessageReceived_frame k ((Conn.step l.conn o).heard.drop l.conn.heard.length)
        { s with links := s.links.set k ({ l with conn := Conn.step l.conn o } : Link) }
      rw [h']; exact ⟨⟨h.sub, h.jobs⟩, fun n hn => hn⟩

/-- The handler of the report with the nodes `l`: what is not in the table yet is still to be looked up. -/
def Covers (l : List Nat) (s : State) : Job → Prop
  | .report cur todo _ => ∀ n ∈ l, n ∈ s.nodes.keys ∨ n = cur ∨ n ∈ todo
  | .done (.ok _) => ∀ n ∈ l, n ∈ s.nodes.keys
  | .done (.error _) => True
  | _ => False

theorem Covers.mono {l : List Nat} {s s' : State} {j : Job} (h : Covers l s j) (hk : ∀ n ∈ s.nodes.keys, n ∈ s'.nodes.keys) : Covers l s' j := by
  cases j with
  | report cur todo t => exact fun n hn => (h n hn).imp_left (hk n)
  | done r => cases r with
    | ok r => exact fun n hn => hk n (h n hn)
    | error e => trivial
  | _ => exact h.elim

theorem reportLoop_covers (l : List Nat) (todo : List Nat) : ∀ s : State, (∀ n ∈ l, n ∈ s.nodes.keys ∨ n ∈ todo) → Covers l (reportLoop s todo).1 (reportLoop s todo).2 := by
  induction todo with
  | nil => intro s h; exact fun n hn => (h n hn).resolve_right (by simp)
  | cons n todo ih =>
    intro s h
    simp only [reportLoop]
    split
    · rename_i hm
      rw [mem_iff] at hm
      refine ih s fun m hml => ?_
      rcases h m hml with h1 | h1
      · exact .inl h1
      · rcases List.mem_cons.mp h1 with rfl | h1
        · exact .inl hm
        · exact .inr h1
    · have hn : (ipOfNode s n).1.nodes = s.nodes := by
        obtain ⟨c, r, hf⟩ := ipOfNode_frame s n
        rw [hf]
      split
      · exact True.intro
      · rename_i s' t heq
        rw [heq] at hn
        intro m hml
        have hn : s'.nodes = s.nodes := hn
        rcases h m hml with h1 | h1
        · exact .inl (by rw [hn]; exact h1)
        · exact .inr (List.mem_cons.mp h1)

theorem step_covers {P : Nat → Prop} {l : List Nat} {s : State} (hb : Bound P s) {J : Nat} {x : Job} (hx : s.jobs[J]? = some x) (h : Covers l s x) {op : Op} (hq : touchesTable op = false) :
    ∃ y, (step s op).jobs[J]? = some y ∧ Covers l (step s op) y := by
  have hk := (step_bound hb hq).2
  by_cases hop : ∃ order, op = .job J order
  · obtain ⟨order, rfl⟩ := hop
    show ∃ y, (stepJob s J order).jobs[J]? = some y ∧ Covers l (stepJob s J order) y
    have hlt : J < s.jobs.length := (List.getElem?_eq_some_iff.mp hx).1
    cases x with
    | done r =>
      have e : stepJob s J order = s := by simp only [stepJob, hx]
      rw [e]; exact ⟨_, hx, h⟩
    | report cur todo t =>
      simp only [stepJob, hx]
      split
      · exact ⟨_, hx, h⟩
      · rename_i e _
        exact ⟨.done (.error e), List.getElem?_set_self hlt, True.intro⟩
      · rename_i m _
        obtain ⟨c, kk, j', hf⟩ := reportLoop_frame todo { s with nodes := s.nodes.set cur (advertised m) }
        have hc := reportLoop_covers l todo { s with nodes := s.nodes.set cur (advertised m) } (fun n hn => by
          rcases h n hn with h1 | h1 | h1
          · exact .inl ((keys_set' _ _ _ n).mpr (.inr h1))
          · exact .inl ((keys_set' _ _ _ n).mpr (.inl h1))
          · exact .inr h1)
        rw [hf] at hc ⊢
        exact ⟨j', List.getElem?_set_self hlt, hc.mono fun n hn => hn⟩
    | _ => exact h.elim
  · refine ⟨x, jobs_keep s op J x hx (fun order e => hop ⟨order, e⟩) (fun n k e => ?_), h.mono hk⟩
    subst e
    exact h

theorem run_newest {P : Nat → Prop} {l : List Nat} {J : Nat} (ops : List Op) : ∀ {s : State} {x : Job}, Bound P s → s.jobs[J]? = some x → Covers l s x → (∀ op ∈ ops, touchesTable op = false) →
    Bound P (run s ops) ∧ ∃ y, (run s ops).jobs[J]? = some y ∧ Covers l (run s ops) y := by
  induction ops with
  | nil => exact fun hb hx h _ => ⟨hb, _, hx, h⟩
  | cons op ops ih =>
    intro s x hb hx h hq
    obtain ⟨y, hy, hc⟩ := step_covers hb hx h (hq op (.head _))
    exact ih (step_bound hb (hq op (.head _))).1 hy hc fun o ho => hq o (.tail _ ho)

end Model.Gateway
