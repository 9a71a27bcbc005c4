import Verif.Lemmas.InTimeGateway
import Verif.Props.Startup
import Verif.Lemmas.GatewayConn
/-! Helper lemmas: startup while the answers arrive in time. -/
namespace Model.Boot
open Spec Spec.App Spec.Peer
open Model.App (Pc Ans Nd)
open Model.Gateway (Asked Returned Calm Ends Goes)

attribute [local irreducible] Gateway.step decode

/-- The list of nodes, in some order. -/
structure Listed (w : Network) (list : List Nat) : Prop where
  nodup : list.Nodup
  mem : ∀ n, n ∈ list ↔ n ∈ w.nodes

/-- Startup has had the list, `q` numbers are used, and `n` questions are left. -/
structure Loading (w : Network) (list : List Nat) (q n : Nat) (app : App.State) : Prop where
  listed : Listed w list
  told : Told w.own.toNat (w.net list) app
  at_ : ∃ pc, app.calls = [pc] ∧ Lemmas.App.Good w.own.toNat (w.net list) pc ∧ Lemmas.App.remaining w.own.toNat (w.net list) pc = n
  enough : q + n ≤ 255

/-- What startup does with what the gateway returns. -/
def Next (w : Network) (app : App.State) (r : Py Gateway.Ret) (q n : Nat) : Prop :=
  ∃ pc, app.calls = [pc] ∧ ∀ order, ∃ a list, answerOf pc r order = some a ∧ Loading w list q n (App.answer { app with own := w.own.toNat } 0 a)

/-- The only call waits for job `J`. -/
def waitsFor (g : Gateway.State) (app : App.State) (J : Nat) : State := ⟨g, app, fun i => if i = 0 then some J else none, 0⟩

/-- Startup has asked; `n` questions are left after this one. -/
def AtAsk (w : Network) (n : Nat) (s : State) : Prop :=
  ∃ g app J a K T hid m d N r, s = waitsFor g app J ∧ Asked w g J a K T hid m d ∧ Ends a m N r ∧ ((N g.nodeId).getD 0).toNat = w.own.toNat ∧ Next w app r g.nmSeq n

/-- The answer is there. -/
def AtBack (w : Network) (n : Nat) (s : State) : Prop :=
  ∃ g app J r, s = waitsFor g app J ∧ Returned g J r ∧ ownId g = w.own.toNat ∧ Next w app r g.nmSeq n

/-- The listeners are told, or startup has ended. -/
inductive Final (size : Nat) : Pc → Prop
  | all (new : List Nd) : Final size (.addedAll .startup new)
  | one (todo : List Nd) : Final size (.adding .startup todo size)
  | done : Final size (.done (.ok ()))

/-- All questions have been answered. -/
def AtEnd (w : Network) (s : State) : Prop :=
  ∃ g app list pc, s = ⟨g, app, fun _ => none, 0⟩ ∧ Calm g none none none ∧ ownId g = w.own.toNat ∧ Listed w list ∧ Told w.own.toNat (w.net list) app ∧ app.calls = [pc] ∧ Final app.nodes.length pc

/-- Startup goes on with the next question. -/
theorem enter {w : Network} (hw : w.Regular) {g : Gateway.State} {app : App.State} {list : List Nat} {n : Nat} (hc : Calm g none none none) (ho : ownId g = w.own.toNat)
    (h : Loading w list g.nmSeq n app) : AtEnd w (waitingFor app g) ∨ ∃ k, n = k + 1 ∧ AtAsk w k (waitingFor app g) := by
  obtain ⟨pc, h1, h2, h3⟩ := h.at_
  cases n with
  | zero =>
    obtain ⟨new, rfl⟩ := h2.ended h3
    exact .inl ⟨g, app, list, _, waitingFor_none h1 rfl, hc, ho, h.listed, h.told, h1, .all new⟩
  | succ k =>
    refine .inr ⟨k, rfl, ?_⟩
    have hen := h.enough
    have hl : ∀ n ∈ list, n ∈ w.nodes := fun n hn => (h.listed.mem n).1 hn
    obtain ⟨c, hid, m, r, t, hp⟩ := truth_report hw hl (q := g.nmSeq + 1) (h2.asking (by omega))
    obtain ⟨K, T, d, e1, e2, e3⟩ := Gateway.asks hc c t.fits (fun x => t.notList x.1) (by omega) t.waitsFor (by simp [proxy, hp]) t.report t.decodes t.isHid
    rw [if_neg t.notList] at e1
    refine ⟨_, app, g.jobs.length, .nm c, K, T, hid, m, d, id, r, waitingFor_query h1 t.query, e1, ?_, ?_, pc, h1, fun order => ⟨_, list, t.answerOf order, ?_⟩⟩
    · intro g' order
      exact ⟨g'.nodes, by simp only [Gateway.afterAsk, t.answer, id]⟩
    · rw [e3]; exact ho
    · have hown : ({ app with own := w.own.toNat } : App.State) = app := by rw [← h.told.own]
      rw [hown]
      have hwent := Lemmas.App.went_answer (accepted_all hw hl) h.told.own h1 h2 h.told.choose_spec.2 h3
      exact ⟨h.listed, h.told.answer _ hwent.reports, hwent.at_, by rw [e2]; omega⟩

/-- The list arrives. -/
theorem loading_list {w : Network} {l : List Nat} (h : Listed w l) {q : Nat} (hq : q + w.questions ≤ 256) :
    ∃ n, Loading w l q n (App.answer { App.step (App.fresh 0) (.start .startup) with own := w.own.toNat } 0 (.list (.ok l))) ∧ n = w.questions - 1 := by
  have hwent := Lemmas.App.went_list (net := w.net l) (s := { App.step (App.fresh 0) (.start .startup) with own := w.own.toNat }) rfl (fun x hx => by cases hx)
  have hcost := costs_nodes h.nodup h.mem
  have hr : costs w.own.toNat (w.net l) (w.net l).list + 1 = costs w.own.toNat (w.net []) l + 1 := rfl
  refine ⟨costs w.own.toNat (w.net []) l + 1, ⟨h, ⟨[.list (.ok l)], rfl, hwent.reports⟩, hwent.at_, by omega⟩, by omega⟩

theorem iter_listed {w : Network} {l : List Nat} (h : Listed w l) (order : List Nat) : Listed w (Gateway.iter l order) := by
  refine ⟨?_, fun n => by rw [Gateway.mem_iter]; exact h.mem n⟩
  unfold Gateway.iter
  split
  · rename_i hp; exact (List.isPerm_iff.mp hp).nodup_iff.2 h.nodup
  · exact h.nodup

theorem next_list {w : Network} {l : List Nat} (h : Listed w l) {q : Nat} (hq : q + w.questions ≤ 256) :
    Next w (App.step (App.fresh 0) (.start .startup)) (.ok (.nodes l)) q (w.questions - 1) := by
  refine ⟨.list .startup, rfl, fun order => ⟨_, Gateway.iter l order, rfl, ?_⟩⟩
  obtain ⟨n, h1, rfl⟩ := loading_list (iter_listed h order) hq
  exact h1

/-- An idle gateway is calm. -/
theorem idle_calm {g : Gateway.State} (h : Idle g) : Calm g none none none := by
  obtain ⟨ops, hops⟩ := h.reached
  refine ⟨⟨?_, ?_, ?_, ?_⟩, h.connected, fun i a t k hi => absurd (List.mem_of_getElem? hi) (h.jobs a t k)⟩
  · obtain ⟨l, e, -⟩ := Gateway.conn_run ops
    rw [← hops] at e
    have hb : Conn.Inv (Gateway.bare g.conn) := by
      rw [e]; exact (Conn.inv_run l).congr rfl rfl rfl (Nat.le_refl _)
    exact hb.congr rfl rfl rfl (Nat.le_refl _)
  · obtain ⟨ws, e⟩ := Gateway.run_waiter ops
    rw [hops, e]
    exact Waiter.inv_run ws
  · exact fun i u hu _ => h.sends u (List.mem_of_getElem? hu)
  · exact fun i u hu hp _ => h.tasks u (List.mem_of_getElem? hu) hp

/-- A calm gateway is idle. -/
theorem calm_idle {g : Gateway.State} (h : Calm g none none none) (hr : ∃ ops, g = Gateway.run Gateway.init ops) : Idle g := by
  refine ⟨hr, h.connected, fun u hu => ?_, fun t ht hp => ?_, fun a t k hj => ?_⟩
  · obtain ⟨i, hi, e⟩ := List.getElem_of_mem hu
    exact h.rest.sends i u (List.getElem?_eq_some_iff.2 ⟨hi, e⟩) (by simp)
  · obtain ⟨i, hi, e⟩ := List.getElem_of_mem ht
    exact h.rest.tasks i t (List.getElem?_eq_some_iff.2 ⟨hi, e⟩) hp (by simp)
  · obtain ⟨i, hi, e⟩ := List.getElem_of_mem hj
    exact absurd (h.asks i a t k (List.getElem?_eq_some_iff.2 ⟨hi, e⟩)) (by simp)

theorem starting_eq (g : Gateway.State) : starting g = waitingFor (App.step (App.fresh 0) (.start .startup)) g := rfl

/-- How startup begins. -/
theorem start_stage {w : Network} (hw : w.Regular) {g : Gateway.State} (h : Ready w g) : AtAsk w (w.questions - 1) (starting g) ∨ AtBack w (w.questions - 1) (starting g) := by
  have hcalm := idle_calm h.toIdle
  have hen := h.enough
  have hpos : 2 ≤ w.questions := by unfold Network.questions; omega
  rw [starting_eq, waitingFor_query (pc := .list .startup) rfl rfl]
  by_cases hn : g.nodes = []
  · left
    rw [if_pos hn] at hen
    obtain ⟨m, l, e, h1, -, -, h3, h4, h5, h6⟩ := Props.C18_node_list (byte ((g.nmSeq + 1 : Nat) : Int)) 0 w.own w.mask [] hw.mask
    rw [List.append_nil] at e
    have hl : Gateway.reportNodes m = some l := by unfold Gateway.reportNodes; rw [h4]
    obtain ⟨K, T, d, e1, e2, e3⟩ := Gateway.asks (w := w) hcalm .getNodeList trivial (fun x => x.2 hn) (by omega) rfl rfl
      (m := m) (by simp [Network.report, Spec.nmBytes]) (by simpa only [Network.report, Spec.nmBytes] using e) h1
    rw [if_pos rfl] at e1
    refine ⟨_, _, _, _, K, T, _, m, d, fun _ => some (w.own.toNat : Int), .ok (.nodes l), rfl, e1, ?_, rfl, ?_⟩
    · intro g' order
      exact ⟨l.map fun n => (n, none), by simp only [Gateway.afterAsk, Gateway.storeList, hl, h3]⟩
    · rw [e2]
      exact next_list ⟨h5, fun n => by rw [h6, mem_nodes hw.mask]⟩ (by omega)
  · right
    rw [if_neg hn] at hen
    rcases h.list with h' | ⟨h1, h2, h3⟩
    · exact absurd h' hn
    · have e : Gateway.step g (.nm .getNodeList) = g.addJob (.done (.ok (.nodes g.nodes.keys))) := by
        unfold Gateway.step Gateway.startNm
        simp only [hn, ne_eq, not_false_eq_true, and_self, if_true]
      rw [e]
      refine ⟨_, _, _, .ok (.nodes g.nodes.keys), rfl, ⟨⟨hcalm.rest, hcalm.connected, ?_⟩, ?_⟩, ?_, ?_⟩
      · intro i a t k hi
        simp only [Gateway.State.addJob, List.getElem?_append] at hi
        split at hi
        · exact hcalm.asks i a t k hi
        · simp only [List.getElem?_singleton] at hi
          split at hi <;> cases hi
      · simp [Gateway.State.addJob]
      · simp only [ownId, Gateway.State.addJob, h3]; rfl
      · exact next_list (q := g.nmSeq) ⟨h1, h2⟩ hen

/-- Where startup can be. -/
def Stage (w : Network) (s : State) : Prop := (∃ n, AtAsk w n s ∨ AtBack w n s) ∨ AtEnd w s

theorem resume_other {g : Gateway.State} {app : App.State} {pc : Pc} (hc : app.calls = [pc]) {f : Nat → Option Nat} {i : Nat} (hi : i ≠ 0) (order : List Nat) :
    step ⟨g, app, f, 0⟩ (.resume i order) = ⟨g, app, f, 0⟩ := by
  have : app.calls[i]? = none := by rw [hc]; exact List.getElem?_eq_none (by simp; omega)
  simp only [step, this]

theorem AtAsk.step {w : Network} {n : Nat} {s : State} (h : AtAsk w n s) {o : Op} (hf : Fine w s o) : AtAsk w n (Boot.step s o) ∨ AtBack w n (Boot.step s o) := by
  obtain ⟨g, app, J, a, K, T, hid, m, d, N, r, rfl, h1, h2, h3, h4⟩ := h
  have same : AtAsk w n (waitsFor g app J) := ⟨g, app, J, a, K, T, hid, m, d, N, r, rfl, h1, h2, h3, h4⟩
  cases o with
  | startup => exact hf.elim
  | update => exact hf.elim
  | resume i order =>
    left
    by_cases hi : i = 0
    · subst hi
      obtain ⟨pc, hc, -⟩ := h4
      have e : Boot.step (waitsFor g app J) (.resume 0 order) = waitsFor g app J := by
        have h0 : app.calls[0]? = some pc := by rw [hc]; rfl
        simp only [Boot.step, waitsFor, h0, if_true, h1.job]
      rw [e]; exact same
    · obtain ⟨pc, hc, -⟩ := h4
      have e : Boot.step (waitsFor g app J) (.resume i order) = waitsFor g app J := resume_other hc hi order
      rw [e]; exact same
  | asked i x =>
    left
    obtain ⟨rfl, -⟩ := hf
    exact same
  | gw o =>
    obtain ⟨e1, ⟨e2, e3⟩ | ⟨e2, e3⟩⟩ := h1.step h2 hf
    · exact .inl ⟨Gateway.step g o, app, J, a, K, T, hid, m, d, N, r, rfl, e2, h2, by rw [e3]; exact h3, by rw [e1]; exact h4⟩
    · exact .inr ⟨Gateway.step g o, app, J, r, rfl, e2, by unfold ownId; rw [e3]; exact h3, by rw [e1]; exact h4⟩

theorem AtBack.resume {w : Network} (hw : w.Regular) {n : Nat} {s : State} (h : AtBack w n s) (order : List Nat) :
    AtEnd w (Boot.step s (.resume 0 order)) ∨ ∃ k, n = k + 1 ∧ AtAsk w k (Boot.step s (.resume 0 order)) := by
  obtain ⟨g, app, J, r, rfl, h1, h2, pc, hc, h3⟩ := h
  obtain ⟨a, list, ha, hl⟩ := h3 order
  have e := resume_done (g := g) (app := app) hc h1.job ha
  unfold waitsFor
  rw [e, h2]
  exact enter hw h1.calm h2 hl

theorem AtBack.step {w : Network} (hw : w.Regular) {n : Nat} {s : State} (h : AtBack w n s) {o : Op} (hf : Fine w s o) : Stage w (Boot.step s o) := by
  by_cases hr : ∃ order, o = .resume 0 order
  · obtain ⟨order, rfl⟩ := hr
    rcases h.resume hw order with h' | ⟨k, -, h'⟩
    · exact .inr h'
    · exact .inl ⟨k, .inl h'⟩
  obtain ⟨g, app, J, r, rfl, h1, h2, h4⟩ := h
  have same : Stage w (waitsFor g app J) := .inl ⟨n, .inr ⟨g, app, J, r, rfl, h1, h2, h4⟩⟩
  cases o with
  | startup => exact hf.elim
  | update => exact hf.elim
  | resume i order =>
    obtain ⟨pc, hc, -⟩ := h4
    have e : Boot.step (waitsFor g app J) (.resume i order) = waitsFor g app J := resume_other hc (fun hi => hr ⟨order, by rw [hi]⟩) order
    rw [e]; exact same
  | asked i x =>
    obtain ⟨rfl, -⟩ := hf
    exact same
  | gw o =>
    obtain ⟨e1, e2, e3⟩ := h1.calm.step hf
    refine .inl ⟨n, .inr ⟨Gateway.step g o, app, J, r, rfl, ⟨e1, ?_⟩, by unfold ownId; rw [e2]; exact h2, by rw [e3]; exact h4⟩⟩
    by_cases ho : ∃ order, o = .job J order
    · obtain ⟨order, rfl⟩ := ho
      have : Gateway.step g (.job J order) = g := by
        unfold Gateway.step Gateway.stepJob
        simp only [h1.job]
      rw [this]; exact h1.job
    · exact Gateway.jobs_keep g o J _ h1.job (fun order e => ho ⟨order, e⟩) (fun n k e => by cases e)

/-- The listeners are told of one more node. -/
theorem told_announce {own : Nat} {net : Net} {app : App.State} (h : Told own net app) {pc : Pc} (hc : app.calls = [pc]) (hf : Final app.nodes.length pc) :
    Told own net (App.answer app 0 (.asked (.ok ()))) ∧ (App.answer app 0 (.asked (.ok ()))).nodes = app.nodes ∧
      ∃ pc', (App.answer app 0 (.asked (.ok ()))).calls = [pc'] ∧ Final app.nodes.length pc' := by
  have hann : ∀ todo, App.answer app 0 (.asked (.ok ())) = App.announce app 0 .startup app.nodes.length todo →
      Told own net (App.answer app 0 (.asked (.ok ()))) ∧ (App.answer app 0 (.asked (.ok ()))).nodes = app.nodes ∧
      ∃ pc', (App.answer app 0 (.asked (.ok ()))).calls = [pc'] ∧ Final app.nodes.length pc' := by
    intro todo e
    have hr := h.choose_spec.2
    cases todo with
    | nil =>
      have e2 : App.announce app 0 .startup app.nodes.length [] = app.goto 0 (.done (.ok ())) := by simp [App.announce]
      rw [e2] at e
      refine ⟨h.answer _ (by rw [e]; exact hr), by rw [e]; rfl, .done (.ok ()), by rw [e]; simp [App.State.goto, hc], .done⟩
    | cons nd todo =>
      have e2 : App.announce app 0 .startup app.nodes.length (nd :: todo) = (app.see (.added 0 nd)).goto 0 (.adding .startup todo app.nodes.length) := by simp [App.announce]
      rw [e2] at e
      refine ⟨h.answer _ (by rw [e]; exact Lemmas.App.reports_see hr trivial), by rw [e]; rfl, .adding .startup todo app.nodes.length, by rw [e]; simp [App.State.goto, App.State.see, hc], .one todo⟩
  cases hf with
  | all new => exact hann (app.nodes.map Prod.snd) (by unfold App.answer; rw [hc]; rfl)
  | one todo => exact hann todo (by unfold App.answer; rw [hc]; rfl)
  | done =>
    have e : App.answer app 0 (.asked (.ok ())) = app := by unfold App.answer; rw [hc]; rfl
    rw [e]
    exact ⟨h, rfl, _, hc, .done⟩

theorem final_query {size : Nat} {pc : Pc} (h : Final size pc) : query pc = none := by cases h <;> rfl

theorem AtEnd.step {w : Network} {s : State} (h : AtEnd w s) {o : Op} (hf : Fine w s o) : AtEnd w (Boot.step s o) := by
  obtain ⟨g, app, list, pc, rfl, h1, h2, h3, h4, h5, h6⟩ := h
  have same : AtEnd w ⟨g, app, fun _ => none, 0⟩ := ⟨g, app, list, pc, rfl, h1, h2, h3, h4, h5, h6⟩
  cases o with
  | startup => exact hf.elim
  | update => exact hf.elim
  | resume i order =>
    have e : Boot.step ⟨g, app, fun _ => none, 0⟩ (.resume i order) = ⟨g, app, fun _ => none, 0⟩ := by
      simp only [Boot.step]
      cases app.calls[i]? <;> rfl
    rw [e]; exact same
  | asked i x =>
    obtain ⟨rfl, rfl⟩ := hf
    obtain ⟨t1, t2, pc', t3, t4⟩ := told_announce h4 h5 h6
    have e := Props.Startup.asked_step (g := g) h5 (final_query h6) (by rw [h4.own, h2])
    rw [waitingFor_none h5 (final_query h6), waitingFor_none t3 (final_query t4)] at e
    rw [e]
    exact ⟨g, _, list, pc', rfl, h1, h2, h3, t1, t3, by rw [t2]; exact t4⟩
  | gw o =>
    obtain ⟨e1, e2, e3⟩ := h1.step hf
    exact ⟨Gateway.step g o, app, list, pc, rfl, e1, by unfold ownId; rw [e2]; exact h2, h3, h4, h5, h6⟩

theorem Stage.step {w : Network} (hw : w.Regular) {s : State} (h : Stage w s) {o : Op} (hf : Fine w s o) : Stage w (Boot.step s o) := by
  rcases h with ⟨n, h | h⟩ | h
  · exact .inl ⟨n, h.step hf⟩
  · exact h.step hw hf
  · exact .inr (h.step hf)

theorem Stage.run {w : Network} (hw : w.Regular) (ops : List Op) : ∀ {s : State}, Stage w s → InTime w s ops → Stage w (Boot.run s ops) := by
  induction ops with
  | nil => exact fun h _ => h
  | cons o ops ih => exact fun h hf => ih (h.step hw hf.1) hf.2

/-! ## It goes on -/

theorem inTime_append {w : Network} (a b : List Op) : ∀ {s : State}, InTime w s a → InTime w (Boot.run s a) b → InTime w s (a ++ b) := by
  induction a with
  | nil => exact fun _ h => h
  | cons o a ih => exact fun h1 h2 => ⟨h1.1, ih h1.2 h2⟩

theorem goes_run {w : Network} {g g' : Gateway.State} {ops : List Gateway.Op} (h : Goes w g ops g') (app : App.State) (J : Nat) :
    InTime w (waitsFor g app J) (ops.map .gw) ∧ Boot.run (waitsFor g app J) (ops.map .gw) = waitsFor g' app J := by
  induction h with
  | nil g => exact ⟨trivial, rfl⟩
  | cons hf _ ih => exact ⟨⟨hf, ih.1⟩, ih.2⟩

theorem AtAsk.live {w : Network} {n : Nat} {s : State} (h : AtAsk w n s) : ∃ ops, InTime w s ops ∧ AtBack w n (Boot.run s ops) := by
  obtain ⟨g, app, J, a, K, T, hid, m, d, N, r, rfl, h1, h2, h3, h4⟩ := h
  obtain ⟨ops, g', e1, e2, e3, e4⟩ := h1.live h2
  obtain ⟨r1, r2⟩ := goes_run e1 app J
  exact ⟨_, r1, by rw [r2]; exact ⟨g', app, J, r, rfl, e2, by unfold ownId; rw [e4]; exact h3, by rw [e3]; exact h4⟩⟩

theorem AtBack.live {w : Network} (hw : w.Regular) (n : Nat) : ∀ {s : State}, AtBack w n s → ∃ ops, InTime w s ops ∧ AtEnd w (Boot.run s ops) := by
  induction n with
  | zero =>
    intro s h
    rcases h.resume hw [] with h' | ⟨k, hk, -⟩
    · exact ⟨[.resume 0 []], ⟨trivial, trivial⟩, h'⟩
    · omega
  | succ n ih =>
    intro s h
    rcases h.resume hw [] with h' | ⟨k, hk, h'⟩
    · exact ⟨[.resume 0 []], ⟨trivial, trivial⟩, h'⟩
    · have : k = n := by omega
      subst this
      obtain ⟨o1, i1, b1⟩ := h'.live
      obtain ⟨o2, i2, b2⟩ := ih b1
      refine ⟨.resume 0 [] :: (o1 ++ o2), ⟨trivial, inTime_append _ _ i1 i2⟩, ?_⟩
      have e : Boot.run s (.resume 0 [] :: (o1 ++ o2)) = Boot.run (Boot.run (Boot.step s (.resume 0 [])) o1) o2 := by
        show Boot.run (Boot.step s (.resume 0 [])) (o1 ++ o2) = _
        rw [run_append]
      rw [e]; exact b2

theorem listened_inTime (w : Network) (n : Nat) : ∀ s : State, InTime w s (List.replicate n (.asked 0 (.ok ()))) := by
  induction n with
  | zero => exact fun _ => trivial
  | succ n ih => exact fun s => ⟨⟨rfl, rfl⟩, ih _⟩

theorem AtEnd.live {w : Network} {s : State} (h : AtEnd w s) : ∃ ops, InTime w s ops ∧ (Boot.run s ops).app.calls = [.done (.ok ())] := by
  obtain ⟨g, app, list, pc, rfl, h1, h2, h3, h4, h5, h6⟩ := h
  have hann : ∀ todo, App.answer app 0 (.asked (.ok ())) = App.announce app 0 .startup app.nodes.length todo →
      ∃ ops, InTime w ⟨g, app, fun _ => none, 0⟩ ops ∧ (Boot.run ⟨g, app, fun _ => none, 0⟩ ops).app.calls = [.done (.ok ())] := by
    intro todo e
    obtain ⟨t1, -, -⟩ := told_announce h4 h5 h6
    rw [e] at t1
    obtain ⟨app', e1, e2, -, -⟩ := Props.Startup.announced (g := g) h2 app.nodes.length todo app pc h5 rfl t1
    have e3 := Props.Startup.asked_step (g := g) h5 (final_query h6) (by rw [h4.own, h2])
    rw [waitingFor_none h5 (final_query h6), e] at e3
    refine ⟨List.replicate (1 + todo.length) (.asked 0 (.ok ())), listened_inTime w _ _, ?_⟩
    have e4 : Boot.run ⟨g, app, fun _ => none, 0⟩ (List.replicate (1 + todo.length) (.asked 0 (.ok ()))) = waitingFor app' g := by
      have := Props.Startup.listened_succ ⟨g, app, fun _ => none, 0⟩ todo.length
      rw [e3, e1] at this
      exact this
    rw [e4, waitingFor_none e2 rfl]
    exact e2
  cases h6 with
  | all new => exact hann (app.nodes.map Prod.snd) (by unfold App.answer; rw [h5]; rfl)
  | one todo => exact hann todo (by unfold App.answer; rw [h5]; rfl)
  | done => exact ⟨[], trivial, h5⟩

theorem Stage.live {w : Network} (hw : w.Regular) {s : State} (h : Stage w s) : ∃ ops, InTime w s ops ∧ (Boot.run s ops).app.calls = [.done (.ok ())] := by
  have fromEnd : ∀ {s : State} {o1 : List Op}, InTime w s o1 → AtEnd w (Boot.run s o1) → ∃ ops, InTime w s ops ∧ (Boot.run s ops).app.calls = [.done (.ok ())] := by
    intro s o1 i1 h1
    obtain ⟨o2, i2, h2⟩ := h1.live
    exact ⟨o1 ++ o2, inTime_append _ _ i1 i2, by rw [run_append]; exact h2⟩
  rcases h with ⟨n, h | h⟩ | h
  · obtain ⟨o1, i1, h1⟩ := h.live
    obtain ⟨o2, i2, h2⟩ := AtBack.live hw n h1
    exact fromEnd (inTime_append _ _ i1 i2) (by rw [run_append]; exact h2)
  · obtain ⟨o1, i1, h1⟩ := AtBack.live hw n h
    exact fromEnd i1 h1
  · exact fromEnd (o1 := []) trivial h

end Model.Boot
