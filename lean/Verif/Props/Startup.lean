import Verif.Lemmas.Startup
/-!
# Property theorems C135: startup with a gateway that answers
-/
namespace Props.Startup
open Spec Spec.App Spec.Peer Model Model.Boot
open Model.App (Nd)

/-- The full property: if the gateway acknowledges every packet and answers every question about its network, `startup()` ends without an exception once it has been answered. -/
def C135_statement : Prop := ∀ (w : Network) (order : List Nat), w.Regular → (started w order w.questions).app.calls = [.done (.ok ())]

theorem asked_step {app : App.State} {g : Gateway.State} {pc : App.Pc} (hc : app.calls = [pc]) (hq : query pc = none) (ho : app.own = ownId g) :
    step (waitingFor app g) (.asked 0 (.ok ())) = waitingFor (App.answer app 0 (.asked (.ok ()))) g := by
  rw [waitingFor_none hc hq]
  simp only [step, goOn, ← ho]
  rfl

/-- The listeners are told of the nodes one by one. -/
theorem announced {own : Nat} {net : Net} {g : Gateway.State} (ho : ownId g = own) (size : Nat) : ∀ (todo : List Nd) (s : App.State) (x : App.Pc), s.calls = [x] → s.nodes.length = size →
    Told own net (App.announce s 0 .startup size todo) →
    ∃ app, listened (waitingFor (App.announce s 0 .startup size todo) g) todo.length = waitingFor app g ∧ app.calls = [.done (.ok ())] ∧ app.nodes = s.nodes ∧ Told own net app := by
  intro todo
  induction todo with
  | nil =>
    intro s x hc hn ht
    refine ⟨_, rfl, ?_, ?_, ht⟩
    · simp [App.announce, hn, App.State.goto, hc]
    · simp [App.announce, hn, App.State.goto]
  | cons nd todo ih =>
    intro s x hc hn ht
    have e : App.announce s 0 .startup size (nd :: todo) = (s.see (.added 0 nd)).goto 0 (.adding .startup todo size) := by simp [App.announce, hn]
    rw [e] at ht ⊢
    have hc' : ((s.see (.added 0 nd)).goto 0 (.adding .startup todo size)).calls = [.adding .startup todo size] := by simp [App.State.goto, App.State.see, hc]
    have e2 : App.answer ((s.see (.added 0 nd)).goto 0 (.adding .startup todo size)) 0 (.asked (.ok ())) =
        App.announce ((s.see (.added 0 nd)).goto 0 (.adding .startup todo size)) 0 .startup size todo := by
      unfold App.answer
      rw [hc']
      rfl
    have e3 : listened (waitingFor ((s.see (.added 0 nd)).goto 0 (.adding .startup todo size)) g) (nd :: todo).length =
        listened (waitingFor (App.announce ((s.see (.added 0 nd)).goto 0 (.adding .startup todo size)) 0 .startup size todo) g) todo.length := by
      rw [← e2, ← asked_step hc' rfl (by rw [ht.own, ho])]
      rfl
    rw [e3]
    refine ih _ _ hc' hn ?_
    rw [← e2]
    refine ht.answer _ ?_
    rw [e2]
    have hr := ht.choose_spec.2
    cases todo with
    | nil => simp only [App.announce]; split <;> exact hr
    | cons nd' todo =>
      simp only [App.announce]
      split
      · exact hr
      · exact Lemmas.App.reports_see hr trivial

theorem listened_succ (s : State) (n : Nat) : listened s (1 + n) = listened (step s (.asked 0 (.ok ()))) n := by
  rw [Nat.add_comm]; rfl

/-- What has been told when startup has ended. -/
theorem started_end (w : Network) (order : List Nat) (hw : w.Regular) (hq : w.questions ≤ 255) : ∃ list app p app' g, list.Nodup ∧ (∀ n, n ∈ list ↔ n ∈ w.nodes) ∧
    Between w list w.questions 0 p app g ∧ started w order w.questions = ⟨g, app', fun _ => none, 0⟩ ∧ app'.calls = [.done (.ok ())] ∧ Told w.own.toNat (w.net list) app' := by
  obtain ⟨list, h1, h2, app, g, hb⟩ := between_first hw order
  have hl : ∀ n ∈ list, n ∈ w.nodes := fun n hn => (h2 n).1 hn
  have hcost := costs_nodes h1 h2
  obtain ⟨app, g, hb⟩ := between_turns hw order hl hb _ (Nat.le_refl _) (by omega)
  have hcost' : costs w.own.toNat (w.net []) list + 1 + 1 = w.questions := by omega
  rw [← turns_succ, hcost, hcost', Nat.sub_self] at hb
  obtain ⟨pc, hc, hg, hr⟩ := hb.at_
  obtain ⟨new0, rfl⟩ := hg.ended hr
  have ho : app.own = ownId g := by rw [hb.told.own, hb.own]
  have hrep := hb.told.choose_spec.2
  have e1 : App.answer app 0 (.asked (.ok ())) = App.announce app 0 .startup app.nodes.length (app.nodes.map Prod.snd) := by
    unfold App.answer
    rw [hc]
    rfl
  have ht : Told w.own.toNat (w.net list) (App.announce app 0 .startup app.nodes.length (app.nodes.map Prod.snd)) := by
    rw [← e1]
    refine hb.told.answer _ ?_
    rw [e1]
    cases app.nodes.map Prod.snd with
    | nil => simp only [App.announce]; split <;> exact hrep
    | cons nd todo =>
      simp only [App.announce]
      split
      · exact hrep
      · exact Lemmas.App.reports_see hrep trivial
  obtain ⟨app', e2, e3, e4, e5⟩ := announced hb.own app.nodes.length (app.nodes.map Prod.snd) app _ hc rfl ht
  have hs : started w order w.questions = waitingFor app' g := by
    unfold started
    rw [hb.eq]
    dsimp only
    have : (waitingFor app g).app = app := by rw [waitingFor_none hc rfl]
    rw [this, listened_succ, asked_step hc rfl ho, e1, ← e2, List.length_map]
  exact ⟨list, app, _, app', g, h1, h2, hb, hs.trans (waitingFor_none e3 rfl), e3, e5⟩

/-- **C135**, what holds: if 255 questions are enough for the network, startup asks exactly those, and it ends without an exception. The table then has the nodes of the network (in
some order) without the gateway itself, each followed by its end points, with what the gateway knows of them; and the listeners have been told of all of them and then of each of them, once. -/
theorem C135_started_partial (w : Network) (order : List Nat) (hw : w.Regular) (hq : w.questions ≤ 255) :
    let s := started w order w.questions
    s.app.calls = [.done (.ok ())] ∧ s.gw.conn.out.length = w.questions ∧
    ∃ (list : List Nat) (new : List Nd), list.Nodup ∧ (∀ n, n ∈ list ↔ MarkedIn w.mask n) ∧ s.app.nodes = new.map (fun nd => (nd.id, nd)) ∧
      new.map descr = newNodes w.own.toNat (w.net list) (fun _ => false) list ∧ told s.app.trace = .addedAll 0 new :: new.map (.added 0) := by
  obtain ⟨list, app, p, app', g, h1, h2, hb, hs, e3, answers, e6, e7⟩ := started_end w order hw hq
  dsimp only
  rw [hs]
  refine ⟨e3, hb.out, list, ?_⟩
  obtain ⟨new, n1, n2, n3⟩ := Props.App.C95_started (s0 := App.fresh w.own.toNat) (s := app') (net := w.net list) (answers := answers) h1 rfl e6 e7 (by rw [e3]; rfl)
  exact ⟨new, h1, fun n => by rw [h2, mem_nodes hw.mask], n1, n2, n3⟩

/-- Without multi channel nodes 255 questions are always enough. -/
theorem C135_plain_partial (w : Network) (hm : w.mask.length = 28) (h : ∀ n ∈ w.nodes, n ≠ w.own.toNat → App.multiChannel ((w.net []).info n) = false) : w.questions ≤ 255 := by
  have hlen : w.nodes.length ≤ 224 := by
    have hn : w.nodes.Nodup := (List.nodup_range).filter _
    have := hn.length_le_of_subset (l₂ := List.range' 1 224) fun n hn => by
      obtain ⟨h1, b, hb, -⟩ := (mem_nodes hm n).1 hn
      have : (n - 1) / 8 < 28 := by rw [← hm]; exact (List.getElem?_eq_some_iff.1 hb).1
      rw [List.mem_range'_1]
      omega
    rwa [List.length_range'] at this
  have hc : ∀ l : List Nat, (∀ n ∈ l, n ∈ w.nodes) → costs w.own.toNat (w.net []) l ≤ l.length := by
    intro l
    induction l with
    | nil => intro _; exact Nat.le_refl _
    | cons n l ih =>
      intro hl
      have := ih fun m hm => hl m (.tail _ hm)
      rw [Lemmas.App.costs_cons, List.length_cons]
      split
      · omega
      · rename_i hno
        have : cost (w.net []) n = 1 := by simp [cost, h n (hl n (.head _)) hno]
        omega
  have := hc w.nodes fun _ h => h
  unfold Network.questions
  omega

/-- Exceptions of the gateway are those of the call. -/
theorem answerOf_error {pc : App.Pc} {c : Gateway.Nm} (hq : query pc = some c) (e : PyErr) (order : List Nat) :
    ∃ a, answerOf pc (.error e) order = some a ∧ ∀ (app : App.State) (i : Nat), app.calls[i]? = some pc → App.answer app i a = app.goto i (.done (.error e)) := by
  cases pc with
  | list k => exact ⟨.list (.error e), rfl, fun app i hc => by unfold App.answer; rw [hc]⟩
  | info k n rest new => exact ⟨.info (.error e), rfl, fun app i hc => by unfold App.answer; rw [hc]⟩
  | eps k nd rest new => exact ⟨.eps (.error e), rfl, fun app i hc => by unfold App.answer; rw [hc]⟩
  | cap k nd ep count rest new => exact ⟨.cap (.error e), rfl, fun app i hc => by unfold App.answer; rw [hc]⟩
  | failed => exact ⟨.failed (.error e), rfl, fun app i hc => by unfold App.answer; rw [hc]⟩
  | _ => cases hq

/-- Every question can be sent. -/
theorem asking_query {w : Network} (hw : w.Regular) {list : List Nat} (hl : ∀ n ∈ list, n ∈ w.nodes) {pc : App.Pc} (hg : Lemmas.App.Asking w.own.toNat (w.net list) pc) :
    ∃ c hid, query pc = some c ∧ NmFits c ∧ c ≠ .getNodeList ∧ c.waitsFor = some (hid, 3) := by
  cases pc with
  | info k n rest new =>
    have := mem_nodes_lt (hl _ hg.1)
    exact ⟨_, _, rfl, ⟨by omega, by omega⟩, by simp, rfl⟩
  | eps k nd rest new =>
    have := mem_nodes_lt (hl _ hg.1)
    exact ⟨_, _, rfl, ⟨by omega, by omega⟩, by simp, rfl⟩
  | cap k nd ep count rest new =>
    obtain ⟨h1, h2, -, h4, -, h6⟩ := hg
    have := mem_nodes_lt (hl _ h1)
    have := (hw.ends _ (hl _ h1) h2 h4).1
    have h6 : ep + count = (w.net []).eps nd.root := h6
    exact ⟨_, _, rfl, ⟨⟨by omega, by omega⟩, by omega, by omega⟩, by simp, rfl⟩
  | failed => exact ⟨_, _, rfl, trivial, by simp, rfl⟩
  | _ => exact hg.elim

/-- **C135**, what goes wrong: for a network that needs more than 255 questions, startup asks 255 of them and raises OverflowError instead of asking the next. -/
theorem C135_overflow_partial (w : Network) (order : List Nat) (hw : w.Regular) (hq : 255 < w.questions) (n : Nat) (hn : 256 ≤ n) :
    (turns w order n).1.app.calls = [.done (.error .overflow)] ∧ (turns w order n).1.gw.conn.out.length = 255 := by
  obtain ⟨list, h1, h2, app, g, hb⟩ := between_first hw order
  have hl : ∀ n ∈ list, n ∈ w.nodes := fun n hn => (h2 n).1 hn
  have hcost := costs_nodes h1 h2
  obtain ⟨app, g, hb⟩ := between_turns hw order hl hb 254 (by omega) (by omega)
  rw [← turns_succ] at hb
  obtain ⟨pc, hc, hg, hr⟩ := hb.at_
  obtain ⟨c, hid, q1, q2, q3, q4⟩ := asking_query hw hl (hg.asking (by omega))
  obtain ⟨s1, s2⟩ := Gateway.nm_stuck g c q2 (fun x => q3 x.1) (by rw [hb.nm]; exact Nat.le_refl _) q4
  obtain ⟨a, a1, a2⟩ := answerOf_error q1 .overflow order
  have hout : (Gateway.step g (.nm c)).conn.out[255]? = none := by
    rw [s2]
    exact List.getElem?_eq_none (by rw [hb.out]; exact Nat.le_refl _)
  have hown : ({ app with own := ownId (Gateway.step g (.nm c)) } : App.State).calls = [pc] := hc
  have hend : (App.answer { app with own := ownId (Gateway.step g (.nm c)) } 0 a).calls = [.done (.error .overflow)] := by
    rw [a2 _ 0 (by rw [hown]; rfl)]
    simp [App.State.goto, hc]
  have step256 : turns w order 256 = (waitingFor (App.answer { app with own := ownId (Gateway.step g (.nm c)) } 0 a) (Gateway.step g (.nm c)), 255) := by
    show turn w order (turns w order (254 + 1)) = _
    rw [hb.eq, waitingFor_query hc q1]
    unfold turn
    dsimp only
    have hlen : g.conn.out.length = 255 := hb.out
    rw [hlen, hout]
    dsimp only
    refine congrArg (fun s => (s, 255)) (resume_done hc ?_ a1)
    rw [s1]
    simp
  rw [waitingFor_none hend rfl] at step256
  have stay : ∀ k, turns w order (256 + k) = turns w order 256 := by
    intro k
    induction k with
    | zero => rfl
    | succ k ih =>
      show turn w order (turns w order (256 + k)) = _
      rw [ih, step256]
      unfold turn
      dsimp only
      rw [hout]
      dsimp only
      refine congrArg (fun s => (s, 255)) ?_
      simp only [step]
      split <;> simp_all
  obtain ⟨k, rfl⟩ := Nat.exists_eq_add_of_le hn
  rw [stay, step256]
  refine ⟨hend, ?_⟩
  dsimp only
  rw [s2]
  exact hb.out

/-! ## Examples -/

/-- The gateway is node 1; nodes 2 and 3 are there, and node 3 has two end points. -/
def home : Network where
  own := 1
  mask := 7 :: List.replicate 27 0
  failed := List.replicate 28 0
  node n := ⟨0x80, 4, 16, n, if n = 3 then [0x60, 0x25] else [0x25]⟩
  individual _ := 1
  aggregated _ := 1
  endPoint _ e := ⟨17, e, [0x26]⟩

/-- All 224 nodes of the mask are multi channel nodes without end points. -/
def crowded : Network where
  own := 1
  mask := List.replicate 28 255
  failed := List.replicate 28 0
  node _ := ⟨0x80, 4, 16, 1, [0x60]⟩
  individual _ := 0
  aggregated _ := 0
  endPoint _ _ := ⟨17, 1, [0x26]⟩

theorem home_regular : home.Regular := by
  refine ⟨rfl, rfl, fun n _ _ => ?_, fun n _ _ _ => ⟨show 2 ≤ 127 by decide, fun e _ _ => ⟨by simp [home], _, rfl⟩⟩⟩
  simp only [Network.net, home]
  split
  · exact ⟨by simp, _, rfl⟩
  · exact ⟨by simp, _, rfl⟩

theorem crowded_regular : crowded.Regular :=
  ⟨rfl, rfl, fun n _ _ => ⟨by simp [crowded], _, rfl⟩, fun n _ _ _ => ⟨show 0 ≤ 127 by decide, fun e h1 h2 => absurd (Nat.le_trans h1 h2) (show ¬ 1 ≤ 0 by decide)⟩⟩

/-- Seven questions are needed at home: the list, node 2, node 3, its number of end points, its two end points and the failed nodes. -/
example : home.questions = 7 := by decide +kernel
example : ((started home [] 7).app.nodes.map fun p => (p.2.root, p.2.ep, p.2.info)) =
    [(2, 0, ⟨[0x25], 4, 16, 2, true⟩), (3, 0, ⟨[0x60, 0x25], 4, 16, 3, true⟩), (3, 1, ⟨[0x26], 4, 17, 1, true⟩), (3, 2, ⟨[0x26], 4, 17, 2, true⟩)] := by decide +kernel

/-- Startup is still waiting after six questions. -/
example : (started home [] 6).app.calls = [.failed] := by decide +kernel

theorem crowded_questions : crowded.questions = 448 := by decide +kernel

/-- **C135 is violated**: startup fails with a network of 224 multi channel nodes. -/
theorem C135_violated : ¬ C135_statement := by
  intro h
  have h1 := h crowded [] crowded_regular
  obtain ⟨h2, -⟩ := C135_overflow_partial crowded [] crowded_regular (by rw [crowded_questions]; decide) crowded.questions (by rw [crowded_questions]; decide)
  unfold started at h1
  generalize turns crowded [] crowded.questions = p at h1 h2
  have stay : ∀ (n : Nat) (s : State), s.app.calls = [.done (.error .overflow)] → (listened s n).app.calls = [.done (.error .overflow)] := by
    intro n
    induction n with
    | zero => intro s hs; exact hs
    | succ n ih =>
      intro s hs
      refine ih (step s (.asked 0 (.ok ()))) ?_
      simp only [step]
      split
      · simp only [goOn]
        have : App.answer { s.app with own := ownId s.gw } 0 (.asked (.ok ())) = { s.app with own := ownId s.gw } := by
          unfold App.answer
          rw [show ({ s.app with own := ownId s.gw } : App.State).calls = _ from hs]
          rfl
        rw [this]
        unfold issue
        split <;> exact hs
      · exact hs
  rw [stay _ _ h2] at h1
  cases h1

end Props.Startup
