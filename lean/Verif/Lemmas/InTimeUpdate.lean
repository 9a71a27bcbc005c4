import Verif.Lemmas.InTime
import Verif.Props.Follow
import Verif.Lemmas.Boot
/-! Helper lemmas: an update while the answers arrive in time. -/
namespace Lemmas.App
open Model Model.App Spec.App Spec.Peer

/-- Where the update is while it waits for nobody but its listeners. -/
def Silent (net : Net) (known : Nat → Bool) (t : Dict Str Nd) : Pc → Prop
  | .removing todo _ l => l = net.list ∧ todo.Nodup ∧ (∀ k ∈ todo, t.mem k = true) ∧ (∀ k ∈ todo, ∀ m ∈ net.list, key m 0 ≠ k) ∧ Todo net known t net.list
  | .removedAll l => l = net.list ∧ Todo net known t net.list
  | .addedAll k _ => k = .update
  | .adding k _ _ => k = .update
  | .done r => r = .ok ()
  | _ => False

/-- How many questions follow. -/
def left (own : Nat) (net : Net) (known : Nat → Bool) : Pc → Nat
  | .removing _ _ _ => toAsk own net known net.list
  | .removedAll _ => toAsk own net known net.list
  | pc => asks own net known pc

/-- How many answers of the listeners are needed before something else happens. -/
def weight : Pc → Nat
  | .removing todo _ _ => todo.length + 2
  | .removedAll _ => 1
  | .addedAll _ new => new.length + 1
  | .adding _ todo _ => todo.length + 1
  | _ => 0

/-- Where the update is. -/
structure Place (own : Nat) (net : Net) (known : Nat → Bool) (t0 : List Ev) (i n b : Nat) (s : State) : Prop where
  at_ : ∃ pc, s.calls[i]? = some pc ∧ (Loads own net known s.nodes pc ∨ Silent net known s.nodes pc) ∧ left own net known pc = n ∧ weight pc ≤ b
  honest : Honest net t0 s

theorem Loads.left {own : Nat} {net : Net} {known : Nat → Bool} {t : Dict Str Nd} {pc : Pc} (h : Loads own net known t pc) : left own net known pc = asks own net known pc := by
  cases pc <;> first | rfl | exact h.elim

theorem Silent.query {net : Net} {known : Nat → Bool} {t : Dict Str Nd} {pc : Pc} (h : Silent net known t pc) : Boot.query pc = none := by
  cases pc <;> first | rfl | exact h.elim

/-- What a call without new nodes does. -/
theorem load_weight {i : Nat} (rest : List Nat) : ∀ (s : State) (x pc : Pc), s.calls[i]? = some x → (load s i .update [] rest).calls[i]? = some pc → weight pc = 0 := by
  induction rest with
  | nil =>
    intro s x pc hc h
    unfold load at h
    rw [if_pos rfl, goto_at hc] at h
    cases h; rfl
  | cons n rest ih =>
    intro s x pc hc h
    unfold load at h
    split at h
    · exact ih s x pc hc h
    · split at h
      · exact ih s x pc hc h
      · rw [goto_at hc] at h
        cases h; rfl

theorem place_load {net : Net} {known : Nat → Bool} {t0 : List Ev} {i : Nat} (s : State) (x : Pc) (hc : s.calls[i]? = some x) (ht : Honest net t0 s) (h : Todo net known s.nodes net.list) :
    Place s.own net known t0 i (toAsk s.own net known net.list) 0 (load s i .update [] net.list) := by
  have hcame := came_load net.list s [] x hc ht h
  obtain ⟨pc, h1, h2, h3⟩ := hcame.at_
  exact ⟨⟨pc, h1, .inl h2, h2.left.trans h3, Nat.le_of_eq (load_weight _ s x pc hc h1)⟩, hcame.honest⟩

theorem place_remove {net : Net} {known : Nat → Bool} {t0 : List Ev} {i : Nat} (all todo : List Str) (s : State) (x : Pc) (hc : s.calls[i]? = some x) (ht : Honest net t0 s) (h1 : todo.Nodup)
    (h2 : ∀ k ∈ todo, s.nodes.mem k = true) (h3 : ∀ k ∈ todo, ∀ m ∈ net.list, key m 0 ≠ k) (h : Todo net known s.nodes net.list) :
    Place s.own net known t0 i (toAsk s.own net known net.list) (todo.length + 1) (remove s i all net.list todo) := by
  cases todo with
  | nil =>
    unfold remove
    dsimp only
    split
    · obtain ⟨⟨pc, e1, e2, e3, e4⟩, e5⟩ := place_load s x hc ht h
      exact ⟨⟨pc, e1, e2, e3, by omega⟩, e5⟩
    · refine ⟨⟨.removedAll net.list, goto_at (s := s.see (.removedAll i all)) hc _, .inr ⟨rfl, h⟩, rfl, Nat.le_refl _⟩, ?_⟩
      have ht' : Honest net t0 (s.see (.removedAll i all)) := ht.see trivial
      exact ht'
  | cons k todo =>
    unfold remove
    dsimp only
    rw [if_pos (h2 k (.head _))]
    have her : ∀ y, y ≠ k → (s.nodes.erase k).mem y = s.nodes.mem y := by
      intro y hy
      rw [Dict.mem, Dict.mem, Dict.get?_erase, if_neg (fun e => hy e.symm)]
    refine ⟨⟨.removing todo all net.list, goto_at (s := { s with nodes := s.nodes.erase k }.see (.removed i k)) hc _, .inr ⟨rfl, (List.nodup_cons.1 h1).2, ?_, ?_, ?_⟩, rfl, by simp [weight]⟩, ?_⟩
    · exact fun y hy => (her y (fun e => (List.nodup_cons.1 h1).1 (e ▸ hy))).trans (h2 y (.tail _ hy))
    · exact fun y hy => h3 y (.tail _ hy)
    · exact ⟨h.sub, h.nodup, fun m hm => (her _ (h3 k (.head _) m hm)).trans (h.known m hm)⟩
    · have ht' : Honest net t0 (({ s with nodes := s.nodes.erase k } : App.State).see (.removed i k)) := Honest.see (s := { s with nodes := s.nodes.erase k }) ht trivial
      exact ht'

/-- The listeners answer. -/
theorem place_asked {own : Nat} {net : Net} {known : Nat → Bool} {t0 : List Ev} {i n : Nat} {s : State} (hown : s.own = own) {pc : Pc} (hc : s.calls[i]? = some pc) (hs : Silent net known s.nodes pc)
    (hn : left own net known pc = n) (ht : Honest net t0 s) : Place own net known t0 i n (weight pc - 1) (answer s i (.asked (.ok ()))) := by
  subst hown hn
  have hann : ∀ (todo : List Nd) (size : Nat), Place s.own net known t0 i 0 todo.length (announce s i .update size todo) := by
    intro todo size
    cases todo with
    | nil =>
      have e : announce s i .update size [] = s.goto i (.done (.ok ())) := by simp [announce]
      rw [e]
      exact ⟨⟨_, goto_at hc _, .inr rfl, rfl, Nat.le_refl _⟩, ht⟩
    | cons nd todo =>
      have e : announce s i .update size (nd :: todo) = (s.see (.added i nd)).goto i (.adding .update todo size) := by simp [announce]
      rw [e]
      have ht' : Honest net t0 (s.see (.added i nd)) := ht.see trivial
      exact ⟨⟨_, goto_at (s := s.see (.added i nd)) hc _, .inr rfl, rfl, by simp [weight]⟩, ht'⟩
  unfold answer
  rw [hc]
  cases pc with
  | removing todo all l =>
    obtain ⟨rfl, h1, h2, h3, h4⟩ := hs
    exact place_remove all todo s _ hc ht h1 h2 h3 h4
  | removedAll l =>
    obtain ⟨rfl, h4⟩ := hs
    exact place_load s _ hc ht h4
  | addedAll k new =>
    obtain rfl : k = .update := hs
    exact hann new 0
  | adding k todo size =>
    obtain rfl : k = .update := hs
    exact hann todo size
  | done r =>
    obtain rfl : r = .ok () := hs
    exact ⟨⟨_, hc, .inr rfl, rfl, Nat.le_refl _⟩, ht⟩
  | _ => exact hs.elim

end Lemmas.App

namespace Model.Boot
open Spec Spec.App Spec.Peer
open Model.App (Pc Ans Nd key)
open Model.Gateway (Asked Returned Calm Ends Goes)
open Lemmas.App (Honest Todo Loads Silent Place toAsk weight truth)

attribute [local irreducible] Gateway.step decode

/-- All calls but call `i` have ended. -/
def Alone (i : Nat) (app : App.State) : Prop := ∀ j pc, j ≠ i → app.calls[j]? = some pc → ∃ r, pc = .done r

theorem Alone.answer {i : Nat} {app : App.State} (h : Alone i app) (a : Ans) : Alone i (App.answer app i a) := by
  intro j pc hj hpc
  rw [(Lemmas.App.only_answer app i a).2 j hj] at hpc
  exact h j pc hj hpc

/-- Nothing happens to a call that has ended. -/
theorem other_resume {i j : Nat} (hj : j ≠ i) {s : State} (h : Alone i s.app) (order : List Nat) : step s (.resume j order) = s := by
  simp only [step]
  split
  · rename_i pc k hc hw
    obtain ⟨r, rfl⟩ := h j pc hj hc
    split
    · rfl
    · rfl
  · rfl

theorem other_asked {i j : Nat} (hj : j ≠ i) {s : State} (h : Alone i s.app) (ho : s.app.own = ownId s.gw) (r : Py Unit) : step s (.asked j r) = s := by
  simp only [step]
  cases hw : s.waits j with
  | some k => rfl
  | none =>
    have e : App.answer { s.app with own := ownId s.gw } j (.asked r) = s.app := by
      rw [← ho]
      unfold App.answer
      cases hc : s.app.calls[j]? with
      | none => rfl
      | some pc =>
        obtain ⟨r, rfl⟩ := h j pc hj hc
        rfl
    have hq : (s.app.calls[j]?).bind query = none := by
      cases hc : s.app.calls[j]? with
      | none => rfl
      | some pc =>
        obtain ⟨r, rfl⟩ := h j pc hj hc
        rfl
    dsimp only
    unfold goOn
    rw [e]
    unfold issue
    rw [hq]
    have hf : (fun k => if k = j then none else s.waits k) = s.waits := by
      funext k
      split
      · rename_i hk; rw [hk, hw]
      · rfl
    show (⟨s.gw, s.app, fun k => if k = j then none else s.waits k, s.updates⟩ : State) = s
    rw [hf]

/-- What has been done so far. -/
structure Sofar (w : Network) (s0 app : App.State) (list : List Nat) : Prop where
  listed : Listed w list
  run : ∃ answers : List Ans, app = App.run s0 (.start .update :: answers.map (.answer s0.calls.length))
  alone : Alone s0.calls.length app

theorem Sofar.own {w : Network} {s0 app : App.State} {list : List Nat} (h : Sofar w s0 app list) : app.own = s0.own := by
  obtain ⟨answers, rfl⟩ := h.run
  exact Lemmas.App.run_own _ _

theorem Sofar.answer {w : Network} {s0 app : App.State} {list : List Nat} (h : Sofar w s0 app list) (a : Ans) : Sofar w s0 (App.answer app s0.calls.length a) list :=
  ⟨h.listed, told_answer a h.run, h.alone.answer a⟩

/-- Whether a node was known at the beginning. -/
def knownIn (s0 : App.State) (n : Nat) : Bool := s0.nodes.mem (key n 0)

/-- The update has had the list, `q` numbers are used, and `n` questions are left. -/
structure Updating (w : Network) (s0 : App.State) (list : List Nat) (q n b : Nat) (app : App.State) : Prop where
  sofar : Sofar w s0 app list
  place : Place w.own.toNat (w.net list) (knownIn s0) s0.trace s0.calls.length n b app
  enough : q + n ≤ 255

/-- What the update does with what the gateway returns. -/
def Then (w : Network) (s0 app : App.State) (r : Py Gateway.Ret) (q n : Nat) : Prop :=
  app.own = w.own.toNat ∧ Alone s0.calls.length app ∧ ∃ pc, app.calls[s0.calls.length]? = some pc ∧
    ∀ order, ∃ a list b, answerOf pc r order = some a ∧ Updating w s0 list q n b (App.answer app s0.calls.length a)

/-- The call waits for job `J`. -/
def onJob (wt : Nat → Option Nat) (u i : Nat) (g : Gateway.State) (app : App.State) (J : Nat) : State := ⟨g, app, fun j => if j = i then some J else wt j, u⟩

/-- The call waits for no job. -/
def onNone (wt : Nat → Option Nat) (u i : Nat) (g : Gateway.State) (app : App.State) : State := ⟨g, app, fun j => if j = i then none else wt j, u⟩

/-- The update has asked; `n` questions are left after this one. -/
def UAsk (w : Network) (s0 : App.State) (wt : Nat → Option Nat) (u n : Nat) (s : State) : Prop :=
  ∃ g app J a K T hid m d N r, s = onJob wt u s0.calls.length g app J ∧ Asked w g J a K T hid m d ∧ Ends a m N r ∧ (g.nodeId.getD 0).toNat = w.own.toNat ∧ N = id ∧ Then w s0 app r g.nmSeq n

/-- The answer is there. -/
def UBack (w : Network) (s0 : App.State) (wt : Nat → Option Nat) (u n : Nat) (s : State) : Prop :=
  ∃ g app J r, s = onJob wt u s0.calls.length g app J ∧ Returned g J r ∧ ownId g = w.own.toNat ∧ Then w s0 app r g.nmSeq n

/-- The listeners are told, or the update has ended. -/
def URest (w : Network) (s0 : App.State) (wt : Nat → Option Nat) (u n b : Nat) (s : State) : Prop :=
  ∃ g app list pc, s = onNone wt u s0.calls.length g app ∧ Calm g none none none ∧ ownId g = w.own.toNat ∧ Sofar w s0 app list ∧ g.nmSeq + n ≤ 255 ∧
    Honest (w.net list) s0.trace app ∧ app.calls[s0.calls.length]? = some pc ∧ Silent (w.net list) (knownIn s0) app.nodes pc ∧ Lemmas.App.left w.own.toNat (w.net list) (knownIn s0) pc = n ∧ weight pc ≤ b

variable {w : Network} {s0 : App.State} {wt : Nat → Option Nat} {u n b : Nat}

/-- The update goes on. -/
theorem uenter (hw : w.Regular) (h0 : s0.own = w.own.toNat) {g : Gateway.State} {app : App.State} {list : List Nat} (hc : Calm g none none none) (ho : ownId g = w.own.toNat)
    (h : Updating w s0 list g.nmSeq n b app) : URest w s0 wt u n b (waiting wt u s0.calls.length app g) ∨ ∃ k, n = k + 1 ∧ UAsk w s0 wt u k (waiting wt u s0.calls.length app g) := by
  obtain ⟨pc, h1, h2, h3, h4⟩ := h.place.at_
  have hrest : Silent (w.net list) (knownIn s0) app.nodes pc → URest w s0 wt u n b (waiting wt u s0.calls.length app g) := fun hs =>
    ⟨g, app, list, pc, waiting_none h1 hs.query, hc, ho, h.sofar, h.enough, h.place.honest, h1, hs, h3, h4⟩
  rcases h2 with h2 | h2
  · by_cases hz : n = 0
    · left
      apply hrest
      subst hz
      rw [h2.left] at h3
      cases pc with
      | addedAll k new => exact h2
      | done x => exact h2
      | info k n rest new => simp only [Lemmas.App.asks, cost] at h3; omega
      | eps k nd rest new => simp only [Lemmas.App.asks] at h3; omega
      | cap k nd ep count rest new => simp only [Lemmas.App.asks] at h3; omega
      | _ => exact h2.elim
    · right
      obtain ⟨k, rfl⟩ : ∃ k, n = k + 1 := ⟨n - 1, by omega⟩
      refine ⟨k, rfl, ?_⟩
      rw [h2.left] at h3
      have hen := h.enough
      have hl : ∀ n ∈ list, n ∈ w.nodes := fun n hn => (h.sofar.listed.mem n).1 hn
      obtain ⟨c, hid, m, r, t, hp⟩ := truth_report hw hl (q := g.nmSeq + 1) (h2.asking (by omega))
      obtain ⟨K, T, d, e1, e2, e3⟩ := Gateway.asks hc c t.fits (fun x => t.notList x.1) (by omega) t.waitsFor (by simp [proxy, hp]) t.report t.decodes t.isHid
      rw [if_neg t.notList] at e1
      have hcame := Lemmas.App.came_answer (accepted_all hw hl) (h.sofar.own.trans h0) h1 h2 h.place.honest h3
      obtain ⟨pc', c1, c2, c3⟩ := hcame.at_
      refine ⟨_, app, g.jobs.length, .nm c, K, T, hid, m, d, id, r, waiting_query h1 t.query, e1, ?_, ?_, rfl, h.sofar.own.trans h0, h.sofar.alone, pc, h1, fun order => ⟨_, list, weight pc', t.answerOf order, ?_⟩⟩
      · intro g' order
        exact ⟨g'.nodes, by simp only [Gateway.afterAsk, t.answer, id]⟩
      · rw [e3]; exact ho
      · exact ⟨h.sofar.answer _, ⟨⟨pc', c1, .inl c2, c2.left.trans c3, Nat.le_refl _⟩, hcame.honest⟩, by rw [e2]; omega⟩
  · exact .inl (hrest h2)

/-- The list is there. -/
theorem then_list {l : List Nat} (h : Listed w l) (h0 : s0.own = w.own.toNat) (ha : ∀ pc ∈ s0.calls, ∃ r, pc = .done r) (hor : Orderly s0.nodes) {q : Nat} (hq : q + w.news s0.nodes ≤ 255) :
    Then w s0 (App.step s0 (.start .update)) (.ok (.nodes l)) q (w.news s0.nodes) := by
  have hi : (App.step s0 (.start .update)).calls[s0.calls.length]? = some (.list .update) := by simp [App.step]
  have hal : Alone s0.calls.length (App.step s0 (.start .update)) := by
    intro j pc hj hpc
    simp only [App.step, List.getElem?_append] at hpc
    split at hpc
    · exact ha pc (List.mem_of_getElem? hpc)
    · rw [List.getElem?_singleton] at hpc
      split at hpc
      · omega
      · cases hpc
  refine ⟨h0, hal, _, hi, fun order => ?_⟩
  have hl := iter_listed h order
  generalize hlist : Gateway.iter l order = list at hl
  have ea : App.answer (App.step s0 (.start .update)) s0.calls.length (.list (.ok list)) =
      App.remove ((App.step s0 (.start .update)).see (.gotList s0.calls.length list)) s0.calls.length (Dict.keys (s0.nodes.filter fun p => p.2.root ∉ list)) list
        (Dict.keys (s0.nodes.filter fun p => p.2.root ∉ list)) := by
    unfold App.answer
    rw [hi]
    rfl
  have ht : Honest (w.net list) s0.trace (App.step s0 (.start .update)) := ⟨[], by simp [App.step], fun x hx => by cases hx⟩
  have hsof : Sofar w s0 (App.step s0 (.start .update)) list := ⟨hl, ⟨[], rfl⟩, hal⟩
  have hp := Lemmas.App.place_remove (net := w.net list) (known := knownIn s0) (t0 := s0.trace) (i := s0.calls.length) (Dict.keys (s0.nodes.filter fun p => p.2.root ∉ list))
    (Dict.keys (s0.nodes.filter fun p => p.2.root ∉ list)) ((App.step s0 (.start .update)).see (.gotList s0.calls.length list)) _ hi (ht.see rfl)
    ((List.filter_sublist.map _).nodup hor.nodup)
    (fun k hk => by
      rw [Lemmas.App.mem_iff]
      exact (List.filter_sublist.map _).subset hk)
    (fun k hk n hn hkn => by
      obtain ⟨v, hv⟩ := mem_keys.1 hk
      obtain ⟨hv1, hv2⟩ := List.mem_filter.1 hv
      have hid := hor.ids k v hv1
      rw [← hkn] at hid
      have : n = v.root := (Lemmas.App.key_inj hid).1
      rw [← this] at hv2
      have hn : n ∈ list := hn
      simp [hn] at hv2)
    ⟨fun n hn => hn, hl.nodup, fun n _ => rfl⟩
  have hown : ((App.step s0 (.start .update)).see (.gotList s0.calls.length list)).own = w.own.toNat := h0
  have hnews : toAsk w.own.toNat (w.net list) (knownIn s0) (w.net list).list = w.news s0.nodes := Props.Follow.news_eq hl.nodup hl.mem
  rw [hown, hnews, show (w.net list).list = list from rfl] at hp
  have hsof' := hsof.answer (.list (.ok list))
  rw [ea] at hsof'
  rw [← ea] at hsof' hp
  exact ⟨.list (.ok list), list, _, by simp only [answerOf, hlist], hsof', hp, hq⟩

/-- How the update begins. -/
theorem update_back {s : State} (h : Informed w s) : UBack w s.app s.waits (s.updates + 1) (w.news s.app.nodes) (step s .update) := by
  have hc := idle_calm h.toIdle
  have e : Gateway.step s.gw (.nm .getNodeList) = s.gw.addJob (.done (.ok (.nodes s.gw.nodes.keys))) := by
    unfold Gateway.step Gateway.startNm
    simp only [h.some, ne_eq, not_false_eq_true, and_self, if_true]
  have hi : (App.step s.app (.start .update)).calls[s.app.calls.length]? = some (.list .update) := by simp [App.step]
  have e2 : step s .update = onJob s.waits (s.updates + 1) s.app.calls.length (s.gw.addJob (.done (.ok (.nodes s.gw.nodes.keys)))) (App.step s.app (.start .update)) s.gw.jobs.length := by
    have : step s .update = waiting s.waits (s.updates + 1) s.app.calls.length (App.step s.app (.start .update)) s.gw := by
      simp only [step, h.said, if_true, begin, waiting]
    rw [this, waiting_query hi rfl, e]
    rfl
  refine ⟨_, _, _, .ok (.nodes s.gw.nodes.keys), e2, ⟨⟨hc.rest, hc.connected, ?_⟩, ?_⟩, ?_, ?_⟩
  · intro i a t k hi
    simp only [Gateway.State.addJob, List.getElem?_append] at hi
    split at hi
    · exact hc.asks i a t k hi
    · simp only [List.getElem?_singleton] at hi
      split at hi <;> cases hi
  · simp [Gateway.State.addJob]
  · exact h.id
  · exact then_list ⟨h.table, h.list⟩ h.self h.calls h.orderly h.enough

/-! ## Any step -/

/-- Where the update can be. -/
def UStage (w : Network) (s0 : App.State) (wt : Nat → Option Nat) (u : Nat) (s : State) : Prop :=
  ∃ n, UAsk w s0 wt u n s ∨ UBack w s0 wt u n s ∨ ∃ b, URest w s0 wt u n b s

theorem UAsk.step {s : State} (h : UAsk w s0 wt u n s) {o : Op} (hf : FineFor w s0.calls.length s o) : UAsk w s0 wt u n (Boot.step s o) ∨ UBack w s0 wt u n (Boot.step s o) := by
  obtain ⟨g, app, J, a, K, T, hid, m, d, N, r, rfl, h1, h2, h3, hN, h4, h5, pc, h6, h7⟩ := h
  have same : UAsk w s0 wt u n (onJob wt u s0.calls.length g app J) := ⟨g, app, J, a, K, T, hid, m, d, N, r, rfl, h1, h2, h3, hN, h4, h5, pc, h6, h7⟩
  cases o with
  | startup => exact hf.elim
  | update => exact hf.elim
  | resume i order =>
    left
    by_cases hi : i = s0.calls.length
    · subst hi
      have e : Boot.step (onJob wt u s0.calls.length g app J) (.resume s0.calls.length order) = onJob wt u s0.calls.length g app J := by
        simp only [Boot.step, onJob, h6, if_true, h1.job]
      rw [e]; exact same
    · rw [other_resume hi (s := onJob wt u s0.calls.length g app J) h5]; exact same
  | asked i x =>
    left
    by_cases hi : i = s0.calls.length
    · subst hi
      have e : Boot.step (onJob wt u s0.calls.length g app J) (.asked s0.calls.length x) = onJob wt u s0.calls.length g app J := by
        simp only [Boot.step, onJob, if_true]
      rw [e]; exact same
    · rw [other_asked hi (s := onJob wt u s0.calls.length g app J) h5 (h4.trans h3.symm)]; exact same
  | gw o =>
    obtain ⟨e1, ⟨e2, e3⟩ | ⟨e2, e3⟩⟩ := h1.step h2 hf
    · exact .inl ⟨Gateway.step g o, app, J, a, K, T, hid, m, d, N, r, rfl, e2, h2, by rw [e3]; exact h3, hN, h4, h5, pc, h6, by rw [e1]; exact h7⟩
    · exact .inr ⟨Gateway.step g o, app, J, r, rfl, e2, by unfold ownId; rw [e3, hN]; exact h3, h4, h5, pc, h6, by rw [e1]; exact h7⟩

theorem UBack.resume (hw : w.Regular) (h0 : s0.own = w.own.toNat) {s : State} (h : UBack w s0 wt u n s) (order : List Nat) :
    (∃ b, URest w s0 wt u n b (Boot.step s (.resume s0.calls.length order))) ∨ ∃ k, n = k + 1 ∧ UAsk w s0 wt u k (Boot.step s (.resume s0.calls.length order)) := by
  obtain ⟨g, app, J, r, rfl, h1, h2, h4, h5, pc, h6, h7⟩ := h
  obtain ⟨a, list, b, ha, hl⟩ := h7 order
  have e := waiting_resume (wt := wt) (u := u) (g := g) (app := app) h6 h1.job ha
  have hown : ({ app with own := ownId g } : App.State) = app := by rw [h2, ← h4]
  unfold onJob
  rw [e, hown]
  rcases uenter hw h0 h1.calm h2 hl with h' | h'
  · exact .inl ⟨b, h'⟩
  · exact .inr h'

theorem UBack.step (hw : w.Regular) (h0 : s0.own = w.own.toNat) {s : State} (h : UBack w s0 wt u n s) {o : Op} (hf : FineFor w s0.calls.length s o) : UStage w s0 wt u (Boot.step s o) := by
  by_cases hr : ∃ order, o = .resume s0.calls.length order
  · obtain ⟨order, rfl⟩ := hr
    rcases h.resume hw h0 order with h' | ⟨k, -, h'⟩
    · exact ⟨n, .inr (.inr h')⟩
    · exact ⟨k, .inl h'⟩
  obtain ⟨g, app, J, r, rfl, h1, h2, h4, h5, pc, h6, h7⟩ := h
  have same : UStage w s0 wt u (onJob wt u s0.calls.length g app J) := ⟨n, .inr (.inl ⟨g, app, J, r, rfl, h1, h2, h4, h5, pc, h6, h7⟩)⟩
  cases o with
  | startup => exact hf.elim
  | update => exact hf.elim
  | resume i order =>
    rw [other_resume (fun hi => hr ⟨order, by rw [hi]⟩) (s := onJob wt u s0.calls.length g app J) h5]; exact same
  | asked i x =>
    by_cases hi : i = s0.calls.length
    · subst hi
      have e : Boot.step (onJob wt u s0.calls.length g app J) (.asked s0.calls.length x) = onJob wt u s0.calls.length g app J := by
        simp only [Boot.step, onJob, if_true]
      rw [e]; exact same
    · rw [other_asked hi (s := onJob wt u s0.calls.length g app J) h5 (h4.trans h2.symm)]; exact same
  | gw o =>
    obtain ⟨e1, e2, e3⟩ := h1.calm.step hf
    refine ⟨n, .inr (.inl ⟨Gateway.step g o, app, J, r, rfl, ⟨e1, ?_⟩, by unfold ownId; rw [e2]; exact h2, h4, h5, pc, h6, by rw [e3]; exact h7⟩)⟩
    by_cases ho : ∃ order, o = .job J order
    · obtain ⟨order, rfl⟩ := ho
      have : Gateway.step g (.job J order) = g := by
        unfold Gateway.step Gateway.stepJob
        simp only [h1.job]
      rw [this]; exact h1.job
    · exact Gateway.jobs_keep g o J _ h1.job (fun order e => ho ⟨order, e⟩) (fun n k e => by cases e)

/-- The listeners answer. -/
theorem URest.asked (hw : w.Regular) (h0 : s0.own = w.own.toNat) {s : State} (h : URest w s0 wt u n b s) :
    URest w s0 wt u n (b - 1) (Boot.step s (.asked s0.calls.length (.ok ()))) ∨ ∃ k, n = k + 1 ∧ UAsk w s0 wt u k (Boot.step s (.asked s0.calls.length (.ok ()))) := by
  obtain ⟨g, app, list, pc, rfl, h1, h2, h3, h4, h5, h6, h7, h8, h9⟩ := h
  have hown : ({ app with own := ownId g } : App.State) = app := by rw [h2, ← h0, ← h3.own]
  have e := waiting_asked (wt := wt) (u := u) (i := s0.calls.length) (g := g) (app := app) (.ok ())
  rw [hown] at e
  unfold onNone
  rw [e]
  have hp := Lemmas.App.place_asked (h3.own.trans h0) h6 h7 h8 h5
  obtain ⟨⟨pc', p1, p2, p3, p4⟩, p5⟩ := hp
  exact uenter hw h0 h1 h2 ⟨h3.answer _, ⟨⟨pc', p1, p2, p3, by omega⟩, p5⟩, h4⟩

theorem URest.step (hw : w.Regular) (h0 : s0.own = w.own.toNat) {s : State} (h : URest w s0 wt u n b s) {o : Op} (hf : FineFor w s0.calls.length s o) : UStage w s0 wt u (Boot.step s o) := by
  by_cases hr : ∃ r, o = .asked s0.calls.length r
  · obtain ⟨r, rfl⟩ := hr
    obtain rfl : r = .ok () := hf rfl
    rcases h.asked hw h0 with h' | ⟨k, -, h'⟩
    · exact ⟨n, .inr (.inr ⟨_, h'⟩)⟩
    · exact ⟨k, .inl h'⟩
  obtain ⟨g, app, list, pc, rfl, h1, h2, h3, h4, h5, h6, h7, h8, h9⟩ := h
  have same : UStage w s0 wt u (onNone wt u s0.calls.length g app) := ⟨n, .inr (.inr ⟨b, g, app, list, pc, rfl, h1, h2, h3, h4, h5, h6, h7, h8, h9⟩)⟩
  cases o with
  | startup => exact hf.elim
  | update => exact hf.elim
  | resume i order =>
    by_cases hi : i = s0.calls.length
    · subst hi
      have e : Boot.step (onNone wt u s0.calls.length g app) (.resume s0.calls.length order) = onNone wt u s0.calls.length g app := by
        simp only [Boot.step, onNone, h6, if_true]
      rw [e]; exact same
    · rw [other_resume hi (s := onNone wt u s0.calls.length g app) h3.alone]; exact same
  | asked i x =>
    rw [other_asked (fun hi => hr ⟨x, by rw [hi]⟩) (s := onNone wt u s0.calls.length g app) h3.alone ((h3.own.trans h0).trans h2.symm)]; exact same
  | gw o =>
    obtain ⟨e1, e2, e3⟩ := h1.step hf
    exact ⟨n, .inr (.inr ⟨b, Gateway.step g o, app, list, pc, rfl, e1, by unfold ownId; rw [e2]; exact h2, h3, by rw [e3]; exact h4, h5, h6, h7, h8, h9⟩)⟩

theorem UStage.step (hw : w.Regular) (h0 : s0.own = w.own.toNat) {s : State} (h : UStage w s0 wt u s) {o : Op} (hf : FineFor w s0.calls.length s o) : UStage w s0 wt u (Boot.step s o) := by
  obtain ⟨n, h | h | ⟨b, h⟩⟩ := h
  · rcases h.step hf with h' | h'
    · exact ⟨n, .inl h'⟩
    · exact ⟨n, .inr (.inl h')⟩
  · exact h.step hw h0 hf
  · exact h.step hw h0 hf

theorem UStage.run (hw : w.Regular) (h0 : s0.own = w.own.toNat) (ops : List Op) : ∀ {s : State}, UStage w s0 wt u s → InTimeFor w s0.calls.length s ops → UStage w s0 wt u (Boot.run s ops) := by
  induction ops with
  | nil => exact fun h _ => h
  | cons o ops ih => exact fun h hf => ih (h.step hw h0 hf.1) hf.2

/-! ## It goes on -/

theorem inTimeFor_append {i : Nat} (a b : List Op) : ∀ {s : State}, InTimeFor w i s a → InTimeFor w i (Boot.run s a) b → InTimeFor w i s (a ++ b) := by
  induction a with
  | nil => exact fun _ h => h
  | cons o a ih => exact fun h1 h2 => ⟨h1.1, ih h1.2 h2⟩

theorem goes_onJob {i : Nat} {g g' : Gateway.State} {ops : List Gateway.Op} (h : Goes w g ops g') (app : App.State) (J : Nat) :
    InTimeFor w i (onJob wt u i g app J) (ops.map .gw) ∧ Boot.run (onJob wt u i g app J) (ops.map .gw) = onJob wt u i g' app J := by
  induction h with
  | nil g => exact ⟨trivial, rfl⟩
  | cons hf _ ih => exact ⟨⟨hf, ih.1⟩, ih.2⟩

theorem UAsk.live {s : State} (h : UAsk w s0 wt u n s) : ∃ ops, InTimeFor w s0.calls.length s ops ∧ UBack w s0 wt u n (Boot.run s ops) := by
  obtain ⟨g, app, J, a, K, T, hid, m, d, N, r, rfl, h1, h2, h3, hN, h4, h5, pc, h6, h7⟩ := h
  obtain ⟨ops, g', e1, e2, e3, e4⟩ := h1.live h2
  obtain ⟨r1, r2⟩ := goes_onJob (wt := wt) (u := u) (i := s0.calls.length) e1 app J
  exact ⟨_, r1, by rw [r2]; exact ⟨g', app, J, r, rfl, e2, by unfold ownId; rw [e4, hN]; exact h3, h4, h5, pc, h6, by rw [e3]; exact h7⟩⟩

/-- The update has ended. -/
def Ended (i : Nat) (s : State) : Prop := s.app.calls[i]? = some (.done (.ok ()))

theorem URest.live (hw : w.Regular) (h0 : s0.own = w.own.toNat) (b : Nat) : ∀ {s : State}, URest w s0 wt u n b s →
    ∃ ops, InTimeFor w s0.calls.length s ops ∧ (Ended s0.calls.length (Boot.run s ops) ∨ ∃ k, n = k + 1 ∧ UAsk w s0 wt u k (Boot.run s ops)) := by
  induction b with
  | zero =>
    intro s h
    obtain ⟨g, app, list, pc, rfl, h1, h2, h3, h4, h5, h6, h7, h8, h9⟩ := h
    refine ⟨[], trivial, .inl ?_⟩
    cases pc with
    | done r =>
      obtain rfl : r = .ok () := h7
      exact h6
    | removing todo all l => simp [weight] at h9
    | removedAll l => simp [weight] at h9
    | addedAll k new => simp [weight] at h9
    | adding k todo size => simp [weight] at h9
    | _ => exact h7.elim
  | succ b ih =>
    intro s h
    rcases h.asked hw h0 with h' | ⟨k, hk, h'⟩
    · obtain ⟨ops, i1, h2⟩ := ih h'
      exact ⟨.asked s0.calls.length (.ok ()) :: ops, ⟨fun _ => rfl, i1⟩, h2⟩
    · exact ⟨[.asked s0.calls.length (.ok ())], ⟨fun _ => rfl, trivial⟩, .inr ⟨k, hk, h'⟩⟩

theorem UStage.live (hw : w.Regular) (h0 : s0.own = w.own.toNat) {s : State} (h : UStage w s0 wt u s) :
    ∃ ops, InTimeFor w s0.calls.length s ops ∧ Ended s0.calls.length (Boot.run s ops) := by
  obtain ⟨n, h⟩ := h
  have key : ∀ (m : Nat) (s : State), UAsk w s0 wt u m s → ∃ ops, InTimeFor w s0.calls.length s ops ∧ Ended s0.calls.length (Boot.run s ops) := by
    intro m
    induction m with
    | zero =>
      intro s h
      obtain ⟨o1, i1, h1⟩ := h.live
      rcases h1.resume hw h0 [] with ⟨b, h2⟩ | ⟨k, hk, -⟩
      · obtain ⟨o2, i2, h3⟩ := h2.live hw h0
        refine ⟨o1 ++ .resume s0.calls.length [] :: o2, inTimeFor_append _ _ i1 ⟨trivial, i2⟩, ?_⟩
        rw [run_append]
        rcases h3 with h3 | ⟨k, hk, -⟩
        · exact h3
        · omega
      · omega
    | succ m ih =>
      intro s h
      obtain ⟨o1, i1, h1⟩ := h.live
      have fin : ∀ {o2 : List Op} {s' : State}, s' = Boot.step (Boot.run s o1) (.resume s0.calls.length []) → InTimeFor w s0.calls.length s' o2 → UAsk w s0 wt u m (Boot.run s' o2) →
          ∃ ops, InTimeFor w s0.calls.length s ops ∧ Ended s0.calls.length (Boot.run s ops) := by
        intro o2 s' e i2 h2
        obtain ⟨o3, i3, h3⟩ := ih _ h2
        subst e
        refine ⟨o1 ++ .resume s0.calls.length [] :: (o2 ++ o3), inTimeFor_append _ _ i1 ⟨trivial, inTimeFor_append _ _ i2 i3⟩, ?_⟩
        rw [run_append]
        show Ended s0.calls.length (Boot.run (Boot.step (Boot.run s o1) (.resume s0.calls.length [])) (o2 ++ o3))
        rw [run_append]
        exact h3
      rcases h1.resume hw h0 [] with ⟨b, h2⟩ | ⟨k, hk, h2⟩
      · obtain ⟨o2, i2, h3⟩ := h2.live hw h0
        rcases h3 with h3 | ⟨k, hk, h3⟩
        · refine ⟨o1 ++ .resume s0.calls.length [] :: o2, inTimeFor_append _ _ i1 ⟨trivial, i2⟩, ?_⟩
          rw [run_append]
          exact h3
        · obtain rfl : k = m := by omega
          exact fin rfl i2 h3
      · obtain rfl : k = m := by omega
        exact fin (o2 := []) rfl trivial h2
  have rest : ∀ {b : Nat} {s : State}, URest w s0 wt u n b s → ∃ ops, InTimeFor w s0.calls.length s ops ∧ Ended s0.calls.length (Boot.run s ops) := by
    intro b s h
    obtain ⟨o1, i1, h1 | ⟨k, -, h1⟩⟩ := h.live hw h0
    · exact ⟨o1, i1, h1⟩
    · obtain ⟨o2, i2, h2⟩ := key k _ h1
      exact ⟨o1 ++ o2, inTimeFor_append _ _ i1 i2, by rw [run_append]; exact h2⟩
  rcases h with h | h | ⟨b, h⟩
  · exact key n s h
  · have go : ∀ {s' : State}, s' = Boot.step s (.resume s0.calls.length []) → (∃ ops, InTimeFor w s0.calls.length s' ops ∧ Ended s0.calls.length (Boot.run s' ops)) →
        ∃ ops, InTimeFor w s0.calls.length s ops ∧ Ended s0.calls.length (Boot.run s ops) := by
      rintro s' rfl ⟨ops, i1, h1⟩
      exact ⟨.resume s0.calls.length [] :: ops, ⟨trivial, i1⟩, h1⟩
    rcases h.resume hw h0 [] with ⟨b, h2⟩ | ⟨k, -, h2⟩
    · exact go rfl (rest h2)
    · exact go rfl (key k _ h2)
  · exact rest h

/-! ## Between the calls -/

theorem step_gw (s : State) (o : Op) : ∃ ops, (step s o).gw = Gateway.run s.gw ops := by
  have hi : ∀ (t : State) (i : Nat), t.gw = s.gw → ∃ ops, (issue t i).gw = Gateway.run s.gw ops := by
    intro t i ht
    unfold issue
    split
    · exact ⟨[], ht⟩
    · rename_i c _
      refine ⟨[.nm c], ?_⟩
      show Gateway.step t.gw (.nm c) = Gateway.step s.gw (.nm c)
      rw [ht]
  have keep : ∃ ops, s.gw = Gateway.run s.gw ops := ⟨[], rfl⟩
  cases o with
  | startup => exact hi _ _ rfl
  | update =>
    simp only [step]
    split
    · exact hi _ _ rfl
    · exact keep
  | resume i order =>
    simp only [step]
    split
    · split
      · split
        · exact hi _ _ rfl
        · exact keep
      · exact keep
    · exact keep
  | asked i r =>
    simp only [step]
    split
    · exact hi _ _ rfl
    · exact keep
  | gw o => exact ⟨[o], rfl⟩

theorem run_gw (ops : List Op) : ∀ s : State, ∃ gops, (Boot.run s ops).gw = Gateway.run s.gw gops := by
  induction ops with
  | nil => exact fun s => ⟨[], rfl⟩
  | cons o ops ih =>
    intro s
    obtain ⟨a, ha⟩ := step_gw s o
    obtain ⟨b, hb⟩ := ih (Boot.step s o)
    refine ⟨a ++ b, ?_⟩
    show (Boot.run (Boot.step s o) ops).gw = _
    rw [hb, ha, Gateway.run, Gateway.run, Gateway.run, List.foldl_append]

theorem run_reached {s : State} (h : ∃ ops, s.gw = Gateway.run Gateway.init ops) (ops : List Op) : ∃ gops, (Boot.run s ops).gw = Gateway.run Gateway.init gops := by
  obtain ⟨a, ha⟩ := h
  obtain ⟨b, hb⟩ := run_gw ops s
  exact ⟨a ++ b, by rw [hb, ha, Gateway.run, Gateway.run, Gateway.run, List.foldl_append]⟩

end Model.Boot
