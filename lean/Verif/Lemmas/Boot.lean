import Verif.Model.Boot
import Verif.Lemmas.Objects
import Verif.Lemmas.Listed
import Verif.Props.GatewayCalls
/-! Helper lemmas: the application on the gateway. -/
namespace Lemmas.App
open Model Model.App

/-- What holds of the node ids and nodes a waiting call keeps: `E` of the nodes of the list, `Q` of the node that is loaded, `N` of node objects. -/
def PcOk (E Q : Nat → Prop) (N : Nd → Prop) : Pc → Prop
  | .removing _ _ l => ∀ n ∈ l, E n
  | .removedAll l => ∀ n ∈ l, E n
  | .info _ n rest _ => Q n ∧ ∀ m ∈ rest, E m
  | .eps _ nd rest _ => (Q nd.root ∧ N nd) ∧ ∀ m ∈ rest, E m
  | .cap _ nd ep _ rest _ => (Q nd.root ∧ N nd ∧ 1 ≤ ep) ∧ ∀ m ∈ rest, E m
  | _ => True

/-- `N` holds of the table, and the waiting calls. -/
structure Keeps (E Q : Nat → Prop) (N : Nd → Prop) (s : State) : Prop where
  nodes : ∀ p ∈ s.nodes, N p.2
  pcs : ∀ (i : Nat) pc, s.calls[i]? = some pc → PcOk E Q N pc

variable {E Q : Nat → Prop} {N : Nd → Prop}

theorem PcOk.mono {E' : Nat → Prop} (h : ∀ n, E n → E' n) {pc : Pc} (hp : PcOk E Q N pc) : PcOk E' Q N pc := by
  cases pc with
  | removing _ _ l => exact fun n hn => h n (hp n hn)
  | removedAll l => exact fun n hn => h n (hp n hn)
  | info _ n rest _ => exact ⟨hp.1, fun n hn => h n (hp.2 n hn)⟩
  | eps _ nd rest _ => exact ⟨hp.1, fun n hn => h n (hp.2 n hn)⟩
  | cap _ nd ep _ rest _ => exact ⟨hp.1, fun n hn => h n (hp.2 n hn)⟩
  | _ => trivial

theorem Keeps.mono {E' : Nat → Prop} {s : State} (h : ∀ n, E n → E' n) (hs : Keeps E Q N s) : Keeps E' Q N s :=
  ⟨hs.nodes, fun i pc hp => (hs.pcs i pc hp).mono h⟩

theorem Keeps.goto {s : State} (h : Keeps E Q N s) (i : Nat) {pc : Pc} (hp : PcOk E Q N pc) : Keeps E Q N (s.goto i pc) := by
  refine ⟨h.nodes, fun j q hq => ?_⟩
  simp only [State.goto] at hq
  rw [List.getElem?_set] at hq
  split at hq
  · split at hq
    · cases hq; exact hp
    · cases hq
  · exact h.pcs j q hq

theorem Keeps.see {s : State} (h : Keeps E Q N s) (e : Ev) : Keeps E Q N (s.see e) := ⟨h.nodes, h.pcs⟩

theorem keeps_load (i : Nat) (k : Kind) (rest : List Nat) : ∀ (s : State) (new : List Nd), Keeps E Q N s → (∀ n, E n → n ≠ s.own → Q n) → (∀ n ∈ rest, E n) →
    Keeps E Q N (load s i k new rest) := by
  induction rest with
  | nil =>
    intro s new h _ _
    unfold load
    cases k with
    | startup => exact h.goto i trivial
    | update =>
      dsimp only
      split
      · exact h.goto i trivial
      · exact (h.see _).goto i trivial
  | cons n rest ih =>
    intro s new h hq hr
    unfold load
    split
    · exact ih s new h hq fun m hm => hr m (.tail _ hm)
    · split
      · exact ih s new h hq fun m hm => hr m (.tail _ hm)
      · rename_i hn
        exact h.goto i ⟨hq n (hr n (.head _)) hn, fun m hm => hr m (.tail _ hm)⟩

theorem keeps_remove (i : Nat) (all : List Str) (l : List Nat) (todo : List Str) {s : State} (h : Keeps E Q N s) (hq : ∀ n, E n → n ≠ s.own → Q n) (hl : ∀ n ∈ l, E n) :
    Keeps E Q N (remove s i all l todo) := by
  cases todo with
  | nil =>
    unfold remove
    dsimp only
    split
    · exact keeps_load i .update l s [] h hq hl
    · exact (h.see _).goto i hl
  | cons q todo =>
    unfold remove
    dsimp only
    split
    · exact Keeps.goto (Keeps.see (s := { s with nodes := s.nodes.erase q }) ⟨fun p hp => h.nodes p (List.mem_filter.1 hp |>.1), h.pcs⟩ _) i (pc := .removing todo all l) hl
    · exact h.goto i trivial

theorem keeps_announce (i : Nat) (k : Kind) (size : Nat) (todo : List Nd) {s : State} (h : Keeps E Q N s) : Keeps E Q N (announce s i k size todo) := by
  cases todo with
  | nil => unfold announce; dsimp only; split <;> exact h.goto i trivial
  | cons nd todo =>
    unfold announce
    dsimp only
    split
    · exact h.goto i trivial
    · exact (h.see _).goto i trivial

theorem mem_set_dict {d : Dict Str Nd} {k : Str} {v : Nd} {p : Str × Nd} (h : p ∈ d.set k v) : p ∈ d ∨ p.2 = v := by
  induction d with
  | nil => simp only [Dict.set, List.mem_singleton] at h; exact .inr (by rw [h])
  | cons q d ih =>
    simp only [Dict.set] at h
    split at h
    · rcases List.mem_cons.1 h with h | h
      · exact .inr (by rw [h])
      · exact .inl (.tail _ h)
    · rcases List.mem_cons.1 h with h | h
      · exact .inl (by rw [h]; exact .head _)
      · rcases ih h with h | h
        · exact .inl (.tail _ h)
        · exact .inr h

theorem Keeps.enter {s : State} (h : Keeps E Q N s) {nd : Nd} (hn : N nd) : Keeps E Q N { s with objs := s.objs + 1, nodes := s.nodes.set nd.id nd } := by
  refine ⟨fun p hp => ?_, h.pcs⟩
  rcases mem_set_dict hp with hp | hp
  · exact h.nodes p hp
  · rw [hp]; exact hn

theorem keeps_answer {s : State} (h : Keeps E Q N s) (i : Nat) (a : Ans) (hq : ∀ n, E n → n ≠ s.own → Q n)
    (hlist : ∀ l, a = .list (.ok l) → (∃ k, s.calls[i]? = some (.list k)) → ∀ n ∈ l, E n)
    (hinfo : ∀ k n rest new x, s.calls[i]? = some (.info k n rest new) → a = .info (.ok x) → Q n → N ⟨s.objs, n, 0, x⟩)
    (hcap : ∀ k nd ep c rest new x, s.calls[i]? = some (.cap k nd ep c rest new) → a = .cap (.ok x) → Q nd.root → N nd → 1 ≤ ep → N ⟨s.objs, nd.root, ep, x⟩) :
    Keeps E Q N (answer s i a) := by
  have fail : ∀ e, Keeps E Q N (s.goto i (.done (.error e))) := fun e => h.goto i trivial
  unfold answer
  cases hi : s.calls[i]? with
  | none => exact h
  | some pc =>
    have hp := h.pcs i pc hi
    cases pc with
    | list k =>
      cases a with
      | list r =>
        cases r with
        | error e => cases k <;> exact fail e
        | ok l =>
          cases k with
          | update => exact keeps_remove _ _ _ _ (h.see _) hq (hlist l rfl ⟨_, hi⟩)
          | startup => exact keeps_load _ _ _ _ _ (h.see _) hq (hlist l rfl ⟨_, hi⟩)
      | _ => cases k <;> exact h
    | removing todo all l =>
      cases a with
      | asked r =>
        cases r with
        | error e => exact fail e
        | ok u => exact keeps_remove _ _ _ _ h hq hp
      | _ => exact h
    | removedAll l =>
      cases a with
      | asked r =>
        cases r with
        | error e => exact fail e
        | ok u => exact keeps_load _ _ _ _ _ h hq hp
      | _ => exact h
    | info k n rest new =>
      cases a with
      | info r =>
        cases r with
        | error e => exact fail e
        | ok x =>
          dsimp only
          split
          · exact (h.see _).goto i trivial
          · have hN := hinfo k n rest new x hi rfl hp.1
            have h' := (h.see (.gotInfo i n x)).enter hN
            split
            · exact h'.goto i ⟨⟨hp.1, hN⟩, hp.2⟩
            · exact keeps_load _ _ _ _ _ h' hq hp.2
      | _ => exact h
    | eps k nd rest new =>
      cases a with
      | eps r =>
        cases r with
        | error e => exact fail e
        | ok c =>
          cases c with
          | zero => exact keeps_load _ _ _ _ _ (h.see _) hq hp.2
          | succ c => exact (h.see _).goto i ⟨⟨hp.1.1, hp.1.2, Nat.le_refl 1⟩, hp.2⟩
      | _ => exact h
    | cap k nd ep c rest new =>
      cases a with
      | cap r =>
        cases r with
        | error e => exact fail e
        | ok x =>
          dsimp only
          split
          · exact (h.see _).goto i trivial
          · have hN := hcap k nd ep c rest new x hi rfl hp.1.1 hp.1.2.1 hp.1.2.2
            have h' := (h.see (.gotCap i nd.root ep x)).enter hN
            cases c with
            | zero => exact keeps_load _ _ _ _ _ h' hq hp.2
            | succ c => exact h'.goto i ⟨⟨hp.1.1, hp.1.2.1, by omega⟩, hp.2⟩
      | _ => exact h
    | failed =>
      cases a with
      | failed r =>
        cases r with
        | error e => exact fail e
        | ok u => exact (h.see _).goto i trivial
      | _ => exact h
    | addedAll k new =>
      cases a with
      | asked r =>
        cases r with
        | error e => cases k <;> exact fail e
        | ok u => cases k <;> exact keeps_announce _ _ _ _ h
      | _ => cases k <;> exact h
    | adding k todo size =>
      cases a with
      | asked r =>
        cases r with
        | error e => exact fail e
        | ok u => exact keeps_announce _ _ _ _ h
      | _ => exact h
    | done r => cases a <;> exact h

/-- An answer for call `i` changes nothing about the other calls. -/
def Only (i : Nat) (s s' : State) : Prop := s'.calls.length = s.calls.length ∧ ∀ j, j ≠ i → s'.calls[j]? = s.calls[j]?

theorem only_goto (i : Nat) {s s' : State} (h : s'.calls = s.calls) (pc : Pc) : Only i s (s'.goto i pc) := by
  simp only [Only, State.goto, h]
  exact ⟨List.length_set, fun j hj => List.getElem?_set_ne (Ne.symm hj)⟩

theorem only_load (i : Nat) (k : Kind) {s0 : State} (rest : List Nat) : ∀ (s : State) (new : List Nd), s.calls = s0.calls → Only i s0 (load s i k new rest) := by
  induction rest with
  | nil =>
    intro s new h
    unfold load
    cases k with
    | startup => exact only_goto i h _
    | update => dsimp only; split <;> exact only_goto i h _
  | cons n rest ih =>
    intro s new h
    unfold load
    split
    · exact ih s new h
    · split
      · exact ih s new h
      · exact only_goto i h _

theorem only_remove (i : Nat) (all : List Str) (l : List Nat) (todo : List Str) {s s0 : State} (h : s.calls = s0.calls) : Only i s0 (remove s i all l todo) := by
  cases todo with
  | nil =>
    unfold remove
    dsimp only
    split
    · exact only_load i .update l s [] h
    · exact only_goto i h _
  | cons q todo => unfold remove; dsimp only; split <;> exact only_goto i h _

theorem only_announce (i : Nat) (k : Kind) (size : Nat) (todo : List Nd) {s s0 : State} (h : s.calls = s0.calls) : Only i s0 (announce s i k size todo) := by
  cases todo <;> (unfold announce; dsimp only; split <;> exact only_goto i h _)

theorem only_answer (s : State) (i : Nat) (a : Ans) : Only i s (answer s i a) := by
  have keep : Only i s s := ⟨rfl, fun _ _ => rfl⟩
  have go : ∀ pc, Only i s (s.goto i pc) := fun pc => only_goto i rfl pc
  unfold answer
  cases hi : s.calls[i]? with
  | none => exact keep
  | some pc =>
    cases pc with
    | list k => cases a with
      | list r => cases r with
        | error e => cases k <;> exact go _
        | ok l => cases k with
          | update => exact only_remove i _ _ _ rfl
          | startup => exact only_load i _ _ _ _ rfl
      | _ => cases k <;> exact keep
    | removing todo all l => cases a with
      | asked r => cases r with
        | error e => exact go _
        | ok u => exact only_remove i _ _ _ rfl
      | _ => exact keep
    | removedAll l => cases a with
      | asked r => cases r with
        | error e => exact go _
        | ok u => exact only_load i _ _ _ _ rfl
      | _ => exact keep
    | info k n rest new => cases a with
      | info r => cases r with
        | error e => exact go _
        | ok x =>
          dsimp only
          split
          · exact only_goto i rfl _
          · split
            · exact only_goto i rfl _
            · exact only_load i _ _ _ _ rfl
      | _ => exact keep
    | eps k nd rest new => cases a with
      | eps r => cases r with
        | error e => exact go _
        | ok c => cases c with
          | zero => exact only_load i _ _ _ _ rfl
          | succ c => exact only_goto i rfl _
      | _ => exact keep
    | cap k nd ep c rest new => cases a with
      | cap r => cases r with
        | error e => exact go _
        | ok x =>
          dsimp only
          split
          · exact only_goto i rfl _
          · cases c with
            | zero => exact only_load i _ _ _ _ rfl
            | succ c => exact only_goto i rfl _
      | _ => exact keep
    | failed => cases a with
      | failed r => cases r with
        | error e => exact go _
        | ok u => exact only_goto i rfl _
      | _ => exact keep
    | addedAll k new => cases a with
      | asked r => cases r with
        | error e => cases k <;> exact go _
        | ok u => cases k <;> exact only_announce i _ _ _ rfl
      | _ => cases k <;> exact keep
    | adding k todo size => cases a with
      | asked r => cases r with
        | error e => exact go _
        | ok u => exact only_announce i _ _ _ rfl
      | _ => exact keep
    | done r => cases a <;> exact keep

end Lemmas.App

namespace Model.Boot
open Spec (Bytes)
open Model.Gateway (Lists Listed UnsolicitedNodes)
open Lemmas.App (Keeps keeps_answer only_answer)
open Model.App (Nd)

theorem run_cons (s : State) (op : Op) (ops : List Op) : run s (op :: ops) = run (step s op) ops := rfl

theorem run_append (s : State) (a b : List Op) : run s (a ++ b) = run (run s a) b := List.foldl_append

theorem run_snoc (s : State) (a : List Op) (op : Op) : run s (a ++ [op]) = step (run s a) op := by rw [run_append]; rfl

/-- `m` was received in a datagram on the gateway's connection. -/
def Received (ops : List Op) (m : Msg) : Prop := ∃ b, .gw (.conn (.packet b)) ∈ ops ∧ Delivers b m

/-- Call `i` waits for the coroutine of the gateway that was started for it. -/
def Waits (g : List Gateway.Op) (s : State) : Prop :=
  ∀ i j, s.waits i = some j → ∃ pc c g1 g2, s.app.calls[i]? = some pc ∧ query pc = some c ∧ g = g1 ++ .nm c :: g2 ∧ (Gateway.run Gateway.init g1).jobs.length = j

/-- What is assumed of the properties. -/
structure Rules (ops : List Op) (E : Option Int → Nat → Prop) (Q : Nat → Prop) (N : Nd → Prop) : Prop where
  lists : Lists (Received ops) E
  load : ∀ d n, E d n → n ≠ (d.getD 0).toNat → Q n
  info : ∀ m n o x, Received ops m → m.hid = 0x5204 → nodeInfo m = .ok x → Q n → N ⟨o, n, 0, x⟩
  cap : ∀ m nd ep o x, Received ops m → m.hid = 0x5208 → endPointInfo nd m = .ok x → Q nd.root → N nd → 1 ≤ ep → N ⟨o, nd.root, ep, x⟩

/-- The gateway has done `g`. -/
structure Inv (ops : List Op) (E : Option Int → Nat → Prop) (Q : Nat → Prop) (N : Nd → Prop) (g : List Gateway.Op) (s : State) : Prop where
  gw : s.gw = Gateway.run Gateway.init g
  packets : ∀ b, .conn (.packet b) ∈ g → .gw (.conn (.packet b)) ∈ ops
  listed : Listed (Received ops) E s.gw
  keeps : Keeps (E s.gw.nodeId) Q N s.app
  waits : Waits g s

variable {ops : List Op} {E : Option Int → Nat → Prop} {Q : Nat → Prop} {N : Nd → Prop}

theorem nm_nodeId (g : Gateway.State) (c : Gateway.Nm) : (Gateway.step g (.nm c)).nodeId = g.nodeId := by
  obtain ⟨k, j, hf⟩ := Gateway.startNm_frame g c
  simp only [Gateway.step, hf, Gateway.State.addJob]

/-- The application has gone on; everybody but `i` waits as before. -/
theorem inv_issue (hr : Rules ops E Q N) {g : List Gateway.Op} {s : State} (i : Nat) (hg : s.gw = Gateway.run Gateway.init g) (hp : ∀ b, .conn (.packet b) ∈ g → .gw (.conn (.packet b)) ∈ ops)
    (hl : Listed (Received ops) E s.gw) (hk : Keeps (E s.gw.nodeId) Q N s.app)
    (hw : ∀ i' j, i' ≠ i → s.waits i' = some j → ∃ pc c g1 g2, s.app.calls[i']? = some pc ∧ query pc = some c ∧ g = g1 ++ .nm c :: g2 ∧ (Gateway.run Gateway.init g1).jobs.length = j) :
    ∃ g', Inv ops E Q N g' (issue s i) := by
  unfold issue
  split
  · refine ⟨g, hg, hp, hl, hk, ?_⟩
    intro i' j hj
    dsimp only at hj ⊢
    split at hj
    · cases hj
    · rename_i hne; exact hw i' j hne hj
  · rename_i c hc
    obtain ⟨pc, hpc, hq⟩ := Option.bind_eq_some_iff.mp hc
    obtain ⟨tag, hi⟩ := Props.GatewayCalls.waiter_inv g
    rw [← hg] at hi
    have hstep := hl.step hr.lists hi (.nm c) (fun b m h => by cases h) (fun pkt sender order l n h => by cases h)
    refine ⟨g ++ [.nm c], ?_, ?_, hstep.1, ?_, ?_⟩
    · rw [Gateway.run_snoc, hg]
    · intro b hb
      rcases List.mem_append.1 hb with hb | hb
      · exact hp b hb
      · cases List.mem_singleton.1 hb
    · dsimp only
      rw [nm_nodeId]
      exact hk
    · intro i' j hj
      dsimp only at hj ⊢
      split at hj
      · rename_i he
        subst he
        cases hj
        exact ⟨pc, c, g, [], hpc, hq, rfl, by rw [hg]⟩
      · rename_i hne
        obtain ⟨pc', c', g1, g2, h1, h2, h3, h4⟩ := hw i' j hne hj
        exact ⟨pc', c', g1, g2 ++ [.nm c], h1, h2, by rw [h3]; simp, h4⟩

theorem inv_goOn (hr : Rules ops E Q N) {g : List Gateway.Op} {s : State} (h : Inv ops E Q N g s) (i : Nat) (a : App.Ans)
    (hlist : ∀ l, a = .list (.ok l) → (∃ k, s.app.calls[i]? = some (.list k)) → ∀ n ∈ l, E s.gw.nodeId n)
    (hinfo : ∀ k n rest new x, s.app.calls[i]? = some (.info k n rest new) → a = .info (.ok x) → Q n → N ⟨s.app.objs, n, 0, x⟩)
    (hcap : ∀ k nd ep c rest new x, s.app.calls[i]? = some (.cap k nd ep c rest new) → a = .cap (.ok x) → Q nd.root → N nd → 1 ≤ ep → N ⟨s.app.objs, nd.root, ep, x⟩) :
    ∃ g', Inv ops E Q N g' (goOn s i a) := by
  unfold goOn
  have hk := keeps_answer (s := { s.app with own := ownId s.gw }) ⟨h.keeps.nodes, h.keeps.pcs⟩ i a (fun n he hn => hr.load _ n he hn) hlist hinfo hcap
  have ho := only_answer { s.app with own := ownId s.gw } i a
  refine inv_issue hr i h.gw h.packets h.listed hk ?_
  intro i' j hne hj
  obtain ⟨pc, c, g1, g2, h1, h2, h3, h4⟩ := h.waits i' j hj
  exact ⟨pc, c, g1, g2, by rw [ho.2 i' hne]; exact h1, h2, h3, h4⟩

theorem inv_begin (hr : Rules ops E Q N) {g : List Gateway.Op} {s : State} (h : Inv ops E Q N g s) (k : App.Kind) : ∃ g', Inv ops E Q N g' (begin s k) := by
  unfold begin
  refine inv_issue hr _ h.gw h.packets h.listed ⟨h.keeps.nodes, ?_⟩ ?_
  · intro i pc hp
    simp only [App.step] at hp
    by_cases hi : i < s.app.calls.length
    · rw [List.getElem?_append_left hi] at hp; exact h.keeps.pcs i pc hp
    · rw [List.getElem?_append_right (by omega)] at hp
      have := List.mem_of_getElem? hp
      simp at this
      subst this
      trivial
  · intro i' j _ hj
    obtain ⟨pc, c, g1, g2, h1, h2, h3, h4⟩ := h.waits i' j hj
    refine ⟨pc, c, g1, g2, ?_, h2, h3, h4⟩
    simp only [App.step]
    rw [List.getElem?_append_left (List.getElem?_eq_some_iff.mp h1).1]
    exact h1

theorem infoOf_fallback : nodeInfo (.known 0x5204 []) = .error .type := rfl
theorem capOf_fallback (nd : Nd) : endPointInfo nd (.known 0x5208 []) = .error .type := rfl

theorem inv_step (hr : Rules ops E Q N) {g : List Gateway.Op} {s : State} (h : Inv ops E Q N g s) (op : Op) (hop : ∀ b, op = .gw (.conn (.packet b)) → op ∈ ops)
    (hun : ∀ pkt sender order l n, op = .gw (.unsolicited pkt sender order) → UnsolicitedNodes pkt l → n ∈ l → E s.gw.nodeId n) :
    ∃ g', Inv ops E Q N g' (step s op) := by
  cases op with
  | startup => exact inv_begin hr h .startup
  | update =>
    simp only [step]
    split
    · exact inv_begin (s := { s with updates := s.updates + 1 }) hr ⟨h.gw, h.packets, h.listed, h.keeps, h.waits⟩ .update
    · exact ⟨g, h⟩
  | asked i r =>
    simp only [step]
    split
    · exact inv_goOn hr h i _ (fun l e => by cases e) (fun _ _ _ _ _ _ e => by cases e) (fun _ _ _ _ _ _ _ _ e => by cases e)
    · exact ⟨g, h⟩
  | gw o =>
    obtain ⟨tag, hi⟩ := Props.GatewayCalls.waiter_inv g
    rw [← h.gw] at hi
    have hstep := h.listed.step hr.lists hi o (fun b m e hd => ⟨b, by subst e; exact hop b rfl, hd⟩)
      (fun pkt sender order l n e hu hn => hun pkt sender order l n (by rw [e]) hu hn)
    refine ⟨g ++ [o], ?_, ?_, hstep.1, h.keeps.mono hstep.2, ?_⟩
    · simp only [step]; rw [Gateway.run_snoc, h.gw]
    · intro b hb
      rcases List.mem_append.1 hb with hb | hb
      · exact h.packets b hb
      · have e := List.mem_singleton.1 hb
        rw [e]
        exact hop b (by rw [← e])
    · intro i j hj
      obtain ⟨pc, c, g1, g2, h1, h2, h3, h4⟩ := h.waits i j hj
      exact ⟨pc, c, g1, g2 ++ [o], h1, h2, by rw [h3]; simp, h4⟩
  | resume i order =>
    simp only [step]
    split
    · rename_i pc j hpc hj
      split
      · rename_i r hjob
        split
        · rename_i a ha
          obtain ⟨pc', c, g1, g2, h1, h2, h3, h4⟩ := h.waits i j hj
          rw [hpc] at h1; cases h1
          have hrun : Gateway.run (Gateway.step (Gateway.run Gateway.init g1) (.nm c)) g2 = s.gw := by rw [h.gw, h3, Gateway.run_append]; rfl
          have hrecv : ∀ b m, .conn (.packet b) ∈ g2 → Delivers b m → Received ops m := fun b m hb hd => ⟨b, h.packets b (by rw [h3]; simp [hb]), hd⟩
          refine inv_goOn hr h i a ?_ ?_ ?_
          · rintro l rfl ⟨k, hk⟩
            rw [hpc] at hk; cases hk
            have hjl := h.listed.jobs j _ hjob
            simp only [answerOf] at ha
            split at ha
            · rename_i l' _
              cases ha
              intro n hn
              exact hjl n (Gateway.iter_mem hn)
            · cases ha
            · cases ha
          · rintro k n rest new x hk rfl hq
            rw [hpc] at hk; cases hk
            cases h2
            simp only [answerOf] at ha
            split at ha
            · rename_i m
              simp only [Option.some.injEq, App.Ans.info.injEq] at ha
              have hc := Props.GatewayCalls.C87_result g1 g2 (.getNodeInfo n) 0x5204 (.msg m) rfl (by rw [hrun, h4]; exact hjob)
              rcases hc with hc | ⟨b, m', hb, hd, hh, hm⟩
              · have : m = .known 0x5204 [] := by simpa [Props.GatewayCalls.Fallback] using hc
                rw [this, infoOf_fallback] at ha
                cases ha
              · have : m = m' := by simpa [Props.GatewayCalls.Result] using hm
                subst this
                exact hr.info m n _ x (hrecv b m hb hd) hh ha hq
            · cases ha
            · cases ha
          · rintro k nd ep c' rest new x hk rfl hq hN hep
            rw [hpc] at hk; cases hk
            cases h2
            simp only [answerOf] at ha
            split at ha
            · rename_i m
              simp only [Option.some.injEq, App.Ans.cap.injEq] at ha
              have hc := Props.GatewayCalls.C87_result g1 g2 (.getMultiChannelCapability nd.root ep) 0x5208 (.msg m) rfl (by rw [hrun, h4]; exact hjob)
              rcases hc with hc | ⟨b, m', hb, hd, hh, hm⟩
              · have : m = .known 0x5208 [] := by simpa [Props.GatewayCalls.Fallback] using hc
                rw [this, capOf_fallback] at ha
                cases ha
              · have : m = m' := by simpa [Props.GatewayCalls.Result] using hm
                subst this
                exact hr.cap m nd ep _ x (hrecv b m hb hd) hh ha hq hN hep
            · cases ha
            · cases ha
        · exact ⟨g, h⟩
      · exact ⟨g, h⟩
    · exact ⟨g, h⟩

/-- Every history. -/
theorem inv_run (hr : Rules ops E Q N) (hun : ∀ a pkt sender order z l n, ops = a ++ .gw (.unsolicited pkt sender order) :: z → UnsolicitedNodes pkt l → n ∈ l →
    E (run init a).gw.nodeId n) : ∃ g, Inv ops E Q N g (run init ops) := by
  have key : ∀ a z, ops = a ++ z → ∃ g, Inv ops E Q N g (run init a) := by
    intro a
    induction a using Conn.snoc_ind with
    | nil =>
      intro _ _
      refine ⟨[], ⟨rfl, (fun b hb => by cases hb), ⟨?_, ?_⟩, ⟨?_, ?_⟩, ?_⟩⟩
      · intro n hn; cases hn
      · intro i j hj; cases hj
      · intro p hp; cases hp
      · intro i pc hp; cases hp
      · intro i j hj; cases hj
    | snoc a op ih =>
      intro z hz
      obtain ⟨g, h⟩ := ih (op :: z) (by simpa using hz)
      rw [run_snoc]
      refine inv_step hr h op (fun b e => by rw [hz]; simp) ?_
      intro pkt sender order l n e hu hn
      exact hun a pkt sender order z l n (by rw [hz, e]; simp) hu hn
  exact key ops [] (by simp)

end Model.Boot
