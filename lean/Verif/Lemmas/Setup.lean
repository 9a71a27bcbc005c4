import Verif.Lemmas.Asks
import Verif.Lemmas.NodeTable
/-! Helper lemmas: the part of `setupUnsolicitedConnection` that fills the node table. -/
namespace Model.Gateway
open Spec

/-- What holds of the table while the nodes `rest` have still to be looked up. -/
structure Filled (P : Msg → Prop) (s0 : State) (rest : List Nat) (nodes : Dict Nat (Option Bytes)) : Prop where
  known : s0.nodes ≠ [] → (∀ n, n ∈ nodes.keys ↔ n ∈ s0.nodes.keys) ∧ ∀ n a, s0.nodes.get? n = some (some a) → nodes.get? n = some (some a)
  fresh : s0.nodes = [] → nodes = [] ∨ ∃ m l, P m ∧ m.hid = 0x5202 ∧ reportNodes m = some l ∧ ∀ n, n ∈ nodes.keys ↔ n ∈ l
  missing : ∀ n, nodes.get? n = some none → n ∈ rest ∨ ∃ m, P m ∧ m.hid = 0x5801 ∧ advertised m = none
  source : ∀ n a, nodes.get? n = some (some a) → s0.nodes.get? n = some (some a) ∨ ∃ m, P m ∧ m.hid = 0x5801 ∧ advertised m = some a

/-- The state of the coroutine. -/
inductive Setting (P : Msg → Prop) (s0 : State) (s : State) : Job → Prop
  | ask (t k : Nat) (h0 : s0.nodes = []) (h : s.nodes = []) (hp : Waiter.Prov P 0x5202 t s.conn.w) : Setting P s0 s (.ask .setup t k)
  | look (cur : Nat) (todo : List Nat) (t : Nat) (hp : Waiter.Prov P 0x5801 t s.conn.w) (hk : s.nodes.get? cur = some none) (h : Filled P s0 (cur :: todo) s.nodes) :
      Setting P s0 s (.setup cur todo t)
  | error (e : PyErr) : Setting P s0 s (.done (.error e))
  | ok (h : Filled P s0 [] s.nodes) : Setting P s0 s (.done (.ok .unit))

theorem ipOfNode_prov (P : Msg → Prop) (s : State) {tag : Nat → Nat} (hi : Waiter.Inv tag s.conn.w) (n : Nat) (s' : State) (t : Nat)
    (h : ipOfNode s n = (s', .ok t)) : s'.nodes = s.nodes ∧ Waiter.Prov P 0x5801 t s'.conn.w := by
  unfold ipOfNode lookup at h
  split at h
  · cases h
  · rename_i b _
    cases h
    refine ⟨rfl, ?_⟩
    have hw := (Conn.transmit_sends s.conn b).2.2.2.1
    simp only [hw]
    exact Waiter.Prov.call hi .plain 0x5801 3

theorem setupLoop_setting (P : Msg → Prop) (s0 : State) (todo : List Nat) : ∀ (s : State) {tag : Nat → Nat}, Waiter.Inv tag s.conn.w → Filled P s0 todo s.nodes →
    Setting P s0 (setupLoop s todo).1 (setupLoop s todo).2 := by
  induction todo with
  | nil => intro s tag _ h; exact .ok h
  | cons n todo ih =>
    intro s tag hi h
    simp only [setupLoop]
    split
    · exact .error _
    · rename_i a hn
      refine ih s hi ⟨h.known, h.fresh, fun m hm => ?_, h.source⟩
      rcases h.missing m hm with h1 | h1
      · rcases List.mem_cons.mp h1 with rfl | h1
        · rw [hn] at hm; cases hm
        · exact .inl h1
      · exact .inr h1
    · rename_i hn
      split
      · exact .error _
      · rename_i s' t he
        have := ipOfNode_prov P s hi n s' t he
        exact .look n todo t this.2 (by rw [this.1]; exact hn) (by rw [this.1]; exact h)

/-- The coroutine `i`; no other one is about the table. -/
structure SetupCall (P : Msg → Prop) (s0 : State) (i : Nat) (s : State) : Prop where
  job : ∃ x, s.jobs[i]? = some x ∧ Setting P s0 s x
  others : ∀ k j, k ≠ i → s.jobs[k]? = some j → tableJob j = false

theorem get?_nones (l : List Nat) (n : Nat) : Dict.get? (l.map (fun n => (n, (none : Option Bytes)))) n = if n ∈ l then some none else none := by
  induction l with
  | nil => rfl
  | cons a l ih =>
    rw [List.map_cons]
    by_cases h : a = n
    · subst h; simp [Dict.get?]
    · rw [show Dict.get? ((a, (none : Option Bytes)) :: l.map (fun n => (n, none))) n = Dict.get? (l.map (fun n => (n, (none : Option Bytes)))) n by simp [Dict.get?, h], ih]
      have h' : ¬ n = a := fun e => h e.symm
      simp [h']

theorem Setting.congr {P : Msg → Prop} {s0 s s' : State} {x : Job} (h : Setting P s0 s x) (hn : s'.nodes = s.nodes)
    (hp : ∀ hid t, Waiter.Prov P hid t s.conn.w → Waiter.Prov P hid t s'.conn.w) : Setting P s0 s' x := by
  cases h with
  | ask t k h0 h p => exact .ask t k h0 (hn.trans h) (hp _ _ p)
  | look cur todo t p hk h => exact .look cur todo t (hp _ _ p) (by rw [hn]; exact hk) (by rw [hn]; exact h)
  | error e => exact .error e
  | ok h => exact .ok (by rw [hn]; exact h)

theorem prov_done {P : Msg → Prop} {hid t : Nat} {s : State} {tag : Nat → Nat} (hi : Waiter.Inv tag s.conn.w) (hp : Waiter.Prov P hid t s.conn.w) {m : Msg}
    (hd : taskDone s t = some (.ok m)) : P m ∧ m.hid = hid := by
  obtain ⟨u, hu, hh, -, h2⟩ := hp
  obtain ⟨u', hu', hr⟩ := taskDone_ok hd
  rw [hu] at hu'; cases hu'
  exact ⟨h2 m hr, hh ▸ hi.done t u m hu hr⟩

theorem Filled.looked {P : Msg → Prop} {s0 : State} {cur : Nat} {todo : List Nat} {d : Dict Nat (Option Bytes)} {m : Msg} (h : Filled P s0 (cur :: todo) d)
    (hk : d.get? cur = some none) (hm : P m) (hh : m.hid = 0x5801) : Filled P s0 todo (d.set cur (advertised m)) := by
  have hkey : cur ∈ d.keys := by rw [← Dict.get?_isSome_iff, hk]; rfl
  have hkeys : ∀ n, n ∈ (d.set cur (advertised m)).keys ↔ n ∈ d.keys := by
    intro n
    rw [keys_set']
    constructor
    · rintro (rfl | h)
      · exact hkey
      · exact h
    · exact .inr
  refine ⟨fun h0 => ?_, fun h0 => ?_, fun n hn => ?_, fun n a hn => ?_⟩
  · obtain ⟨g1, g2⟩ := h.known h0
    refine ⟨fun n => (hkeys n).trans (g1 n), fun n a hn => ?_⟩
    have := g2 n a hn
    rw [Dict.get?_set_ne]
    · exact this
    · rintro rfl; rw [this] at hk; cases hk
  · rcases h.fresh h0 with h1 | ⟨m', l, g1, g2, g3, g4⟩
    · rw [h1] at hk; simp [Dict.get?] at hk
    · exact .inr ⟨m', l, g1, g2, g3, fun n => (hkeys n).trans (g4 n)⟩
  · rw [Dict.get?_set] at hn
    split at hn
    · injection hn with hn
      exact .inr ⟨m, hm, hh, hn⟩
    · rename_i hne
      rcases h.missing n hn with h1 | h1
      · rcases List.mem_cons.mp h1 with rfl | h1
        · exact absurd rfl hne
        · exact .inl h1
      · exact .inr h1
  · rw [Dict.get?_set] at hn
    split at hn
    · injection hn with hn
      exact .inr ⟨m, hm, hh, hn⟩
    · exact h.source n a hn

/-- The coroutine itself continues. -/
theorem stepJob_setting {P : Msg → Prop} {s0 s : State} {tag : Nat → Nat} (hi : Waiter.Inv tag s.conn.w) (i : Nat) (order : List Nat) (x : Job)
    (hx : s.jobs[i]? = some x) (h : Setting P s0 s x) (hp : ∀ hid t, Waiter.Prov P hid t s.conn.w → Waiter.Prov P hid t (stepJob s i order).conn.w) :
    ∃ y, (stepJob s i order).jobs = s.jobs.set i y ∧ Setting P s0 (stepJob s i order) y := by
  have hset : s.jobs = s.jobs.set i x := by
    apply List.ext_getElem?
    intro m
    by_cases hm : i = m
    · subst hm; rw [List.getElem?_set_self']; simp [hx]
    · rw [List.getElem?_set_ne hm]
  cases h with
  | error e => simp only [stepJob, hx]; exact ⟨_, hset, .error e⟩
  | ok h => simp only [stepJob, hx]; exact ⟨_, hset, .ok h⟩
  | look cur todo t p hk h =>
    cases hd : taskDone s t with
    | none => simp only [stepJob, hx, hd]; exact ⟨_, hset, .look cur todo t p hk h⟩
    | some r =>
      cases r with
      | error e => simp only [stepJob, hx, hd]; exact ⟨.done (.error e), rfl, .error e⟩
      | ok m =>
        obtain ⟨hm, hh⟩ := prov_done hi p hd
        have := setupLoop_setting P s0 todo { s with nodes := s.nodes.set cur (advertised m) } hi (h.looked hk hm hh)
        obtain ⟨c, j, hf⟩ := setupLoop_frame todo { s with nodes := s.nodes.set cur (advertised m) }
        simp only [stepJob, hx, hd]
        rw [hf] at this ⊢
        exact ⟨j, rfl, this.congr rfl (fun _ _ h => h)⟩
  | ask t k h0 h p =>
    cases hd : taskDone s t with
    | none =>
      have hn : (stepJob s i order).nodes = s.nodes := by simp only [stepJob, hx, hd]; split <;> rfl
      have hj : (stepJob s i order).jobs = s.jobs := by simp only [stepJob, hx, hd]; split <;> rfl
      exact ⟨_, hj.trans hset, (Setting.ask t k h0 h p).congr hn hp⟩
    | some r =>
      cases r with
      | error e =>
        by_cases he : e = .timeout
        · subst he
          simp only [stepJob, hx, hd, afterAsk]
          refine ⟨_, rfl, .ok ⟨fun h' => absurd h0 h', fun _ => .inl h, fun n hn => ?_, fun n a hn => ?_⟩⟩
          · simp only [State.setJob, h, Dict.get?] at hn; simp at hn
          · simp only [State.setJob, h, Dict.get?] at hn; simp at hn
        · have : afterAsk s .setup (.error e) order = (s, .done (.error e)) := by
            cases e <;> first | rfl | exact absurd rfl he
          simp only [stepJob, hx, hd, this]
          exact ⟨_, rfl, .error e⟩
      | ok m =>
        obtain ⟨hm, hh⟩ := prov_done hi p hd
        simp only [stepJob, hx, hd, afterAsk, storeList]
        cases hl : reportNodes m with
        | none => exact ⟨_, rfl, .error _⟩
        | some l =>
          simp only
          have hfill : Filled P s0 (iter l order) (l.map (fun n => (n, none))) := by
            refine ⟨fun h' => absurd h0 h', fun _ => .inr ⟨m, l, hm, hh, hl, fun n => ?_⟩, fun n hn => ?_, fun n a hn => ?_⟩
            · rw [← Dict.get?_isSome_iff, get?_nones]
              by_cases hn : n ∈ l
              · rw [if_pos hn]; exact ⟨fun _ => hn, fun _ => rfl⟩
              · rw [if_neg hn]; exact ⟨fun h => (by cases h), fun h => absurd h hn⟩
            · rw [get?_nones] at hn
              split at hn
              · rename_i h; exact .inl ((mem_iter l order n).mpr h)
              · cases hn
            · rw [get?_nones] at hn; split at hn <;> cases hn
          have := setupLoop_setting P s0 (iter l order) { s with nodeId := m.num? "nodeListControllerId", nodes := l.map (fun n => (n, none)) } hi hfill
          obtain ⟨c, j, hf⟩ := setupLoop_frame (iter l order) { s with nodeId := m.num? "nodeListControllerId", nodes := l.map (fun n => (n, none)) }
          rw [hf] at this ⊢
          exact ⟨j, rfl, this.congr rfl (fun _ _ h => h)⟩

theorem Setting.notOpening {P : Msg → Prop} {s0 s : State} {x : Job} (h : Setting P s0 s x) : ∀ n k, x ≠ .opening n k := by
  rintro n k rfl
  cases h

theorem SetupCall.step {P : Msg → Prop} {s0 s : State} {i : Nat} {tag : Nat → Nat} (h : SetupCall P s0 i s) (hi : Waiter.Inv tag s.conn.w) (op : Op)
    (hq : touchesTable op = false) (hop : ∀ b m, op = .conn (.packet b) → Delivers b m → P m) : SetupCall P s0 i (Gateway.step s op) := by
  obtain ⟨⟨x, hx, hs⟩, hj⟩ := h
  have hlen : i < s.jobs.length := (List.getElem?_eq_some_iff.mp hx).1
  have hprov : ∀ hid t, Waiter.Prov P hid t s.conn.w → Waiter.Prov P hid t (Gateway.step s op).conn.w := by
    intro hid t ht
    obtain ⟨ws, e, hq⟩ := step_w s op
    rw [e]
    exact ht.run ws hi (fun m hm => by obtain ⟨b, rfl, hd⟩ := hq m hm; exact hop b m rfl hd)
  by_cases ho : ∃ order, op = .job i order
  · obtain ⟨order, rfl⟩ := ho
    obtain ⟨y, h1, h2⟩ := stepJob_setting hi i order x hx hs hprov
    have h1 : (Gateway.step s (.job i order)).jobs = s.jobs.set i y := h1
    refine ⟨⟨y, by rw [h1, List.getElem?_set_self hlen], h2⟩, fun k j hk hkj => ?_⟩
    rw [h1, List.getElem?_set_ne (Ne.symm hk)] at hkj
    exact hj k j hk hkj
  · obtain ⟨h1, -, h3, h4⟩ := step_quiet' s op i x hx hs.notOpening (fun order he => ho ⟨order, he⟩) hq hj
    refine ⟨⟨x, h3.trans hx, hs.congr h1 hprov⟩, fun k j hk hkj => ?_⟩
    cases ht : tableJob j with
    | false => rfl
    | true => rw [← ht]; exact hj k j hk (h4 k j hk hkj ht)

theorem SetupCall.run {P : Msg → Prop} {s0 : State} {i : Nat} (ops : List Op) : ∀ {s : State} {tag : Nat → Nat}, SetupCall P s0 i s → Waiter.Inv tag s.conn.w →
    (∀ op ∈ ops, touchesTable op = false) → (∀ b m, .conn (.packet b) ∈ ops → Delivers b m → P m) → SetupCall P s0 i (Gateway.run s ops) := by
  induction ops with
  | nil => intro s tag h _ _ _; exact h
  | cons op ops ih =>
    intro s tag h hi hq hop
    obtain ⟨ws, e, -⟩ := step_w s op
    obtain ⟨tag', hi'⟩ := hi.run ws
    rw [← e] at hi'
    exact ih (h.step hi op (hq op (.head _)) (fun b m e => hop b m (by rw [e]; exact .head _))) hi' (fun o ho => hq o (.tail _ ho)) (fun b m hb => hop b m (.tail _ hb))

theorem setupCall_start (P : Msg → Prop) (s : State) {tag : Nat → Nat} (hi : Waiter.Inv tag s.conn.w) (order : List Nat)
    (hidle : ∀ (k : Nat) (j : Job), s.jobs[k]? = some j → tableJob j = false) : SetupCall P s s.jobs.length (Gateway.step s (.setup order)) := by
  have hadd : ∀ (js : List Job) (j : Job), js = s.jobs ++ [j] → ∀ (k : Nat) (j' : Job), k ≠ s.jobs.length → js[k]? = some j' → tableJob j' = false := by
    rintro js j rfl k j' hk h
    by_cases hk' : k < s.jobs.length
    · rw [List.getElem?_append_left hk'] at h; exact hidle k j' h
    · rw [List.getElem?_eq_none (by simp; omega)] at h; cases h
  simp only [Gateway.step]
  split
  · rename_i hne
    have hfill : Filled P s (iter s.nodes.keys order) s.nodes := by
      refine ⟨fun _ => ⟨fun _ => Iff.rfl, fun _ _ h => h⟩, fun h => absurd h hne, fun n hn => .inl ?_, fun n a hn => .inl hn⟩
      rw [mem_iter, ← Dict.get?_isSome_iff, hn]; rfl
    have := setupLoop_setting P s (iter s.nodes.keys order) s hi hfill
    obtain ⟨c, j, hf⟩ := setupLoop_frame (iter s.nodes.keys order) s
    simp only [hf] at this ⊢
    exact ⟨⟨j, by simp [State.addJob], this.congr rfl (fun _ _ h => h)⟩, hadd _ j rfl⟩
  · rename_i hne
    have h0 : s.nodes = [] := Classical.byContradiction hne
    split
    · rename_i e _
      exact ⟨⟨_, by simp [State.addJob], .error e⟩, hadd _ _ rfl⟩
    · rename_i cmd _
      obtain ⟨c, j, hf⟩ := startAsk_frame { s with nmSeq := s.nmSeq + 1 } .setup cmd 0x5202 3
      have hj : Setting P s (startAsk { s with nmSeq := s.nmSeq + 1 } .setup cmd 0x5202 3).1 (startAsk { s with nmSeq := s.nmSeq + 1 } .setup cmd 0x5202 3).2 := by
        simp only [startAsk, afterAskSend]
        split
        · rename_i e _; exact .error e
        · refine .ask _ _ h0 h0 ?_
          simp only
          rw [(Conn.send_frame _ _ _ _ _).2]
          exact Waiter.Prov.call hi .adapter 0x5202 3
      simp only [hf] at hj ⊢
      exact ⟨⟨j, by simp [State.addJob], hj.congr rfl (fun _ _ h => h)⟩, hadd _ j rfl⟩

end Model.Gateway
