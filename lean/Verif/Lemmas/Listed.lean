import Verif.Lemmas.Asks
/-! Helper lemmas: where the nodes of the gateway's table and of returned node lists come from. -/
namespace Model.Gateway
open Spec (Bytes)

/-- What holds of the node ids a coroutine keeps or has returned; `d` is the controller's id. -/
def JobOk (P : Msg → Prop) (E : Option Int → Nat → Prop) (w : Waiter.State) (d : Option Int) : Job → Prop
  | .ask .list t _ => Waiter.Prov P 0x5202 t w
  | .ask .setup t _ => Waiter.Prov P 0x5202 t w
  | .report n todo _ => E d n ∧ ∀ m ∈ todo, E d m
  | .setup n todo _ => E d n ∧ ∀ m ∈ todo, E d m
  | .done (.ok (.nodes l)) => ∀ n ∈ l, E d n
  | _ => True

/-- `P` holds of the messages received, `E` (which may depend on the controller's id) of the nodes of the lists among them. -/
structure Lists (P : Msg → Prop) (E : Option Int → Nat → Prop) : Prop where
  keep : ∀ m d n, P m → m.hid = 0x5202 → E d n → E (m.num? "nodeListControllerId") n
  nodes : ∀ m l n, P m → m.hid = 0x5202 → reportNodes m = some l → n ∈ l → E (m.num? "nodeListControllerId") n

/-- The node ids in the table and in the coroutines. -/
structure Listed (P : Msg → Prop) (E : Option Int → Nat → Prop) (s : State) : Prop where
  keys : ∀ n ∈ s.nodes.keys, E s.nodeId n
  jobs : ∀ (i : Nat) j, s.jobs[i]? = some j → JobOk P E s.conn.w s.nodeId j

variable {P : Msg → Prop} {E : Option Int → Nat → Prop}

theorem JobOk.mono {w w' : Waiter.State} {d d' : Option Int} {j : Job} (h : JobOk P E w d j) (hw : ∀ t, Waiter.Prov P 0x5202 t w → Waiter.Prov P 0x5202 t w')
    (hd : ∀ n, E d n → E d' n) : JobOk P E w' d' j := by
  unfold JobOk at h ⊢
  split
  · exact hw _ h
  · exact hw _ h
  · exact ⟨hd _ h.1, fun m hm => hd _ (h.2 m hm)⟩
  · exact ⟨hd _ h.1, fun m hm => hd _ (h.2 m hm)⟩
  · exact fun n hn => hd _ (h n hn)
  · trivial

theorem startAsk_ok (s : State) {tag : Nat → Nat} (hi : Waiter.Inv tag s.conn.w) (a : Ask) (cmd : Msg) (hid timeout : Nat) (h : a = .list ∨ a = .setup → hid = 0x5202) (d : Option Int) :
    JobOk P E (startAsk s a cmd hid timeout).1.conn.w d (startAsk s a cmd hid timeout).2 := by
  unfold startAsk
  have hw := (Conn.send_frame { s.conn with w := Waiter.step s.conn.w (.call .adapter hid timeout) } cmd 0 0 3).2
  generalize Conn.send { s.conn with w := Waiter.step s.conn.w (.call .adapter hid timeout) } cmd 0 0 3 = c at hw
  unfold afterAskSend
  split
  · trivial
  · simp only
    rw [hw]
    cases a with
    | nm c => trivial
    | mode m => trivial
    | list => rw [h (.inl rfl)]; exact Waiter.Prov.call hi .adapter 0x5202 timeout
    | setup => rw [h (.inr rfl)]; exact Waiter.Prov.call hi .adapter 0x5202 timeout

attribute [local irreducible] startAsk

theorem startNm_ok (s : State) {tag : Nat → Nat} (hi : Waiter.Inv tag s.conn.w) (c : Nm) (hk : ∀ n ∈ s.nodes.keys, E s.nodeId n) :
    JobOk P E (startNm s c).1.conn.w s.nodeId (startNm s c).2 := by
  unfold startNm
  dsimp only
  split
  · exact hk
  · split
    · trivial
    · split
      · unfold startSend
        generalize Conn.send _ _ 0 0 3 = k
        unfold afterSend
        split <;> trivial
      · rename_i hid timeout hw
        refine startAsk_ok _ (tag := tag) (by exact hi) _ _ _ _ ?_ _
        split
        · rename_i he; subst he; intro _; cases hw; rfl
        · intro h; rcases h with h | h <;> cases h

theorem reportLoop_ok (d : Option Int) (w : Waiter.State) (todo : List Nat) : ∀ s, (∀ n ∈ todo, E d n) → JobOk P E w d (reportLoop s todo).2 := by
  induction todo with
  | nil => intro s _; trivial
  | cons n todo ih =>
    intro s h
    simp only [reportLoop]
    split
    · exact ih s fun m hm => h m (.tail _ hm)
    · split
      · trivial
      · exact ⟨h n (.head _), fun m hm => h m (.tail _ hm)⟩

theorem setupLoop_ok (d : Option Int) (w : Waiter.State) (todo : List Nat) : ∀ s, (∀ n ∈ todo, E d n) → JobOk P E w d (setupLoop s todo).2 := by
  induction todo with
  | nil => intro s _; trivial
  | cons n todo ih =>
    intro s h
    simp only [setupLoop]
    split
    · trivial
    · exact ih s fun m hm => h m (.tail _ hm)
    · split
      · trivial
      · exact ⟨h n (.head _), fun m hm => h m (.tail _ hm)⟩

theorem iter_mem {l order : List Nat} {n : Nat} (h : n ∈ iter l order) : n ∈ l := by
  unfold iter at h
  split at h
  · rename_i hp; exact (List.isPerm_iff.mp hp).subset h
  · exact h

theorem keys_nones (l : List Nat) : Dict.keys (l.map (fun n => (n, (none : Option Bytes)))) = l := by
  induction l with
  | nil => rfl
  | cons n l ih => simp only [List.map_cons, Dict.keys] at ih ⊢; rw [ih]

/-- Answered by the message `m`, or not. -/
theorem afterAsk_ok (hl : Lists P E) (s : State) (a : Ask) (r : Py Msg) (order : List Nat) (hk : ∀ n ∈ s.nodes.keys, E s.nodeId n)
    (hm : a = .list ∨ a = .setup → ∀ m, r = .ok m → P m ∧ m.hid = 0x5202) (w : Waiter.State) :
    (∀ n, E s.nodeId n → E (afterAsk s a r order).1.nodeId n) ∧ (∀ n ∈ (afterAsk s a r order).1.nodes.keys, E (afterAsk s a r order).1.nodeId n) ∧
      JobOk P E w (afterAsk s a r order).1.nodeId (afterAsk s a r order).2 := by
  unfold afterAsk
  split
  · rename_i c m
    refine ⟨fun _ h => h, hk, ?_⟩
    unfold answer
    split
    · trivial
    · split <;> trivial
    · trivial
    · trivial
  · rename_i c
    refine ⟨fun _ h => h, hk, ?_⟩
    unfold noAnswer
    split <;> first | trivial | (intro n hn; cases hn)
  · rename_i m
    obtain ⟨hp, hh⟩ := hm (.inl rfl) m rfl
    simp only [storeList]
    cases hr : reportNodes m with
    | none => exact ⟨fun n h => hl.keep m _ n hp hh h, fun n h => hl.keep m _ n hp hh (hk n h), trivial⟩
    | some l =>
      refine ⟨fun n h => hl.keep m _ n hp hh h, fun n h => ?_, fun n h => hl.nodes m l n hp hh hr h⟩
      rw [keys_nones] at h
      exact hl.nodes m l n hp hh hr h
  · exact ⟨fun _ h => h, hk, fun n hn => by cases hn⟩
  · rename_i m
    obtain ⟨hp, hh⟩ := hm (.inr rfl) m rfl
    simp only [storeList]
    cases hr : reportNodes m with
    | none => exact ⟨fun n h => hl.keep m _ n hp hh h, fun n h => hl.keep m _ n hp hh (hk n h), trivial⟩
    | some l =>
      dsimp only
      have hE : ∀ n ∈ iter l order, E (m.num? "nodeListControllerId") n := fun n h => hl.nodes m l n hp hh hr (iter_mem h)
      have hj := setupLoop_ok (P := P) (E := E) (m.num? "nodeListControllerId") w (iter l order) { s with nodeId := m.num? "nodeListControllerId", nodes := l.map (fun n => (n, none)) } hE
      obtain ⟨c, j, hf⟩ := setupLoop_frame (iter l order) { s with nodeId := m.num? "nodeListControllerId", nodes := l.map (fun n => (n, none)) }
      rw [hf] at hj ⊢
      refine ⟨fun n h => hl.keep m _ n hp hh h, fun n h => ?_, hj⟩
      dsimp only at h
      rw [keys_nones] at h
      exact hl.nodes m l n hp hh hr h
  · exact ⟨fun _ h => h, hk, trivial⟩
  · split
    · exact ⟨fun _ h => h, hk, trivial⟩
    · split
      · exact ⟨fun _ h => h, hk, trivial⟩
      · unfold startSend
        generalize Conn.send s.conn _ 0 0 3 = c
        unfold afterSend
        split <;> exact ⟨fun _ h => h, hk, trivial⟩
  · exact ⟨fun _ h => h, hk, trivial⟩
  · exact ⟨fun _ h => h, hk, trivial⟩

theorem keys_set_mem {d : Dict Nat (Option Bytes)} {k : Nat} {v : Option Bytes} {n : Nat} (h : n ∈ (d.set k v).keys) : n = k ∨ n ∈ d.keys := by
  induction d with
  | nil => simp [Dict.set, Dict.keys] at h; exact .inl h
  | cons p d ih =>
    simp only [Dict.set] at h
    split at h
    · rename_i hp
      simp only [Dict.keys, List.map_cons, List.mem_cons] at h ⊢
      rcases h with h | h
      · exact .inl (h.trans hp)
      · exact .inr (.inr h)
    · simp only [Dict.keys, List.map_cons, List.mem_cons] at h ih ⊢
      rcases h with h | h
      · exact .inr (.inl h)
      · rcases ih h with h | h
        · exact .inl h
        · exact .inr (.inr h)

/-- The nodes of the node list report in a datagram on the unsolicited connection. -/
def UnsolicitedNodes (pkt : Bytes) (l : List Nat) : Prop := ∃ p m, decode pkt = .ok p ∧ p.command = some m ∧ m.hid = 0x5202 ∧ reportNodes m = some l

theorem Listed.step {s : State} (hl : Lists P E) (h : Listed P E s) {tag : Nat → Nat} (hi : Waiter.Inv tag s.conn.w) (op : Op)
    (hop : ∀ b m, op = .conn (.packet b) → Delivers b m → P m)
    (hun : ∀ pkt sender order l n, op = .unsolicited pkt sender order → UnsolicitedNodes pkt l → n ∈ l → E s.nodeId n) :
    Listed P E (Gateway.step s op) ∧ ∀ n, E s.nodeId n → E (Gateway.step s op).nodeId n := by
  have hprov : ∀ t, Waiter.Prov P 0x5202 t s.conn.w → Waiter.Prov P 0x5202 t (Gateway.step s op).conn.w := by
    intro t ht
    obtain ⟨ws, e, hq⟩ := step_w s op
    rw [e]
    exact ht.run ws hi (fun m hm => by obtain ⟨b, rfl, hd⟩ := hq m hm; exact hop b m rfl hd)
  have build : ∀ s' : State, (∀ t, Waiter.Prov P 0x5202 t s.conn.w → Waiter.Prov P 0x5202 t s'.conn.w) → (∀ n, E s.nodeId n → E s'.nodeId n) → (∀ n ∈ s'.nodes.keys, E s'.nodeId n) →
      (∀ (i : Nat) j, s'.jobs[i]? = some j → s.jobs[i]? = some j ∨ JobOk P E s'.conn.w s'.nodeId j) → Listed P E s' ∧ ∀ n, E s.nodeId n → E s'.nodeId n := by
    intro s' h1 h2 h3 h4
    refine ⟨⟨h3, fun i j hj => ?_⟩, h2⟩
    rcases h4 i j hj with h5 | h5
    · exact (h.jobs i j h5).mono h1 h2
    · exact h5
  have hadd : ∀ (x : Job) (j : Nat) y, (s.jobs ++ [x])[j]? = some y → s.jobs[j]? = some y ∨ y = x := by
    intro x j y hx
    by_cases hj : j < s.jobs.length
    · rw [List.getElem?_append_left hj] at hx; exact .inl hx
    · rw [List.getElem?_append_right (by omega)] at hx
      have := List.mem_of_getElem? hx
      simp at this
      exact .inr this
  have hset : ∀ (i : Nat) (x : Job) (j : Nat) y, (s.jobs.set i x)[j]? = some y → s.jobs[j]? = some y ∨ y = x := by
    intro i x j y hx
    rw [List.getElem?_set] at hx
    split at hx
    · split at hx
      · exact .inr (Option.some.inj hx).symm
      · cases hx
    · exact .inl hx
  cases op with
  | nm c =>
    have hj := startNm_ok (P := P) (E := E) s hi c h.keys
    simp only [Gateway.step, State.addJob] at hprov ⊢
    obtain ⟨k, x, hf⟩ := startNm_frame s c
    rw [hf] at hj hprov ⊢
    exact build _ hprov (fun _ h => h) h.keys fun i j hij => by
      rcases hadd _ _ _ hij with e | e
      · exact .inl e
      · subst e; exact .inr hj
  | setMode mode =>
    have hj := startAsk_ok (P := P) (E := E) s hi (.mode mode) (.known Reg.ZipGateway.GatewayModeGet.hid []) 0x5F03 3 (by rintro (h | h) <;> cases h) s.nodeId
    simp only [Gateway.step, State.addJob] at hprov ⊢
    obtain ⟨k, x, hf⟩ := startAsk_frame s (.mode mode) (.known Reg.ZipGateway.GatewayModeGet.hid []) 0x5F03 3
    rw [hf] at hj hprov ⊢
    exact build _ hprov (fun _ h => h) h.keys fun i j hij => by
      rcases hadd _ _ _ hij with e | e
      · exact .inl e
      · subst e; exact .inr hj
  | setup order =>
    simp only [Gateway.step] at hprov ⊢
    by_cases hn : s.nodes ≠ []
    · rw [if_pos hn] at hprov ⊢
      have hj := fun w => setupLoop_ok (P := P) (E := E) s.nodeId w (iter s.nodes.keys order) s (fun n hn => h.keys n (iter_mem hn))
      obtain ⟨k, x, hf⟩ := setupLoop_frame (iter s.nodes.keys order) s
      simp only [State.addJob] at hprov ⊢
      rw [hf] at hj hprov ⊢
      exact build _ hprov (fun _ h => h) h.keys fun i j hij => by
        rcases hadd _ _ _ hij with e | e
        · exact .inl e
        · subst e; exact .inr (hj _)
    · rw [if_neg hn] at hprov ⊢
      split
      · exact build _ (fun _ h => h) (fun _ h => h) h.keys fun i j hij => by
          rcases hadd _ _ _ hij with e | e
          · exact .inl e
          · subst e; exact .inr trivial
      · rename_i cmd he
        rw [he] at hprov
        have hj := startAsk_ok (P := P) (E := E) { s with nmSeq := s.nmSeq + 1 } (tag := tag) (by exact hi) .setup cmd 0x5202 3 (fun _ => rfl) s.nodeId
        obtain ⟨k, x, hf⟩ := startAsk_frame { s with nmSeq := s.nmSeq + 1 } .setup cmd 0x5202 3
        simp only [State.addJob] at hprov ⊢
        rw [hf] at hj hprov ⊢
        exact build _ hprov (fun _ h => h) h.keys fun i j hij => by
          rcases hadd _ _ _ hij with e | e
          · exact .inl e
          · subst e; exact .inr hj
  | connectToNode n =>
    have hj : ∀ w, JobOk P E w s.nodeId (Gateway.connectToNode s n).2 := by
      intro w
      simp only [Gateway.connectToNode]
      split
      · trivial
      · split <;> trivial
    simp only [Gateway.step, State.addJob] at hprov ⊢
    obtain ⟨k, x, hf⟩ := connectToNode_frame s n
    rw [hf] at hj hprov ⊢
    exact build _ hprov (fun _ h => h) h.keys fun i j hij => by
      rcases hadd _ _ _ hij with e | e
      · exact .inl e
      · subst e; exact .inr (hj _)
  | opened i ok =>
    simp only [Gateway.step]
    split
    · split
      · exact build _ (fun _ h => h) (fun _ h => h) h.keys fun i j hij => by
          rcases hset _ _ _ _ hij with e | e
          · exact .inl e
          · subst e; exact .inr trivial
      · exact build _ (fun _ h => h) (fun _ h => h) h.keys fun i j hij => by
          rcases hset _ _ _ _ hij with e | e
          · exact .inl e
          · subst e; exact .inr trivial
    · exact ⟨h, fun _ h => h⟩
  | unsolicited pkt sender order =>
    simp only [Gateway.step, onUnsolicitedMessage] at hprov ⊢
    split
    · exact ⟨h, fun _ h => h⟩
    · rename_i p hd
      rw [hd] at hprov
      dsimp only at hprov
      split
      · rename_i m hm
        rw [hm] at hprov
        dsimp only at hprov ⊢
        obtain ⟨hc, hh⟩ : p.command = some m ∧ m.hid = 0x5202 := by
          rw [Option.filter_eq_some_iff] at hm
          exact ⟨hm.1, by simpa using hm.2⟩
        have key : (∀ n ∈ (handleNodeListReport s m order).1.nodes.keys, E s.nodeId n) ∧ ∀ w, JobOk P E w s.nodeId (handleNodeListReport s m order).2 := by
          simp only [handleNodeListReport]
          cases hr : reportNodes m with
          | none => exact ⟨h.keys, fun _ => trivial⟩
          | some l =>
            dsimp only
            have hE : ∀ n ∈ iter l order, E s.nodeId n := fun n hn => hun pkt sender order l n rfl ⟨p, m, hd, hc, hh, hr⟩ (iter_mem hn)
            have hj := fun w => reportLoop_ok (P := P) (E := E) s.nodeId w (iter l order) { s with nodes := s.nodes.filter (fun p => p.1 ∈ l) } hE
            obtain ⟨c, k, x, hf⟩ := reportLoop_frame (iter l order) { s with nodes := s.nodes.filter (fun p => p.1 ∈ l) }
            rw [hf] at hj ⊢
            refine ⟨fun n hn => ?_, hj⟩
            simp only [Dict.keys, List.mem_map] at hn
            obtain ⟨q, hq, rfl⟩ := hn
            exact h.keys _ (List.mem_map_of_mem (List.mem_filter.mp hq).1)
        obtain ⟨c, k, n, x, hf⟩ := handle_frame s m order
        rw [hf] at hprov key ⊢
        exact build _ hprov (fun _ h => h) key.1 fun i j hij => by
          rcases hadd _ _ _ hij with e | e
          · exact .inl e
          · subst e; exact .inr (key.2 _)
      · split
        · exact ⟨h, fun _ h => h⟩
        · split
          · split
            · split
              · exact ⟨h, fun _ h => h⟩
              · exact ⟨⟨h.keys, h.jobs⟩, fun _ h => h⟩
            · exact ⟨h, fun _ h => h⟩
          · exact ⟨⟨h.keys, h.jobs⟩, fun _ h => h⟩
  | job i order =>
    simp only [Gateway.step, stepJob] at hprov ⊢
    split
    · exact ⟨h, fun _ h => h⟩
    · split
      · exact ⟨h, fun _ h => h⟩
      · exact build _ (fun _ h => h) (fun _ h => h) h.keys fun i j hij => by
          rcases hset _ _ _ _ hij with e | e
          · exact .inl e
          · subst e; exact .inr trivial
      · exact build _ (fun _ h => h) (fun _ h => h) h.keys fun i j hij => by
          rcases hset _ _ _ _ hij with e | e
          · exact .inl e
          · subst e; exact .inr trivial
    · rename_i a t k hij
      rw [hij] at hprov
      dsimp only at hprov
      split
      · rename_i r hd
        rw [hd] at hprov
        dsimp only at hprov
        have hm : a = .list ∨ a = .setup → ∀ m, r = .ok m → P m ∧ m.hid = 0x5202 := by
          rintro ha m rfl
          have hjob := h.jobs i _ hij
          have hp : Waiter.Prov P 0x5202 t s.conn.w := by rcases ha with rfl | rfl <;> exact hjob
          obtain ⟨u, hu, hh, -, h2⟩ := hp
          obtain ⟨u', hu', hr⟩ := taskDone_ok hd
          rw [hu] at hu'; cases hu'
          exact ⟨h2 m hr, by rw [← hh]; exact hi.done t _ m hu hr⟩
        have key := fun w => afterAsk_ok (P := P) (E := E) hl s a r order h.keys hm w
        obtain ⟨c, e, n, x, hf⟩ := afterAsk_frame s a r order
        rw [hf] at key hprov ⊢
        exact build _ hprov (key s.conn.w).1 (key s.conn.w).2.1 fun i j hij => by
          rcases hset _ _ _ _ hij with e | e
          · exact .inl e
          · subst e; exact .inr (key _).2.2
      · rename_i hd
        rw [hd] at hprov
        dsimp only at hprov
        split
        · exact ⟨h, fun _ h => h⟩
        · rename_i b hb
          rw [hb] at hprov
          exact build _ hprov (fun _ h => h) h.keys fun i j hij => .inl hij
        · rename_i e hb
          rw [hb] at hprov
          exact build _ hprov (fun _ h => h) h.keys fun i j hij => .inl hij
    · rename_i n todo t hij
      rw [hij] at hprov
      dsimp only at hprov
      split
      · exact ⟨h, fun _ h => h⟩
      · exact build _ (fun _ h => h) (fun _ h => h) h.keys fun i j hij => by
          rcases hset _ _ _ _ hij with e | e
          · exact .inl e
          · subst e; exact .inr trivial
      · rename_i m hd
        rw [hd] at hprov
        dsimp only at hprov
        obtain ⟨hn, ht⟩ : E s.nodeId n ∧ ∀ m ∈ todo, E s.nodeId m := h.jobs i _ hij
        have hj := fun w => reportLoop_ok (P := P) (E := E) s.nodeId w todo { s with nodes := s.nodes.set n (advertised m) } ht
        obtain ⟨c, k, x, hf⟩ := reportLoop_frame todo { s with nodes := s.nodes.set n (advertised m) }
        rw [hf] at hj hprov ⊢
        refine build _ hprov (fun _ h => h) (fun n' hn' => ?_) fun i j hij => by
          rcases hset _ _ _ _ hij with e | e
          · exact .inl e
          · subst e; exact .inr (hj _)
        rcases keys_set_mem hn' with rfl | hn'
        · exact hn
        · exact h.keys _ hn'
    · rename_i n todo t hij
      rw [hij] at hprov
      dsimp only at hprov
      split
      · exact ⟨h, fun _ h => h⟩
      · exact build _ (fun _ h => h) (fun _ h => h) h.keys fun i j hij => by
          rcases hset _ _ _ _ hij with e | e
          · exact .inl e
          · subst e; exact .inr trivial
      · rename_i m hd
        rw [hd] at hprov
        dsimp only at hprov
        obtain ⟨hn, ht⟩ : E s.nodeId n ∧ ∀ m ∈ todo, E s.nodeId m := h.jobs i _ hij
        have hj := fun w => setupLoop_ok (P := P) (E := E) s.nodeId w todo { s with nodes := s.nodes.set n (advertised m) } ht
        obtain ⟨c, x, hf⟩ := setupLoop_frame todo { s with nodes := s.nodes.set n (advertised m) }
        rw [hf] at hj hprov ⊢
        refine build _ hprov (fun _ h => h) (fun n' hn' => ?_) fun i j hij => by
          rcases hset _ _ _ _ hij with e | e
          · exact .inl e
          · subst e; exact .inr (hj _)
        rcases keys_set_mem hn' with rfl | hn'
        · exact hn
        · exact h.keys _ hn'
    · split
      · exact ⟨h, fun _ h => h⟩
      · exact build _ (fun _ h => h) (fun _ h => h) h.keys fun i j hij => by
          rcases hset _ _ _ _ hij with e | e
          · exact .inl e
          · subst e; exact .inr trivial
      · split <;> exact build _ (fun _ h => h) (fun _ h => h) h.keys fun i j hij => by
          rcases hset _ _ _ _ hij with e | e
          · exact .inl e
          · subst e; exact .inr trivial
    · exact ⟨h, fun _ h => h⟩
    · exact ⟨h, fun _ h => h⟩
  | conn o =>
    simp only [Gateway.step] at hprov ⊢
    split
    · rename_i ho
      rw [if_pos ho] at hprov
      exact build _ hprov (fun _ h => h) h.keys fun i j hij => .inl hij
    · exact ⟨h, fun _ h => h⟩
  | link k o =>
    simp only [Gateway.step] at hprov ⊢
    split
    · exact ⟨h, fun _ h => h⟩
    · rename_i l _
      obtain ⟨t, hf⟩ := onMessageReceived_frame k ((Conn.step l.conn o).heard.drop l.conn.heard.length)
        { s with links := s.links.set k ({ l with conn := Conn.step l.conn o } : Link) }
      rw [hf]
      exact ⟨⟨h.keys, h.jobs⟩, fun _ h => h⟩

end Model.Gateway
