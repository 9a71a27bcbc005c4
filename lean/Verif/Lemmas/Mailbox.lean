import Verif.Spec.Mailbox
import Verif.Lemmas.Dict
import Verif.Lemmas.Conn
namespace Lemmas.Mailbox
open Spec (Bytes)
open Model Model.Classes Model.Mailbox Spec.Mailbox

theorem available_snoc (h : Int) (log : List Ev) (e : Ev) : available h (log ++ [e]) = availStep h (available h log) e := by
  simp [available]

theorem items_set (s : State) (k h : Option Int) (v : List Item) (l c b g) :
    State.items ⟨s.queue.set k v, l, c, b, g⟩ h = if k = h then v else s.items h := by
  simp only [State.items, Dict.get?_set]; split <;> simp

theorem items_mk (s : State) (h : Option Int) (l c b g) : State.items ⟨s.queue, l, c, b, g⟩ h = s.items h := rfl

/-- What an operation can do. -/
inductive Step (s : State) (o : Op) (s' : State) : Prop
  | quiet (node : Nat) (m : Msg) (r : Py (Option Bool)) (hq : ∀ h, s'.items h = s.items h) (hb : s'.beats = s.beats)
      (hc : s'.calls = s.calls ++ [⟨node, m, .done⟩]) (hl : s'.log = s.log ++ [.ended s.calls.length m r])
      (hp : ∀ h x, IsPush m h x → r = .ok (some false) ∧ ∃ it ∈ s.items (some h), checksum it.data = checksum x)
  | popEmpty (node : Nat) (m : Msg) (h : Int) (he : s.items (some h) = []) (hq : ∀ h, s'.items h = s.items h) (hb : s'.beats = s.beats)
      (hc : s'.calls = s.calls ++ [⟨node, m, .popEmpty⟩])
      (hl : s'.log = s.log ++ [.sent (.call s.calls.length) ⟨node, true, .pop, h, none⟩]) (hp : ∀ h x, ¬ IsPush m h x)
  | pop (node : Nat) (m : Msg) (h : Int) (rest : List Item) (item : Item) (he : s.items (some h) = rest ++ [item])
      (hq : ∀ k, s'.items k = if some h = k then rest else s.items k) (hb : s'.beats = s.beats)
      (hc : s'.calls = s.calls ++ [⟨node, m, .pop item⟩])
      (hl : s'.log = s.log ++ [.sent (.call s.calls.length) ⟨node, rest.isEmpty, .pop, h, some item.data⟩]) (hp : ∀ h x, ¬ IsPush m h x)
  | push (node : Nat) (m : Msg) (h : Int) (x : Bytes) (ho : o = .received node m) (hp : IsPush m h x) (hn : ∀ it ∈ s.items (some h), checksum it.data ≠ checksum x)
      (hq : ∀ h, s'.items h = s.items h) (hb : s'.beats = s.beats)
      (hc : s'.calls = s.calls ++ [⟨node, m, .push ⟨s.calls.length, node, h, x⟩⟩])
      (hl : s'.log = s.log ++ [.sent (.call s.calls.length) ⟨node, false, .waiting, h, some x⟩])
  | endOther (i : Nat) (c : Call) (r : Py (Option Bool)) (hi : s.calls[i]? = some c) (hd : c.pc ≠ .done) (hq : ∀ h, s'.items h = s.items h)
      (hb : s'.beats = s.beats) (hc : s'.calls = s.calls.set i { c with pc := .done }) (hl : s'.log = s.log ++ [.ended i c.msg r])
      (hp : ∀ it, c.pc = .push it → r ≠ .ok (some true))
  | endPop (i : Nat) (c : Call) (item : Item) (hi : s.calls[i]? = some c) (hd : c.pc = .pop item) (hq : ∀ h, s'.items h = s.items h)
      (hb : s'.beats = Model.Mailbox.stop s.beats item.id) (hc : s'.calls = s.calls.set i { c with pc := .done })
      (hl : s'.log = s.log ++ [.ended i c.msg (.ok (some true))])
  | endPush (i : Nat) (c : Call) (item : Item) (hi : s.calls[i]? = some c) (hd : c.pc = .push item)
      (hq : ∀ k, s'.items k = if some item.handle = k then s.items (some item.handle) ++ [item] else s.items k)
      (hb : s'.beats = s.beats ++ [⟨item, 0, .sleeping⟩]) (hc : s'.calls = s.calls.set i { c with pc := .done })
      (hl : s'.log = s.log ++ [.ended i c.msg (.ok (some true))])
  | tick (j : Nat) (item : Item) (n : Nat) (hj : s.beats[j]? = some ⟨item, n, .sleeping⟩) (hq : ∀ h, s'.items h = s.items h)
      (hb : s'.beats = s.beats.set j ⟨item, n + 1, .sending⟩) (hc : s'.calls = s.calls)
      (hl : s'.log = s.log ++ [.sent (.beat j) ⟨item.node, false, if (n + 1) % 10 = 0 then .ping else .waiting, item.handle, some item.data⟩])
  | beatEnds (j : Nat) (item : Item) (n : Nat) (p : BeatPc) (r : Py Bool) (ho : o = .beatEnds j r) (hr : ∀ b, r = .ok b → p = .sleeping) (hj : s.beats[j]? = some ⟨item, n, .sending⟩) (hq : ∀ h, s'.items h = s.items h)
      (hb : s'.beats = s.beats.set j ⟨item, n, p⟩) (hc : s'.calls = s.calls) (hl : s'.log = s.log)

theorem not_push_of_wakeup {m : Msg} (h : m.hid = Reg.Mailbox.WakeupNotification.hid) (k : Int) (x : Bytes) : ¬ IsPush m k x := by
  rintro ⟨h1, _⟩; rw [h] at h1; exact absurd h1 (by decide)

theorem popQueue_step {s : State} (hn : s.items none = []) (node : Nat) (m : Msg) (handle : Option Int) (l : Option Int) (hp : ∀ h x, ¬ IsPush m h x) :
    Step s (.received node m) (popQueue { s with lastQueueId := l } node m handle) := by
  unfold popQueue
  have e0 : State.items { s with lastQueueId := l } handle = s.items handle := rfl
  rw [e0]
  cases handle with
  | none =>
    rw [hn]
    exact .quiet node m _ (fun _ => rfl) rfl rfl rfl (fun h x hx => absurd hx (hp h x))
  | some h =>
    cases hg : (s.items (some h)).getLast? with
    | none => exact .popEmpty node m h (List.getLast?_eq_none_iff.1 hg) (fun _ => rfl) rfl rfl rfl hp
    | some item =>
      have he : s.items (some h) = (s.items (some h)).dropLast ++ [item] := by
        obtain ⟨l', hl'⟩ := List.getLast?_eq_some_iff.1 hg
        rw [hl']; simp
      exact .pop node m h _ item he (fun k => by simp only [sendNow, State.items, Dict.get?_set]; split <;> simp) rfl rfl rfl hp

theorem step_Step {s : State} (hn : s.items none = []) (o : Op) : step s o = s ∨ Step s o (step s o) := by
  cases o with
  | received node m =>
    right
    dsimp only [step]
    unfold received
    split
    · rename_i hw
      exact popQueue_step hn node m _ _ (not_push_of_wakeup hw)
    · split
      · rename_i ha
        refine popQueue_step hn node m _ s.lastQueueId ?_
        rintro h x ⟨_, h2, _⟩
        rw [ha.2] at h2; exact absurd h2 (by decide)
      · split
        · rename_i hpu
          unfold pushQueue
          dsimp only
          split
          · rename_i hany
            refine .quiet node m _ (fun k => by simp only [finish, State.items, Dict.get?_set]; split <;> simp_all) rfl rfl rfl ?_
            intro h x hx
            refine ⟨rfl, ?_⟩
            rw [hx.2.2.1] at hany
            obtain ⟨it, hit, hc⟩ := List.any_eq_true.1 hany
            exact ⟨it, hit, by rw [← hx.2.2.2]; simpa using hc⟩
          · rename_i hany
            cases hh : numAttr m "queueHandle" with
            | none =>
              refine .quiet node m _ (fun k => by simp only [finish, State.items, Dict.get?_set]; split <;> simp_all) rfl rfl rfl ?_
              intro h x hx
              rw [hx.2.2.1] at hh; cases hh
            | some h =>
              refine .push node m h (entryOf m) rfl ⟨hpu.1, hpu.2, hh, rfl⟩ ?_ (fun k => by simp only [sendNow, State.items, Dict.get?_set]; split <;> simp_all) rfl rfl rfl
              intro it hit hc
              apply hany
              rw [hh]
              exact List.any_eq_true.2 ⟨it, hit, by simpa using hc⟩
        · rename_i hnp
          refine .quiet node m _ (fun _ => rfl) rfl rfl rfl ?_
          intro h x hx
          exact absurd ⟨hx.1, hx.2.1⟩ hnp
  | sendEnds i r =>
    dsimp only [step]
    unfold sendEnds
    cases hi : s.calls[i]? with
    | none => exact .inl rfl
    | some c =>
      dsimp only
      cases hp : c.pc with
      | done => exact .inl rfl
      | popEmpty => exact .inr (.endOther i c _ hi (by rw [hp]; simp) (fun _ => rfl) rfl rfl rfl (by rw [hp]; simp))
      | pop item =>
        cases r with
        | error e => exact .inr (.endOther i c _ hi (by rw [hp]; simp) (fun _ => rfl) rfl rfl rfl (by rw [hp]; simp))
        | ok b =>
          cases b with
          | false => exact .inr (.endOther i c _ hi (by rw [hp]; simp) (fun _ => rfl) rfl rfl rfl (by rw [hp]; simp))
          | true => exact .inr (.endPop i c item hi hp (fun _ => rfl) rfl rfl rfl)
      | push item =>
        cases r with
        | error e => exact .inr (.endOther i c _ hi (by rw [hp]; simp) (fun _ => rfl) rfl rfl rfl (by simp))
        | ok b =>
          cases b with
          | false => exact .inr (.endOther i c _ hi (by rw [hp]; simp) (fun _ => rfl) rfl rfl rfl (by simp))
          | true =>
            exact .inr (.endPush i c item hi hp (fun k => by simp only [endCall, State.items, if_true, Dict.get?_set]; split <;> simp) rfl rfl rfl)
  | tick j =>
    dsimp only [step]
    split
    · rename_i item n hj
      exact .inr (.tick j item n hj (fun _ => rfl) rfl rfl rfl)
    · exact .inl rfl
  | beatEnds j r =>
    dsimp only [step]
    split
    · rename_i item n hj
      exact .inr (.beatEnds j item n _ r rfl (by rintro b rfl; rfl) hj (fun _ => rfl) rfl rfl rfl)
    · exact .inl rfl

/-! ## Invariants -/

/-- A call agrees with the message it handles. -/
def CallOk (i : Nat) (c : Call) : Prop :=
  match c.pc with
  | .push item => IsPush c.msg item.handle item.data ∧ item.id = i ∧ item.node = c.node
  | .pop _ => ∀ h x, ¬ IsPush c.msg h x
  | .popEmpty => ∀ h x, ¬ IsPush c.msg h x
  | .done => True

structure Inv (s : State) : Prop where
  none : s.items none = []
  avail : ∀ h, (s.items (some h)).map (·.data) = available h s.log
  calls : ∀ i c, s.calls[i]? = some c → CallOk i c

theorem calls_snoc {P : Nat → Call → Prop} {l : List Call} {c : Call} (h : ∀ i d, l[i]? = some d → P i d) (hc : P l.length c) :
    ∀ i d, (l ++ [c])[i]? = some d → P i d := by
  intro i d hd
  rw [List.getElem?_append] at hd
  split at hd
  · exact h i d hd
  · rename_i hlt
    cases hk : i - l.length with
    | zero => rw [hk] at hd; simp at hd; subst hd; rw [show i = l.length by omega]; exact hc
    | succ k => rw [hk] at hd; simp at hd

theorem calls_set {P : Nat → Call → Prop} {l : List Call} {c : Call} {i : Nat} (h : ∀ i d, l[i]? = some d → P i d) (hc : P i c) :
    ∀ k d, (l.set i c)[k]? = some d → P k d := by
  intro k d hd
  rw [List.getElem?_set] at hd
  split at hd
  · rename_i hik
    split at hd
    · cases hd; subst hik; exact hc
    · cases hd
  · exact h k d hd

theorem inv_fresh : Inv fresh := ⟨rfl, fun _ => rfl, by intro i c h; simp [fresh] at h⟩

theorem avail_ended_not {h : Int} {st : List Bytes} {i : Nat} {m : Msg} {r : Py (Option Bool)} (hp : IsPush m h (entryOf m) → r ≠ .ok (some true)) :
    availStep h st (.ended i m r) = st := by
  unfold availStep
  have : accepted h (.ended i m r) = none := by
    unfold accepted
    split
    · rename_i heq; cases heq
      simp only [ite_eq_right_iff]
      intro hm; exact absurd rfl (hp hm)
    · rfl
  rw [this]; simp [handed]

theorem avail_sent {h : Int} {st : List Bytes} {s : Src} {o : Out} :
    availStep h st (.sent s o) = if o.operation = .pop ∧ o.handle = h ∧ o.entry.isSome then st.dropLast else st := by
  by_cases hc : o.operation = .pop ∧ o.handle = h
  · have e : handed h (.sent s o) = o.entry := by simp only [handed]; rw [if_pos hc]
    simp only [availStep, accepted, e, hc, true_and]
  · have e : handed h (.sent s o) = none := by simp only [handed]; rw [if_neg hc]
    simp only [availStep, accepted, e]
    rw [if_neg (c := o.operation = .pop ∧ _) (fun hh => hc ⟨hh.1, hh.2.1⟩)]
    rfl

theorem inv_Step {s s' : State} {o : Op} (hI : Inv s) (h : Step s o s') : Inv s' := by
  cases h with
  | quiet node m r hq hb hc hl hp =>
    refine ⟨by rw [hq]; exact hI.none, ?_, by rw [hc]; exact calls_snoc hI.calls trivial⟩
    intro h
    rw [hq, hl, available_snoc, avail_ended_not, hI.avail]
    intro hm; rw [(hp _ _ hm).1]; simp
  | popEmpty node m h0 he hq hb hc hl hp =>
    refine ⟨by rw [hq]; exact hI.none, ?_, by rw [hc]; exact calls_snoc hI.calls hp⟩
    intro h
    rw [hq, hl, available_snoc, avail_sent, if_neg (by simp), hI.avail]
  | pop node m h0 rest item he hq hb hc hl hp =>
    refine ⟨by rw [hq, if_neg (by simp)]; exact hI.none, ?_, by rw [hc]; exact calls_snoc hI.calls hp⟩
    intro h
    rw [hq, hl, available_snoc, avail_sent, ← hI.avail]
    by_cases hh : h0 = h
    · subst hh; rw [he]; simp
    · simp [hh]
  | push node m h0 x ho hp hn hq hb hc hl =>
    refine ⟨by rw [hq]; exact hI.none, ?_, by rw [hc]; exact calls_snoc hI.calls ⟨hp, rfl, rfl⟩⟩
    intro h
    rw [hq, hl, available_snoc, avail_sent, if_neg (by simp), hI.avail]
  | endOther i c r hi hd hq hb hc hl hp =>
    refine ⟨by rw [hq]; exact hI.none, ?_, by rw [hc]; exact calls_set hI.calls trivial⟩
    intro h
    rw [hq, hl, available_snoc, avail_ended_not, hI.avail]
    intro hm
    have := hI.calls i c hi
    unfold CallOk at this
    cases hpc : c.pc with
    | done => exact absurd hpc hd
    | popEmpty => rw [hpc] at this; exact absurd hm (this _ _)
    | pop it => rw [hpc] at this; exact absurd hm (this _ _)
    | push it => exact hp it hpc
  | endPop i c item hi hd hq hb hc hl =>
    refine ⟨by rw [hq]; exact hI.none, ?_, by rw [hc]; exact calls_set hI.calls trivial⟩
    intro h
    rw [hq, hl, available_snoc, avail_ended_not, hI.avail]
    intro hm
    have := hI.calls i c hi
    unfold CallOk at this
    rw [hd] at this; exact absurd hm (this _ _)
  | endPush i c item hi hd hq hb hc hl =>
    refine ⟨by rw [hq, if_neg (by simp)]; exact hI.none, ?_, by rw [hc]; exact calls_set hI.calls trivial⟩
    intro h
    have hok := hI.calls i c hi
    unfold CallOk at hok
    rw [hd] at hok
    obtain ⟨⟨a1, a2, a3, a4⟩, _, _⟩ := hok
    rw [hq, hl, available_snoc, ← hI.avail]
    by_cases hh : item.handle = h
    · subst hh
      have : accepted item.handle (.ended i c.msg (.ok (some true))) = some item.data := by
        simp only [accepted]
        rw [if_pos ⟨a1, a2, a3, rfl⟩, a4]
      simp [availStep, this]
    · rw [avail_ended_not]
      · simp [hh]
      · rintro ⟨_, _, b3, _⟩
        rw [a3] at b3; exact absurd (by simpa using b3) hh
  | tick j item n hj hq hb hc hl =>
    refine ⟨by rw [hq]; exact hI.none, ?_, by rw [hc]; exact hI.calls⟩
    intro h
    rw [hq, hl, available_snoc, avail_sent, hI.avail]
    rw [if_neg]
    dsimp only
    split <;> simp
  | beatEnds j item n p r ho hr hj hq hb hc hl =>
    exact ⟨by rw [hq]; exact hI.none, by intro h; rw [hq, hl]; exact hI.avail h, by rw [hc]; exact hI.calls⟩

theorem inv_step {s : State} (hI : Inv s) (o : Op) : Inv (step s o) := by
  rcases step_Step hI.none o with h | h
  · rw [h]; exact hI
  · exact inv_Step hI h

theorem run_snoc (s : State) (ops : List Op) (o : Op) : run s (ops ++ [o]) = step (run s ops) o := by simp [run]

theorem inv_run (ops : List Op) : Inv (run fresh ops) := by
  induction ops using Model.Conn.snoc_ind with
  | nil => exact inv_fresh
  | snoc ops o ih => rw [run_snoc]; exact inv_step ih o

/-- The log only grows, by at most one event. -/
theorem log_step {s : State} (hn : s.items none = []) (o : Op) : (step s o).log = s.log ∨ ∃ e, (step s o).log = s.log ++ [e] := by
  rcases step_Step hn o with h | h
  · rw [h]; exact .inl rfl
  · cases h <;> first | (rename_i hl _; exact .inr ⟨_, hl⟩) | (rename_i hl; first | exact .inr ⟨_, hl⟩ | exact .inl hl)

/-- Induction over the log. -/
theorem log_ind {P : List Ev → Ev → Prop} (hs : ∀ ops o e, (step (run fresh ops) o).log = (run fresh ops).log ++ [e] → P (run fresh ops).log e)
    (ops : List Op) (pre post : List Ev) (e : Ev) (h : (run fresh ops).log = pre ++ e :: post) : P pre e := by
  induction ops using Model.Conn.snoc_ind generalizing pre post with
  | nil => simp [run, fresh] at h
  | snoc ops o ih =>
    rw [run_snoc] at h
    rcases log_step (inv_run ops).none o with hl | ⟨e', hl⟩
    · rw [hl] at h; exact ih pre post h
    · rw [hl] at h
      rcases List.eq_nil_or_concat post with hp | ⟨q, z, hp⟩
      · subst hp
        obtain ⟨h1, h2⟩ := List.append_inj' h rfl
        cases h2
        subst h1
        exact hs ops o e hl
      · subst hp
        rw [show pre ++ e :: (q.concat z) = (pre ++ e :: q) ++ [z] by simp] at h
        exact ih pre q (List.append_inj' h rfl).1

/-! ## Heartbeats -/

theorem beatOuts_snoc (j : Nat) (log : List Ev) (e : Ev) : beatOuts j (log ++ [e]) = beatOuts j log ++ beatOuts j [e] := by
  simp [beatOuts, List.filterMap_append]

theorem beatOuts_call (j i : Nat) (o : Out) : beatOuts j [.sent (.call i) o] = [] := rfl
theorem beatOuts_ended (j i : Nat) (m : Msg) (r : Py (Option Bool)) : beatOuts j [.ended i m r] = [] := rfl
theorem beatOuts_beat (j k : Nat) (o : Out) : beatOuts j [.sent (.beat k) o] = if k = j then [o] else [] := by
  simp only [beatOuts, List.filterMap_cons, List.filterMap_nil]
  by_cases h : k = j <;> simp [h]

/-- The `k`-th heartbeat of an item, counted from 0. -/
def beatOut (it : Item) (k : Nat) : Out := ⟨it.node, false, if (k + 1) % 10 = 0 then .ping else .waiting, it.handle, some it.data⟩

structure BInv (s : State) : Prop where
  ids : ∀ (j k : Nat) b c, s.beats[j]? = some b → s.beats[k]? = some c → b.item.id = c.item.id → j = k
  done : ∀ (j : Nat) b, s.beats[j]? = some b → ∃ c, s.calls[b.item.id]? = some c ∧ c.pc = .done ∧ c.node = b.item.node ∧
    IsPush c.msg b.item.handle b.item.data ∧ Ev.ended b.item.id c.msg (.ok (some true)) ∈ s.log
  stored : ∀ h it, it ∈ s.items (some h) → it.handle = h ∧ ∃ (j : Nat) (b : Beat), s.beats[j]? = some b ∧ b.item = it
  nodup : ∀ h, ((s.items (some h)).map (·.id)).Nodup
  popped : ∀ (i : Nat) c it, s.calls[i]? = some c → c.pc = .pop it → (∀ h, it ∉ s.items (some h)) ∧ ∃ (j : Nat) (b : Beat), s.beats[j]? = some b ∧ b.item = it
  outs : ∀ j, beatOuts j s.log = match s.beats[j]? with
    | some b => (List.range b.count).map (beatOut b.item)
    | none => []

theorem binv_fresh : BInv fresh := by
  refine ⟨?_, ?_, ?_, ?_, ?_, ?_⟩ <;> simp [fresh, State.items, beatOuts]

theorem getElem?_snoc {α : Type} {l : List α} {a b : α} {j : Nat} (h : (l ++ [a])[j]? = some b) : l[j]? = some b ∨ (j = l.length ∧ b = a) := by
  rw [List.getElem?_append] at h
  split at h
  · exact .inl h
  · cases hk : j - l.length with
    | zero => rw [hk] at h; simp at h; exact .inr ⟨by omega, h.symm⟩
    | succ k => rw [hk] at h; simp at h

theorem getElem?_lt {α : Type} {l : List α} {b : α} {j : Nat} (h : l[j]? = some b) : j < l.length := by
  rcases Nat.lt_or_ge j l.length with h' | h'
  · exact h'
  · rw [List.getElem?_eq_none h'] at h; cases h

theorem getElem?_set' {α : Type} {l : List α} {a b : α} {i j : Nat} (h : (l.set i a)[j]? = some b) : (j = i ∧ b = a ∧ j < l.length) ∨ (j ≠ i ∧ l[j]? = some b) := by
  have hl := getElem?_lt h
  rw [List.length_set] at hl
  rw [List.getElem?_set] at h
  split at h
  · rename_i e
    rw [if_pos (by omega)] at h
    cases h
    exact .inl ⟨e.symm, rfl, hl⟩
  · rename_i e; exact .inr ⟨fun x => e x.symm, h⟩

/-- Replacing a heartbeat by one for the same item changes nothing. -/
theorem set_item {l : List Beat} {j : Nat} {old new : Beat} (ho : l[j]? = some old) (hi : new.item = old.item) {k : Nat} {b : Beat}
    (h : (l.set j new)[k]? = some b) : ∃ b', l[k]? = some b' ∧ b'.item = b.item := by
  rcases getElem?_set' h with ⟨rfl, rfl, _⟩ | ⟨_, h⟩
  · exact ⟨old, ho, hi.symm⟩
  · exact ⟨b, h, rfl⟩

theorem set_item' {l : List Beat} {j : Nat} {old new : Beat} (ho : l[j]? = some old) (hi : new.item = old.item) {k : Nat} {b : Beat}
    (h : l[k]? = some b) : ∃ b', (l.set j new)[k]? = some b' ∧ b'.item = b.item := by
  by_cases hk : j = k
  · subst hk
    rw [ho] at h; cases h
    exact ⟨new, List.getElem?_set_self (getElem?_lt ho), hi⟩
  · exact ⟨b, by rw [List.getElem?_set_ne hk]; exact h, rfl⟩

theorem stop_item {l : List Beat} {id : Nat} {k : Nat} {b : Beat} (h : (stop l id)[k]? = some b) :
    ∃ b', l[k]? = some b' ∧ b'.item = b.item ∧ b'.count = b.count ∧ (b.pc = .ended ∨ (b' = b ∧ b.item.id ≠ id)) := by
  simp only [stop, List.getElem?_map, Option.map_eq_some_iff] at h
  obtain ⟨b', hb, he⟩ := h
  split at he
  · subst he; exact ⟨b', hb, rfl, rfl, .inl rfl⟩
  · subst he; exact ⟨b', hb, rfl, rfl, .inr ⟨rfl, by assumption⟩⟩

theorem stop_item' {l : List Beat} {id : Nat} {k : Nat} {b : Beat} (h : l[k]? = some b) :
    ∃ b', (stop l id)[k]? = some b' ∧ b'.item = b.item := by
  simp only [stop, List.getElem?_map, h]
  simp only [Option.map_some, Option.some.injEq, exists_eq_left']
  split <;> rfl

/-- The parts that only depend on which items have heartbeats. -/
theorem binv_same {s s' : State} (hI : BInv s) (hq : ∀ h, s'.items h = s.items h)
    (h1 : ∀ (k : Nat) (b : Beat), s'.beats[k]? = some b → ∃ b', s.beats[k]? = some b' ∧ b'.item = b.item)
    (h2 : ∀ (k : Nat) (b : Beat), s.beats[k]? = some b → ∃ b', s'.beats[k]? = some b' ∧ b'.item = b.item)
    (hc : ∀ (i : Nat) c, s.calls[i]? = some c → c.pc = .done → s'.calls[i]? = some c)
    (hcp : ∀ (i : Nat) c it, s'.calls[i]? = some c → c.pc = .pop it → s.calls[i]? = some c)
    (hl : ∀ e ∈ s.log, e ∈ s'.log)
    (ho : ∀ j, beatOuts j s'.log = match s'.beats[j]? with
      | some b => (List.range b.count).map (beatOut b.item)
      | none => []) : BInv s' := by
  refine ⟨?_, ?_, ?_, ?_, ?_, ho⟩
  · intro j k b c hj hk he
    obtain ⟨b', hb', eb⟩ := h1 j b hj
    obtain ⟨c', hc', ec⟩ := h1 k c hk
    exact hI.ids j k b' c' hb' hc' (by rw [eb, ec]; exact he)
  · intro j b hj
    obtain ⟨b', hb', eb⟩ := h1 j b hj
    obtain ⟨c, a1, a2, a3, a4, a5⟩ := hI.done j b' hb'
    rw [eb] at a1 a3 a4 a5
    exact ⟨c, hc _ c a1 a2, a2, a3, a4, hl _ a5⟩
  · intro h it hit
    rw [hq] at hit
    obtain ⟨a, j, b, hb, e⟩ := hI.stored h it hit
    obtain ⟨b', hb', eb⟩ := h2 j b hb
    exact ⟨a, j, b', hb', by rw [eb, e]⟩
  · intro h; rw [hq]; exact hI.nodup h
  · intro i c it hi hp
    obtain ⟨a, j, b, hb, e⟩ := hI.popped i c it (hcp i c it hi hp) hp
    obtain ⟨b', hb', eb⟩ := h2 j b hb
    exact ⟨by intro h; rw [hq]; exact a h, j, b', hb', by rw [eb, e]⟩

theorem snoc_keep {l : List Call} {x : Call} {i : Nat} {c : Call} (h : l[i]? = some c) : (l ++ [x])[i]? = some c := by
  rw [List.getElem?_append_left (getElem?_lt h)]; exact h

theorem set_keep {l : List Call} {x d : Call} {i j : Nat} {c : Call} (hi : l[i]? = some d) (hd : d.pc ≠ .done) (h : l[j]? = some c) (hc : c.pc = .done) :
    (l.set i x)[j]? = some c := by
  by_cases hij : i = j
  · subst hij; rw [hi] at h; cases h; exact absurd hc hd
  · rw [List.getElem?_set_ne hij]; exact h

theorem binv_Step {s s' : State} {o : Op} (hV : Inv s) (hI : BInv s) (h : Step s o s') : BInv s' := by
  cases h with
  | quiet node m r hq hb hc hl hp =>
    refine binv_same hI hq (by rw [hb]; exact fun k b h => ⟨b, h, rfl⟩) (by rw [hb]; exact fun k b h => ⟨b, h, rfl⟩)
      (by rw [hc]; exact fun i c h _ => snoc_keep h) ?_ (by rw [hl]; exact fun e h => List.mem_append_left _ h) ?_
    · intro i c it hi hp'
      rw [hc] at hi
      rcases getElem?_snoc hi with h | ⟨_, rfl⟩
      · exact h
      · cases hp'
    · intro j; rw [hl, beatOuts_snoc, beatOuts_ended, List.append_nil, hb]; exact hI.outs j
  | popEmpty node m h0 he hq hb hc hl hp =>
    refine binv_same hI hq (by rw [hb]; exact fun k b h => ⟨b, h, rfl⟩) (by rw [hb]; exact fun k b h => ⟨b, h, rfl⟩)
      (by rw [hc]; exact fun i c h _ => snoc_keep h) ?_ (by rw [hl]; exact fun e h => List.mem_append_left _ h) ?_
    · intro i c it hi hp'
      rw [hc] at hi
      rcases getElem?_snoc hi with h | ⟨_, rfl⟩
      · exact h
      · cases hp'
    · intro j; rw [hl, beatOuts_snoc, beatOuts_call, List.append_nil, hb]; exact hI.outs j
  | push node m h0 x ho hp hn hq hb hc hl =>
    refine binv_same hI hq (by rw [hb]; exact fun k b h => ⟨b, h, rfl⟩) (by rw [hb]; exact fun k b h => ⟨b, h, rfl⟩)
      (by rw [hc]; exact fun i c h _ => snoc_keep h) ?_ (by rw [hl]; exact fun e h => List.mem_append_left _ h) ?_
    · intro i c it hi hp'
      rw [hc] at hi
      rcases getElem?_snoc hi with h | ⟨_, rfl⟩
      · exact h
      · cases hp'
    · intro j; rw [hl, beatOuts_snoc, beatOuts_call, List.append_nil, hb]; exact hI.outs j
  | endOther i c r hi hd hq hb hc hl hp =>
    refine binv_same hI hq (by rw [hb]; exact fun k b h => ⟨b, h, rfl⟩) (by rw [hb]; exact fun k b h => ⟨b, h, rfl⟩)
      (by rw [hc]; exact fun j c' h h' => set_keep hi hd h h') ?_ (by rw [hl]; exact fun e h => List.mem_append_left _ h) ?_
    · intro k c' it hk hp'
      rw [hc] at hk
      rcases getElem?_set' hk with ⟨_, rfl, _⟩ | ⟨_, h⟩
      · cases hp'
      · exact h
    · intro j; rw [hl, beatOuts_snoc, beatOuts_ended, List.append_nil, hb]; exact hI.outs j
  | endPop i c item hi hd hq hb hc hl =>
    refine binv_same hI hq (by rw [hb]; exact fun k b h => by obtain ⟨b', x1, x2, _⟩ := stop_item h; exact ⟨b', x1, x2⟩)
      (by rw [hb]; exact fun k b h => stop_item' h)
      (by rw [hc]; exact fun j c' h h' => set_keep hi (by rw [hd]; simp) h h') ?_ (by rw [hl]; exact fun e h => List.mem_append_left _ h) ?_
    · intro k c' it hk hp'
      rw [hc] at hk
      rcases getElem?_set' hk with ⟨_, rfl, _⟩ | ⟨_, h⟩
      · cases hp'
      · exact h
    · intro j; rw [hl, beatOuts_snoc, beatOuts_ended, List.append_nil, hb, hI.outs j]
      cases hs : s.beats[j]? with
      | none => simp [stop, hs]
      | some b =>
        simp only [stop, List.getElem?_map, hs, Option.map_some]
        split <;> rfl
  | tick j item n hj hq hb hc hl =>
    refine binv_same hI hq (by rw [hb]; exact fun k b h => set_item (old := ⟨item, n, .sleeping⟩) (new := ⟨item, n + 1, .sending⟩) hj rfl h)
      (by rw [hb]; exact fun k b h => set_item' (old := ⟨item, n, .sleeping⟩) (new := ⟨item, n + 1, .sending⟩) hj rfl h)
      (by rw [hc]; exact fun _ _ h _ => h) (by rw [hc]; exact fun _ _ _ h _ => h) (by rw [hl]; exact fun e h => List.mem_append_left _ h) ?_
    intro k
    rw [hl, beatOuts_snoc, beatOuts_beat, hI.outs k, hb]
    by_cases hk : j = k
    · subst hk
      rw [if_pos rfl, hj, List.getElem?_set_self (getElem?_lt hj)]
      simp only [List.range_succ, List.map_append, List.map_cons, List.map_nil]
      rfl
    · rw [if_neg hk, List.append_nil, List.getElem?_set_ne hk]
  | beatEnds j item n p r ho hr hj hq hb hc hl =>
    refine binv_same hI hq (by rw [hb]; exact fun k b h => set_item (old := ⟨item, n, .sending⟩) (new := ⟨item, n, p⟩) hj rfl h)
      (by rw [hb]; exact fun k b h => set_item' (old := ⟨item, n, .sending⟩) (new := ⟨item, n, p⟩) hj rfl h)
      (by rw [hc]; exact fun _ _ h _ => h) (by rw [hc]; exact fun _ _ _ h _ => h) (by rw [hl]; exact fun e h => h) ?_
    intro k
    rw [hl, hI.outs k, hb]
    by_cases hk : j = k
    · subst hk
      rw [hj, List.getElem?_set_self (getElem?_lt hj)]
    · rw [List.getElem?_set_ne hk]
  | pop node m h0 rest item he hq hb hc hl hp =>
    have hmem : ∀ h it, it ∈ s'.items (some h) → it ∈ s.items (some h) := by
      intro h it hit
      rw [hq] at hit
      split at hit
      · rename_i e; cases e; rw [he]; exact List.mem_append_left _ hit
      · exact hit
    have hstored : item ∈ s.items (some h0) := by rw [he]; simp
    refine ⟨by rw [hb]; exact hI.ids, ?_, ?_, ?_, ?_, ?_⟩
    · intro j b hj
      rw [hb] at hj
      obtain ⟨c, a1, a2, a3, a4, a5⟩ := hI.done j b hj
      exact ⟨c, by rw [hc]; exact snoc_keep a1, a2, a3, a4, by rw [hl]; exact List.mem_append_left _ a5⟩
    · intro h it hit
      rw [hb]; exact hI.stored h it (hmem h it hit)
    · intro h
      rw [hq]
      split
      · have := hI.nodup h0
        rw [he, List.map_append] at this
        exact (List.sublist_append_left _ _).nodup this
      · exact hI.nodup h
    · intro i c it hi hpc
      rw [hc] at hi
      rw [hb]
      rcases getElem?_snoc hi with h | ⟨_, rfl⟩
      · obtain ⟨a1, a2⟩ := hI.popped i c it h hpc
        exact ⟨fun h hit => a1 h (hmem h it hit), a2⟩
      · cases hpc
        obtain ⟨a1, a2⟩ := hI.stored h0 item hstored
        refine ⟨?_, a2⟩
        intro h hit
        have hh := (hI.stored h item (hmem h item hit)).1
        rw [hq, if_pos (by rw [← hh, a1])] at hit
        have := hI.nodup h0
        rw [he, List.map_append] at this
        exact (List.nodup_append.1 this).2.2 item.id (List.mem_map_of_mem hit) item.id (by simp) rfl
    · intro j; rw [hl, beatOuts_snoc, beatOuts_call, List.append_nil, hb]; exact hI.outs j
  | endPush i c item hi hd hq hb hc hl =>
    have hok := hV.calls i c hi
    unfold CallOk at hok
    rw [hd] at hok
    obtain ⟨hpush, hid, hnode⟩ := hok
    have hnew : ∀ (j : Nat) b, s.beats[j]? = some b → b.item.id ≠ item.id := by
      intro j b hj e
      obtain ⟨c', a1, a2, _⟩ := hI.done j b hj
      rw [e, hid, hi] at a1
      cases a1
      rw [hd] at a2; cases a2
    have hsnew : ∀ h it, it ∈ s.items (some h) → it.id ≠ item.id := by
      intro h it hit e
      obtain ⟨_, j, b, hb', e'⟩ := hI.stored h it hit
      exact hnew j b hb' (by rw [e', e])
    have hkeep : ∀ (j : Nat) b, s.beats[j]? = some b → s'.beats[j]? = some b := by
      intro j b hj
      rw [hb, List.getElem?_append_left (getElem?_lt hj)]; exact hj
    refine ⟨?_, ?_, ?_, ?_, ?_, ?_⟩
    · intro j k b b2 hj hk e
      rw [hb] at hj hk
      rcases getElem?_snoc hj with h1 | ⟨h1, rfl⟩ <;> rcases getElem?_snoc hk with h2 | ⟨h2, rfl⟩
      · exact hI.ids j k b b2 h1 h2 e
      · exact absurd e (hnew j b h1)
      · exact absurd e.symm (hnew k b2 h2)
      · rw [h1, h2]
    · intro j b hj
      rw [hb] at hj
      rcases getElem?_snoc hj with h1 | ⟨h1, rfl⟩
      · obtain ⟨c', a1, a2, a3, a4, a5⟩ := hI.done j b h1
        exact ⟨c', by rw [hc]; exact set_keep hi (by rw [hd]; simp) a1 a2, a2, a3, a4, by rw [hl]; exact List.mem_append_left _ a5⟩
      · refine ⟨{ c with pc := .done }, ?_, rfl, hnode.symm, hpush, by rw [hl, hid]; simp⟩
        rw [hc, hid]
        exact List.getElem?_set_self (getElem?_lt hi)
    · intro h it hit
      rw [hq] at hit
      have : it ∈ s.items (some h) ∨ (it = item ∧ item.handle = h) := by
        split at hit
        · rename_i e; cases e
          rcases List.mem_append.1 hit with h | h
          · exact .inl h
          · exact .inr ⟨by simpa using h, rfl⟩
        · exact .inl hit
      rcases this with h1 | ⟨rfl, h1⟩
      · obtain ⟨a, j, b, hb', e⟩ := hI.stored h it h1
        exact ⟨a, j, b, hkeep j b hb', e⟩
      · exact ⟨h1, s.beats.length, ⟨it, 0, .sleeping⟩, by rw [hb]; simp, rfl⟩
    · intro h
      rw [hq]
      split
      · rw [List.map_append, List.nodup_append]
        refine ⟨hI.nodup _, by simp, ?_⟩
        intro a ha b hb' e
        obtain ⟨it, hit, rfl⟩ := List.mem_map.1 ha
        simp at hb'
        exact hsnew _ it hit (by rw [e, hb'])
      · exact hI.nodup h
    · intro k c' it hk hpc
      rw [hc] at hk
      rcases getElem?_set' hk with ⟨_, rfl, _⟩ | ⟨_, hk⟩
      · cases hpc
      · obtain ⟨a1, j, b, hb', e⟩ := hI.popped k c' it hk hpc
        refine ⟨?_, j, b, hkeep j b hb', e⟩
        intro h hit
        rw [hq] at hit
        split at hit
        · rcases List.mem_append.1 hit with h1 | h1
          · exact a1 _ h1
          · simp at h1
            exact hnew j b hb' (by rw [e, h1])
        · exact a1 h hit
    · intro j
      rw [hl, beatOuts_snoc, beatOuts_ended, List.append_nil, hI.outs j, hb]
      cases hj : s.beats[j]? with
      | some b => rw [List.getElem?_append_left (getElem?_lt hj), hj]
      | none =>
        have hge : s.beats.length ≤ j := by
          rcases Nat.lt_or_ge j s.beats.length with h | h
          · rw [List.getElem?_eq_getElem h] at hj; cases hj
          · exact h
        rw [List.getElem?_append_right hge]
        cases hk : j - s.beats.length with
        | zero => rfl
        | succ k => rfl

theorem binv_run (ops : List Op) : BInv (run fresh ops) := by
  induction ops using Model.Conn.snoc_ind with
  | nil => exact binv_fresh
  | snoc ops o ih =>
    rw [run_snoc]
    rcases step_Step (inv_run ops).none o with h | h
    · rw [h]; exact ih
    · exact binv_Step (inv_run ops) ih h

/-- The heartbeat of every stored item runs, or something is known of the item. -/
def Runs (R : Item → Prop) (s : State) : Prop :=
  ∀ h it, it ∈ s.items (some h) → ∃ (j : Nat) (b : Beat), s.beats[j]? = some b ∧ b.item = it ∧ (b.pc ≠ .ended ∨ R it)

theorem runs_step {R : Item → Prop} {s : State} (hV : Inv s) (hI : BInv s) (ih : Runs R s) (o : Op)
    (hops : ∀ j b e, o = .beatEnds j (.error e) → s.beats[j]? = some b → b.pc = .sending → R b.item) : Runs R (step s o) := by
  rcases step_Step hV.none o with h | h
  · rw [h]; exact ih
  · generalize step s o = s' at *
    cases h with
    | quiet node m r hq hb hc hl hp => intro h it hit; rw [hq] at hit; rw [hb]; exact ih h it hit
    | popEmpty node m h0 he hq hb hc hl hp => intro h it hit; rw [hq] at hit; rw [hb]; exact ih h it hit
    | push node m h0 x ho hp hn hq hb hc hl => intro h it hit; rw [hq] at hit; rw [hb]; exact ih h it hit
    | endOther i c r hi hd hq hb hc hl hp => intro h it hit; rw [hq] at hit; rw [hb]; exact ih h it hit
    | pop node m h0 rest item he hq hb hc hl hp =>
      intro h it hit
      rw [hq] at hit
      rw [hb]
      split at hit
      · rename_i e; cases e; exact ih h0 it (by rw [he]; exact List.mem_append_left _ hit)
      · exact ih h it hit
    | endPop i c item hi hd hq hb hc hl =>
      intro h it hit
      rw [hq] at hit
      obtain ⟨j, b, hj, e, hr⟩ := ih h it hit
      obtain ⟨a1, k, b2, hk, e2⟩ := hI.popped i c item hi hd
      refine ⟨j, b, ?_, e, hr⟩
      rw [hb]
      simp only [stop, List.getElem?_map, hj, Option.map_some]
      rw [if_neg]
      intro hid
      have : j = k := hI.ids j k b b2 hj hk (by rw [hid, e2])
      subst this
      rw [hj] at hk; cases hk
      rw [← e2, e] at a1
      exact a1 h hit
    | endPush i c item hi hd hq hb hc hl =>
      intro h it hit
      rw [hq] at hit
      have : it ∈ s.items (some h) ∨ it = item := by
        split at hit
        · rename_i e; cases e
          rcases List.mem_append.1 hit with h | h
          · exact .inl h
          · exact .inr (by simpa using h)
        · exact .inl hit
      rcases this with h1 | h1
      · obtain ⟨j, b, hj, e, hr⟩ := ih h it h1
        exact ⟨j, b, by rw [hb, List.getElem?_append_left (getElem?_lt hj)]; exact hj, e, hr⟩
      · exact ⟨s.beats.length, ⟨item, 0, .sleeping⟩, by rw [hb]; simp, h1.symm, .inl (by simp)⟩
    | tick j item n hj hq hb hc hl =>
      intro h it hit
      rw [hq] at hit
      obtain ⟨k, b, hk, e, hr⟩ := ih h it hit
      by_cases hjk : j = k
      · subst hjk
        rw [hj] at hk; cases hk
        exact ⟨j, ⟨item, n + 1, .sending⟩, by rw [hb]; exact List.getElem?_set_self (getElem?_lt hj), e, .inl (by simp)⟩
      · exact ⟨k, b, by rw [hb, List.getElem?_set_ne hjk]; exact hk, e, hr⟩
    | beatEnds j item n p r ho hr' hj hq hb hc hl =>
      intro h it hit
      rw [hq] at hit
      obtain ⟨k, b, hk, e, hr⟩ := ih h it hit
      by_cases hjk : j = k
      · subst hjk
        rw [hj] at hk; cases hk
        refine ⟨j, ⟨item, n, p⟩, by rw [hb]; exact List.getElem?_set_self (getElem?_lt hj), e, ?_⟩
        cases r with
        | ok v => exact .inl (by rw [hr' v rfl]; simp)
        | error x => exact .inr (e ▸ hops j _ x ho hj rfl)
      · exact ⟨k, b, by rw [hb, List.getElem?_set_ne hjk]; exact hk, e, hr⟩

/-- The heartbeat of every stored item runs, as long as no heartbeat raised. -/
theorem running_run (ops : List Op) (hops : ∀ j r, Op.beatEnds j r ∈ ops → ∃ b, r = .ok b) :
    ∀ h it, it ∈ (run fresh ops).items (some h) → ∃ (j : Nat) (b : Beat), (run fresh ops).beats[j]? = some b ∧ b.item = it ∧ b.pc ≠ .ended := by
  suffices Runs (fun _ => False) (run fresh ops) by
    intro h it hit
    obtain ⟨j, b, h1, h2, h3⟩ := this h it hit
    exact ⟨j, b, h1, h2, h3.resolve_right id⟩
  induction ops using Model.Conn.snoc_ind with
  | nil => intro h it hit; simp [run, fresh, State.items] at hit
  | snoc ops o ih =>
    rw [run_snoc]
    refine runs_step (inv_run ops) (binv_run ops) (ih (fun j r h => hops j r (List.mem_append_left _ h))) o fun j b e ho _ _ => ?_
    obtain ⟨v, hv⟩ := hops j (.error e) (by simp [ho])
    cases hv

/-- A heartbeat that ended stays silent. -/
theorem ended_run (s : State) (hV : Inv s) (ops : List Op) (j : Nat) (b : Beat) (hj : s.beats[j]? = some b) (he : b.pc = .ended) :
    (run s ops).beats[j]? = some b ∧ beatOuts j (run s ops).log = beatOuts j s.log := by
  suffices Inv (run s ops) ∧ (run s ops).beats[j]? = some b ∧ beatOuts j (run s ops).log = beatOuts j s.log from this.2
  induction ops using Model.Conn.snoc_ind with
  | nil => exact ⟨hV, hj, rfl⟩
  | snoc ops o ih =>
    rw [run_snoc]
    obtain ⟨hV', hj', ho⟩ := ih
    refine ⟨inv_step hV' o, ?_⟩
    rw [← ho]
    generalize run s ops = t at *
    rcases step_Step hV'.none o with h | h
    · rw [h]; exact ⟨hj', rfl⟩
    · generalize step t o = t' at *
      cases h with
      | quiet node m r hq hb hc hl hp => exact ⟨by rw [hb]; exact hj', by rw [hl, beatOuts_snoc, beatOuts_ended, List.append_nil]⟩
      | popEmpty node m h0 he hq hb hc hl hp => exact ⟨by rw [hb]; exact hj', by rw [hl, beatOuts_snoc, beatOuts_call, List.append_nil]⟩
      | push node m h0 x ho hp hn hq hb hc hl => exact ⟨by rw [hb]; exact hj', by rw [hl, beatOuts_snoc, beatOuts_call, List.append_nil]⟩
      | endOther i c r hi hd hq hb hc hl hp => exact ⟨by rw [hb]; exact hj', by rw [hl, beatOuts_snoc, beatOuts_ended, List.append_nil]⟩
      | pop node m h0 rest item he hq hb hc hl hp => exact ⟨by rw [hb]; exact hj', by rw [hl, beatOuts_snoc, beatOuts_call, List.append_nil]⟩
      | endPop i c item hi hd hq hb hc hl =>
        refine ⟨?_, by rw [hl, beatOuts_snoc, beatOuts_ended, List.append_nil]⟩
        rw [hb]
        simp only [stop, List.getElem?_map, hj', Option.map_some]
        split
        · rw [← he]
        · rfl
      | endPush i c item hi hd hq hb hc hl =>
        exact ⟨by rw [hb, List.getElem?_append_left (getElem?_lt hj')]; exact hj', by rw [hl, beatOuts_snoc, beatOuts_ended, List.append_nil]⟩
      | tick k item n hk hq hb hc hl =>
        have hne : k ≠ j := by rintro rfl; rw [hj'] at hk; cases hk; cases he
        exact ⟨by rw [hb, List.getElem?_set_ne hne]; exact hj', by rw [hl, beatOuts_snoc, beatOuts_beat, if_neg hne, List.append_nil]⟩
      | beatEnds k item n p r ho hr' hk hq hb hc hl =>
        have hne : k ≠ j := by rintro rfl; rw [hj'] at hk; cases hk; cases he
        exact ⟨by rw [hb, List.getElem?_set_ne hne]; exact hj', by rw [hl]⟩

/-! ## Uniqueness -/

structure UInv (h : Int) (s : State) : Prop where
  nodup : ((s.items (some h)).map (fun it => checksum it.data)).Nodup
  pending : ∀ (i : Nat) c it, s.calls[i]? = some c → c.pc = .push it → it.handle = h →
    (∀ st ∈ s.items (some h), checksum st.data ≠ checksum it.data) ∧
    ∀ (k : Nat) c' it', s.calls[k]? = some c' → c'.pc = .push it' → it'.handle = h → k = i

theorem noOverlap_prefix {ops : List Op} {o : Op} {h : Int} (hno : NoOverlap (ops ++ [o]) h) : NoOverlap ops h := by
  intro pre node m x post e
  exact hno pre node m x (post ++ [o]) (by rw [e]; simp)

theorem uinv_run (ops : List Op) (h : Int) (hno : NoOverlap ops h) : UInv h (run fresh ops) := by
  induction ops using Model.Conn.snoc_ind with
  | nil => exact ⟨by simp [run, fresh, State.items], by intro i c it hi; simp [run, fresh] at hi⟩
  | snoc ops o ih =>
    have ih := ih (noOverlap_prefix hno)
    have hV := inv_run ops
    rw [run_snoc]
    have hnow : ∀ node m x, o = .received node m → IsPush m h x → ∀ c ∈ (run fresh ops).calls, IsPush c.msg h (entryOf c.msg) → c.pc = .done := by
      rintro node m x rfl hp
      exact hno ops node m x [] rfl hp
    clear hno
    generalize run fresh ops = s at *
    rcases step_Step hV.none o with hs | hs
    · rw [hs]; exact ih
    · generalize step s o = s' at *
      have snoc_other : ∀ (x : Call), (∀ it, x.pc ≠ .push it) → ∀ (i : Nat) c it, (s.calls ++ [x])[i]? = some c → c.pc = .push it → s.calls[i]? = some c := by
        intro x hx i c it hi hp
        rcases getElem?_snoc hi with h1 | ⟨_, rfl⟩
        · exact h1
        · exact absurd hp (hx it)
      have set_other : ∀ (j : Nat) (x : Call), x.pc = .done → ∀ (i : Nat) c it, (s.calls.set j x)[i]? = some c → c.pc = .push it → s.calls[i]? = some c ∧ i ≠ j := by
        intro j x hx i c it hi hp
        rcases getElem?_set' hi with ⟨_, rfl, _⟩ | ⟨a, b⟩
        · rw [hx] at hp; cases hp
        · exact ⟨b, a⟩
      cases hs with
      | quiet node m r hq hb hc hl hp =>
        refine ⟨by rw [hq]; exact ih.nodup, ?_⟩
        rw [hc]
        intro i c it hi hpc hh
        obtain ⟨a, b⟩ := ih.pending i c it (snoc_other _ (by simp) i c it hi hpc) hpc hh
        exact ⟨by rw [hq]; exact a, fun k c' it' hk hp' hh' => b k c' it' (snoc_other _ (by simp) k c' it' hk hp') hp' hh'⟩
      | popEmpty node m h0 he hq hb hc hl hp =>
        refine ⟨by rw [hq]; exact ih.nodup, ?_⟩
        rw [hc]
        intro i c it hi hpc hh
        obtain ⟨a, b⟩ := ih.pending i c it (snoc_other _ (by simp) i c it hi hpc) hpc hh
        exact ⟨by rw [hq]; exact a, fun k c' it' hk hp' hh' => b k c' it' (snoc_other _ (by simp) k c' it' hk hp') hp' hh'⟩
      | pop node m h0 rest item he hq hb hc hl hp =>
        have hsub : (s'.items (some h)).Sublist (s.items (some h)) := by
          rw [hq]
          split
          · rename_i e; cases e; rw [he]; exact List.sublist_append_left _ _
          · exact List.Sublist.refl _
        refine ⟨(hsub.map _).nodup ih.nodup, ?_⟩
        rw [hc]
        intro i c it hi hpc hh
        obtain ⟨a, b⟩ := ih.pending i c it (snoc_other _ (by simp) i c it hi hpc) hpc hh
        exact ⟨fun st hst => a st (hsub.subset hst), fun k c' it' hk hp' hh' => b k c' it' (snoc_other _ (by simp) k c' it' hk hp') hp' hh'⟩
      | push node m h0 x ho hp hn hq hb hc hl =>
        refine ⟨by rw [hq]; exact ih.nodup, ?_⟩
        rw [hc]
        by_cases hh0 : h0 = h
        · subst hh0
          have hno : ∀ (k : Nat) c it, s.calls[k]? = some c → c.pc = .push it → it.handle = h0 → False := by
            intro k c it hk hpc hh
            have hok := hV.calls k c hk
            unfold CallOk at hok
            rw [hpc] at hok
            obtain ⟨⟨b1, b2, b3, b4⟩, _⟩ := hok
            have := hnow node m x ho hp c (List.mem_of_getElem? hk) ⟨b1, b2, by rw [b3, hh], rfl⟩
            rw [hpc] at this; cases this
          intro i c it hi hpc hh
          rcases getElem?_snoc hi with h1 | ⟨h1, rfl⟩
          · exact (hno i c it h1 hpc hh).elim
          · cases hpc
            refine ⟨by rw [hq]; exact hn, ?_⟩
            intro k c' it' hk hp' hh'
            rcases getElem?_snoc hk with h2 | ⟨h2, rfl⟩
            · exact (hno k c' it' h2 hp' hh').elim
            · rw [h1, h2]
        · intro i c it hi hpc hh
          have old : ∀ (k : Nat) c it, (s.calls ++ [⟨node, m, .push ⟨s.calls.length, node, h0, x⟩⟩])[k]? = some c → c.pc = .push it → it.handle = h → s.calls[k]? = some c := by
            intro k c it hk hpc hh
            rcases getElem?_snoc hk with h1 | ⟨_, rfl⟩
            · exact h1
            · cases hpc; exact absurd hh hh0
          obtain ⟨a, b⟩ := ih.pending i c it (old i c it hi hpc hh) hpc hh
          exact ⟨by rw [hq]; exact a, fun k c' it' hk hp' hh' => b k c' it' (old k c' it' hk hp' hh') hp' hh'⟩
      | endOther i0 c0 r hi0 hd hq hb hc hl hp =>
        refine ⟨by rw [hq]; exact ih.nodup, ?_⟩
        rw [hc]
        intro i c it hi hpc hh
        obtain ⟨a, b⟩ := ih.pending i c it (set_other _ _ rfl i c it hi hpc).1 hpc hh
        exact ⟨by rw [hq]; exact a, fun k c' it' hk hp' hh' => b k c' it' (set_other _ _ rfl k c' it' hk hp').1 hp' hh'⟩
      | endPop i0 c0 item hi0 hd hq hb hc hl =>
        refine ⟨by rw [hq]; exact ih.nodup, ?_⟩
        rw [hc]
        intro i c it hi hpc hh
        obtain ⟨a, b⟩ := ih.pending i c it (set_other _ _ rfl i c it hi hpc).1 hpc hh
        exact ⟨by rw [hq]; exact a, fun k c' it' hk hp' hh' => b k c' it' (set_other _ _ rfl k c' it' hk hp').1 hp' hh'⟩
      | endPush i0 c0 item hi0 hd hq hb hc hl =>
        by_cases hh0 : item.handle = h
        · obtain ⟨a0, b0⟩ := ih.pending i0 c0 item hi0 hd hh0
          refine ⟨?_, ?_⟩
          · rw [hq, if_pos (by rw [hh0]), hh0, List.map_append, List.nodup_append]
            refine ⟨ih.nodup, by simp, ?_⟩
            intro x hx y hy e
            obtain ⟨st, hst, rfl⟩ := List.mem_map.1 hx
            simp at hy
            exact a0 st hst (by rw [e, hy])
          · rw [hc]
            intro i c it hi hpc hh
            obtain ⟨h1, h2⟩ := set_other _ _ rfl i c it hi hpc
            exact absurd (b0 i c it h1 hpc hh) h2
        · refine ⟨by rw [hq, if_neg (by simpa using hh0)]; exact ih.nodup, ?_⟩
          rw [hc]
          intro i c it hi hpc hh
          obtain ⟨a, b⟩ := ih.pending i c it (set_other _ _ rfl i c it hi hpc).1 hpc hh
          exact ⟨by rw [hq, if_neg (by simpa using hh0)]; exact a, fun k c' it' hk hp' hh' => b k c' it' (set_other _ _ rfl k c' it' hk hp').1 hp' hh'⟩
      | tick j item n hj hq hb hc hl =>
        exact ⟨by rw [hq]; exact ih.nodup, by rw [hc]; intro i c it hi hpc hh; rw [hq]; exact ih.pending i c it hi hpc hh⟩
      | beatEnds j item n p r ho hr' hj hq hb hc hl =>
        exact ⟨by rw [hq]; exact ih.nodup, by rw [hc]; intro i c it hi hpc hh; rw [hq]; exact ih.pending i c it hi hpc hh⟩

/-! ## The checksum -/

theorem crcBit_lt {c : Nat} (h : c < 65536) : crcBit c < 65536 := by
  unfold crcBit
  split
  · exact Nat.xor_lt_two_pow (n := 16) (by omega) (by decide)
  · omega

theorem xor_odd {x : Nat} (h : x % 2 = 0) : (x ^^^ 0x1021) % 2 = 1 := by
  have := Nat.xor_mod_two_eq_one (a := x) (b := 0x1021)
  rw [this]; omega

theorem crcBit_inj {c d : Nat} (hc : c < 65536) (hd : d < 65536) (h : crcBit c = crcBit d) : c = d := by
  unfold crcBit at h
  split at h <;> split at h
  · have := congrArg (· ^^^ 0x1021) h
    simp only [Nat.xor_assoc, Nat.xor_self, Nat.xor_zero] at this
    omega
  · have := xor_odd (x := 2 * c - 65536) (by omega)
    omega
  · have := xor_odd (x := 2 * d - 65536) (by omega)
    omega
  · omega

theorem xor_lt {a b : Nat} (ha : a < 65536) (hb : b < 65536) : a ^^^ b < 65536 := Nat.xor_lt_two_pow (n := 16) ha hb

/-- Eight bits. -/
def crc8 (c : Nat) : Nat := crcBit (crcBit (crcBit (crcBit (crcBit (crcBit (crcBit (crcBit c)))))))

theorem crc8_lt {c : Nat} (h : c < 65536) : crc8 c < 65536 := by
  unfold crc8; repeat' apply crcBit_lt
  exact h

theorem crc8_inj {c d : Nat} (hc : c < 65536) (hd : d < 65536) (h : crc8 c = crc8 d) : c = d := by
  unfold crc8 at h
  have l : ∀ {x}, x < 65536 → crcBit x < 65536 := fun h => crcBit_lt h
  have := crcBit_inj (l (l (l (l (l (l (l hc))))))) (l (l (l (l (l (l (l hd))))))) h
  have := crcBit_inj (l (l (l (l (l (l hc)))))) (l (l (l (l (l (l hd)))))) this
  have := crcBit_inj (l (l (l (l (l hc))))) (l (l (l (l (l hd))))) this
  have := crcBit_inj (l (l (l (l hc)))) (l (l (l (l hd)))) this
  have := crcBit_inj (l (l (l hc))) (l (l (l hd))) this
  have := crcBit_inj (l (l hc)) (l (l hd)) this
  have := crcBit_inj (l hc) (l hd) this
  exact crcBit_inj hc hd this

theorem crcByte_eq (c : Nat) (b : UInt8) : crcByte c b = crc8 (c ^^^ (b.toNat * 256)) := rfl

theorem byte_lt (b : UInt8) : b.toNat * 256 < 65536 := by have := b.toNat_lt; omega

theorem crcByte_lt {c : Nat} (h : c < 65536) (b : UInt8) : crcByte c b < 65536 := by rw [crcByte_eq]; exact crc8_lt (xor_lt h (byte_lt b))

theorem crcByte_inj {c d : Nat} (hc : c < 65536) (hd : d < 65536) (b : UInt8) (h : crcByte c b = crcByte d b) : c = d := by
  rw [crcByte_eq, crcByte_eq] at h
  have := crc8_inj (xor_lt hc (byte_lt b)) (xor_lt hd (byte_lt b)) h
  have := congrArg (· ^^^ (b.toNat * 256)) this
  simpa only [Nat.xor_assoc, Nat.xor_self, Nat.xor_zero] using this

theorem foldl_lt {c : Nat} (h : c < 65536) (l : Bytes) : l.foldl crcByte c < 65536 := by
  induction l generalizing c with
  | nil => exact h
  | cons b l ih => exact ih (crcByte_lt h b)

theorem foldl_inj {c d : Nat} (hc : c < 65536) (hd : d < 65536) (l : Bytes) (h : l.foldl crcByte c = l.foldl crcByte d) : c = d := by
  induction l generalizing c d with
  | nil => exact h
  | cons b l ih =>
    rw [List.foldl_cons, List.foldl_cons] at h
    exact crcByte_inj hc hd b (ih (crcByte_lt hc b) (crcByte_lt hd b) h)

theorem crcBit_low {a b : Nat} (ha : a < 65536) (hb : b < 32768) : crcBit (a ^^^ b) = crcBit a ^^^ (2 * b) := by
  have h2 : ∀ x y : Nat, 2 * (x ^^^ y) = (2 * x) ^^^ (2 * y) := by
    intro x y
    apply Nat.eq_of_testBit_eq
    intro i
    cases i with
    | zero => simp
    | succ i =>
      have e : ∀ z : Nat, (2 * z).testBit (i + 1) = z.testBit i := by
        intro z; rw [Nat.testBit_succ]; congr 1; omega
      rw [Nat.testBit_xor, e, e, e, Nat.testBit_xor]
  have low : ∀ x y : Nat, x < 32768 → y < 32768 → x ^^^ y < 32768 := fun x y h1 h2 => Nat.xor_lt_two_pow (n := 15) h1 h2
  by_cases h : 32768 ≤ a
  · have hsum : ∀ y, y < 32768 → 2 ^ 15 ^^^ y = 32768 + y := by
      intro y hlt
      apply Nat.eq_of_testBit_eq
      intro i
      rw [Nat.testBit_xor, Nat.testBit_two_pow]
      have hlt : y < 2 ^ 15 := hlt
      show _ = (2 ^ 15 + y).testBit i
      by_cases hi : 15 = i
      · subst hi
        rw [Nat.testBit_two_pow_add_eq, Nat.testBit_lt_two_pow hlt]; simp
      · by_cases hi' : i < 15
        · rw [Nat.testBit_two_pow_add_gt hi']; simp [hi]
        · rw [Nat.testBit_lt_two_pow (x := y) (i := i) (Nat.lt_of_lt_of_le hlt (Nat.pow_le_pow_right (by omega) (by omega)))]
          rw [Nat.testBit_lt_two_pow (x := 2 ^ 15 + y) (i := i)]
          · simp [hi]
          · have : 2 ^ 16 ≤ 2 ^ i := Nat.pow_le_pow_right (by omega) (by omega)
            omega
    have ea : a = 2 ^ 15 ^^^ (a - 32768) := by rw [hsum _ (by omega)]; omega
    have hab : a ^^^ b = 2 ^ 15 ^^^ ((a - 32768) ^^^ b) := by rw [← Nat.xor_assoc, ← ea]
    have hlow := low (a - 32768) b (by omega) hb
    have hv : a ^^^ b = 32768 + ((a - 32768) ^^^ b) := by rw [hab]; exact hsum _ hlow
    unfold crcBit
    rw [if_pos h, if_pos (by omega), hv]
    rw [show 2 * (32768 + ((a - 32768) ^^^ b)) - 65536 = 2 * ((a - 32768) ^^^ b) by omega, h2,
      show 2 * a - 65536 = 2 * (a - 32768) by omega, Nat.xor_assoc, Nat.xor_assoc, Nat.xor_comm (2 * b)]
  · unfold crcBit
    have := low a b (by omega) hb
    rw [if_neg h, if_neg (by omega), h2]

theorem crc8_low {a b : Nat} (ha : a < 65536) (hb : b < 256) : crc8 (a ^^^ b) = crc8 a ^^^ (b * 256) := by
  have l : ∀ {x}, x < 65536 → crcBit x < 65536 := fun h => crcBit_lt h
  unfold crc8
  rw [crcBit_low ha (by omega), crcBit_low (l ha) (by omega), crcBit_low (l (l ha)) (by omega), crcBit_low (l (l (l ha))) (by omega),
    crcBit_low (l (l (l (l ha)))) (by omega), crcBit_low (l (l (l (l (l ha))))) (by omega), crcBit_low (l (l (l (l (l (l ha)))))) (by omega),
    crcBit_low (l (l (l (l (l (l (l ha))))))) (by omega)]
  congr 1; omega

theorem xor_bytes {a b : Nat} (hb : b < 256) : (a * 256) ^^^ b = a * 256 + b := by
  have hb' : b < 2 ^ 8 := hb
  apply Nat.eq_of_testBit_eq
  intro i
  rw [Nat.testBit_xor, Nat.mul_comm, show (256 : Nat) = 2 ^ 8 by rfl, Nat.testBit_two_pow_mul_add _ hb', Nat.testBit_two_pow_mul]
  by_cases hi : i < 8
  · simp [hi, Nat.not_le.2 hi]
  · rw [if_neg hi, Nat.testBit_lt_two_pow (x := b) (Nat.lt_of_lt_of_le hb' (Nat.pow_le_pow_right (by omega) (by omega)))]
    simp [Nat.le_of_not_lt hi]

/-- Two bytes are told apart. -/
theorem two_bytes_inj {c : Nat} (hc : c < 65536) {a b a' b' : UInt8} (h : crcByte (crcByte c a) b = crcByte (crcByte c a') b') : a = a' ∧ b = b' := by
  simp only [crcByte_eq] at h
  have e : ∀ x y : UInt8, crc8 (c ^^^ x.toNat * 256) ^^^ y.toNat * 256 = crc8 ((c ^^^ x.toNat * 256) ^^^ y.toNat) :=
    fun x y => (crc8_low (xor_lt hc (byte_lt x)) y.toNat_lt).symm
  have yl : ∀ y : UInt8, y.toNat < 65536 := fun y => by have := y.toNat_lt; omega
  rw [e, e] at h
  have h := crc8_inj (crc8_lt (xor_lt (xor_lt hc (byte_lt a)) (yl b))) (crc8_lt (xor_lt (xor_lt hc (byte_lt a')) (yl b'))) h
  have h := crc8_inj (xor_lt (xor_lt hc (byte_lt a)) (yl b)) (xor_lt (xor_lt hc (byte_lt a')) (yl b')) h
  have h := congrArg (c ^^^ ·) h
  simp only [← Nat.xor_assoc, Nat.xor_self, Nat.zero_xor] at h
  rw [xor_bytes b.toNat_lt, xor_bytes b'.toNat_lt] at h
  have := b.toNat_lt
  have := b'.toNat_lt
  exact ⟨UInt8.toNat_inj.1 (by omega), UInt8.toNat_inj.1 (by omega)⟩

end Lemmas.Mailbox
