import Verif.Lemmas.NodeNetOrder
/-!
# Property theorems C156 and C157: a node in the network
-/
namespace Props.NodeNet
open Model Model.NodeNet Spec.System Spec.NodeNet Spec.Silence
open Model.ClassRun (pcOf)
open Model.NodeInterview (Pc)
open Props.ClassNet (step_effect)

variable {σ : Nat → Type}

/-- **C156**, the classes. Whatever happens to a node and its command classes, to one command class it is something that can happen to a command class that is alone: no property of
command classes in the network is lost because there are other classes, interviewed at the same time through the same node object. -/
theorem C156_class (h : Life σ) (k : Nat) : ∃ l : Spec.ClassNet.Life (σ k), l.own = h.own ∧ l.nd = h.node.nd ∧ l.c = h.node.c k ∧ l.id = h.ids k ∧ l.attrs = h.attrs k ∧ l.now = h.now.cls k ∧
    (∀ m, l.Said m → h.Said m) ∧ (∀ cmd, l.Acknowledged cmd → h.Acknowledged cmd) ∧ (∀ v, l.LoadedVersion v → h.LoadedVersion k v) ∧ (h.OnlyAsked k → l.OnlyAsked) :=
  life h k

/-- **C156**, the answers. Whatever interviews of the classes of a node take for answers has the type that was asked for and came in a datagram from the node and end point, and the question was sent to this
node and end point and acknowledged. -/
theorem C156_answers (h : Life σ) (k : Nat) : ∀ e ∈ (h.now.cls k).cls.trace, ∀ q m, e.item = .asked q (some (.ok m)) →
    m.hid = q.awaits.hid ∧ h.Said m ∧ ∃ cmd, q.request = .ok cmd ∧ h.Acknowledged cmd := by
  obtain ⟨l, -, -, -, -, -, e, hs, ha, -, -⟩ := life h k
  intro x hx q m hm
  obtain ⟨h1, h2, cmd, h3, h4⟩ := ClassNet.C152_answers l x (e ▸ hx) q m hm
  exact ⟨h1, hs m h2, cmd, h3, ha cmd h4⟩

/-- **C156**, the commands. -/
theorem C156_commands (h : Life σ) (k : Nat) : ∀ e ∈ (h.now.cls k).cls.trace, ∀ c, e.item = .sent c (some (.ok true)) → ∃ cmd, c.message = .ok cmd ∧ h.Acknowledged cmd := by
  obtain ⟨l, -, -, -, -, -, e, hs, ha, -, -⟩ := life h k
  intro x hx c hc
  obtain ⟨cmd, h3, h4⟩ := ClassNet.C152_commands l x (e ▸ hx) c hc
  exact ⟨cmd, h3, ha cmd h4⟩

/-- **C156**, the versions. The version of each class is not known, was loaded, or was in a version report from the node and end point, after a question for the version of this class. -/
theorem C156_version (h : Life σ) (k : Nat) : (h.now.cls k).cls.dec.version = 0 ∨ h.LoadedVersion k (h.now.cls k).cls.dec.version ∨
    ∃ m cmd, h.Said m ∧ m.hid = 0x8614 ∧ Version.taken (.ok m) = .ok (h.now.cls k).cls.dec.version ∧ Version.question (h.now.cls k).cls.dec.id = .ok cmd ∧ h.Acknowledged cmd := by
  obtain ⟨l, -, -, -, -, -, e, hs, ha, hl, -⟩ := life h k
  have := ClassNet.C152_version l
  rw [e] at this
  refine this.imp id (Or.imp (hl _) ?_)
  rintro ⟨m, cmd, h1, h2, h3, h4, h5⟩
  exact ⟨m, cmd, hs m h1, h2, h3, h4, ha cmd h5⟩

/-! ## The calls -/

/-- What else happens. -/
def later (h : Life σ) (l : List (Op σ)) : Life σ := { h with ops := h.ops ++ l }

theorem now_later (h : Life σ) (l : List (Op σ)) : (later h l).now = run h.node h.now l := by
  simp only [Life.now, Life.after, Life.all, later, ← List.append_assoc]
  exact run_append _ _ _ _

theorem lengths (h : Life σ) (k : Nat) : (h.now.cls k).cls.bodies.length = (h.now.cls k).cls.dec.calls.length := by
  obtain ⟨l, -, -, -, -, -, e, -⟩ := life h k
  obtain ⟨os, cs, w⟩ := ClassNet.whole l
  rw [← e]
  exact w.good.bodies

/-- Calls of classes stay. -/
theorem calls_grow {τ : Type} (nd : App.Nd) (c : ClassRun.Cls τ) (s : ClassNet.State τ) (hb : s.cls.bodies.length = s.cls.dec.calls.length) (o : ClassNet.Op τ) :
    s.cls.dec.calls.length ≤ (ClassNet.step nd c s o).cls.dec.calls.length ∧ (o = .interview → (ClassNet.step nd c s o).cls.dec.calls.length = s.cls.dec.calls.length + 1) := by
  have key : ∀ o : ClassRun.Op τ, (ClassRun.run c s.cls [o]).dec.calls.length = s.cls.dec.calls.length + ClassNet.more o := fun o => (step_effect c s.cls hb o).calls
  rw [ClassNet.step_cls]
  refine ⟨?_, ?_⟩
  · cases o with
    | proceed i =>
      simp only [ClassNet.clsOps]
      cases ClassNet.gives nd s i with
      | none => exact Nat.le_refl _
      | some x => simp only [Option.toList]; rw [key]; omega
    | sys x => exact Nat.le_refl _
    | _ => simp only [ClassNet.clsOps]; rw [key]; omega
  · rintro rfl
    simp only [ClassNet.clsOps]
    rw [key]; rfl

/-- What a call of `Node.interview()` awaits exists. -/
def Held (N : Node σ) (s : State σ) : Prop := ∀ n k j : Nat, s.calls[n]? = some (Pc.running k j) → k < N.size ∧ j < (s.parts k).cls.dec.calls.length

theorem begin_calls (N : Node σ) (s : State σ) (n k : Nat) : (begin N s n k).calls = s.calls.set n (if k < N.size then .running k (s.parts k).cls.dec.calls.length else .done (.ok ())) := by
  unfold begin
  split <;> rfl

theorem held (h : Life σ) : Held h.node h.now := by
  have grow : ∀ (h : Life σ) (o : Op σ) j, ((h.now.cls j).cls.dec.calls.length ≤ ((step h.node h.now o).cls j).cls.dec.calls.length) ∧
      ((∃ x, acts h.node h.now o = some ⟨j, x⟩ ∧ x = .interview) → ((step h.node h.now o).cls j).cls.dec.calls.length = (h.now.cls j).cls.dec.calls.length + 1) := by
    intro h o j
    refine ⟨?_, ?_⟩
    · obtain ⟨l, e, hl⟩ := step_view h.node h.now o j
      rw [e]
      rcases hl with rfl | ⟨x, rfl, -⟩ | rfl | ⟨x, rfl, -⟩
      · exact Nat.le_refl _
      · exact (calls_grow h.node.nd (h.node.c j) (h.now.cls j) (lengths h j) (.sys x)).1
      · exact (calls_grow h.node.nd (h.node.c j) (h.now.cls j) (lengths h j) .interview).1
      · exact (calls_grow h.node.nd (h.node.c j) (h.now.cls j) (lengths h j) x.op).1
    · rintro ⟨x, hx, rfl⟩
      rw [step_acts, hx]
      dsimp only
      rw [act, put_self]
      exact (calls_grow _ _ _ (lengths h j) _).2 rfl
  obtain ⟨own, node, ids, attrs, pre, ops, known⟩ := h
  induction ops using Conn.snoc_ind with
  | nil =>
    have : ∀ (os : List System.Op) (s : State σ), (run node s (os.map .sys)).calls = s.calls := by
      intro os
      induction os with
      | nil => intro s; rfl
      | cons o os ih => intro s; exact ih _
    intro n k j hn
    simp only [Life.now, Life.after, Life.all, List.append_nil, this] at hn
    simp [init] at hn
  | snoc ops o ih =>
    have e := now_later ⟨own, node, ids, attrs, pre, ops, known⟩ [o]
    have g := grow ⟨own, node, ids, attrs, pre, ops, known⟩ o
    rw [later] at e
    dsimp only at e ih g
    rw [e]
    generalize Life.now ⟨own, node, ids, attrs, pre, ops, known⟩ = s at ih g
    have old : ∀ n k j : Nat, s.calls[n]? = some (Pc.running k j) → k < node.size ∧ j < ((step node s o).parts k).cls.dec.calls.length :=
      fun n k j hn => ⟨(ih n k j hn).1, Nat.lt_of_lt_of_le (ih n k j hn).2 (g k).1⟩
    have new : ∀ (c : List Pc) m k, (step node s o).calls = c.set m (if k < node.size then .running k (s.parts k).cls.dec.calls.length else .done (.ok ())) →
        (∀ n k j : Nat, n ≠ m → c[n]? = some (Pc.running k j) → s.calls[n]? = some (Pc.running k j)) →
        (k < node.size → acts node s o = some ⟨k, .interview⟩) → Held node (step node s o) := by
      intro c m k hc hold ha n k' j hn
      rw [hc, List.getElem?_set] at hn
      split at hn
      · split at hn
        · split at hn
          · rename_i hk
            cases hn
            refine ⟨hk, ?_⟩
            have := (g k).2 ⟨_, ha hk, rfl⟩
            simp only [State.cls] at this
            omega
          · cases hn
        · cases hn
      · rename_i hne
        exact old n k' j (hold n k' j (fun e => hne e.symm) hn)
    show Held node (step node s o)
    cases o with
    | interview =>
      refine new (s.calls ++ [.done (.ok ())]) s.calls.length 0 (by simp only [step, begin_calls]) ?_ (fun h => by simp only [acts, if_pos h])
      intro n k j hne hn
      rw [List.getElem?_append] at hn
      split at hn
      · exact hn
      · have := List.getElem?_eq_some_iff.1 hn
        obtain ⟨hlt, -⟩ := this
        simp at hlt
        omega
    | resume m =>
      cases hc : s.calls[m]? with
      | none => simpa only [step, hc] using ih
      | some pc =>
        cases pc with
        | done r => simpa only [step, hc] using ih
        | running k i =>
          cases hr : NodeInterview.result (s.parts k).cls.dec i with
          | none => simpa only [step, hc, hr] using ih
          | some r =>
            cases r with
            | ok v => exact new s.calls m (k + 1) (by simp only [step, hc, hr, begin_calls]) (fun n k j _ h => h) (fun h => by simp only [acts, hc, hr, if_pos h])
            | error x =>
              by_cases hx : x = .timeout
              · subst hx
                exact new s.calls m (k + 1) (by simp only [step, hc, hr, begin_calls]) (fun n k j _ h => h) (fun h => by simp only [acts, hc, hr, if_pos h])
              · have e' : (step node s (.resume m)).calls = s.calls.set m (.done (.error x)) := by
                  simp only [step, hc, hr]
                intro n k' j hn
                rw [e', List.getElem?_set] at hn
                split at hn
                · split at hn <;> cases hn
                · exact old n k' j hn
    | cls k x => exact fun n k' j hn => old n k' j hn
    | sys x => exact fun n k' j hn => old n k' j hn

/-! ## The order -/

theorem same (h : Life σ) : ∃ l, Same h.node h.now (NodeInterview.run (NodeInterview.fresh ((List.range h.node.size).map h.ids)) l) := by
  obtain ⟨own, node, ids, attrs, pre, ops, known⟩ := h
  induction ops using Conn.snoc_ind with
  | nil =>
    have : ∀ (os : List System.Op) (s : State σ) t, Same node s t → Same node (run node s (os.map .sys)) t := by
      intro os
      induction os with
      | nil => intro s t h; exact h
      | cons o os ih => intro s t h; exact ih _ t ⟨h.classes, h.calls, h.trace⟩
    refine ⟨[], ?_⟩
    simp only [Life.now, Life.after, Life.all, List.append_nil]
    refine this pre _ _ ⟨fun k => ?_, rfl, rfl⟩
    simp only [NodeInterview.run, NodeInterview.fresh, List.foldl_nil, List.map_map, List.getElem?_map]
    by_cases hk : k < node.size
    · rw [List.getElem?_range hk, if_pos hk]; rfl
    · rw [List.getElem?_eq_none (by simp; omega), if_neg hk]; rfl
  | snoc ops o ih =>
    obtain ⟨l, hl⟩ := ih
    obtain ⟨l', hl'⟩ := hl.step o fun n k j hn => (held ⟨own, node, ids, attrs, pre, ops, known⟩ n k j hn).1
    have e := now_later ⟨own, node, ids, attrs, pre, ops, known⟩ [o]
    rw [later] at e
    refine ⟨l ++ l', ?_⟩
    rw [e, NodeInterview.run, List.foldl_append]
    exact hl'

/-- Call `j` of class number `k` is a call of `interview()` and ended like this. -/
def Ended (s : State σ) (k j : Nat) (r : Py Listen.Ret) : Prop := ∃ x, (s.parts k).cls.dec.calls[j]? = some x ∧ x.only = false ∧ ∃ how, x.pc = .done how r

theorem Same.ended {N : Node σ} {s : State σ} {t : NodeInterview.State} (h : Same N s t) {k j : Nat} {r : Py Listen.Ret} (hc : NodeInterview.CallOf t.classes k j (some r)) : Ended s k j r := by
  obtain ⟨c, x, h1, h2, h3, h4⟩ := hc
  rw [h.classes] at h1
  split at h1
  · cases h1
    exact ⟨x, h2, h3, h4 r rfl⟩
  · cases h1

/-- **C156**, the interview. When `Node.interview()` returns, every class of the node has been interviewed by it in the network, one after the other; each of these interviews has ended,
none of them with an exception other than a timeout. -/
theorem C156_interviewed (h : Life σ) (n : Nat) (hd : h.now.calls[n]? = some (Pc.done (.ok ()))) :
    ∃ rs : List (Nat × Py Listen.Ret), rs.length = h.node.size ∧ NodeInterview.mine n h.now.trace = NodeInterview.visits n 0 rs ∧
      ∀ (k j : Nat) (r : Py Listen.Ret), rs[k]? = some (j, r) → NodeInterview.Passes r ∧ Ended h.now k j r := by
  obtain ⟨l, hs⟩ := same h
  rw [← hs.calls] at hd
  obtain ⟨rs, h1, h2, h3⟩ := NodeInterview.C99_all _ _ n hd
  refine ⟨rs, by simpa using h1, by rw [← hs.trace]; exact h2, fun k j r hk => ⟨(h3 k j r hk).1, hs.ended (h3 k j r hk).2⟩⟩

/-- **C156**, the interview. If it raises, then it raises what the interview of a class raised in the network, which was no timeout; the classes before that one have been interviewed and
those after it have not. -/
theorem C156_raises (h : Life σ) (n : Nat) (e : PyErr) (hd : h.now.calls[n]? = some (Pc.done (.error e))) :
    e ≠ .timeout ∧ ∃ (rs : List (Nat × Py Listen.Ret)) (k j : Nat), (∀ p ∈ rs, NodeInterview.Passes p.2) ∧ k = rs.length ∧ k < h.node.size ∧
      NodeInterview.mine n h.now.trace = NodeInterview.visits n 0 rs ++ [.began n k j, .ended n k j (.error e)] ∧ Ended h.now k j (.error e) := by
  obtain ⟨l, hs⟩ := same h
  rw [← hs.calls] at hd
  obtain ⟨h0, rs, k, j, h1, h2, h3, h4, h5⟩ := NodeInterview.C99_raises _ _ n e hd
  exact ⟨h0, rs, k, j, h1, h2, by simpa using h3, by rw [← hs.trace]; exact h4, hs.ended h5⟩

/-! ## The end -/

/-- What happens to a class, for the node. -/
def lift (k : Nat) : ClassNet.Op (σ k) → Op σ
  | .interview => .cls k .interview
  | .requestVersion => .cls k .requestVersion
  | .proceed i => .cls k (.proceed i)
  | .sys o => .sys o
  | .load v b f => .cls k (.load v b f)
  | .others f => .cls k (.others f)

theorem lift_run (N : Node σ) (k : Nat) (l : List (ClassNet.Op (σ k))) : ∀ s : State σ, (run N s (l.map (lift k))).cls k = ClassNet.run N.nd (N.c k) (s.cls k) l ∧
    (run N s (l.map (lift k))).calls = s.calls ∧ ∀ j, j ≠ k → (run N s (l.map (lift k))).parts j = s.parts j := by
  induction l with
  | nil => intro s; exact ⟨rfl, rfl, fun _ _ => rfl⟩
  | cons o l ih =>
    intro s
    have h : (step N s (lift k o)).cls k = ClassNet.step N.nd (N.c k) (s.cls k) o ∧ (step N s (lift k o)).calls = s.calls ∧ ∀ j, j ≠ k → (step N s (lift k o)).parts j = s.parts j := by
      cases o with
      | sys x => exact ⟨rfl, rfl, fun _ _ => rfl⟩
      | _ => exact ⟨put_self _ _ _, rfl, fun j hj => by simp [lift, step, act, State.put, hj]⟩
    obtain ⟨h1, h2, h3⟩ := ih (step N s (lift k o))
    refine ⟨?_, h2.trans h.2.1, fun j hj => (h3 j hj).trans (h.2.2 j hj)⟩
    rw [h.1] at h1
    exact h1

theorem lift_turn {ok : Bool} {k : Nat} {l : List (ClassNet.Op (σ k))} (h : ∀ o ∈ l, turn ok o = true) : ∀ o ∈ l.map (lift k), nodeTurn ok o = true := by
  intro o ho
  obtain ⟨x, hx, rfl⟩ := List.mem_map.1 ho
  have := h x hx
  cases x <;> first | exact this | rfl | cases this

/-- **C157.** Whatever has happened, every call of `Node.interview()` that has not ended can end without anything from outside: time passes, timers fire and coroutines have their turns,
and sockets that are being opened are opened, or cannot be. -/
theorem C157_ends (ok : Bool) (h : Life σ) (n : Nat) (hn : n < h.now.calls.length) :
    ∃ l, (∀ o ∈ l, nodeTurn ok o = true) ∧ ∃ r, (run h.node h.now l).calls[n]? = some (Pc.done r) := by
  have all : ∀ m (h : Life σ) (k j : Nat), h.now.calls[n]? = some (Pc.running k j) → h.node.size - k ≤ m → ∃ l, (∀ o ∈ l, nodeTurn ok o = true) ∧ ∃ r, (run h.node h.now l).calls[n]? = some (Pc.done r) := by
    intro m
    induction m with
    | zero =>
      intro h k j hc hm
      have := (held h n k j hc).1
      omega
    | succ m ih =>
      intro h k j hc hm
      obtain ⟨hk, hj⟩ := held h n k j hc
      obtain ⟨l, -, e1, e2, -, -, e, -⟩ := life h k
      obtain ⟨lt, h1, how, r, h2⟩ := Silence.C153_ends ok l j (by rw [e]; exact hj)
      rw [e1, e2, e] at h2
      obtain ⟨h3, h4, -⟩ := lift_run h.node k lt h.now
      rw [← h3] at h2
      generalize hs : run h.node h.now (lt.map (lift k)) = s at h2 h3 h4
      have hr : NodeInterview.result (s.parts k).cls.dec j = some r := by
        unfold NodeInterview.result
        simp only [pcOf, State.cls] at h2
        cases hx : (s.parts k).cls.dec.calls[j]? with
        | none => rw [hx] at h2; cases h2
        | some x => rw [hx] at h2; simp at h2; dsimp only; rw [h2]
      have hc' : s.calls[n]? = some (Pc.running k j) := by rw [h4]; exact hc
      have hlt : n < s.calls.length := (List.getElem?_eq_some_iff.1 hc').1
      have tu : ∀ o ∈ lt.map (lift k) ++ [.resume n], nodeTurn ok o = true := by
        intro o ho
        rcases List.mem_append.1 ho with ho | ho
        · exact lift_turn h1 o ho
        · simp at ho; subst ho; rfl
      have next : (step h.node s (.resume n)).calls = s.calls.set n (if k + 1 < h.node.size then .running (k + 1) (s.parts (k + 1)).cls.dec.calls.length else .done (.ok ())) →
          ∃ l, (∀ o ∈ l, nodeTurn ok o = true) ∧ ∃ r, (run h.node h.now l).calls[n]? = some (Pc.done r) := by
        intro hnext
        by_cases hk' : k + 1 < h.node.size
        · rw [if_pos hk'] at hnext
          have hnow : (later h (lt.map (lift k) ++ [.resume n])).now = step h.node s (.resume n) := by rw [now_later, run_snoc, hs]
          obtain ⟨l', h5, r', h6⟩ := ih (later h (lt.map (lift k) ++ [.resume n])) (k + 1) _ (by rw [hnow, hnext]; exact List.getElem?_set_self hlt) (by show h.node.size - (k + 1) ≤ m; omega)
          refine ⟨lt.map (lift k) ++ [.resume n] ++ l', ?_, r', ?_⟩
          · intro o ho
            rcases List.mem_append.1 ho with ho | ho
            · exact tu o ho
            · exact h5 o ho
          · rw [run_append, ← now_later]; exact h6
        · rw [if_neg hk'] at hnext
          exact ⟨_, tu, .ok (), by rw [run_snoc, hs, hnext]; exact List.getElem?_set_self hlt⟩
      cases r with
      | ok v => exact next (by simp only [step, hc', hr, begin_calls])
      | error x =>
        by_cases hx : x = .timeout
        · subst hx
          exact next (by simp only [step, hc', hr, begin_calls])
        · refine ⟨_, tu, .error x, ?_⟩
          rw [run_snoc, hs]
          have e' : (step h.node s (.resume n)).calls = s.calls.set n (.done (.error x)) := by
            simp only [step, hc', hr]
          rw [e']
          exact List.getElem?_set_self hlt
  cases hc : h.now.calls[n]? with
  | none => rw [List.getElem?_eq_none_iff] at hc; omega
  | some pc =>
    cases pc with
    | done r => exact ⟨[], by simp, r, hc⟩
    | running k j => exact all _ h k j hc (Nat.le_refl _)

theorem turn_calls {ok : Bool} {N : Node σ} {s : State σ} {o : Op σ} (ho : nodeTurn ok o = true) : (step N s o).calls.length = s.calls.length := by
  cases o with
  | resume n =>
    simp only [step]
    repeat' split
    all_goals first | rfl | simp [begin_calls]
  | cls k x => rfl
  | sys x => rfl
  | interview => cases ho

theorem turns_calls {ok : Bool} {N : Node σ} (l : List (Op σ)) : ∀ s : State σ, (∀ o ∈ l, nodeTurn ok o = true) → (run N s l).calls.length = s.calls.length := by
  induction l with
  | nil => intro s _; rfl
  | cons o l ih => intro s hl; exact (ih (step N s o) fun x hx => hl x (List.mem_cons_of_mem _ hx)).trans (turn_calls (hl o List.mem_cons_self))

/-- What has ended has ended. -/
theorem step_done {N : Node σ} {s : State σ} (o : Op σ) {n : Nat} {r : Py Unit} (h : s.calls[n]? = some (Pc.done r)) : (step N s o).calls[n]? = some (Pc.done r) := by
  have hlt : n < s.calls.length := (List.getElem?_eq_some_iff.1 h).1
  cases o with
  | interview =>
    simp only [step, begin_calls]
    rw [List.getElem?_set_ne (by omega), List.getElem?_append_left hlt]
    exact h
  | resume m =>
    simp only [step]
    cases hc : s.calls[m]? with
    | none => exact h
    | some pc =>
      cases pc with
      | done r => exact h
      | running k j =>
        have hne : m ≠ n := by
          rintro rfl
          rw [hc] at h
          cases h
        dsimp only
        cases NodeInterview.result (s.parts k).cls.dec j with
        | none => exact h
        | some r =>
          dsimp only
          cases r with
          | ok v => dsimp only; rw [begin_calls, List.getElem?_set_ne hne]; exact h
          | error x => cases x <;> dsimp only <;> (try rw [begin_calls]) <;> rw [List.getElem?_set_ne hne] <;> exact h
  | cls k x => exact h
  | sys x => exact h

theorem run_done {N : Node σ} (l : List (Op σ)) : ∀ (s : State σ) {n : Nat} {r : Py Unit}, s.calls[n]? = some (Pc.done r) → (run N s l).calls[n]? = some (Pc.done r) := by
  induction l with
  | nil => intro s n r h; exact h
  | cons o l ih => intro s n r h; exact ih _ (step_done o h)

/-- **C157**, all of them. Every call of `Node.interview()` there is ends, and every call of `interview()` and `requestVersion()` of its classes, and `Node.interview()` is not called again. -/
theorem C157_all (ok : Bool) (h : Life σ) :
    ∃ l, (∀ o ∈ l, nodeTurn ok o = true) ∧ (run h.node h.now l).calls.length = h.now.calls.length ∧ (∀ x ∈ (run h.node h.now l).calls, ∃ r, x = .done r) ∧
      ∀ k, k < h.node.size → ∀ x ∈ ((run h.node h.now l).cls k).cls.dec.calls, ∃ how r, x.pc = .done how r := by
  have both : ∀ {l l' : List (Op σ)}, (∀ o ∈ l, nodeTurn ok o = true) → (∀ o ∈ l', nodeTurn ok o = true) → ∀ o ∈ l ++ l', nodeTurn ok o = true := by
    intro l l' h1 h2 o ho
    rcases List.mem_append.1 ho with ho | ho
    · exact h1 o ho
    · exact h2 o ho
  have upto : ∀ n, n ≤ h.now.calls.length → ∃ l, (∀ o ∈ l, nodeTurn ok o = true) ∧ ∀ i, i < n → ∃ r, (run h.node h.now l).calls[i]? = some (Pc.done r) := by
    intro n
    induction n with
    | zero => intro _; exact ⟨[], by simp, by omega⟩
    | succ n ih =>
      intro hn
      obtain ⟨l, h1, h2⟩ := ih (by omega)
      obtain ⟨l', h3, r, h4⟩ := C157_ends ok (later h l) n (by rw [now_later, turns_calls l _ h1]; omega)
      rw [now_later] at h4
      refine ⟨l ++ l', both h1 h3, fun i hi => ?_⟩
      rw [run_append]
      rcases Nat.lt_or_ge i n with hl | hl
      · obtain ⟨r', h5⟩ := h2 i hl
        exact ⟨r', run_done l' _ h5⟩
      · have : i = n := by omega
        subst this
        exact ⟨r, h4⟩
  have classes : ∀ n, ∃ l, (∀ o ∈ l, nodeTurn ok o = true) ∧ (∀ i, i < h.now.calls.length → ∃ r, (run h.node h.now l).calls[i]? = some (Pc.done r)) ∧
      ∀ k, k < n → ∀ x ∈ ((run h.node h.now l).cls k).cls.dec.calls, ∃ how r, x.pc = .done how r := by
    intro n
    induction n with
    | zero =>
      obtain ⟨l, h1, h2⟩ := upto _ (Nat.le_refl _)
      exact ⟨l, h1, h2, by omega⟩
    | succ n ih =>
      obtain ⟨l, h1, h2, h3⟩ := ih
      obtain ⟨c, -, e1, e2, -, -, e, -⟩ := life (later h l) n
      obtain ⟨lt, h4, -, h5⟩ := Silence.C153_all ok c
      rw [e1, e2, e, now_later] at h5
      obtain ⟨h6, h7, h8⟩ := lift_run h.node n lt (run h.node h.now l)
      refine ⟨l ++ lt.map (lift n), both h1 (lift_turn h4), fun i hi => ?_, fun k hk => ?_⟩
      · rw [run_append, h7]; exact h2 i hi
      · rw [run_append]
        rcases Nat.lt_or_ge k n with hl | hl
        · have := h3 k hl
          simp only [State.cls] at this ⊢
          rw [h8 k (by omega)]
          exact this
        · have : k = n := by omega
          subst this
          rw [h6]
          exact h5
  obtain ⟨l, h1, h2, h3⟩ := classes h.node.size
  refine ⟨l, h1, turns_calls l _ h1, fun x hx => ?_, h3⟩
  obtain ⟨i, hi⟩ := List.getElem?_of_mem hx
  have hlt := (List.getElem?_eq_some_iff.mp hi).1
  rw [turns_calls l _ h1] at hlt
  obtain ⟨r, h4⟩ := h2 i hlt
  rw [hi] at h4
  exact ⟨r, Option.some.inj h4⟩

/-! ## Examples -/

/-- Manufacturer Specific and Association Group Information. -/
def two : Nat → Type
  | 0 => Dict String Int
  | _ => Unit

def twoClasses : Node two where
  nd := Props.System.asked
  size := 2
  c := fun
    | 0 => (Model.ClassRun.manufacturer : ClassRun.Cls (Dict String Int))
    | _ + 1 => (⟨Body.groupInfo, fun _ s => s⟩ : ClassRun.Cls Unit)

/-- The first question of the interview is about to be sent. -/
def asking : List (Op two) := .interview :: ((Props.System.after100 2).take 5).map .sys

/-- The manufacturer has been reported. -/
def reported : List (Op two) :=
  (ClassNet.turn (σ := Dict String Int) 0 [0x86, 0x14, 0x72, 0x02] ++ ClassNet.turn 1 [0x72, 0x05, 0, 1, 0, 2, 0, 3]).map (lift (σ := two) 0) ++ [.resume 0]

/-- And the rest. -/
def rest : List (Op two) := (ClassNet.turn (σ := Unit) 2 [0x86, 0x14, 0x59, 0x01] ++ ClassNet.turn 3 [0x25, 0x03, 0xFF]).map (lift (σ := two) 1) ++ [.resume 0]

def twoLife (ops : List (Op two)) : Life two where
  own := 1
  node := twoClasses
  ids := fun k => if k = 0 then 0x72 else 0x59
  attrs := fun
    | 0 => ([] : Dict String Int)
    | _ + 1 => ()
  pre := Props.System.before100
  ops := ops
  known := by decide +kernel

/-- The node is interviewed, one class after the other. -/
example :
    (twoLife asking).now.calls = [.running 0 0] ∧ (twoLife (asking ++ reported)).now.calls = [.running 1 0] ∧
    (show Dict String Int from ((twoLife (asking ++ reported)).now.cls 0).cls.attrs) = [("manufacturerID", 1), ("productTypeID", 2), ("productID", 3)] ∧
    (twoLife (asking ++ reported ++ rest)).now.calls = [.done (.ok ())] ∧ ((twoLife (asking ++ reported ++ rest)).now.cls 0).cls.dec.version = 2 ∧
    ((twoLife (asking ++ reported ++ rest)).now.cls 1).cls.dec.version = 1 ∧ ((twoLife (asking ++ reported ++ rest)).now.cls 1).cls.dec.interviewed = true := by
  decide +kernel

/-- And what is held came from the node, whatever else happens. -/
example (ops : List (Op two)) (ho : (twoLife ops).OnlyAsked 0) (n : String) (x : Int)
    (hn : (show Dict String Int from ((twoLife ops).now.cls 0).cls.attrs).get? n = some x) :
    ∃ m, (twoLife ops).Said m ∧ m.hid = 0x7205 ∧ ClassRun.Says m n x := by
  obtain ⟨l, -, -, e1, -, e2, e, hs, -, -, h⟩ := C156_class (twoLife ops) 0
  have key : ∀ l : Spec.ClassNet.Life (Dict String Int), l.c = Model.ClassRun.manufacturer → l.attrs = [] → l.OnlyAsked → l.now.cls.attrs.get? n = some x → ∃ m, l.Said m ∧ m.hid = 0x7205 ∧ ClassRun.Says m n x := by
    intro l h1 h2 h3 h4
    rcases ClassNet.C152_values l .manufacturer Classes.Copy.manufacturerNames (by rw [h1]; simp [ClassRun.copied]) h3 n x h4 with h | h
    · rw [h2] at h; simp [Dict.get?] at h
    · exact h
  have e' : (show Dict String Int from l.now.cls.attrs).get? n = some x := by rw [show l.now.cls.attrs = _ from congrArg (fun s => s.cls.attrs) e]; exact hn
  obtain ⟨m, h1, h2, h3⟩ := key l e1 e2 (h ho) e'
  exact ⟨m, hs m h1, h2, h3⟩

end Props.NodeNet
