import Verif.Spec.Dtls
import Verif.Lemmas.Conn
/-!
# Property theorems C110 - C113: DTLS connections
-/
namespace Props.Dtls
open Spec Spec.Dtls Model Model.Dtls

variable {A : Type}

theorem run_snoc (s : State A) (ops : List (Op A)) (o : Op A) : run s (ops ++ [o]) = step (run s ops) o := by simp [run, List.foldl_append]
theorem run_append (s : State A) (a b : List (Op A)) : run s (a ++ b) = run (run s a) b := by simp [run, List.foldl_append]
theorem run_cons (s : State A) (o : Op A) (b : List (Op A)) : run s (o :: b) = run (step s o) b := rfl

/-! ## C110: what is read is handed on -/

theorem callback_run (ops : List (Op A)) : (run init ops).callback = callback ops := by
  induction ops using Conn.snoc_ind with
  | nil => rfl
  | snoc ops o ih =>
    rw [run_snoc]
    have e : callback (ops ++ [o]) = match o with | .onMessage cb => some cb | _ => callback ops := by
      cases o <;> simp [callback]
    rw [e, ← ih]
    generalize run init ops = s
    cases o <;> simp only [step, start] <;> repeat' split
    all_goals first | rfl | (rename_i h; repeat' split at h) <;> cases h <;> rfl

theorem filterMap_congr {α β : Type} {f g : α → Option β} : ∀ {l : List α}, (∀ a ∈ l, f a = g a) → l.filterMap f = l.filterMap g
  | [], _ => rfl
  | a :: l, h => by rw [List.filterMap_cons, List.filterMap_cons, h a (by simp), filterMap_congr fun b hb => h b (by simp [hb])]

/-- What one event adds to the deliveries. -/
def adds (s : State A) (cb : Option Nat) : Op A → List (Nat × Bytes × Option A)
  | .packet data sender =>
    match reading s, cb with
    | some server, some cb => [(cb, data, if server then some sender else none)]
    | _, _ => []
  | _ => []

theorem deliveries_snoc (ops : List (Op A)) (o : Op A) : deliveries (ops ++ [o]) = deliveries ops ++ adds (run init ops) (callback ops) o := by
  unfold deliveries
  rw [List.length_append, List.length_singleton, List.range_succ, List.filterMap_append]
  congr 1
  · refine filterMap_congr fun p hp => ?_
    have hp := List.mem_range.mp hp
    rw [List.getElem?_append_left hp, List.take_append_of_le_length (Nat.le_of_lt hp)]
  · simp only [List.filterMap_cons, List.filterMap_nil]
    rw [List.getElem?_concat_length, List.take_left' rfl]
    cases o <;> simp only [adds]
    rcases reading (run init ops) with _ | r <;> rcases callback ops with _ | cb <;> rfl

theorem pending_append (a b : List (Item A)) : pending (a ++ b) = pending a ++ pending b := by
  induction a with
  | nil => rfl
  | cons x a ih => cases x <;> simp [pending, ih]

theorem account_step (s : State A) (o : Op A) : (step s o).handed ++ pending (step s o).queue = s.handed ++ pending s.queue ++ adds s s.callback o := by
  cases o with
  | packet data sender =>
    simp only [step, adds, reading]
    rcases hp : s.pc <;> rcases hc : s.callback <;> simp [pending_append, pending]
  | loop =>
    simp only [step, adds, List.append_nil]
    split
    · rfl
    · rename_i hq; rw [hq]; rfl
    · rename_i hq; rw [hq]; simp [pending]
  | thread =>
    simp only [step, adds, List.append_nil]
    split
    · simp [pending_append, pending]
    · rfl
    · split <;> rfl
    · rfl
  | _ =>
    simp only [step, adds, start, List.append_nil]
    repeat' split
    all_goals first | rfl | (rename_i h; repeat' split at h) <;> cases h <;> rfl

/-- **C110.** In every history: what was handed to callbacks, followed by what the event loop still has to hand on, is every datagram that was read while there was a callback,
once, unchanged, in the order in which they were read, to the callback of that moment. -/
theorem C110_handed (ops : List (Op A)) : (run init ops).handed ++ pending (run init ops).queue = deliveries ops := by
  induction ops using Conn.snoc_ind with
  | nil => rfl
  | snoc ops o ih => rw [run_snoc, deliveries_snoc, account_step, ih, callback_run]

theorem loop_handed : ∀ (n : Nat) (s : State A), s.queue.length ≤ n → (run s (List.replicate n .loop)).handed = s.handed ++ pending s.queue ∧ (run s (List.replicate n .loop)).queue = []
  | 0, s, h => by
    have : s.queue = [] := List.eq_nil_of_length_eq_zero (by omega)
    simp [run, this, pending]
  | n + 1, s, h => by
    rw [List.replicate_succ, run_cons]
    have hl : (step s .loop).queue.length ≤ n := by
      simp only [step]; split <;> simp_all
    have a := account_step s .loop
    simp only [adds, List.append_nil] at a
    obtain ⟨h1, h2⟩ := loop_handed n _ hl
    exact ⟨h1.trans a, h2⟩

/-- **C110.** Once the event loop has had a turn for everything it was asked for, everything that was read has been handed on. -/
theorem C110_all (ops : List (Op A)) (n : Nat) (h : (run init ops).queue.length ≤ n) : (run init (ops ++ List.replicate n .loop)).handed = deliveries ops := by
  rw [run_append, (loop_handed n _ h).1, C110_handed]

theorem reading_server (ops : List (Op A)) : ((run init ops).server = true → Op.listen ∈ ops) ∧ ∀ b, (run init ops).pc = .reading b → b = true → Op.listen ∈ ops := by
  induction ops using Conn.snoc_ind with
  | nil => exact ⟨fun h => (by cases h), fun b h => (by cases h)⟩
  | snoc ops o ih =>
    rw [run_snoc]
    have em : Op.listen ∈ ops → Op.listen ∈ ops ++ [o] := fun h => List.mem_append_left _ h
    generalize run init ops = s at ih
    obtain ⟨i1, i2⟩ := ih
    cases o with
    | listen => exact ⟨fun _ => by simp, fun _ _ _ => by simp⟩
    | thread =>
      simp only [step]
      split
      · exact ⟨fun h => em (i1 h), by intro b h; cases h⟩
      · exact ⟨fun h => em (i1 h), by intro b h; cases h⟩
      · split
        · exact ⟨fun h => em (i1 h), by intro b h; cases h; exact fun h => em (i1 h)⟩
        · exact ⟨fun h => em (i1 h), by intro b h; cases h⟩
      · exact ⟨fun h => em (i1 h), fun b h hb => em (i2 b h hb)⟩
    | _ =>
      simp only [step, start]
      repeat' split
      all_goals first
        | exact ⟨fun h => em (i1 h), fun b h hb => em (i2 b h hb)⟩
        | exact ⟨fun h => em (i1 h), by intro b h; cases h⟩
        | (rename_i h; repeat' split at h) <;> cases h <;> first | exact ⟨fun h => em (i1 h), fun b h hb => em (i2 b h hb)⟩ | exact ⟨fun h => em (i1 h), by intro b h; cases h⟩

theorem server_listens (ops' : List (Op A)) (s : State A) (h : s.server = true) (hr : reading s ≠ some false) :
    (run s ops').server = true ∧ reading (run s ops') ≠ some false := by
  induction ops' using Conn.snoc_ind with
  | nil => exact ⟨h, hr⟩
  | snoc ops o ih =>
    rw [run_snoc]
    generalize run s ops = s at ih
    obtain ⟨i1, i2⟩ := ih
    cases o <;> simp only [step, start] <;> repeat' split
    all_goals first
      | exact ⟨i1, i2⟩
      | exact ⟨i1, by simp only [reading]; rw [i1]; simp⟩
      | exact ⟨i1, by simp [reading]⟩
      | exact ⟨rfl, i2⟩
      | ((rename_i h; repeat' split at h) <;> cases h <;> first | exact ⟨i1, i2⟩ | exact ⟨i1, by simp [reading]⟩ | exact ⟨rfl, i2⟩ | exact ⟨rfl, by simp [reading]⟩)

/-- **C110.** The sender is handed on by a connection that listens from the start, and by none on which `listen()` was not called. -/
theorem C110_sender (ops : List (Op A)) :
    (∀ d ∈ deliveries (.listen :: ops), d.2.2.isSome) ∧ (Op.listen ∉ ops → ∀ d ∈ deliveries ops, d.2.2 = none) := by
  have key : ∀ (ops : List (Op A)) d, d ∈ deliveries ops → ∃ a b data sender server, ops = a ++ .packet data sender :: b ∧ reading (run init a) = some server ∧
      d.2.2 = if server then some sender else none := by
    intro ops
    induction ops using Conn.snoc_ind with
    | nil => intro d h; cases h
    | snoc ops o ih =>
      intro d h
      rw [deliveries_snoc, List.mem_append] at h
      rcases h with h | h
      · obtain ⟨a, b, data, sender, server, e, h1, h2⟩ := ih d h
        exact ⟨a, b ++ [o], data, sender, server, by simp [e], h1, h2⟩
      · cases o <;> simp only [adds] at h
        case packet data sender =>
          split at h
          · rename_i server cb hr hc
            simp only [List.mem_singleton] at h
            subst h
            exact ⟨ops, [], data, sender, server, rfl, hr, rfl⟩
          · cases h
        all_goals cases h
  constructor
  · intro d h
    obtain ⟨a, b, data, sender, server, e, h1, h2⟩ := key _ d h
    cases a with
    | nil => cases e
    | cons o a =>
      cases e
      have := (server_listens a (step init .listen) rfl (by simp [step, start, init, reading])).2
      rw [← run_cons, h1] at this
      cases server
      · exact absurd rfl this
      · simp [h2]
  · intro hl d h
    obtain ⟨a, b, data, sender, server, e, h1, h2⟩ := key _ d h
    have hr : (run init a).pc = .reading server := by
      simp only [reading] at h1; split at h1 <;> simp_all
    cases server
    · simp [h2]
    · exact absurd (by rw [e]; exact List.mem_append_left _ ((reading_server a).2 _ hr rfl)) hl

/-- Two datagrams of a client, the second one before the loop had a turn. -/
example : deliveries [Op.onMessage 5, .connect, .created, .thread, .thread, .thread, .packet [1] "a", .thread, .onMessage 6, .packet [2] "a"] = [(5, [1], none), (6, [2], none)] := by
  decide +kernel

/-- **C110.** An AttributeError while the thread reads does not end it: unless `stop()` was called it reads on. Any other error ends it: nothing is handed on after that. -/
theorem C110_errors (ops : List (Op A)) (h : (reading (run init ops)).isSome = true) :
    ((run init ops).running = true → (reading (run init (ops ++ [.readAttributeError, .thread]))).isSome = true) ∧
    ∀ ops', deliveries (ops ++ .readError :: ops') = deliveries ops ∧ reading (run init (ops ++ .readError :: ops')) = none := by
  have hp : ∃ b, (run init ops).pc = .reading b := by
    simp only [reading] at h
    split at h
    · rename_i b hb; exact ⟨b, hb⟩
    · cases h
  obtain ⟨b, hb⟩ := hp
  constructor
  · intro hr
    rw [run_append]
    generalize run init ops = s at hb hr ⊢
    simp [run, step, hb, hr, reading]
  · intro ops'
    have key : (run init (ops ++ .readError :: ops')).pc = .ended ∧ deliveries (ops ++ .readError :: ops') = deliveries ops := by
      induction ops' using Conn.snoc_ind with
      | nil =>
        rw [run_snoc, deliveries_snoc]
        exact ⟨by simp [step, hb], by simp [adds]⟩
      | snoc ops' o ih =>
        rw [show ops ++ .readError :: (ops' ++ [o]) = (ops ++ .readError :: ops') ++ [o] by simp, run_snoc, deliveries_snoc, ih.2]
        obtain ⟨hp, -⟩ := ih
        generalize run init (ops ++ .readError :: ops') = s at hp
        constructor
        · cases o <;> simp only [step, start, hp] <;> repeat' split
          all_goals first | exact hp | rfl | (simp at *; done) | skip
          all_goals simp_all
        · cases o <;> simp [adds, reading, hp]
    exact ⟨key.2, by simp [reading, key.1]⟩

example : (reading (run (init : State Nat) [.connect, .created, .thread, .thread, .thread])).isSome = true ∧
    (run (init : State Nat) [.connect, .created, .thread, .thread, .thread]).running = true := by decide +kernel

/-! ## C111: connecting -/

theorem calls_inv (ops : List (Op A)) : let s := run init ops
    (s.event = true ∨ (∃ i : Nat, s.calls[i]? = some Call.released) ∨ (∃ i : Nat, s.calls[i]? = some Call.returned) ∨ Item.setEvent ∈ s.queue → s.sock = true) ∧
    (s.sock = true → Op.created ∈ ops) ∧ (s.pc = .made → s.sock = true) := by
  induction ops using Conn.snoc_ind with
  | nil => simp [run, init]
  | snoc ops o ih =>
    rw [run_snoc]
    have em : Op.created ∈ ops → Op.created ∈ ops ++ [o] := fun h => List.mem_append_left _ h
    generalize run init ops = s at ih
    obtain ⟨i1, i2, i3⟩ := ih
    have i1e := fun h => i1 (.inl h)
    have i1r := fun i h => i1 (.inr (.inl ⟨i, h⟩))
    have i1t := fun i h => i1 (.inr (.inr (.inl ⟨i, h⟩)))
    have i1q := fun h => i1 (.inr (.inr (.inr h)))
    have setc : ∀ (i : Nat) (c : Call), (c = .released ∨ c = .returned → s.sock = true) → ∀ (j : Nat) d, (s.calls.set i c)[j]? = some d → d = Call.released ∨ d = Call.returned → s.sock = true := by
      intro i c hc j d hj hd
      rw [List.getElem?_set] at hj
      split at hj
      · split at hj
        · cases hj; exact hc hd
        · cases hj
      · rcases hd with rfl | rfl
        · exact i1r _ hj
        · exact i1t _ hj
    have app : ∀ (c : Call), c ≠ .released → c ≠ .returned → ∀ (j : Nat) d, (s.calls ++ [c])[j]? = some d → d = Call.released ∨ d = Call.returned → s.sock = true := by
      intro c h1 h2 j d hj hd
      rw [List.getElem?_append] at hj
      split at hj
      · rcases hd with rfl | rfl
        · exact i1r _ hj
        · exact i1t _ hj
      · rw [List.getElem?_singleton] at hj
        split at hj
        · cases hj; rcases hd with rfl | rfl <;> simp_all
        · cases hj
    cases o with
    | connect =>
      simp only [step, start]
      by_cases hp : s.pc = .idle
      · rw [if_pos hp]
        refine ⟨?_, fun h => em (i2 h), by intro h; cases h⟩
        rintro (h | ⟨i, h⟩ | ⟨i, h⟩ | h)
        · cases h
        · exact app .started (by simp) (by simp) i _ h (.inl rfl)
        · exact app .started (by simp) (by simp) i _ h (.inr rfl)
        · exact i1q h
      · rw [if_neg hp]
        refine ⟨?_, fun h => em (i2 h), i3⟩
        rintro (h | ⟨i, h⟩ | ⟨i, h⟩ | h)
        · cases h
        · exact app .raised (by simp) (by simp) i _ h (.inl rfl)
        · exact app .raised (by simp) (by simp) i _ h (.inr rfl)
        · exact i1q h
    | created =>
      simp only [step]
      split
      · exact ⟨fun _ => rfl, fun _ => by simp, fun _ => rfl⟩
      · exact ⟨i1, fun h => em (i2 h), i3⟩
    | thread =>
      simp only [step]
      split
      · rename_i hp
        exact ⟨fun _ => i3 hp, fun h => em (i2 h), by intro h; cases h⟩
      · exact ⟨i1, fun h => em (i2 h), by intro h; cases h⟩
      · split
        · exact ⟨i1, fun h => em (i2 h), by intro h; cases h⟩
        · exact ⟨i1, fun h => em (i2 h), by intro h; cases h⟩
      · exact ⟨i1, fun h => em (i2 h), i3⟩
    | loop =>
      simp only [step]
      split
      · exact ⟨i1, fun h => em (i2 h), i3⟩
      · rename_i hq
        exact ⟨fun _ => i1q (by simp [hq]), fun h => em (i2 h), i3⟩
      · rename_i hq
        refine ⟨?_, fun h => em (i2 h), i3⟩
        rintro (h | h | h | h)
        · exact i1e h
        · exact i1 (.inr (.inl h))
        · exact i1 (.inr (.inr (.inl h)))
        · exact i1q (by rw [hq]; exact List.mem_cons_of_mem _ h)
    | turn i =>
      simp only [step]
      split
      · refine ⟨?_, fun h => em (i2 h), i3⟩
        have := setc i (if s.event then .returned else .waiting) (by split <;> simp_all)
        rintro (h | ⟨j, h⟩ | ⟨j, h⟩ | h)
        · exact i1e h
        · exact this j _ h (.inl rfl)
        · exact this j _ h (.inr rfl)
        · exact i1q h
      · rename_i hr
        refine ⟨?_, fun h => em (i2 h), i3⟩
        have := setc i .returned (fun _ => i1r _ hr)
        rintro (h | ⟨j, h⟩ | ⟨j, h⟩ | h)
        · exact i1e h
        · exact this j _ h (.inl rfl)
        · exact this j _ h (.inr rfl)
        · exact i1q h
      · exact ⟨i1, fun h => em (i2 h), i3⟩
    | timer i =>
      have := setc i .timedOut (by simp)
      simp only [step]
      split
      case h_4 => exact ⟨i1, fun h => em (i2 h), i3⟩
      all_goals
        refine ⟨?_, fun h => em (i2 h), i3⟩
        rintro (h | ⟨j, h⟩ | ⟨j, h⟩ | h)
        · exact i1e h
        · exact this j _ h (.inl rfl)
        · exact this j _ h (.inr rfl)
        · exact i1q h
    | packet data sender =>
      simp only [step]
      split
      · split
        · refine ⟨?_, fun h => em (i2 h), by intro h; cases h⟩
          rintro (h | h | h | h)
          · exact i1e h
          · exact i1 (.inr (.inl h))
          · exact i1 (.inr (.inr (.inl h)))
          · exact i1q (by simpa using h)
        · exact ⟨i1, fun h => em (i2 h), by intro h; cases h⟩
      · exact ⟨i1, fun h => em (i2 h), i3⟩
    | listen =>
      simp only [step, start]
      by_cases hp : s.pc = .idle
      · rw [if_pos hp]; exact ⟨i1, fun h => em (i2 h), by intro h; cases h⟩
      · rw [if_neg hp]; exact ⟨i1, fun h => em (i2 h), i3⟩
    | createFailed | readAttributeError | readError | send | onMessage | stop =>
      simp only [step]
      repeat' split
      all_goals first
        | exact ⟨i1, fun h => em (i2 h), i3⟩
        | exact ⟨i1, fun h => em (i2 h), by intro h; cases h⟩

/-- **C111.** `connect()` returns only after the socket was created, handshake included; from then on every datagram given to `send()` is given to the socket, once, in order. -/
theorem C111_returns (ops : List (Op A)) (i : Nat) (h : (run init ops).calls[i]? = some Call.returned) :
    Op.created ∈ ops ∧ ∀ data, (step (run init ops) (.send data)).sent = (run init ops).sent ++ [data] := by
  have := calls_inv ops
  have hs := this.1 (.inr (.inr (.inl ⟨i, h⟩)))
  exact ⟨this.2.1 hs, fun data => by simp [step, hs]⟩

/-- Before the socket was created nothing is sent. -/
theorem C111_not_before (ops : List (Op A)) (h : Op.created ∉ ops) (data : Bytes) : (step (run init ops) (.send data)).sent = (run init ops).sent := by
  have : (run init ops).sock ≠ true := fun hs => h ((calls_inv ops).2.1 hs)
  simp [step, this]

/-- **C111.** An instance connects once: every later `connect()` raises RuntimeError, in whatever state. -/
theorem C111_once (ops : List (Op A)) (h : Op.connect ∈ ops ∨ Op.listen ∈ ops) :
    (run init (ops ++ [.connect])).calls = (run init ops).calls ++ [.raised] := by
  have : (run init ops).pc ≠ .idle := by
    induction ops using Conn.snoc_ind with
    | nil => simp at h
    | snoc ops o ih =>
      rw [run_snoc]
      by_cases hp : (run init ops).pc = .idle
      · have ho : o = .connect ∨ o = .listen := by
          simp only [List.mem_append, List.mem_singleton] at h
          rcases h with (h | h) | (h | h)
          · exact absurd hp (ih (.inl h))
          · exact .inl h.symm
          · exact absurd hp (ih (.inr h))
          · exact .inr h.symm
        generalize run init ops = s at hp
        rcases ho with rfl | rfl <;> simp [step, start, hp]
      · generalize run init ops = s at hp
        cases o <;> simp only [step, start, if_neg hp] <;> repeat' split
        all_goals first | exact hp | (intro h; cases h) | assumption | simp
  rw [run_snoc]
  simp [step, start, this]

theorem loops_event : ∀ (q : List (Item A)) (s : State A), s.queue = q ++ [.setEvent] → ∀ i : Nat, s.calls[i]? = some Call.waiting →
    (run s (List.replicate (q.length + 1) .loop)).calls[i]? = some Call.released
  | [], s, h, i, hi => by
    simp [run, step, h, hi, release]
  | .setEvent :: q, s, h, i, hi => by
    rw [List.length_cons, List.replicate_succ, run_cons]
    have e : step s .loop = { s with queue := q ++ [.setEvent], event := true, calls := s.calls.map release } := by simp [step, h]
    rw [e]
    have stay : ∀ (n : Nat) (s : State A) (i : Nat), s.calls[i]? = some Call.released → (run s (List.replicate n .loop)).calls[i]? = some Call.released := by
      intro n
      induction n with
      | zero => intro s i h; exact h
      | succ n ih =>
        intro s i h
        rw [List.replicate_succ, run_cons]
        apply ih
        simp only [step]; split
        · exact h
        · simp [h, release]
        · exact h
    exact stay _ _ i (by simp [hi, release])
  | .deliver cb d x :: q, s, h, i, hi => by
    rw [List.length_cons, List.replicate_succ, run_cons]
    have e : step s .loop = { s with queue := q ++ [.setEvent], handed := s.handed ++ [(cb, d, x)] } := by simp [step, h]
    rw [e]
    exact loops_event q _ rfl i hi

/-- **C111.** If the socket is created in time, `connect()` returns: once the thread has told the loop and the loop has got to it. -/
theorem C111_ends (ops : List (Op A)) (i : Nat) (hp : (run init ops).pc = .made) (hw : (run init ops).calls[i]? = some Call.waiting) :
    (run init (ops ++ .thread :: (List.replicate ((run init ops).queue.length + 1) .loop ++ [.turn i]))).calls[i]? = some Call.returned := by
  rw [run_append]
  generalize run init ops = s at hp hw ⊢
  rw [run_cons, run_append]
  have e : step s .thread = { s with pc := .told, queue := s.queue ++ [.setEvent] } := by simp [step, hp]
  have := loops_event s.queue (step s .thread) (by rw [e]) i (by rw [e]; exact hw)
  generalize run (step s .thread) _ = s' at this
  have hl : i < s'.calls.length := by
    rw [List.getElem?_eq_some_iff] at this; exact this.1
  simp only [run, List.foldl_cons, List.foldl_nil, step, this]
  simp [hl]

/-- And if not, it raises TimeoutError when its time is over. -/
theorem C111_timeout (ops : List (Op A)) (i : Nat) (hw : (run init ops).calls[i]? = some Call.waiting) : (run init (ops ++ [.timer i])).calls[i]? = some Call.timedOut := by
  rw [run_snoc]
  have hl : i < (run init ops).calls.length := by
    rw [List.getElem?_eq_some_iff] at hw; exact hw.1
  simp only [step, hw]
  simp [hl]

example : (run (init : State Nat) [.connect, .turn 0, .created]).pc = .made ∧ (run (init : State Nat) [.connect, .turn 0, .created]).calls[0]? = some Call.waiting := by decide +kernel

/-! ## C112: stopping -/

/-- The full property: after `stop()` nothing is read any more. -/
def C112_statement : Prop := ∀ (ops ops' : List (Op Nat)), deliveries (ops ++ .stop :: ops') = deliveries ops

/-- **C112.** A datagram that arrives after `stop()` is still handed on. -/
theorem C112_violated : ¬ C112_statement := by
  intro h
  have := h [.onMessage 5, .connect, .created, .thread, .thread, .thread] [.packet [1] 0]
  revert this
  decide +kernel

/-- **C112.** And `stop()` during the handshake has no effect: afterwards the thread reads on and on. -/
theorem C112_handshake_violated : ¬ ∃ n, ∀ ops' : List (Op Nat), (deliveries ([.onMessage 5, .connect] ++ .stop :: ops')).length ≤ n := by
  rintro ⟨n, h⟩
  have key : ∀ (n : Nat) (ops : List (Op Nat)), (run init ops).pc = .reading false → (run init ops).running = true → (run init ops).server = false → callback ops = some 5 →
      ∃ ops', deliveries (ops ++ ops') = deliveries ops ++ List.replicate n (5, [1], none) := by
    intro n
    induction n with
    | zero => intro ops _ _ _ _; exact ⟨[], by simp⟩
    | succ n ih =>
      intro ops h1 h2 h3 h4
      have hc : (run init ops).callback = some 5 := by rw [callback_run]; exact h4
      have e : run init (ops ++ [.packet [1] 0] ++ [.thread]) = step (step (run init ops) (.packet [1] 0)) .thread := by rw [run_snoc, run_snoc]
      have c4 : callback (ops ++ [.packet [1] 0] ++ [.thread]) = some 5 := by simpa [callback] using h4
      obtain ⟨ops', ho⟩ := ih (ops ++ [.packet [1] 0] ++ [.thread]) (by rw [e]; simp [step, h1, h2, h3, hc]) (by rw [e]; simp [step, h1, h2, h3, hc])
        (by rw [e]; simp [step, h1, h2, h3, hc]) c4
      refine ⟨[.packet [1] 0] ++ [.thread] ++ ops', ?_⟩
      rw [← List.append_assoc, ← List.append_assoc, ho, deliveries_snoc, deliveries_snoc]
      simp [adds, reading, h1, h4, List.replicate_succ]
  obtain ⟨ops', ho⟩ := key (n + 1) ([.onMessage 5, .connect] ++ .stop :: [.created, .thread, .thread, .thread]) (by decide +kernel) (by decide +kernel) (by decide +kernel) (by decide +kernel)
  have := h ([.created, .thread, .thread, .thread] ++ ops')
  rw [show ([.onMessage 5, .connect] ++ .stop :: ([.created, .thread, .thread, .thread] ++ ops') : List (Op Nat)) =
    ([.onMessage 5, .connect] ++ .stop :: [.created, .thread, .thread, .thread]) ++ ops' from rfl, ho] at this
  simp at this
  omega

/-- **C112.** What holds: once the thread has started to read, at most one datagram is handed on after `stop()`, whatever happens. -/
theorem C112_one_more_partial (ops ops' : List (Op A)) (h : (run init ops).pc = .top ∨ (reading (run init ops)).isSome = true) :
    (deliveries (ops ++ .stop :: ops')).length ≤ (deliveries ops).length + 1 := by
  have key : ∀ ops' : List (Op A), let s := run init (ops ++ .stop :: ops')
      let n := (deliveries (ops ++ .stop :: ops')).length
      s.running = false ∧ (s.pc = .ended ∧ n ≤ (deliveries ops).length + 1 ∨ s.pc = .top ∧ n ≤ (deliveries ops).length + 1 ∨ (∃ b, s.pc = .reading b) ∧ n = (deliveries ops).length) := by
    intro ops'
    induction ops' using Conn.snoc_ind with
    | nil =>
      simp only []
      rw [show ops ++ [.stop] = ops ++ [.stop] from rfl, run_snoc, deliveries_snoc]
      simp only [adds, List.append_nil, step, true_and]
      rcases h with h | h
      · exact .inr (.inl ⟨h, by omega⟩)
      · refine .inr (.inr ⟨?_, trivial⟩)
        rcases hp : (run init ops).pc <;> simp_all [reading]
    | snoc l o ih =>
      simp only [] at ih ⊢
      rw [show ops ++ .stop :: (l ++ [o]) = (ops ++ .stop :: l) ++ [o] by simp, run_snoc, deliveries_snoc]
      generalize run init (ops ++ .stop :: l) = s at ih
      generalize deliveries (ops ++ .stop :: l) = D at ih
      generalize callback (ops ++ .stop :: l) = cb
      obtain ⟨hr, hi⟩ := ih
      have hidle : s.pc ≠ .idle := by rcases hi with ⟨h, -⟩ | ⟨h, -⟩ | ⟨⟨b, h⟩, -⟩ <;> simp [h]
      cases o with
      | packet data sender =>
        rcases hi with ⟨h, hn⟩ | ⟨h, hn⟩ | ⟨⟨b, h⟩, hn⟩
        · simp [step, adds, reading, h, hr, hn]
        · simp [step, adds, reading, h, hr, hn]
        · simp only [step, adds, reading, h]
          refine ⟨by split <;> exact hr, .inr (.inl ⟨by split <;> rfl, ?_⟩)⟩
          rw [List.length_append]
          split <;> simp <;> omega
      | thread =>
        simp only [adds, List.append_nil]
        rcases hi with ⟨h, hn⟩ | ⟨h, hn⟩ | ⟨⟨b, h⟩, hn⟩
        · simp [step, h, hr, hn]
        · simp [step, h, hr, hn]
        · simp [step, h, hr, hn]
      | readAttributeError =>
        simp only [adds, List.append_nil]
        rcases hi with ⟨h, hn⟩ | ⟨h, hn⟩ | ⟨⟨b, h⟩, hn⟩
        · simp [step, h, hr, hn]
        · simp [step, h, hr, hn]
        · simp [step, h, hr, hn]
      | readError =>
        simp only [adds, List.append_nil]
        rcases hi with ⟨h, hn⟩ | ⟨h, hn⟩ | ⟨⟨b, h⟩, hn⟩
        · simp [step, h, hr, hn]
        · simp [step, h, hr, hn]
        · simp [step, h, hr, hn]
      | created =>
        simp only [adds, List.append_nil]
        have : s.pc ≠ .creating := by rcases hi with ⟨h, -⟩ | ⟨h, -⟩ | ⟨⟨b, h⟩, -⟩ <;> simp [h]
        simp only [step, if_neg this]
        exact ⟨hr, hi⟩
      | createFailed =>
        simp only [adds, List.append_nil]
        have : s.pc ≠ .creating := by rcases hi with ⟨h, -⟩ | ⟨h, -⟩ | ⟨⟨b, h⟩, -⟩ <;> simp [h]
        simp only [step, if_neg this]
        exact ⟨hr, hi⟩
      | connect =>
        simp only [adds, List.append_nil, step, start, if_neg hidle]
        exact ⟨hr, hi⟩
      | listen =>
        simp only [adds, List.append_nil, step, start, if_neg hidle]
        exact ⟨hr, hi⟩
      | stop =>
        simp only [adds, List.append_nil, step]
        exact ⟨trivial, hi⟩
      | _ =>
        simp only [adds, List.append_nil, step]
        repeat' split
        all_goals exact ⟨hr, hi⟩
  have := (key ops').2
  omega

example : reading (run init ([.onMessage 5, .connect, .created, .thread, .thread, .thread] : List (Op Nat))) = some false := by decide +kernel

/-! ## C113: keys -/

/-- The `n` bytes at an address. -/
def at_ (m : Mem) (a n : Nat) : Bytes := (List.range n).map fun i => m (a + i)

/-- The address lies in the buffer. -/
def In (a buf len : Nat) : Prop := buf ≤ a ∧ a < buf + len

/-- The full property: OpenSSL gets the key in the buffer it passed, and no memory but the two buffers it passed is written. -/
def C113_statement : Prop := ∀ (psk : Bytes) (m : Mem) (identity maxId cpsk maxPsk : Nat), 128 ≤ maxId → 256 ≤ maxPsk → (∀ a, ¬ (In a identity maxId ∧ In a cpsk maxPsk)) →
  let r := clientPskCb psk m identity maxId cpsk maxPsk
  (∀ a, ¬ In a identity maxId → ¬ In a cpsk maxPsk → r.1 a = m a) ∧ r.2 ≤ maxPsk

theorem memmove_out (m : Mem) (dst : Nat) (data : Bytes) (a : Nat) (h : ¬ In a dst data.length) : memmove m dst data a = m a := if_neg h

theorem memmove_at (m : Mem) (dst : Nat) (data : Bytes) : at_ (memmove m dst data) dst data.length = data := by
  apply List.ext_getElem
  · simp [at_]
  · intro i h1 h2
    have h2' : i < data.length := h2
    simp [at_, memmove, h2']

/-- **C113.** A key that is longer than the buffer is written over what follows it. -/
theorem C113_violated : ¬ C113_statement := by
  intro h
  have := (h (List.replicate 257 7) (fun _ => 0) 1000 128 0 256 (by omega) (by omega) (by unfold In; omega)).1 256 (by unfold In; omega) (by unfold In; omega)
  revert this
  decide +kernel

/-- **C113.** What holds: a key that fits is handed over, with its length, by client and server, with the identity "Client_identity", and nothing else is written. -/
theorem C113_fits_partial (psk : Bytes) (m : Mem) (identity maxId cpsk maxPsk : Nat) (h1 : 15 ≤ maxId) (h2 : psk.length ≤ maxPsk)
    (h3 : ∀ a, ¬ (In a identity maxId ∧ In a cpsk maxPsk)) :
    let r := clientPskCb psk m identity maxId cpsk maxPsk
    let q := serverPskCb psk m cpsk maxPsk
    (r.2 = psk.length ∧ at_ r.1 cpsk r.2 = psk ∧ at_ r.1 identity 15 = "Client_identity".toUTF8.toList ∧ ∀ a, ¬ In a identity maxId → ¬ In a cpsk maxPsk → r.1 a = m a) ∧
    (q.2 = psk.length ∧ at_ q.1 cpsk q.2 = psk ∧ ∀ a, ¬ In a cpsk maxPsk → q.1 a = m a) := by
  have hl : clientIdentity.length = 15 := rfl
  refine ⟨⟨rfl, ?_, ?_, ?_⟩, rfl, memmove_at _ _ _, ?_⟩
  · have e : at_ (clientPskCb psk m identity maxId cpsk maxPsk).1 cpsk psk.length = at_ (memmove m cpsk psk) cpsk psk.length := by
      apply List.map_congr_left
      intro i hi
      rw [List.mem_range] at hi
      apply memmove_out
      intro hin
      refine h3 (cpsk + i) ⟨?_, ?_⟩
      · unfold In at *; omega
      · unfold In; omega
    exact e.trans (memmove_at _ _ _)
  · have := memmove_at (memmove m cpsk psk) identity clientIdentity
    rw [hl] at this
    refine this.trans ?_
    decide +kernel
  · intro a ha hb
    simp only [clientPskCb]
    rw [memmove_out _ _ _ _ (by unfold In at *; omega), memmove_out _ _ _ _ (by unfold In at *; omega)]
  · intro a hb
    simp only [serverPskCb]
    exact memmove_out _ _ _ _ (by unfold In at *; omega)

end Props.Dtls
