import Verif.Spec.Socket
import Verif.Lemmas.Conn
/-!
# Property theorems C102 - C104: datagrams of a connection
-/
namespace Props.Socket
open Spec Spec.Socket Model Model.Socket

variable {A : Type}

theorem run_snoc (s : State A) (ops : List (Op A)) (o : Op A) : run s (ops ++ [o]) = step (run s ops) o := by simp [run, List.foldl_append]
theorem run_append (s : State A) (a b : List (Op A)) : run s (a ++ b) = run (run s a) b := by simp [run, List.foldl_append]

/-! ## C102: what arrives is handed on -/

theorem callback_run (ops : List (Op A)) : (run init ops).callback = callback ops := by
  induction ops using Conn.snoc_ind with
  | nil => rfl
  | snoc ops o ih =>
    rw [run_snoc]
    have e : callback (ops ++ [o]) = match o with | .onMessage cb => some cb | _ => callback ops := by
      cases o <;> simp [callback]
    rw [e, ← ih]
    generalize run init ops = s
    cases o <;> simp only [step, change, sendto, msgReceived] <;> repeat' split
    all_goals rfl

theorem listening_run (ops : List (Op A)) : (run init ops).server = listening ops := by
  induction ops using Conn.snoc_ind with
  | nil => rfl
  | snoc ops o ih =>
    rw [run_snoc]
    have e : listening (ops ++ [o]) = match o with | .listen => true | _ => listening ops := by
      cases o <;> simp [listening]
    rw [e, ← ih]
    generalize run init ops = s
    cases o <;> simp only [step, change, sendto, msgReceived] <;> repeat' split
    all_goals first | rfl | assumption | (symm; assumption)

theorem live_iff (s : State A) (i : Nat) : Live s i ↔ ∃ x, s.socks[i]? = some x ∧ x.phase = .live := by
  unfold Live; cases s.socks[i]? <;> simp

theorem filterMap_congr {α β : Type} {f g : α → Option β} : ∀ {l : List α}, (∀ a ∈ l, f a = g a) → l.filterMap f = l.filterMap g
  | [], _ => rfl
  | a :: l, h => by rw [List.filterMap_cons, List.filterMap_cons, h a (by simp), filterMap_congr fun b hb => h b (by simp [hb])]

theorem deliveries_snoc (ops : List (Op A)) (o : Op A) : deliveries (ops ++ [o]) = deliveries ops ++
    (match o with
    | .datagram i data sender =>
      if Live (run init ops) i then ((callback ops).map fun cb => (cb, data, if listening ops then some sender else none)).toList else []
    | _ => []) := by
  unfold deliveries
  rw [List.length_append, List.length_singleton, List.range_succ, List.filterMap_append]
  congr 1
  · refine filterMap_congr fun p hp => ?_
    have hp := List.mem_range.mp hp
    rw [List.getElem?_append_left hp, List.take_append_of_le_length (Nat.le_of_lt hp)]
  · simp only [List.filterMap_cons, List.filterMap_nil]
    rw [List.getElem?_concat_length, List.take_left' rfl]
    cases o <;> simp only []
    by_cases hl : Live (run init ops) ‹Nat›
    · rw [if_pos hl, if_pos hl]
      cases callback ops <;> rfl
    · rw [if_neg hl, if_neg hl]

/-- **C102.** In every history the callbacks are given exactly the datagrams that arrived on a live transport while there was a callback: each once, in the order of arrival,
unchanged, with the sender exactly if `listen()` was called. -/
theorem C102_handed (ops : List (Op A)) : (run init ops).handed = deliveries ops := by
  induction ops using Conn.snoc_ind with
  | nil => rfl
  | snoc ops o ih =>
    rw [run_snoc, deliveries_snoc, ← ih, ← callback_run, ← listening_run]
    generalize run init ops = s
    cases o with
    | datagram i data sender =>
      simp only [step, live_iff]
      rcases hx : s.socks[i]? with _ | x
      · simp
      · simp only [Option.some.injEq, exists_eq_left']
        split
        · unfold msgReceived
          rcases s.callback with _ | cb
          · simp
          · cases s.server <;> simp
        · simp
    | _ =>
      simp only [step, change, sendto, List.append_nil] <;> repeat' split
      all_goals rfl

/-- An error of the socket, a failed attempt to connect and sending do not disturb receiving. -/
example : let ops : List (Op Nat) := [.onMessage 7, .connect, .opened 0, .datagram 0 [1] 9, .proceed 0, .error 0, .send [5], .datagram 0 [2] 9, .connect, .openFailed 1, .proceed 1,
      .datagram 1 [3] 9, .onMessage 8, .datagram 0 [4] 9, .listen, .opened 2, .datagram 2 [6] 3]
    (run init ops).handed = [(7, [1], none), (7, [2], none), (8, [4], none), (8, [6], some 3)] := by decide +kernel

/-! ## C103: what is sent -/

/-- The full property: if `send()` returns True the datagram was sent. -/
def C103_statement : Prop := ∀ (ops : List (Op Nat)) (data : Bytes), data ≠ [] →
  (run init (ops ++ [.send data])).answers = (run init ops).answers ++ [.ok (some true)] → ∃ i, (run init (ops ++ [.send data])).wire = (run init ops).wire ++ [(i, data, none)]

/-- **C103.** `send()` returns True after the connection was lost or stopped; the datagram is dropped. -/
theorem C103_violated : ¬ C103_statement := by
  intro h
  obtain ⟨i, h⟩ := h [.connect, .opened 0, .proceed 0, .stop] [1] (by simp) (by decide +kernel)
  have e : (run init ([.connect, .opened 0, .proceed 0, .stop] ++ [.send [1]] : List (Op Nat))).wire = [] := by decide +kernel
  rw [e] at h
  simp at h

theorem sock_step (s : State A) (o : Op A) (h : ¬ Proceeds o) : (step s o).sock = s.sock := by
  cases o <;> simp only [step, change, sendto, msgReceived, Proceeds, not_true_eq_false] at h ⊢ <;> repeat' split
  all_goals first | rfl | assumption | (symm; assumption)

theorem sock_run (s : State A) (ops : List (Op A)) (h : ∀ o ∈ ops, ¬ Proceeds o) : (run s ops).sock = s.sock := by
  induction ops using Conn.snoc_ind with
  | nil => rfl
  | snoc ops o ih => rw [run_snoc, sock_step _ _ (h o (by simp)), ih fun o ho => h o (by simp [ho])]

/-- **C103.** Before a call of `connect()` or `listen()` has returned, `send()` returns False and `sendTo()` and `stop()` raise; nothing is sent. -/
theorem C103_unconnected_partial (ops : List (Op A)) (h : ∀ o ∈ ops, ¬ Proceeds o) (data : Bytes) (dest : A) :
    let s := run init ops
    (run init (ops ++ [.send data])).answers = s.answers ++ [.ok (some false)] ∧ (run init (ops ++ [.send data])).wire = s.wire ∧
      (run init (ops ++ [.sendTo data dest])).answers = s.answers ++ [.error .attribute] ∧ (run init (ops ++ [.sendTo data dest])).wire = s.wire ∧
      (run init (ops ++ [.stop])).answers = s.answers ++ [.error .attribute] := by
  have e := sock_run init ops h
  simp only [run_snoc]
  generalize run init ops = s at *
  simp only [init] at e
  simp [step, e]

/-- The state after a call of `connect()` or `listen()` for transport `i` has returned, and further events. -/
theorem sock_of (ops1 ops2 : List (Op A)) (i : Nat) (h1 : ∃ x, (run init ops1).socks[i]? = some x ∧ x.returned = false ∧ x.phase ≠ .opening ∧ x.phase ≠ .failed)
    (h2 : ∀ o ∈ ops2, ¬ Proceeds o) : (run init (ops1 ++ .proceed i :: ops2)).sock = some i := by
  rw [show ops1 ++ .proceed i :: ops2 = ops1 ++ [.proceed i] ++ ops2 by simp, run_append, sock_run _ _ h2, run_snoc]
  obtain ⟨x, hx, h1, h2, h3⟩ := h1
  simp [step, hx, h1, h2, h3, change]

/-- **C103.** After `connect()` or `listen()` has returned, and until another call of them returns: `send()` returns True, and it sends the datagram once, on the transport of that
call, if that transport is live. Otherwise nothing is sent. -/
theorem C103_connected_partial (ops1 ops2 : List (Op A)) (i : Nat)
    (h1 : ∃ x, (run init ops1).socks[i]? = some x ∧ x.returned = false ∧ x.phase ≠ .opening ∧ x.phase ≠ .failed) (h2 : ∀ o ∈ ops2, ¬ Proceeds o) (data : Bytes) (hd : data ≠ [])
    (dest : A) :
    let ops := ops1 ++ .proceed i :: ops2
    let s := run init ops
    (run init (ops ++ [.send data])).answers = s.answers ++ [.ok (some true)] ∧
      (run init (ops ++ [.send data])).wire = (if Live s i then s.wire ++ [(i, data, none)] else s.wire) ∧
      (run init (ops ++ [.sendTo data dest])).answers = s.answers ++ [.ok none] ∧
      (run init (ops ++ [.sendTo data dest])).wire = (if Live s i then s.wire ++ [(i, data, some dest)] else s.wire) := by
  have e := sock_of ops1 ops2 i h1 h2
  simp only [run_snoc]
  generalize run init (ops1 ++ .proceed i :: ops2) = s at *
  simp only [step, e, sendto, live_iff]
  rcases hx : s.socks[i]? with _ | x
  · simp
  · by_cases hl : x.phase = .live <;> simp [hl, hd]

/-- **C103.** Nothing else is sent. -/
theorem C103_only_partial (ops : List (Op A)) (o : Op A) (h : (run init (ops ++ [o])).wire ≠ (run init ops).wire) :
    (∃ data, o = .send data) ∨ ∃ data dest, o = .sendTo data dest := by
  rw [run_snoc] at h
  generalize run init ops = s at *
  cases o with
  | send data => exact .inl ⟨_, rfl⟩
  | sendTo data dest => exact .inr ⟨_, _, rfl⟩
  | _ =>
    exfalso; apply h
    simp only [step, change, msgReceived] <;> repeat' split
    all_goals rfl

/-- **C103.** Empty datagrams are not sent. -/
theorem C103_empty_partial (ops : List (Op A)) : ∀ d ∈ (run init ops).wire, d.2.1 ≠ [] := by
  induction ops using Conn.snoc_ind with
  | nil => intro d h; cases h
  | snoc ops o ih =>
    rw [run_snoc]
    generalize run init ops = s at ih ⊢
    have snd : ∀ (i : Nat) (data : Bytes) (dest : Option A), ∀ d ∈ (sendto s i data dest).wire, d.2.1 ≠ [] := by
      intro i data dest d hd
      simp only [sendto] at hd
      split at hd
      · split at hd
        · rename_i hl
          rcases List.mem_append.mp hd with h | h
          · exact ih d h
          · rw [List.mem_singleton] at h; subst h; exact hl.2
        · exact ih d hd
      · exact ih d hd
    cases o with
    | send data => simp only [step]; split <;> first | exact ih | exact snd _ _ _
    | sendTo data dest => simp only [step]; split <;> first | exact ih | exact snd _ _ _
    | _ =>
      simp only [step, change, msgReceived] <;> repeat' split
      all_goals exact ih

/-- A connection that sends before it is connected, while it is, and after it was lost. -/
example : let ops : List (Op Nat) := [.send [1], .connect, .opened 0, .send [2], .proceed 0, .send [3], .broken 0, .send [4], .closed 0, .watch 0, .send [5]]
    (run init ops).wire = [(0, [3], none)] ∧
      (run init ops).answers = [.ok (some false), .ok (some false), .ok (some true), .ok (some true), .ok (some true)] := by decide +kernel

/-! ## C104: what ends a connection -/

/-- The full property: only `stop()` and a fatal error of its own socket end a connection. -/
def C104_statement : Prop := ∀ (ops : List (Op Nat)) (o : Op Nat) (i : Nat), Live (run init ops) i → ¬ Live (run init (ops ++ [o])) i → o = .stop ∨ o = .broken i

/-- **C104.** When the socket of an earlier `connect()` is lost, the socket of the later one is closed. -/
theorem C104_violated : ¬ C104_statement := by
  intro h
  have := h [.connect, .opened 0, .proceed 0, .connect, .opened 1, .proceed 1, .broken 0, .closed 0] (.watch 0) 1 (by decide +kernel) (by decide +kernel)
  simp at this

/-- Where a transport can be lost from. -/
theorem ended (s : State A) (o : Op A) (i : Nat) (h : Live s i) (hn : ¬ Live (step s o) i) :
    (o = .stop ∧ s.sock = some i) ∨ o = .broken i ∨ ∃ j x, o = .watch j ∧ j ≠ i ∧ s.socks[j]? = some x ∧ x.watched = true ∧ x.phase = .lost ∧ s.sock = some i := by
  obtain ⟨x, hx, hp⟩ := (live_iff s i).mp h
  have mod : ∀ (t : State A) (j : Nat) (f : Sock → Sock), t.socks = s.socks → (j = i → (f x).phase = .live) → Live (change t j f) i := by
    intro t j f ht hf
    rw [live_iff]
    simp only [change, ht, List.getElem?_modify, hx]
    by_cases hj : j = i
    · exact ⟨f x, by simp [hj], hf hj⟩
    · exact ⟨x, by simp [hj], hp⟩
  have app : ∀ y : Sock, (s.socks ++ [y])[i]? = some x := fun y => by
    rw [List.getElem?_append_left (Waiter.lt_of_getElem? hx)]; exact hx
  have keep : ∀ t : State A, t.socks = s.socks → Live t i := fun t ht => (live_iff t i).mpr ⟨x, by rw [ht, hx], hp⟩
  cases o with
  | connect => exact absurd ((live_iff _ _).mpr ⟨x, app _, hp⟩) hn
  | listen => exact absurd ((live_iff _ _).mpr ⟨x, app _, hp⟩) hn
  | opened j =>
    exfalso; apply hn
    simp only [step]
    split
    · split
      · exact mod _ _ _ rfl fun _ => rfl
      · exact h
    · exact h
  | openFailed j =>
    exfalso; apply hn
    simp only [step]
    split
    · rename_i y hy
      split
      · rename_i ho
        refine mod _ _ _ rfl fun e => ?_
        subst e; rw [hx] at hy; cases hy; rw [hp] at ho; cases ho
      · exact h
    · exact h
  | proceed j =>
    exfalso; apply hn
    simp only [step]
    split
    · split
      · split
        · exact mod _ _ _ rfl fun _ => hp
        · exact mod _ _ _ rfl fun _ => hp
      · exact h
    · exact h
  | datagram j data sender =>
    exfalso; apply hn
    simp only [step, msgReceived]
    repeat' split
    all_goals first | exact h | exact keep _ rfl
  | error j => exact absurd h hn
  | broken j =>
    by_cases hj : j = i
    · exact .inr (.inl (by rw [hj]))
    · exfalso; apply hn
      simp only [step]
      split
      · exact mod _ _ _ rfl fun e => absurd e hj
      · exact h
  | closed j =>
    exfalso; apply hn
    simp only [step]
    split
    · rename_i y hy
      split
      · rename_i ho
        refine mod _ _ _ rfl fun e => ?_
        subst e; rw [hx] at hy; cases hy; rw [hp] at ho; cases ho
      · exact h
    · exact h
  | watch j =>
    right; right
    rcases hy : s.socks[j]? with _ | y
    · simp only [step, hy] at hn; exact absurd h hn
    · by_cases hw : y.watched = true ∧ y.phase = .lost
      · have hj : j ≠ i := by rintro rfl; rw [hx] at hy; cases hy; rw [hp] at hw; exact absurd hw.2 (by simp)
        refine ⟨j, y, rfl, hj, hy, hw.1, hw.2, ?_⟩
        rcases hs : s.sock with _ | k
        · exfalso; apply hn
          simp only [step, hy, hw, and_self, if_true, change, hs]
          exact mod s j _ rfl fun e => absurd e hj
        · by_cases hk : k = i
          · rw [hk]
          · exfalso; apply hn
            simp only [step, hy, hw, and_self, if_true, change, hs]
            rw [live_iff]
            refine ⟨x, ?_, hp⟩
            simp [List.getElem?_modify, hj, hk, hx]
      · simp only [step, hy, hw, if_false] at hn; exact absurd h hn
  | send data =>
    exfalso; apply hn
    simp only [step, sendto]
    repeat' split
    all_goals exact keep _ rfl
  | sendTo data dest =>
    exfalso; apply hn
    simp only [step, sendto]
    repeat' split
    all_goals exact keep _ rfl
  | onMessage cb => exact absurd (keep _ rfl) hn
  | stop =>
    left
    refine ⟨rfl, ?_⟩
    rcases hs : s.sock with _ | k
    · simp only [step, hs] at hn; exact absurd (keep _ rfl) hn
    · by_cases hk : k = i
      · rw [hk]
      · exfalso; apply hn
        simp only [step, hs]
        rw [live_iff]
        refine ⟨x, ?_, hp⟩
        simp [change, hk, hx]

theorem watched_run (ops : List (Op A)) : ∀ (i : Nat) (x : Sock), (run init ops).socks[i]? = some x →
    (x.watched = true → x.client = true) ∧ (x.phase = .lost → Op.closed i ∈ ops) := by
  induction ops using Conn.snoc_ind with
  | nil => intro i x h; simp [run, init] at h
  | snoc ops o ih =>
    rw [run_snoc]
    have em : ∀ i, Op.closed i ∈ ops → Op.closed i ∈ ops ++ [o] := fun i h => List.mem_append_left _ h
    generalize run init ops = s at ih
    have base : ∀ t : State A, t.socks = s.socks → ∀ (i : Nat) (x : Sock), t.socks[i]? = some x →
        (x.watched = true → x.client = true) ∧ (x.phase = .lost → Op.closed i ∈ ops ++ [o]) := by
      intro t ht i x h
      rw [ht] at h
      exact ⟨(ih i x h).1, fun hl => em _ ((ih i x h).2 hl)⟩
    have app : ∀ (t : State A) (y : Sock), t.socks = s.socks ++ [y] → y.watched = false → y.phase = .opening → ∀ (i : Nat) (x : Sock), t.socks[i]? = some x →
        (x.watched = true → x.client = true) ∧ (x.phase = .lost → Op.closed i ∈ ops ++ [o]) := by
      intro t y ht h1 h2 i x h
      rw [ht, List.getElem?_append] at h
      split at h
      · exact base s rfl i x h
      · have : x = y := by
          have := List.mem_of_getElem? h
          simpa using this
        subst this
        rw [h1, h2]
        exact ⟨fun h => (by cases h), fun h => (by cases h)⟩
    have mod : ∀ (t : State A) (j : Nat) (f : Sock → Sock),
        (∀ (i : Nat) (x : Sock), t.socks[i]? = some x → (x.watched = true → x.client = true) ∧ (x.phase = .lost → Op.closed i ∈ ops ++ [o])) →
        (∀ x, t.socks[j]? = some x → ((f x).watched = true → (f x).client = true) ∧ ((f x).phase = .lost → Op.closed j ∈ ops ++ [o])) →
        ∀ (i : Nat) (x : Sock), (change t j f).socks[i]? = some x → (x.watched = true → x.client = true) ∧ (x.phase = .lost → Op.closed i ∈ ops ++ [o]) := by
      intro t j f ht hf i x h
      simp only [change, List.getElem?_modify] at h
      by_cases hj : j = i
      · subst hj
        rcases hx : t.socks[j]? with _ | y
        · rw [hx] at h; simp at h
        · rw [hx] at h
          simp only [if_true, Option.map_eq_map, Option.map_some, Option.some.injEq] at h
          subst h
          exact hf y hx
      · simp only [if_neg hj] at h
        exact ht i x (by simpa using h)
    have cls : ∀ (t : State A) (j : Nat),
        (∀ (i : Nat) (x : Sock), t.socks[i]? = some x → (x.watched = true → x.client = true) ∧ (x.phase = .lost → Op.closed i ∈ ops ++ [o])) →
        ∀ (i : Nat) (x : Sock), (change t j Sock.close).socks[i]? = some x → (x.watched = true → x.client = true) ∧ (x.phase = .lost → Op.closed i ∈ ops ++ [o]) := by
      intro t j ht
      refine mod t j _ ht fun x hx => ?_
      unfold Sock.close
      split
      · exact ⟨(ht j x hx).1, fun h => (by cases h)⟩
      · exact ht j x hx
    have snd : ∀ (i : Nat) (data : Bytes) (dest : Option A), (sendto s i data dest).socks = s.socks := by
      intro i data dest; simp only [sendto]; repeat' split
      all_goals rfl
    cases o with
    | connect => exact app _ _ rfl rfl rfl
    | listen => exact app _ _ rfl rfl rfl
    | opened j =>
      simp only [step]
      split
      · split
        · exact mod s j _ (base s rfl) fun x hx => ⟨(ih j x hx).1, fun h => (by cases h)⟩
        · exact base s rfl
      · exact base s rfl
    | openFailed j =>
      simp only [step]
      split
      · split
        · exact mod s j _ (base s rfl) fun x hx => ⟨(ih j x hx).1, fun h => (by cases h)⟩
        · exact base s rfl
      · exact base s rfl
    | proceed j =>
      simp only [step]
      split
      · rename_i y hy
        split
        · split
          · exact mod s j _ (base s rfl) fun x hx => base s rfl j x hx
          · refine mod _ j _ (base _ rfl) fun x hx => ⟨fun h => ?_, fun h => em _ ((ih j x hx).2 h)⟩
            rw [hy] at hx; cases hx; exact h
        · exact base s rfl
      · exact base s rfl
    | datagram j data sender =>
      simp only [step, msgReceived]
      repeat' split
      all_goals exact base _ rfl
    | error j => exact base s rfl
    | broken j =>
      simp only [step]
      split
      · exact cls s j (base s rfl)
      · exact base s rfl
    | closed j =>
      simp only [step]
      split
      · split
        · exact mod s j _ (base s rfl) fun x hx => ⟨(ih j x hx).1, fun _ => by simp⟩
        · exact base s rfl
      · exact base s rfl
    | watch j =>
      simp only [step]
      split
      · split
        · have h1 := mod s j ({ · with watched := false }) (base s rfl) fun x hx => ⟨fun h => (by cases h), fun h => em _ ((ih j x hx).2 h)⟩
          split
          · exact cls _ _ h1
          · exact h1
        · exact base s rfl
      · exact base s rfl
    | send data =>
      simp only [step]
      split
      · exact base _ rfl
      · exact base _ (snd _ _ _)
    | sendTo data dest =>
      simp only [step]
      split
      · exact base _ rfl
      · exact base _ (snd _ _ _)
    | onMessage cb => exact base _ rfl
    | stop =>
      simp only [step]
      split
      · exact base _ rfl
      · exact cls s _ (base s rfl)

theorem clients_run (ops : List (Op A)) : (run init ops).socks.map (·.client) = openings ops := by
  induction ops using Conn.snoc_ind with
  | nil => rfl
  | snoc ops o ih =>
    rw [run_snoc]
    have e : openings (ops ++ [o]) = openings ops ++ (match o with | .connect => [true] | .listen => [false] | _ => []) := by
      cases o <;> simp [openings]
    rw [e, ← ih]
    generalize run init ops = s
    have mod : ∀ (t : State A) (j : Nat) (f : Sock → Sock), (∀ x, (f x).client = x.client) → (change t j f).socks.map (·.client) = t.socks.map (·.client) := by
      intro t j f hf
      apply List.ext_getElem?
      intro i
      simp only [change, List.getElem?_map, List.getElem?_modify]
      rcases t.socks[i]? with _ | x
      · rfl
      · by_cases hj : j = i <;> simp [hj, hf]
    have cl : ∀ x : Sock, x.close.client = x.client := by intro x; unfold Sock.close; split <;> rfl
    cases o <;> simp only [step, sendto, msgReceived, List.append_nil, List.map_append] <;> repeat' split
    all_goals first | rfl | (exact mod _ _ _ fun _ => rfl) | (exact mod _ _ _ cl) | (rw [mod _ _ _ cl]; exact mod _ _ _ fun _ => rfl)

/-- **C104.** A transport ends only by `stop()`, by a fatal error of its own socket, or because another transport of the same connection, one that was created by `connect()`, was
lost: asyncio has called its `connection_lost`. -/
theorem C104_ended_partial (ops : List (Op A)) (o : Op A) (i : Nat) (h : Live (run init ops) i) (hn : ¬ Live (run init (ops ++ [o])) i) :
    o = .stop ∨ o = .broken i ∨ ∃ j : Nat, o = .watch j ∧ j ≠ i ∧ (openings ops)[j]? = some true ∧ .closed j ∈ ops := by
  rw [run_snoc] at hn
  rcases ended _ o i h hn with h | h | ⟨j, x, h1, h2, h3, h5, h4, -⟩
  · exact .inl h.1
  · exact .inr (.inl h)
  · exact .inr (.inr ⟨j, h1, h2, by rw [← clients_run, List.getElem?_map, h3]; exact congrArg some ((watched_run ops j x h3).1 h5), (watched_run ops j x h3).2 h4⟩)

/-- **C104.** A connection on which `connect()` or `listen()` was called once ends only by `stop()` and by a fatal error of its socket. -/
theorem C104_once_partial (ops : List (Op A)) (o : Op A) (i : Nat) (h1 : (openings ops).length ≤ 1) (h : Live (run init ops) i)
    (hn : ¬ Live (run init (ops ++ [o])) i) : o = .stop ∨ o = .broken i := by
  rcases C104_ended_partial ops o i h hn with h | h | ⟨j, -, hj, hx, -⟩
  · exact .inl h
  · exact .inr h
  · exfalso
    obtain ⟨y, hy, -⟩ := (live_iff _ _).mp h
    have a := Waiter.lt_of_getElem? hx
    have b := Waiter.lt_of_getElem? hy
    rw [← List.length_map (f := (·.client)) , clients_run] at b
    omega

/-- A connection that was opened once and goes on through errors and lost datagrams until it is stopped. -/
example : let ops : List (Op Nat) := [.connect, .opened 0, .proceed 0, .error 0, .closed 0, .watch 0]
    Live (run init ops) 0 ∧ (openings ops).length ≤ 1 ∧ ¬ Live (run init (ops ++ [.stop])) 0 := by decide +kernel

end Props.Socket
