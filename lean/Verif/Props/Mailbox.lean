import Verif.Lemmas.Mailbox
import Verif.Lemmas.NetMan
/-!
# The mailbox (C69-C76, C93)

All theorems are about `Model.Mailbox.run fresh ops` for every list of operations: messages received from any node, sends that end with True, False or an exception,
and heartbeat timers, in any order. What the mailbox did is read off its trace with the definitions of `Spec/Mailbox.lean`.
-/
namespace Props.Mailbox
open Spec (Bytes toBits bitsOf)
open Model Model.Classes Model.Mailbox Spec.Mailbox Lemmas.Mailbox
open Model.Gateway (compose_of_layout arg1 argKw_arg1 argKw_none reserved_arg1)

/-! ## Messages used in examples, as decoded from the network -/

/-- Push of `x` to queue `h`. -/
def pushMsg (h : Nat) (x : Bytes) : Msg := .known 0x6904
  [("-", .num (.reserved 4) 0), ("last", .num .flag 0), ("operation", .num (.ubits 3) 0), ("queueHandle", .num (.uint 1) h), ("mailboxEntry", .bytes x)]

/-- Acknowledgement for queue `h`. -/
def ackMsg (h : Nat) : Msg := .known 0x6904
  [("-", .num (.reserved 4) 0), ("last", .num .flag 0), ("operation", .num (.ubits 3) 4), ("queueHandle", .num (.uint 1) h)]

/-- Wakeup notification for queue `h`. -/
def wakeMsg (h : Nat) : Msg := .known 0x6905 [("queueHandle", .num (.uint 1) h)]

example : decode [0x69, 0x04, 0x00, 0x05, 0x20, 0x01, 0xFF] = .ok (pushMsg 5 [0x20, 0x01, 0xFF]) := by rfl
example : decode [0x69, 0x04, 0x04, 0x05] = .ok (ackMsg 5) := by rfl
example : decode [0x69, 0x05, 0x05] = .ok (wakeMsg 5) := by rfl
example : IsPush (pushMsg 5 [0x20, 0x01, 0xFF]) 5 [0x20, 0x01, 0xFF] := by decide +kernel

/-- Two entries are accepted, then the node wakes up, acknowledges the first and then the second, and is told that there is nothing more. -/
def session : List Op :=
  [.received 1 (pushMsg 5 [0x20]), .sendEnds 0 (.ok true), .received 1 (pushMsg 5 [0x25]), .sendEnds 1 (.ok true), .tick 0, .beatEnds 0 (.ok true),
   .received 1 (wakeMsg 5), .sendEnds 2 (.ok true), .received 1 (ackMsg 5), .sendEnds 3 (.ok true), .received 1 (ackMsg 5), .sendEnds 4 (.ok true)]

/-! ## What a message of the mailbox looks like -/

/-- The third byte of a message: bit 3 is the flag 'last', bits 2..0 are the operation. -/
def thirdByte : Bool → Operation → UInt8
  | true, .pop => 0x09
  | false, .pop => 0x01
  | true, .waiting => 0x0A
  | false, .waiting => 0x02
  | true, .ping => 0x0B
  | false, .ping => 0x03

theorem thirdByte_bits (last : Bool) (op : Operation) (r : List Bool) :
    false :: false :: false :: false :: last :: (toBits 3 op.value.toNat ++ r) = toBits 8 (thirdByte last op).toNat ++ r := by
  have : false :: false :: false :: false :: last :: toBits 3 op.value.toNat = toBits 8 (thirdByte last op).toNat := by
    cases last <;> cases op <;> decide +kernel
  rw [← this]; rfl

/-- On the wire: the flag and the operation, the handle and the entry. -/
theorem C73_wire (o : Out) (h0 : 0 ≤ o.handle) (h1 : o.handle < 256) :
    ∃ m, o.msg = .ok m ∧
      compose m = .ok ([0x69, 0x04, thirdByte o.last o.operation, UInt8.ofNat o.handle.toNat] ++ o.entry.getD []) := by
  obtain ⟨node, last, op, handle, entry⟩ := o
  obtain ⟨k, rfl⟩ := Int.eq_ofNat_of_zero_le h0
  have hk : (k : Int) < 256 := h1
  have hk' : k < 256 := by omega
  have hop : 0 ≤ op.value ∧ op.value < 8 := by cases op <;> decide
  have hlast : ((if last = true then (1 : Int) else 0) % 2 == 1) = last := by cases last <;> rfl
  cases entry with
  | none =>
    have := compose_of_layout (L := ⟨"Mailbox.Queue", 0x69, 0x04, [.zero 4, .flag "last", .num "operation" 3, .num "queueHandle" 8, .rest "mailboxEntry"]⟩)
      (List.mem_of_getElem? (i := 23) rfl) (d := Reg.Mailbox.Queue) (List.mem_of_getElem? (i := 28) rfl) rfl
      (a := arg1 "last" (.int (if last then 1 else 0)) <| arg1 "operation" (.int op.value) <| arg1 "queueHandle" (.int k) fun _ => none)
      (b := [0x69, 0x04, thirdByte last op, UInt8.ofNat k])
      (by repeat' (first | (apply reserved_arg1 (by decide)) | (intro _ _; rfl))) (by
        simp [Spec.Layout.wire, Spec.slotsWire, Spec.Slot.wire, arg1, hk, bitsOf, hop, hlast, Nat.mod_eq_of_lt hk', ← thirdByte_bits])
    simp only [argKw_arg1, argKw_none] at this
    obtain ⟨m, a, b⟩ := this
    refine ⟨m, ?_, by simpa using b⟩
    rw [← a]
    unfold Out.msg
    congr 1
    funext n
    simp only [Model.Gateway.kw1, Option.map_none, boolVal, Model.argVal]
    by_cases h1 : n = "last" <;> by_cases h2 : n = "operation" <;> by_cases h3 : n = "queueHandle" <;> simp [h1, h2, h3]
  | some x =>
    have := compose_of_layout (L := ⟨"Mailbox.Queue", 0x69, 0x04, [.zero 4, .flag "last", .num "operation" 3, .num "queueHandle" 8, .rest "mailboxEntry"]⟩)
      (List.mem_of_getElem? (i := 23) rfl) (d := Reg.Mailbox.Queue) (List.mem_of_getElem? (i := 28) rfl) rfl
      (a := arg1 "last" (.int (if last then 1 else 0)) <| arg1 "operation" (.int op.value) <| arg1 "queueHandle" (.int k) <| arg1 "mailboxEntry" (.bytes x) fun _ => none)
      (b := [0x69, 0x04, thirdByte last op, UInt8.ofNat k] ++ x)
      (by repeat' (first | (apply reserved_arg1 (by decide)) | (intro _ _; rfl))) (by
        simp [Spec.Layout.wire, Spec.slotsWire, Spec.Slot.wire, arg1, hk, bitsOf, hop, hlast, Nat.mod_eq_of_lt hk', ← thirdByte_bits])
    simp only [argKw_arg1, argKw_none] at this
    obtain ⟨m, a, b⟩ := this
    refine ⟨m, ?_, by simpa using b⟩
    rw [← a]
    rfl

example : ∃ m, (⟨1, true, .pop, 5, some [0x20]⟩ : Out).msg = .ok m ∧ compose m = .ok [0x69, 0x04, 0x09, 0x05, 0x20] :=
  C73_wire ⟨1, true, .pop, 5, some [0x20]⟩ (by decide) (by decide)

/-! ## C72: order -/

/-- The full property: entries are handed out in the order in which they were accepted. -/
def C72_statement : Prop :=
  ∀ ops h, ((run fresh ops).log.filterMap (handed h)) <+: ((run fresh ops).log.filterMap (accepted h))

/-- It fails: of two entries the second is handed out first. -/
theorem C72_violated : ¬ C72_statement := by
  intro hs
  exact absurd (hs session 5) (by decide +kernel)

/-- What does hold: the entry handed out is the one accepted last of those that are available, where an entry is available from its acceptance until it is handed out. -/
theorem C72_latest_partial (ops : List Op) (h : Int) (pre post : List Ev) (e : Ev) (x : Bytes) (hl : (run fresh ops).log = pre ++ e :: post)
    (hx : handed h e = some x) : (available h pre).getLast? = some x := by
  refine log_ind (P := fun pre e => ∀ x, handed h e = some x → (available h pre).getLast? = some x) ?_ ops pre post e hl x hx
  clear hl hx pre post e x ops
  intro ops o e hl x hx
  have hV := inv_run ops
  rw [← hV.avail]
  generalize run fresh ops = s at *
  rcases step_Step hV.none o with hs | hs
  · rw [hs] at hl; simp at hl
  · generalize step s o = s' at *
    cases hs with
    | quiet node m r hq hb hc hl' hp => rw [hl'] at hl; simp at hl; subst hl; simp [handed] at hx
    | popEmpty node m h0 he hq hb hc hl' hp => rw [hl'] at hl; simp at hl; subst hl; simp [handed] at hx
    | push node m h0 x ho hp hn hq hb hc hl' => rw [hl'] at hl; simp at hl; subst hl; simp [handed] at hx
    | endOther i c r hi hd hq hb hc hl' hp => rw [hl'] at hl; simp at hl; subst hl; simp [handed] at hx
    | pop node m h0 rest item he hq hb hc hl' hp =>
      rw [hl'] at hl; simp at hl; subst hl
      simp [handed] at hx
      obtain ⟨rfl, rfl⟩ := hx
      rw [he]; simp
    | endPop i c item hi hd hq hb hc hl' => rw [hl'] at hl; simp at hl; subst hl; simp [handed] at hx
    | endPush i c item hi hd hq hb hc hl' => rw [hl'] at hl; simp at hl; subst hl; simp [handed] at hx
    | tick j item n hj hq hb hc hl' =>
      rw [hl'] at hl; simp at hl; subst hl
      by_cases hn : (n + 1) % 10 = 0 <;> simp [handed, hn] at hx
    | beatEnds j item n p r ho hr hj hq hb hc hl' => rw [hl'] at hl; simp at hl

example : (available 5 ((run fresh session).log.take 5)) = [[0x20], [0x25]] ∧ ((run fresh session).log[5]?).map (handed 5) = some (some [0x25]) := by decide +kernel

/-- So the order is right for a queue that never holds more than one entry. -/
theorem C72_single_partial (ops : List Op) (h : Int) (h1 : ∀ pre, pre <+: (run fresh ops).log → (available h pre).length ≤ 1) :
    ((run fresh ops).log.filterMap (handed h)) <+: ((run fresh ops).log.filterMap (accepted h)) := by
  have hlast := C72_latest_partial ops h
  generalize (run fresh ops).log = log at *
  suffices log.filterMap (accepted h) = log.filterMap (handed h) ++ available h log by rw [this]; exact List.prefix_append _ _
  induction log using Model.Conn.snoc_ind with
  | nil => rfl
  | snoc log e ih =>
    have ih := ih (fun pre hp => h1 pre (hp.trans (List.prefix_append _ _))) (fun pre post e' x hl hx => hlast pre (post ++ [e]) e' x (by rw [hl]; simp) hx)
    have hle := h1 _ (List.prefix_append log [e])
    have hnow := hlast log [] e
    rw [available_snoc, List.filterMap_append, List.filterMap_append, ih]
    have he' := h1 _ (List.prefix_refl (log ++ [e]))
    rw [available_snoc] at he'
    unfold availStep at he' ⊢
    cases hacc : accepted h e with
    | some x =>
      have hh : handed h e = none := by
        cases e with
        | sent s o => simp [accepted] at hacc
        | ended i m r => rfl
      simp [hacc, hh]
    | none =>
      cases hh : handed h e with
      | none => simp [hacc, hh]
      | some x =>
        have := hnow x rfl hh
        obtain ⟨l', hl'⟩ := List.getLast?_eq_some_iff.1 this
        rw [hl'] at hle ⊢
        have : l' = [] := by
          cases l' with
          | nil => rfl
          | cons a l => simp at hle
        subst this
        simp [hacc, hh]

/-! ## C69: nothing is invented, duplicated or dropped from the store -/

/-- For every queue and every entry: the times it was handed out and the times it is stored add up to the times it was accepted. -/
theorem C69_conserved (ops : List Op) (h : Int) (x : Bytes) :
    ((run fresh ops).log.filterMap (handed h)).count x + (((run fresh ops).items (some h)).map (·.data)).count x =
      ((run fresh ops).log.filterMap (accepted h)).count x := by
  rw [(inv_run ops).avail]
  have hlast := C72_latest_partial ops h
  generalize (run fresh ops).log = log at *
  induction log using Model.Conn.snoc_ind with
  | nil => rfl
  | snoc log e ih =>
    have ih := ih (fun pre post e' x hl hx => hlast pre (post ++ [e]) e' x (by rw [hl]; simp) hx)
    have hnow := hlast log [] e
    rw [available_snoc, List.filterMap_append, List.filterMap_append, List.count_append, List.count_append]
    unfold availStep
    cases hacc : accepted h e with
    | some y =>
      have hh : handed h e = none := by
        cases e with
        | sent s o => simp [accepted] at hacc
        | ended i m r => rfl
      simp [hacc, hh, List.count_append]
      omega
    | none =>
      cases hh : handed h e with
      | none => simp [hacc, hh]; omega
      | some y =>
        have := hnow y rfl hh
        obtain ⟨l', hl'⟩ := List.getLast?_eq_some_iff.1 this
        rw [hl'] at ih ⊢
        rw [List.count_append] at ih
        simp [hacc, hh]
        omega

/-- Every entry handed out for a handle was accepted by a push for that handle, and it is handed out at most as often as it was accepted. -/
theorem C69_handed (ops : List Op) (h : Int) (x : Bytes) :
    ((run fresh ops).log.filterMap (handed h)).count x ≤ ((run fresh ops).log.filterMap (accepted h)).count x := by
  have := C69_conserved ops h x
  omega

example : (run fresh session).log.filterMap (handed 5) = [[0x25], [0x20]] ∧ (run fresh session).log.filterMap (accepted 5) = [[0x20], [0x25]] := by decide +kernel

/-! ## C73: the flag 'last' -/

/-- A message that hands out an entry, or says that there is none, is flagged 'last' exactly if no entry is available afterwards; it carries no entry exactly if none
was available before, and then it is flagged. -/
theorem C73_last (ops : List Op) (pre post : List Ev) (s : Src) (o : Out) (hl : (run fresh ops).log = pre ++ .sent s o :: post) (ho : o.operation = .pop) :
    (o.last = true ↔ available o.handle (pre ++ [.sent s o]) = []) ∧ (o.entry = none ↔ available o.handle pre = []) ∧ (o.entry = none → o.last = true) := by
  refine log_ind (P := fun pre e => ∀ s o, e = .sent s o → o.operation = .pop →
    (o.last = true ↔ available o.handle (pre ++ [.sent s o]) = []) ∧ (o.entry = none ↔ available o.handle pre = []) ∧ (o.entry = none → o.last = true))
    ?_ ops pre post _ hl s o rfl ho
  clear hl ho pre post s o ops
  rintro ops o e hl src out rfl hop
  have hV := inv_run ops
  rw [available_snoc]
  have hav := hV.avail out.handle
  rw [← hav]
  generalize run fresh ops = s at *
  rcases step_Step hV.none o with hs | hs
  · rw [hs] at hl; simp at hl
  · generalize step s o = s' at *
    cases hs with
    | quiet node m r hq hb hc hl' hp => rw [hl'] at hl; simp at hl
    | popEmpty node m h0 he hq hb hc hl' hp =>
      rw [hl'] at hl; simp at hl
      obtain ⟨rfl, rfl⟩ := hl
      rw [avail_sent]
      simp [he]
    | push node m h0 x ho hp hn hq hb hc hl' => rw [hl'] at hl; simp at hl; obtain ⟨rfl, rfl⟩ := hl; cases hop
    | endOther i c r hi hd hq hb hc hl' hp => rw [hl'] at hl; simp at hl
    | pop node m h0 rest item he hq hb hc hl' hp =>
      rw [hl'] at hl; simp at hl
      obtain ⟨rfl, rfl⟩ := hl
      rw [avail_sent]
      simp [he]
    | endPop i c item hi hd hq hb hc hl' => rw [hl'] at hl; simp at hl
    | endPush i c item hi hd hq hb hc hl' => rw [hl'] at hl; simp at hl
    | tick j item n hj hq hb hc hl' =>
      rw [hl'] at hl; simp at hl
      obtain ⟨rfl, rfl⟩ := hl
      dsimp only at hop
      split at hop <;> cases hop
    | beatEnds j item n p r ho hr hj hq hb hc hl' => rw [hl'] at hl; simp at hl

example : (run fresh session).log.filterMap (fun e => match e with | .sent (.call _) o => if o.operation = .pop then some (o.last, o.entry) else none | _ => none) =
    [(false, some [0x25]), (true, some [0x20]), (true, none)] := by decide +kernel

/-! ## C70, C71: entries of a queue are unique -/

/-- As long as pushes to a handle do not overlap, the checksums of its entries are pairwise different. -/
theorem C70_unique (ops : List Op) (h : Int) (hno : NoOverlap ops h) : (((run fresh ops).items (some h)).map (fun it => checksum it.data)).Nodup :=
  (uinv_run ops h hno).nodup

/-- The same, read off the trace. -/
theorem C70_available (ops : List Op) (h : Int) (hno : NoOverlap ops h) : ((available h (run fresh ops).log).map checksum).Nodup := by
  have := C70_unique ops h hno
  rw [← (inv_run ops).avail, List.map_map]
  exact this

/-- Two pushes one after the other do not overlap. -/
example : NoOverlap [.received 1 (pushMsg 5 [0x20]), .sendEnds 0 (.ok true), .received 1 (pushMsg 5 [0x25]), .sendEnds 1 (.ok true)] 5 := by
  intro pre node m x post h hp c hc hpc
  match pre with
  | [] => simp [run, fresh] at hc
  | [_] => simp at h
  | [_, _] =>
    simp at h
    obtain ⟨rfl, rfl, ⟨rfl, rfl⟩, _⟩ := h
    revert hc
    have : ∀ c ∈ (run fresh [.received 1 (pushMsg 5 [0x20]), .sendEnds 0 (.ok true)]).calls, c.pc = .done := by decide +kernel
    exact this c
  | [_, _, _] => simp at h
  | a :: b :: c :: d :: r => simp at h

/-- The full property: also when pushes overlap. -/
def C71_statement : Prop := ∀ ops h, ((available h (run fresh ops).log).map checksum).Nodup

/-- It fails: the second push is received before the gateway acknowledged the first one. -/
theorem C71_violated : ¬ C71_statement := by
  intro hs
  exact absurd (hs [.received 1 (pushMsg 5 [0x20]), .received 1 (pushMsg 5 [0x20]), .sendEnds 0 (.ok true), .sendEnds 1 (.ok true)] 5) (by decide +kernel)

/-- What does hold in every history: a push of an entry whose checksum is already stored for the handle is refused, and nothing is sent or stored. -/
theorem C71_refused_partial (ops : List Op) (node : Nat) (m : Msg) (h : Int) (x : Bytes) (hp : IsPush m h x)
    (hc : ∃ y ∈ available h (run fresh ops).log, checksum y = checksum x) :
    (step (run fresh ops) (.received node m)).log = (run fresh ops).log ++ [.ended (run fresh ops).calls.length m (.ok (some false))] ∧
    ∀ k, (step (run fresh ops) (.received node m)).items k = (run fresh ops).items k := by
  have hV := inv_run ops
  rw [← hV.avail] at hc
  generalize run fresh ops = s at *
  obtain ⟨h1, h2, h3, h4⟩ := hp
  dsimp only [step]
  unfold received
  rw [if_neg (by rw [h1]; decide), if_neg (by rw [h2]; rintro ⟨_, h⟩; exact absurd h (by decide)), if_pos ⟨h1, h2⟩]
  unfold pushQueue
  rw [h3, h4]
  have : (s.items (some h)).any (fun x_1 => checksum x_1.data == checksum x) = true := by
    obtain ⟨y, hy, e⟩ := hc
    obtain ⟨it, hit, rfl⟩ := List.mem_map.1 hy
    exact List.any_eq_true.2 ⟨it, hit, by simpa using e⟩
  rw [if_pos this]
  refine ⟨rfl, ?_⟩
  intro k
  simp only [finish, State.items, Dict.get?_set]
  split <;> simp_all

/-! ## C76: distinct entries -/

/-- The full property: a pushed entry that differs from all stored ones is announced (and stored when the announcement succeeds). -/
def C76_statement : Prop :=
  ∀ ops node m h x, IsPush m h x → x ∉ available h (run fresh ops).log →
    (step (run fresh ops) (.received node m)).log = (run fresh ops).log ++ [.sent (.call (run fresh ops).calls.length) ⟨node, false, .waiting, h, some x⟩]

/-- It fails: two entries of three bytes with the same checksum. -/
theorem C76_violated : ¬ C76_statement := by
  intro hs
  exact absurd (hs [.received 1 (pushMsg 5 [0x20, 0x00, 0x21]), .sendEnds 0 (.ok true)] 1 (pushMsg 5 [0x21, 0x10, 0x00]) 5 [0x21, 0x10, 0x00] (by decide +kernel)
    (by decide +kernel)) (by decide +kernel)

/-- What does hold: an entry whose checksum differs from those of the stored entries is announced, and if the announcement succeeds it is stored and the push
returns True, whatever happens in between. -/
theorem C76_announced_partial (ops : List Op) (node : Nat) (m : Msg) (h : Int) (x : Bytes) (hp : IsPush m h x)
    (hc : ∀ y ∈ available h (run fresh ops).log, checksum y ≠ checksum x) :
    (step (run fresh ops) (.received node m)).log = (run fresh ops).log ++ [.sent (.call (run fresh ops).calls.length) ⟨node, false, .waiting, h, some x⟩] ∧
    ∃ item : Item, (step (run fresh ops) (.received node m)).calls[(run fresh ops).calls.length]? = some ⟨node, m, .push item⟩ ∧
      item.handle = h ∧ item.data = x := by
  have hV := inv_run ops
  rw [← hV.avail] at hc
  generalize run fresh ops = s at *
  obtain ⟨h1, h2, h3, h4⟩ := hp
  dsimp only [step]
  unfold received
  rw [if_neg (by rw [h1]; decide), if_neg (by rw [h2]; rintro ⟨_, h⟩; exact absurd h (by decide)), if_pos ⟨h1, h2⟩]
  unfold pushQueue
  rw [h3, h4]
  have : ¬ (s.items (some h)).any (fun x_1 => checksum x_1.data == checksum x) = true := by
    intro ha
    obtain ⟨it, hit, e⟩ := List.any_eq_true.1 ha
    exact hc _ (List.mem_map_of_mem hit) (by simpa using e)
  rw [if_neg this]
  exact ⟨rfl, ⟨s.calls.length, node, h, x⟩, by simp [sendNow], rfl, rfl⟩

/-- The announcement of a push succeeds: the push returns True and the entry is available. -/
theorem C76_stored_partial (ops : List Op) (i : Nat) (node : Nat) (m : Msg) (item : Item) (hi : (run fresh ops).calls[i]? = some ⟨node, m, .push item⟩) :
    (step (run fresh ops) (.sendEnds i (.ok true))).log = (run fresh ops).log ++ [.ended i m (.ok (some true))] ∧
    ∀ h, available h (step (run fresh ops) (.sendEnds i (.ok true))).log =
      if IsPush m h (entryOf m) then available h (run fresh ops).log ++ [entryOf m] else available h (run fresh ops).log := by
  have hl : (step (run fresh ops) (.sendEnds i (.ok true))).log = (run fresh ops).log ++ [.ended i m (.ok (some true))] := by
    simp only [step, sendEnds, hi]; rfl
  refine ⟨hl, ?_⟩
  intro h
  rw [hl, available_snoc]
  simp only [availStep, accepted]
  by_cases hp : IsPush m h (entryOf m) <;> simp [hp, handed]

/-- Entries of the same length that differ in one byte, or only in two neighbouring bytes, are told apart. -/
theorem C76_neighbours_partial (pre post : Bytes) (a b a' b' : UInt8) (hne : (a, b) ≠ (a', b')) :
    checksum (pre ++ a :: b :: post) ≠ checksum (pre ++ a' :: b' :: post) := by
  intro h
  simp only [checksum, List.foldl_append, List.foldl_cons] at h
  have hc := foldl_lt (c := 0x1D0F) (by decide) pre
  generalize List.foldl crcByte 0x1D0F pre = c at *
  have h := foldl_inj (crcByte_lt (crcByte_lt hc a) b) (crcByte_lt (crcByte_lt hc a') b') post h
  obtain ⟨rfl, rfl⟩ := two_bytes_inj hc h
  exact hne rfl

/-- In particular entries of one byte, and any two that differ in their last byte only. -/
theorem C76_byte_partial (pre post : Bytes) (a b : UInt8) (hne : a ≠ b) : checksum (pre ++ a :: post) ≠ checksum (pre ++ b :: post) := by
  intro h
  simp only [checksum, List.foldl_append, List.foldl_cons] at h
  have hc := foldl_lt (c := 0x1D0F) (by decide) pre
  generalize List.foldl crcByte 0x1D0F pre = c at *
  have h := foldl_inj (crcByte_lt hc a) (crcByte_lt hc b) post h
  have : crcByte (crcByte c a) 0 = crcByte (crcByte c b) 0 := by rw [h]
  exact hne (two_bytes_inj hc this).1

/-- The check value of the algorithm. -/
example : checksum [0x31, 0x32, 0x33, 0x34, 0x35, 0x36, 0x37, 0x38, 0x39] = 0xE5CC := by decide +kernel

example : (step (run fresh [.received 1 (pushMsg 5 [0x20, 0x01]), .sendEnds 0 (.ok true)]) (.received 1 (pushMsg 5 [0x20, 0x02]))).calls.map (·.pc) =
    [.done, .push ⟨1, 1, 5, [0x20, 0x02]⟩] := by decide +kernel

/-! ## C74: failed delivery -/

/-- The full property: if handing out an entry fails, the entry stays available. -/
def C74_statement : Prop :=
  ∀ ops i c (item : Item) r, (run fresh ops).calls[i]? = some c → c.pc = .pop item → r ≠ .ok true →
    item.data ∈ ((run fresh (ops ++ [.sendEnds i r])).items (some item.handle)).map (·.data)

/-- It fails. -/
theorem C74_violated : ¬ C74_statement := by
  intro hs
  exact absurd (hs [.received 1 (pushMsg 5 [0x20]), .sendEnds 0 (.ok true), .received 1 (wakeMsg 5)] 1 ⟨1, wakeMsg 5, .pop ⟨0, 1, 5, [0x20]⟩⟩ ⟨0, 1, 5, [0x20]⟩ (.ok false)
    (by decide +kernel) rfl (by simp)) (by decide +kernel)

/-- What does hold: nothing but handing out an entry of the queue takes entries from it, so whatever fails elsewhere, the others stay available in their order. -/
theorem C74_kept_partial (ops : List Op) (o : Op) (h : Int)
    (hn : ∀ e, (run fresh (ops ++ [o])).log = (run fresh ops).log ++ [e] → handed h e = none) :
    (run fresh ops).items (some h) <+: (run fresh (ops ++ [o])).items (some h) := by
  rw [run_snoc] at hn ⊢
  have hV := inv_run ops
  generalize run fresh ops = s at *
  rcases step_Step hV.none o with hs | hs
  · rw [hs]; exact List.prefix_refl _
  · generalize step s o = s' at *
    cases hs with
    | quiet node m r hq hb hc hl' hp => rw [hq]; exact List.prefix_refl _
    | popEmpty node m h0 he hq hb hc hl' hp => rw [hq]; exact List.prefix_refl _
    | push node m h0 x ho hp hn hq hb hc hl' => rw [hq]; exact List.prefix_refl _
    | endOther i c r hi hd hq hb hc hl' hp => rw [hq]; exact List.prefix_refl _
    | pop node m h0 rest item he hq hb hc hl' hp =>
      rw [hq]
      split
      · rename_i e
        cases e
        have := hn _ hl'
        simp [handed] at this
      · exact List.prefix_refl _
    | endPop i c item hi hd hq hb hc hl' => rw [hq]; exact List.prefix_refl _
    | endPush i c item hi hd hq hb hc hl' =>
      rw [hq]
      split
      · rename_i e; cases e; exact List.prefix_append _ _
      · exact List.prefix_refl _
    | tick j item n hj hq hb hc hl' => rw [hq]; exact List.prefix_refl _
    | beatEnds j item n p r ho hr hj hq hb hc hl' => rw [hq]; exact List.prefix_refl _

/-- The first of two entries survives the failed delivery of the second. -/
example : ((run fresh (session.take 7 ++ [.sendEnds 2 (.error .timeout)])).items (some 5)).map (·.data) = [[0x20]] := by decide +kernel

/-! ## C75: heartbeats -/

/-- The full property: a heartbeat task runs exactly as long as its entry is stored or being handed out. -/
def C75_statement : Prop :=
  ∀ ops (j : Nat) (b : Beat), (run fresh ops).beats[j]? = some b →
    (b.pc ≠ .ended ↔ b.item ∈ (run fresh ops).items (some b.item.handle) ∨ ∃ c ∈ (run fresh ops).calls, c.pc = .pop b.item)

/-- It fails: the heartbeat of an entry whose delivery failed is never stopped. -/
theorem C75_violated : ¬ C75_statement := by
  intro hs
  have := hs [.received 1 (pushMsg 5 [0x20]), .sendEnds 0 (.ok true), .received 1 (wakeMsg 5), .sendEnds 1 (.ok false)] 0 ⟨⟨0, 1, 5, [0x20]⟩, 0, .sleeping⟩ (by decide +kernel)
  exact absurd this (by decide +kernel)

/-- What does hold. Every heartbeat task belongs to one accepted push of its own; what it has sent so far are heartbeats for that entry, to the node that pushed it,
every tenth one a PING and all others WAITING. -/
theorem C75_sequence_partial (ops : List Op) (j : Nat) (b : Beat) (hj : (run fresh ops).beats[j]? = some b) :
    (∃ c, (run fresh ops).calls[b.item.id]? = some c ∧ .ended b.item.id c.msg (.ok (some true)) ∈ (run fresh ops).log ∧ IsPush c.msg b.item.handle b.item.data ∧
      beatOuts j (run fresh ops).log = (List.range b.count).map fun k =>
        ⟨c.node, false, if (k + 1) % 10 = 0 then .ping else .waiting, b.item.handle, some b.item.data⟩) ∧
    ∀ (k : Nat) (b' : Beat), (run fresh ops).beats[k]? = some b' → b'.item.id = b.item.id → k = j := by
  have hI := binv_run ops
  obtain ⟨c, a1, a2, a3, a4, a5⟩ := hI.done j b hj
  refine ⟨⟨c, a1, a5, a4, ?_⟩, fun k b' hk e => hI.ids k j b' b hk hj e⟩
  rw [hI.outs j, hj, a3]
  rfl

/-- No other heartbeats are sent. -/
theorem C75_only_partial (ops : List Op) (j : Nat) (hj : (run fresh ops).beats[j]? = none) : beatOuts j (run fresh ops).log = [] := by
  have := (binv_run ops).outs j
  rw [hj] at this; exact this

/-- The tenth heartbeat is a PING. -/
example : ((beatOuts 0 (run fresh ([.received 1 (pushMsg 5 [0x20]), .sendEnds 0 (.ok true)] ++
    (List.replicate 11 [Op.tick 0, .beatEnds 0 (.ok true)]).flatten)).log).map (·.operation)) =
    [.waiting, .waiting, .waiting, .waiting, .waiting, .waiting, .waiting, .waiting, .waiting, .ping, .waiting] := by decide +kernel

/-- Every stored entry has a running heartbeat task, as long as sending a heartbeat never raised. -/
theorem C75_running_partial (ops : List Op) (hops : ∀ j r, Op.beatEnds j r ∈ ops → ∃ b, r = .ok b) (h : Int) (item : Item)
    (hit : item ∈ (run fresh ops).items (some h)) : ∃ (j : Nat) (b : Beat), (run fresh ops).beats[j]? = some b ∧ b.item = item ∧ b.pc ≠ .ended :=
  running_run ops hops h item hit

/-- When an entry has been handed out successfully, its heartbeat task exists and never sends again. -/
theorem C75_stops_partial (ops : List Op) (i : Nat) (c : Call) (item : Item) (hi : (run fresh ops).calls[i]? = some c) (hp : c.pc = .pop item) :
    ∃ (j : Nat) (b : Beat), (run fresh ops).beats[j]? = some b ∧ b.item = item ∧
      ∀ later, beatOuts j (run fresh (ops ++ .sendEnds i (.ok true) :: later)).log = beatOuts j (run fresh ops).log := by
  have hV := inv_run ops
  have hI := binv_run ops
  obtain ⟨_, j, b, hj, e⟩ := hI.popped i c item hi hp
  refine ⟨j, b, hj, e, ?_⟩
  intro later
  have hr : run fresh (ops ++ .sendEnds i (.ok true) :: later) = run (step (run fresh ops) (.sendEnds i (.ok true))) later := by
    simp [run]
  rw [hr]
  have hV' := inv_step hV (.sendEnds i (.ok true))
  generalize run fresh ops = s at *
  have hb : (step s (.sendEnds i (.ok true))).beats = stop s.beats item.id := by
    simp only [step, sendEnds, hi, hp]; rfl
  have hl : (step s (.sendEnds i (.ok true))).log = s.log ++ [.ended i c.msg (.ok (some true))] := by
    simp only [step, sendEnds, hi, hp]; rfl
  have := (ended_run _ hV' later j { b with pc := .ended } (by
    rw [hb]; simp only [stop, List.getElem?_map, hj, Option.map_some, e, if_true]) rfl).2
  rw [this, hl, beatOuts_snoc, beatOuts_ended, List.append_nil]

example : ∃ c, (run fresh (session.take 7)).calls[2]? = some c ∧ c.pc = .pop ⟨1, 1, 5, [0x25]⟩ := ⟨_, rfl, by decide +kernel⟩

/-! ## C93: wakeups and acknowledgements are answered -/

/-- The handle of the latest wakeup notification. -/
def lastWakeup (ops : List Op) : Option Int := ops.foldl (fun l o =>
  match o with
  | .received _ m => if m.hid = Reg.Mailbox.WakeupNotification.hid then numAttr m "queueHandle" else l
  | _ => l) none

/-- The full property: every wakeup notification and every acknowledgement is answered with one POP to its sender; for the queue it names, if that is not 0. -/
def C93_statement : Prop :=
  ∀ ops node m h, IsWakeup m h ∨ IsAck m h → ∃ o : Out, o.node = node ∧ o.operation = .pop ∧ (h ≠ 0 → o.handle = h) ∧
    (step (run fresh ops) (.received node m)).log = (run fresh ops).log ++ [.sent (.call (run fresh ops).calls.length) o]

/-- It fails: an acknowledgement for queue 0 that is not preceded by a wakeup raises TypeError. -/
theorem C93_violated : ¬ C93_statement := by
  intro hs
  obtain ⟨o, _, _, _, h⟩ := hs [] 1 (ackMsg 0) 0 (.inr (by decide +kernel))
  have : (step (run fresh []) (.received 1 (ackMsg 0))).log = [.ended 0 (ackMsg 0) (.error .type)] := by decide +kernel
  rw [this] at h
  simp [run, fresh] at h

theorem lastWakeup_run (ops : List Op) : (run fresh ops).lastQueueId = lastWakeup ops := by
  induction ops using Model.Conn.snoc_ind with
  | nil => rfl
  | snoc ops o ih =>
    have e : lastWakeup (ops ++ [o]) = match o with
      | .received _ m => if m.hid = Reg.Mailbox.WakeupNotification.hid then numAttr m "queueHandle" else lastWakeup ops
      | _ => lastWakeup ops := by simp only [lastWakeup, List.foldl_append, List.foldl_cons, List.foldl_nil]
    have hpop : ∀ (s : State) node m h, (popQueue s node m h).lastQueueId = s.lastQueueId := by
      intro s node m h
      unfold popQueue
      split <;> (cases h <;> rfl)
    rw [run_snoc, e, ← ih]
    generalize run fresh ops = s
    cases o with
    | received node m =>
      dsimp only [step]
      unfold received
      split
      · rw [hpop]
      · split
        · rw [hpop]
        · split
          · unfold pushQueue
            dsimp only
            split
            · rfl
            · split <;> rfl
          · rfl
    | sendEnds i r =>
      dsimp only [step]
      unfold sendEnds
      cases s.calls[i]? with
      | none => rfl
      | some c =>
        dsimp only
        cases c.pc with
        | done => rfl
        | popEmpty => rfl
        | pop it =>
          cases r with
          | error e => rfl
          | ok b => cases b <;> rfl
        | push it =>
          cases r with
          | error e => rfl
          | ok b => cases b <;> rfl
    | tick j => dsimp only [step]; split <;> rfl
    | beatEnds j r => dsimp only [step]; split <;> rfl

theorem pop_answers (s : State) (node : Nat) (m : Msg) (h : Int) : ∃ o : Out, o.node = node ∧ o.operation = .pop ∧ o.handle = h ∧
    (popQueue s node m (some h)).log = s.log ++ [.sent (.call s.calls.length) o] := by
  unfold popQueue
  split
  · exact ⟨_, rfl, rfl, rfl, rfl⟩
  · exact ⟨_, rfl, rfl, rfl, rfl⟩

/-- What does hold: it is answered, for queue `k`, if it is a wakeup for `k`, an acknowledgement that names `k` ≠ 0, or an acknowledgement for queue 0 and the latest
wakeup was for `k`. -/
theorem C93_answered_partial (ops : List Op) (node : Nat) (m : Msg) (h k : Int)
    (hm : (IsWakeup m h ∧ k = h) ∨ (IsAck m h ∧ h ≠ 0 ∧ k = h) ∨ (IsAck m h ∧ h = 0 ∧ lastWakeup ops = some k)) :
    ∃ o : Out, o.node = node ∧ o.operation = .pop ∧ o.handle = k ∧
      (step (run fresh ops) (.received node m)).log = (run fresh ops).log ++ [.sent (.call (run fresh ops).calls.length) o] := by
  have hw := lastWakeup_run ops
  dsimp only [step]
  unfold received
  rcases hm with ⟨⟨h1, h2⟩, rfl⟩ | ⟨⟨h1, h2, h3⟩, h0, rfl⟩ | ⟨⟨h1, h2, h3⟩, rfl, hk⟩
  · rw [if_pos h1, h2]
    exact pop_answers { run fresh ops with lastQueueId := some k } node m k
  · rw [if_neg (by rw [h1]; decide), if_pos ⟨h1, h2⟩, h3]
    simp only [if_neg h0]
    exact pop_answers _ node m k
  · rw [if_neg (by rw [h1]; decide), if_pos ⟨h1, h2⟩, h3, hw, hk]
    exact pop_answers _ node m k

example : IsAck (ackMsg 0) 0 ∧ lastWakeup session = some 5 := by decide +kernel

end Props.Mailbox
