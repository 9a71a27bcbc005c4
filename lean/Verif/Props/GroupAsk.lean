import Verif.Props.Device
import Verif.Lemmas.NetMan
/-!
# Property C136: what is asked after a group information report
-/
namespace Props.GroupAsk
open Spec Model Model.Device Spec.System Props.Device
open Model.App (Nd)
open Model.Classes
open Model.System (Hands)
open Model.ToNode (Call)
open Model.Gateway (compose_of_layout arg1 argKw_arg1 argKw_none reserved_arg1 byte_bits)

/-! ## Statement -/

/-- `c` is a group information report with the groups `gs`, in order. -/
def Names (c : Msg) (gs : List Int) : Prop :=
  c.hid = 0x5904 ∧ ∃ ds, c.attr "groups" = some (.groups ds) ∧ gs = ds.map fun d => (Dict.get? d "groupingIdentifier").getD 0

/-- A question about a group: its name, or its commands. -/
inductive Ask
  | name (g : Int)
  | commands (g : Int)
  deriving DecidableEq, Repr

/-- The group. -/
def Ask.group : Ask → Int
  | .name g => g
  | .commands g => g

/-- The bytes of the question. The commands may be answered from a cache. -/
def Ask.bytes : Ask → Bytes
  | .name g => [0x59, 0x01, UInt8.ofNat g.toNat]
  | .commands g => [0x59, 0x05, 0x80, UInt8.ofNat g.toNat]

/-- The questions for a list of groups. -/
def questions (gs : List Int) : List Ask := gs.flatMap fun g => [.name g, .commands g]

/-- The call sends the question to the end point. -/
def Asks (c : Call) (nd : Nd) (a : Ask) : Prop :=
  c.node = nd.root ∧ c.sourceEP = 0 ∧ c.destEP = nd.ep ∧ (0 ≤ a.group → a.group < 256 → compose c.cmd = .ok a.bytes)

/-- The call of `sendToNode` that the handler `j` waits for. -/
def current (s : State) (j : Nat) : Option Nat := (s.tasks[j]?).bind fun t => t.pc.map (·.2)

/-- The next state, and the calls that the handler `j` has waited for. -/
def watch (j : Nat) (x : State × List Nat) (o : Op) : State × List Nat :=
  let s := step x.1 o
  (s, if current s j = current x.1 j then x.2 else x.2 ++ (current s j).toList)

/-- The calls that the handler `j` has waited for, in order. -/
def asked (own : Nat) (ops : List Op) (j : Nat) : List Nat := (ops.foldl (watch j) (init own, [])).2

/-- The calls `ks` ask the first of the questions `qs`, in order. Each but the last has ended and has not raised. -/
structure InOrder (calls : List Call) (nd : Nd) (qs : List Ask) (ks : List Nat) : Prop where
  sorted : ks.Pairwise (· < ·)
  asks : ∀ (n k : Nat), ks[n]? = some k → ∃ c a, calls[k]? = some c ∧ qs[n]? = some a ∧ Asks c nd a
  ended : ∀ (n k : Nat), n + 1 < ks.length → ks[n]? = some k → ∃ c r, calls[k]? = some c ∧ c.pc = .done (.ok r)

/-- Where the handler is: it waits for the last call; or it has asked everything and no call raised; or the last call raised. -/
def Stands (calls : List Call) (t : Task) (qs : List Ask) (ks : List Nat) : Prop :=
  match t.pc with
  | some (_, k) => ks.getLast? = some k
  | none => (ks.length = qs.length ∧ ∀ k ∈ ks, ∃ c r, calls[k]? = some c ∧ c.pc = .done (.ok r)) ∨
      ∃ k c e, ks.getLast? = some k ∧ calls[k]? = some c ∧ c.pc = .done (.error e)

/-! ## Group commands -/

def sentAsk : Agi.Sent → Ask
  | .nameGet g => .name g
  | .commandListGet g => .commands g

theorem groupCmd_ok (x : Agi.Sent) : ∃ cmd, groupCmd x = .ok cmd ∧ (0 ≤ (sentAsk x).group → (sentAsk x).group < 256 → compose cmd = .ok (sentAsk x).bytes) := by
  cases x with
  | nameGet g =>
    refine ⟨_, rfl, fun h0 h1 => ?_⟩
    simp only [sentAsk, Ask.group] at h0 h1
    obtain ⟨m, e1, e2⟩ := compose_of_layout (L := ⟨"AssociationGrpInfo.GroupNameGet", 0x59, 0x01, [.num "groupingIdentifier" 8]⟩)
      (by decide +kernel) (d := Reg.AssociationGrpInfo.GroupNameGet) (by decide +kernel) rfl
      (a := arg1 "groupingIdentifier" (.int g) fun _ => none) (b := [0x59, 0x01, UInt8.ofNat g.toNat])
      (by repeat' (first | (apply reserved_arg1 (by decide)) | (intro _ _; rfl))) (by
        have hb := byte_bits ⟨h0, h1⟩
        simp only [byte, UInt8.toNat_ofNat'] at hb
        simp [Layout.wire, slotsWire, Slot.wire, arg1, h0, h1, bitsOf, hb])
    have : construct Reg.AssociationGrpInfo.GroupNameGet (argKw (arg1 "groupingIdentifier" (.int g) fun _ => none)) =
        .ok (.known 0x5901 [("groupingIdentifier", .num (.uint 1) g)]) := rfl
    rw [this] at e1
    cases e1
    exact e2
  | commandListGet g =>
    refine ⟨_, rfl, fun h0 h1 => ?_⟩
    simp only [sentAsk, Ask.group] at h0 h1
    obtain ⟨m, e1, e2⟩ := compose_of_layout (L := ⟨"AssociationGrpInfo.GroupCommandListGet", 0x59, 0x05, [.flag "allowCache", .zero 7, .num "groupingIdentifier" 8]⟩)
      (by decide +kernel) (d := Reg.AssociationGrpInfo.GroupCommandListGet) (by decide +kernel) rfl
      (a := arg1 "allowCache" (.int 1) <| arg1 "groupingIdentifier" (.int g) fun _ => none) (b := [0x59, 0x05, 0x80, UInt8.ofNat g.toNat])
      (by repeat' (first | (apply reserved_arg1 (by decide)) | (intro _ _; rfl))) (by
        have hb := byte_bits ⟨h0, h1⟩
        simp only [byte, UInt8.toNat_ofNat'] at hb
        simp [Layout.wire, slotsWire, Slot.wire, arg1, h0, h1, bitsOf, hb]
        rfl)
    have : construct Reg.AssociationGrpInfo.GroupCommandListGet (argKw (arg1 "allowCache" (.int 1) <| arg1 "groupingIdentifier" (.int g) fun _ => none)) =
        .ok (.known 0x5905 [("allowCache", .num .flag 1), ("groupingIdentifier", .num (.uint 1) g)]) := rfl
    rw [this] at e1
    cases e1
    exact e2

theorem infoGroups_names {c : Msg} {l : List (Int × Int)} (hc : c.hid = 0x5904) (h : infoGroups c = .ok l) : Names c (l.map (·.1)) := by
  simp only [infoGroups] at h
  split at h
  · rename_i ds hd
    cases h
    refine ⟨hc, ds, ?_, by simp⟩
    simp only [getAttr] at hd
    split at hd
    · rename_i v hv
      cases hd
      exact hv
    · split at hd
      · cases hd
      · split at hd
        · cases hd
        · rename_i f _
          cases hf : f.ty <;> simp [hf, defaultVal] at hd
  · cases h

/-! ## Calls -/

/-- Calls stay, with their arguments, and what has ended stays so. -/
def Later (a b : List Call) : Prop :=
  a.length ≤ b.length ∧ ∀ (k : Nat) (c : Call), a[k]? = some c → ∃ d, b[k]? = some d ∧ ToNode.Same c d ∧ ∀ r, c.pc = .done r → d.pc = .done r

theorem Later.refl (a : List Call) : Later a a := ⟨Nat.le_refl _, fun _ c h => ⟨c, h, ⟨rfl, rfl, rfl, rfl, rfl⟩, fun _ h => h⟩⟩

theorem Later.trans {a b c : List Call} (h1 : Later a b) (h2 : Later b c) : Later a c := by
  refine ⟨Nat.le_trans h1.1 h2.1, fun k x hx => ?_⟩
  obtain ⟨y, y1, ⟨a1, a2, a3, a4, a5⟩, y3⟩ := h1.2 k x hx
  obtain ⟨z, z1, ⟨b1, b2, b3, b4, b5⟩, z3⟩ := h2.2 k y y1
  exact ⟨z, z1, ⟨b1.trans a1, b2.trans a2, b3.trans a3, b4.trans a4, b5.trans a5⟩, fun r hr => z3 r (y3 r hr)⟩

theorem Later.proceed (s : ToNode.State) (i : Nat) : Later s.calls (ToNode.proceed s i).calls := by
  have hset : ∀ (c : Call), s.calls[i]? = some c → (∀ r, c.pc ≠ .done r) → ∀ pc, Later s.calls (s.calls.set i { c with pc := pc }) := by
    intro c hc hn pc
    refine ⟨by simp, fun k x hx => ?_⟩
    by_cases hi : i = k
    · subst hi
      rw [hc] at hx; cases hx
      exact ⟨_, List.getElem?_set_self (List.getElem?_eq_some_iff.mp hc).1, ⟨rfl, rfl, rfl, rfl, rfl⟩, fun r hr => absurd hr (hn r)⟩
    · exact ⟨x, by rw [List.getElem?_set_ne hi]; exact hx, ⟨rfl, rfl, rfl, rfl, rfl⟩, fun _ h => h⟩
  unfold ToNode.proceed
  split
  · exact .refl _
  · rename_i c hc
    split
    · rename_i hp
      split
      · exact hset c hc (by rw [hp]; intro r h; cases h) _
      · exact hset c hc (by rw [hp]; intro r h; cases h) _
      · exact .refl _
    · rename_i hp
      split
      · exact hset c hc (by rw [hp]; intro r h; cases h) _
      · exact .refl _
    · exact .refl _

theorem Later.step (s : ToNode.State) (o : ToNode.Op) : Later s.calls (ToNode.step s o).calls := by
  cases o with
  | gw o => exact .refl _
  | resume j => exact .proceed s j
  | send node cmd src dst timeout =>
    refine Later.trans ⟨by simp, fun k c hc => ⟨c, ?_, ⟨rfl, rfl, rfl, rfl, rfl⟩, fun _ h => h⟩⟩ (Later.proceed ⟨Gateway.step s.gw (.connectToNode node),
      s.calls ++ [⟨node, cmd, src, dst, timeout, .connecting s.gw.jobs.length⟩]⟩ s.calls.length)
    simp only
    rw [List.getElem?_append_left (List.getElem?_eq_some_iff.mp hc).1]; exact hc

theorem Later.run (ops : List ToNode.Op) : ∀ (s : ToNode.State), Later s.calls (ToNode.run s ops).calls := by
  induction ops with
  | nil => exact fun _ => .refl _
  | cons o ops ih => exact fun s => (Later.step s o).trans (ih _)

theorem Later.sys (s : System.State) (os : List System.Op) : Later s.net.calls (System.run s os).net.calls := by
  rw [System.run_net]; exact Later.run _ _

theorem Later.sends {a b : System.State} (h : Sends a b) : Later a.net.calls b.net.calls := by
  obtain ⟨os, rfl, -⟩ := h
  exact Later.sys _ _

/-! ## Questions -/

theorem questions_length (gs : List Int) : (questions gs).length = 2 * gs.length := by
  induction gs with
  | nil => rfl
  | cons g gs ih => simp only [questions, List.flatMap_cons, List.length_append, List.length_cons, List.length_nil] at ih ⊢; omega

theorem questions_name (pre : List Int) (g : Int) (rest : List Int) : (questions (pre ++ g :: rest))[2 * pre.length]? = some (.name g) := by
  have := questions_length pre
  simp only [questions] at this ⊢
  rw [List.flatMap_append, List.getElem?_append_right (by omega), this]
  simp

theorem questions_commands (pre : List Int) (g : Int) (rest : List Int) : (questions (pre ++ g :: rest))[2 * pre.length + 1]? = some (.commands g) := by
  have := questions_length pre
  simp only [questions] at this ⊢
  rw [List.flatMap_append, List.getElem?_append_right (by omega), this]
  simp

theorem InOrder.later {a b : List Call} {nd : Nd} {qs : List Ask} {ks : List Nat} (h : InOrder a nd qs ks) (hl : Later a b) : InOrder b nd qs ks := by
  refine ⟨h.sorted, fun n k hk => ?_, fun n k hn hk => ?_⟩
  · obtain ⟨c, q, h1, h2, h3⟩ := h.asks n k hk
    obtain ⟨d, d1, ⟨a1, a2, a3, a4, -⟩, -⟩ := hl.2 k c h1
    exact ⟨d, q, d1, h2, a1.trans h3.1, a3.trans h3.2.1, a4.trans h3.2.2.1, by rw [a2]; exact h3.2.2.2⟩
  · obtain ⟨c, r, h1, h2⟩ := h.ended n k hn hk
    obtain ⟨d, d1, -, d3⟩ := hl.2 k c h1
    exact ⟨d, r, d1, d3 _ h2⟩

/-- One more question. -/
theorem InOrder.more {a : List Call} {nd : Nd} {qs : List Ask} {ks : List Nat} (h : InOrder a nd qs ks) (n : Nat) (hn : ∀ k ∈ ks, k < n)
    (hl : ∀ k, ks.getLast? = some k → ∃ c r, a[k]? = some c ∧ c.pc = .done (.ok r)) (c : Call) (q : Ask) (hc : a[n]? = some c) (hq : qs[ks.length]? = some q) (ha : Asks c nd q) :
    InOrder a nd qs (ks ++ [n]) := by
  refine ⟨?_, fun m k hk => ?_, fun m k hm hk => ?_⟩
  · rw [List.pairwise_append]
    exact ⟨h.sorted, by simp, fun x hx y hy => by rw [List.mem_singleton.mp hy]; exact hn x hx⟩
  · by_cases hm : m < ks.length
    · rw [List.getElem?_append_left hm] at hk
      exact h.asks m k hk
    · have : m = ks.length := by
        have := (List.getElem?_eq_some_iff.mp hk).1
        simp at this; omega
      subst this
      simp at hk
      subst hk
      exact ⟨c, q, hc, hq, ha⟩
  · simp only [List.length_append, List.length_cons, List.length_nil] at hm
    rw [List.getElem?_append_left (by omega)] at hk
    by_cases hm' : m + 1 < ks.length
    · exact h.ended m k hm' hk
    · refine hl k ?_
      rw [List.getLast?_eq_getElem?, show ks.length - 1 = m by omega]
      exact hk

/-! ## What is asked -/

theorem fold_state (j : Nat) (ops : List Op) : ∀ (s : State) (l : List Nat), (ops.foldl (watch j) (s, l)).1 = run s ops := by
  induction ops with
  | nil => intro s l; rfl
  | cons o ops ih => intro s l; exact ih _ _

theorem asked_snoc (own : Nat) (ops : List Op) (o : Op) (j : Nat) : asked own (ops ++ [o]) j =
    if current (step (run (init own) ops) o) j = current (run (init own) ops) j then asked own ops j else asked own ops j ++ (current (step (run (init own) ops) o) j).toList := by
  simp only [asked, List.foldl_append, List.foldl_cons, List.foldl_nil, watch, fold_state]

/-- The handler of the task has the groups `l` in its report and has waited for the calls `ks`. -/
def Good (s : State) (t : Task) (l : List (Int × Int)) (ks : List Nat) : Prop :=
  InOrder s.sys.net.calls t.nd (questions (l.map (·.1))) ks ∧ Stands s.sys.net.calls t (questions (l.map (·.1))) ks ∧
  ∀ h k, t.pc = some (h, k) → ∃ pre p second rest, l = pre ++ p :: rest ∧ (s.devs t.nd.obj).agi.handlers[h]? = some (some ⟨p.1, second, rest⟩) ∧
    ks.length = 2 * pre.length + (if second then 2 else 1)

/-- What holds after every history. -/
structure Inv (own : Nat) (ops : List Op) : Prop where
  task : ∀ (j : Nat) (t : Task), (run (init own) ops).tasks[j]? = some t →
    ∃ c l, Wraps t.msg c ∧ c.hid = 0x5904 ∧ infoGroups c = .ok l ∧ Good (run (init own) ops) t l (asked own ops j)
  other : ∀ (j : Nat), (run (init own) ops).tasks[j]? = none → asked own ops j = []
  bound : ∀ j, ∀ k ∈ asked own ops j, k < (run (init own) ops).sys.net.calls.length
  disjoint : ∀ i j, i ≠ j → ∀ k ∈ asked own ops i, k ∉ asked own ops j
  distinct : ∀ (i j : Nat) (t u : Task) (h k h' k' : Nat), i ≠ j → (run (init own) ops).tasks[i]? = some t → (run (init own) ops).tasks[j]? = some u → t.pc = some (h, k) →
    u.pc = some (h', k') → t.nd.obj = u.nd.obj → h ≠ h'

theorem Good.later {s s' : State} {t : Task} {l : List (Int × Int)} {ks : List Nat} (h : Good s t l ks) (hl : Later s.sys.net.calls s'.sys.net.calls)
    (hh : ∀ h k, t.pc = some (h, k) → (s'.devs t.nd.obj).agi.handlers[h]? = (s.devs t.nd.obj).agi.handlers[h]?) : Good s' t l ks := by
  refine ⟨h.1.later hl, ?_, fun x k hp => ?_⟩
  · have h2 := h.2.1
    unfold Stands at h2 ⊢
    cases hp : t.pc with
    | some x => rw [hp] at h2; exact h2
    | none =>
      rw [hp] at h2
      rcases h2 with ⟨h3, h4⟩ | ⟨k, c, e, h3, h4, h5⟩
      · refine .inl ⟨h3, fun k hk => ?_⟩
        obtain ⟨c, r, c1, c2⟩ := h4 k hk
        obtain ⟨d, d1, -, d3⟩ := hl.2 k c c1
        exact ⟨d, r, d1, d3 _ c2⟩
      · obtain ⟨d, d1, -, d3⟩ := hl.2 k c h4
        exact .inr ⟨k, d, e, h3, d1, d3 _ h5⟩
  · obtain ⟨pre, p, second, rest, h3, h4, h5⟩ := h.2.2 x k hp
    exact ⟨pre, p, second, rest, h3, by rw [hh x k hp]; exact h4, h5⟩

/-- An operation that touches at most the handler `j0`. -/
theorem Inv.next {own : Nat} {ops : List Op} {o : Op} (h : Inv own ops) {s s' : State} (hs : s = run (init own) ops) (hs' : s' = step s o) (j0 : Nat)
    (ht : ∀ (j : Nat), j ≠ j0 → s'.tasks[j]? = s.tasks[j]?) (hl : Later s.sys.net.calls s'.sys.net.calls)
    (hh : ∀ (j : Nat) (t : Task), j ≠ j0 → s.tasks[j]? = some t → ∀ h k, t.pc = some (h, k) → (s'.devs t.nd.obj).agi.handlers[h]? = (s.devs t.nd.obj).agi.handlers[h]?)
    (hk : asked own (ops ++ [o]) j0 = asked own ops j0 ∨ asked own (ops ++ [o]) j0 = asked own ops j0 ++ [s.sys.net.calls.length] ∧ s.sys.net.calls.length < s'.sys.net.calls.length)
    (hg : ∀ t, s'.tasks[j0]? = some t → ∃ c l, Wraps t.msg c ∧ c.hid = 0x5904 ∧ infoGroups c = .ok l ∧ Good s' t l (asked own (ops ++ [o]) j0))
    (hn : s'.tasks[j0]? = none → asked own (ops ++ [o]) j0 = [])
    (hd : ∀ (j : Nat) (t u : Task) (h k h' k' : Nat), j ≠ j0 → s.tasks[j]? = some t → s'.tasks[j0]? = some u → t.pc = some (h, k) → u.pc = some (h', k') → t.nd.obj = u.nd.obj → h ≠ h') :
    Inv own (ops ++ [o]) := by
  have hrun : run (init own) (ops ++ [o]) = s' := by rw [run_snoc, ← hs, ← hs']
  have hsame : ∀ j, j ≠ j0 → asked own (ops ++ [o]) j = asked own ops j := by
    intro j hj
    rw [asked_snoc, ← hs, ← hs']
    have : current s' j = current s j := by simp only [current, ht j hj]
    rw [if_pos this]
  obtain ⟨i1, i2, i3, i4, i5⟩ := h
  rw [← hs] at i1 i2 i3 i5
  refine ⟨?_, ?_, ?_, ?_, ?_⟩ <;> (try rw [hrun])
  · intro j t hj
    by_cases e : j = j0
    · subst e; exact hg t hj
    · rw [hsame j e]
      rw [ht j e] at hj
      obtain ⟨c, l, a1, a2, a3, a4⟩ := i1 j t hj
      exact ⟨c, l, a1, a2, a3, a4.later hl (hh j t e hj)⟩
  · intro j hj
    by_cases e : j = j0
    · subst e; exact hn hj
    · rw [hsame j e]; rw [ht j e] at hj; exact i2 j hj
  · intro j k hm
    by_cases e : j = j0
    · subst e
      rcases hk with hk | ⟨hk, hlt⟩
      · rw [hk] at hm; exact Nat.lt_of_lt_of_le (i3 _ k hm) hl.1
      · rw [hk] at hm
        rcases List.mem_append.mp hm with hm | hm
        · exact Nat.lt_of_lt_of_le (i3 _ k hm) hl.1
        · rw [List.mem_singleton.mp hm]; exact hlt
    · rw [hsame j e] at hm; exact Nat.lt_of_lt_of_le (i3 _ k hm) hl.1
  · have key : ∀ j, j ≠ j0 → ∀ k ∈ asked own (ops ++ [o]) j0, k ∉ asked own ops j := by
      intro j hj k hm hm'
      rcases hk with hk | ⟨hk, hlt⟩
      · rw [hk] at hm; exact i4 j0 j (Ne.symm hj) k hm hm'
      · rw [hk] at hm
        rcases List.mem_append.mp hm with hm | hm
        · exact i4 j0 j (Ne.symm hj) k hm hm'
        · rw [List.mem_singleton.mp hm] at hm'
          exact Nat.lt_irrefl _ (i3 j _ hm')
    intro i j hij k hi hj
    by_cases e : i = j0
    · subst e
      rw [hsame j (Ne.symm hij)] at hj
      exact key j (Ne.symm hij) k hi hj
    · rw [hsame i e] at hi
      by_cases e' : j = j0
      · subst e'; exact key i hij k hj hi
      · rw [hsame j e'] at hj; exact i4 i j hij k hi hj
  · intro i j t u x k x' k' hij hi hj hp hp' ho
    by_cases e : i = j0
    · subst e
      rw [ht j (Ne.symm hij)] at hj
      exact fun ex => hd j u t x' k' x k (Ne.symm hij) hj hi hp' hp ho.symm ex.symm
    · rw [ht i e] at hi
      by_cases e' : j = j0
      · subst e'; exact hd i t u x k x' k' hij hi hj hp hp' ho
      · rw [ht j e'] at hj; exact i5 i j t u x k x' k' hij hi hj hp hp' ho

/-! ## Steps of the handlers -/

theorem goOn_ends (s : State) (told : Nat) (nd : Nd) (m : Msg) (h : Nat) (o : Agi.Op) (put : State → Option (Nat × Nat) → State) (a : Agi.State) (r : Py Listen.Ret)
    (ha : Agi.step (s.devs nd.obj).agi o = (a, some r)) :
    goOn s told nd m h o put = finish (put (s.put nd.obj { s.devs nd.obj with agi := a }) none) told nd m (r.map Listen.Ret.truthy) := by
  simp only [goOn, ha]

theorem goOn_sends (s : State) (told : Nat) (nd : Nd) (m : Msg) (h : Nat) (o : Agi.Op) (put : State → Option (Nat × Nat) → State) (a : Agi.State) (x : Agi.Sent) (cmd : Msg)
    (ha : Agi.step (s.devs nd.obj).agi o = (a, none)) (hx : a.sent = (s.devs nd.obj).agi.sent ++ [x]) (hc : groupCmd x = .ok cmd) :
    goOn s told nd m h o put = put ((s.put nd.obj { s.devs nd.obj with agi := a }).send nd cmd) (some (h, s.sys.net.calls.length)) := by
  simp only [goOn, ha, hx, List.drop_left, hc]
  rfl

theorem does_handlers {m : Msg} {d d' : Dev} (h : Does m d d') : d'.agi.handlers = d.agi.handlers := by
  cases h with
  | same => rfl
  | config _ => rfl
  | name _ =>
    simp only [nameReport]
    split
    · rfl
    · simp only [Agi.step]; split <;> rfl
  | commands _ =>
    simp only [commandsReport]
    split
    · split
      · rfl
      · simp only [Agi.step]; split <;> rfl
    · rfl

/-- Nothing happens to the handlers. -/
structure Still (s s' : State) : Prop where
  tasks : s'.tasks = s.tasks
  later : Later s.sys.net.calls s'.sys.net.calls
  handlers : ∀ obj, (s'.devs obj).agi.handlers = (s.devs obj).agi.handlers

theorem Inv.still {own : Nat} {ops : List Op} {o : Op} (h : Inv own ops) {s s' : State} (hs : s = run (init own) ops) (hs' : s' = step s o) (hst : Still s s') : Inv own (ops ++ [o]) := by
  have hcur : ∀ j, current s' j = current s j := fun j => by simp only [current, hst.tasks]
  have hk : ∀ j, asked own (ops ++ [o]) j = asked own ops j := fun j => by rw [asked_snoc, ← hs, ← hs', if_pos (hcur j)]
  have hnone : s'.tasks[s.tasks.length]? = none := by rw [hst.tasks]; simp
  refine h.next hs hs' s.tasks.length (fun j _ => by rw [hst.tasks]) hst.later (fun j t _ _ x k _ => by rw [hst.handlers]) (.inl (hk _)) (fun t ht => ?_) (fun _ => ?_)
    (fun j t u x k x' k' _ _ hu => ?_)
  · rw [hnone] at ht; cases ht
  · rw [hk]
    exact h.other _ (by rw [← hs]; simp)
  · rw [hnone] at hu; cases hu

theorem set_handler {hs : List (Option Agi.Info)} {h h' : Nat} {x : Option Agi.Info} (hne : h ≠ h') : (hs.set h x)[h']? = hs[h']? := List.getElem?_set_ne hne

theorem send_call (s : State) (nd : Nd) (cmd : Msg) : s.sys.net.calls.length < (s.send nd cmd).sys.net.calls.length ∧
    ∃ c, (s.send nd cmd).sys.net.calls[s.sys.net.calls.length]? = some c ∧ c.node = nd.root ∧ c.cmd = cmd ∧ c.sourceEP = 0 ∧ c.destEP = nd.ep := by
  obtain ⟨c, c1, c2, c3, c4, c5, -⟩ := ToNode.send_new s.sys.net nd.root cmd 0 nd.ep 3
  exact ⟨(List.getElem?_eq_some_iff.mp c1).1, c, c1, c2, c3, c4, c5⟩

theorem inv_start {own : Nat} {ops : List Op} {o : Op} (h : Inv own ops) {s s1 : State} (hs : s = run (init own) ops) {i : Nat} {nd : Nd} {m c : Msg} (hm : Wraps m c)
    (hc : c.hid = 0x5904) (h1 : s1.tasks = s.tasks) (h2 : s1.sys.net = s.sys.net) (h3 : s1.devs = s.devs) (hs' : start s1 i nd m c = step s o) : Inv own (ops ++ [o]) := by
  unfold start at hs'
  cases hl : infoGroups c with
  | error e =>
    rw [hl] at hs'
    exact h.still hs hs' ⟨h1, by rw [h2]; exact .refl _, fun _ => by rw [h3]⟩
  | ok l =>
    rw [hl] at hs'
    simp only at hs'
    have hold : s.tasks[s.tasks.length]? = none := by simp
    have hk0 : asked own ops s.tasks.length = [] := h.other _ (by rw [← hs]; exact hold)
    have hcur0 : current s s.tasks.length = none := by simp only [current, hold]; rfl
    have happ : ∀ (x : Task) (j : Nat), j ≠ s.tasks.length → (s.tasks ++ [x])[j]? = s.tasks[j]? := by
      intro x j hj
      rw [List.getElem?_append]
      split
      · rfl
      · rename_i hj'
        rw [List.getElem?_eq_none (by simp; omega), List.getElem?_eq_none (by omega)]
    have hlast : ∀ (x : Task), (s.tasks ++ [x])[s.tasks.length]? = some x := fun x => by simp
    have hhand : ∀ (x : Option Agi.Info) (s' : State), (s'.devs nd.obj).agi.handlers = (s.devs nd.obj).agi.handlers ++ [x] → (∀ y, y ≠ nd.obj → s'.devs y = s.devs y) →
        ∀ (j : Nat) (t : Task), j ≠ s.tasks.length → s.tasks[j]? = some t → ∀ h k, t.pc = some (h, k) →
          (s'.devs t.nd.obj).agi.handlers[h]? = (s.devs t.nd.obj).agi.handlers[h]? := by
      intro x s' e1 e2 j t _ ht y k hp
      by_cases ho : t.nd.obj = nd.obj
      · rw [ho, e1]
        obtain ⟨c, l, -, -, -, hg⟩ := h.task j t (by rw [← hs]; exact ht)
        obtain ⟨_, _, _, _, -, hh, -⟩ := hg.2.2 y k hp
        rw [← hs, ho] at hh
        exact List.getElem?_append_left (List.getElem?_eq_some_iff.mp hh).1
      · rw [e2 _ ho]
    cases l with
    | nil =>
      rw [goOn_ends s1 i nd m _ (.info []) _ ⟨(s.devs nd.obj).agi.groups, (s.devs nd.obj).agi.handlers ++ [none], (s.devs nd.obj).agi.sent ++ []⟩ (.ok (.bool true))
        (by rw [h3]; rfl)] at hs'
      generalize hs1 : ({ (s1.put nd.obj { s1.devs nd.obj with agi := _ }) with tasks := _ } : State) = s2 at hs'
      have t2 : s2.tasks = s.tasks ++ [⟨i, nd, m, none⟩] := by rw [← hs1]; simp only [State.put, h1]
      have n2 : s2.sys.net = s.sys.net := by rw [← hs1]; exact h2
      have d2 : s2.devs = fun x => if x = nd.obj then { s.devs nd.obj with agi := ⟨(s.devs nd.obj).agi.groups, (s.devs nd.obj).agi.handlers ++ [none], (s.devs nd.obj).agi.sent ++ []⟩ }
          else s.devs x := by rw [← hs1]; simp only [State.put, h3]
      generalize hf : finish s2 i nd m _ = s' at hs'
      have tf : s'.tasks = s.tasks ++ [⟨i, nd, m, none⟩] := by rw [← hf, finish_tasks, t2]
      have df : s'.devs = s2.devs := by rw [← hf, finish_devs]
      have lf : Later s.sys.net.calls s'.sys.net.calls := by
        rw [← hf, ← n2]; exact Later.sends (finish_sys _ _ _ _ _)
      have hcur : current s' s.tasks.length = none := by simp only [current, tf, hlast]; rfl
      have hk : asked own (ops ++ [o]) s.tasks.length = [] := by rw [asked_snoc, ← hs, ← hs', hcur, hcur0, if_pos rfl, hk0]
      refine h.next hs hs' s.tasks.length (fun j hj => by rw [tf, happ _ j hj]) lf (hhand none s' (by rw [df, d2]; simp) (fun y hy => by rw [df, d2]; simp [hy]))
        (.inl (by rw [hk, hk0])) (fun t ht => ?_) (fun ht => by rw [hk]) (fun j t u x k x' k' _ _ hu _ hp' => ?_)
      · rw [tf, hlast] at ht
        cases ht
        refine ⟨c, [], hm, hc, hl, ?_, ?_, fun x k hp => by cases hp⟩
        · rw [hk]; exact ⟨List.Pairwise.nil, by intro n k hk; simp at hk, by intro n k hn; simp at hn⟩
        · rw [hk]; exact .inl ⟨rfl, by simp⟩
      · rw [tf, hlast] at hu
        cases hu; cases hp'
    | cons p rest =>
      obtain ⟨cmd, hcmd, hbytes⟩ := groupCmd_ok (.nameGet p.1)
      rw [goOn_sends s1 i nd m _ (.info (p :: rest)) _ ⟨(s.devs nd.obj).agi.groups.set p.1 ⟨none, p.2, none⟩, (s.devs nd.obj).agi.handlers ++ [some ⟨p.1, false, rest⟩],
        (s.devs nd.obj).agi.sent ++ [.nameGet p.1]⟩ (.nameGet p.1) cmd (by rw [h3]; rfl) (by rw [h3]) hcmd] at hs'
      simp only [h2, h3] at hs'
      generalize hs1 : s1.put nd.obj _ = s2 at hs'
      have t2 : s2.tasks = s.tasks := by rw [← hs1]; exact h1
      have n2 : s2.sys.net = s.sys.net := by rw [← hs1]; exact h2
      have d2 : s2.devs = fun x => if x = nd.obj then { s.devs nd.obj with agi := ⟨(s.devs nd.obj).agi.groups.set p.1 ⟨none, p.2, none⟩,
          (s.devs nd.obj).agi.handlers ++ [some ⟨p.1, false, rest⟩], (s.devs nd.obj).agi.sent ++ [.nameGet p.1]⟩ } else s.devs x := by rw [← hs1]; simp only [State.put, h3]
      obtain ⟨c1, call, c2, c3, c4, c5, c6⟩ := send_call s2 nd cmd
      rw [n2] at c1 c2
      have lf0 : Later s.sys.net.calls (s2.send nd cmd).sys.net.calls := by rw [← n2]; exact Later.sends (Sends.send s2 nd cmd)
      generalize hf : ({ (s2.send nd cmd) with tasks := _ } : State) = s' at hs'
      have tf : s'.tasks = s.tasks ++ [⟨i, nd, m, some ((s.devs nd.obj).agi.handlers.length, s.sys.net.calls.length)⟩] := by rw [← hf]; simp only [State.send, t2]
      have df : s'.devs = s2.devs := by rw [← hf]; rfl
      have nf : s'.sys.net = (s2.send nd cmd).sys.net := by rw [← hf]
      rw [← nf] at c1 c2 lf0
      have hcur : current s' s.tasks.length = some s.sys.net.calls.length := by simp only [current, tf, hlast]; rfl
      have hk : asked own (ops ++ [o]) s.tasks.length = [s.sys.net.calls.length] := by
        rw [asked_snoc, ← hs, ← hs', hcur, hcur0, if_neg (by simp), hk0]; rfl
      refine h.next hs hs' s.tasks.length (fun j hj => by rw [tf, happ _ j hj]) lf0 (hhand _ s' (by rw [df, d2]; simp; rfl) (fun y hy => by rw [df, d2]; simp [hy]))
        (.inr ⟨by rw [hk, hk0]; rfl, c1⟩) (fun t ht => ?_) (fun ht => by rw [tf, hlast] at ht; cases ht) (fun j t u x k x' k' _ ht hu hp hp' ho => ?_)
      · rw [tf, hlast] at ht
        cases ht
        refine ⟨c, p :: rest, hm, hc, hl, ?_, ?_, fun x k hp => ?_⟩
        · rw [hk]
          exact InOrder.more (ks := []) ⟨List.Pairwise.nil, by intro n k hk; simp at hk, by intro n k hn; simp at hn⟩ _ (by simp) (by simp) call (.name p.1) c2 rfl
            ⟨c3, c5, c6, by rw [c4]; exact hbytes⟩
        · rw [hk]; rfl
        · cases hp
          refine ⟨[], p, false, rest, rfl, ?_, by rw [hk]; rfl⟩
          rw [df, d2]
          simp
      · rw [tf, hlast] at hu
        cases hu; cases hp'
        obtain ⟨c, l, -, -, -, hg⟩ := h.task j t (by rw [← hs]; exact ht)
        obtain ⟨_, _, _, _, -, hh, -⟩ := hg.2.2 x k hp
        have := (List.getElem?_eq_some_iff.mp hh).1
        rw [← hs] at this
        simp only at ho
        rw [ho] at this
        exact Nat.ne_of_lt this

theorem last_lt {ks : List Nat} {k n : Nat} (h : ks.getLast? = some k) (hb : ∀ k ∈ ks, k < n) : k < n := hb k (List.mem_of_getLast? h)

/-- All questions have been asked, and no call has raised. -/
theorem all_done {a : List Call} {nd : Nd} {qs : List Ask} {ks : List Nat} (h : InOrder a nd qs ks) {k : Nat} (hl : ks.getLast? = some k) {c : Call} {r : Bool} (hc : a[k]? = some c)
    (hp : c.pc = .done (.ok r)) : ∀ k ∈ ks, ∃ c r, a[k]? = some c ∧ c.pc = .done (.ok r) := by
  intro x hx
  obtain ⟨n, hn, e⟩ := List.getElem_of_mem hx
  by_cases h' : n + 1 < ks.length
  · exact h.ended n x h' (by rw [← e]; exact List.getElem?_eq_getElem hn)
  · rw [List.getLast?_eq_getElem?, show ks.length - 1 = n by omega, List.getElem?_eq_getElem hn, e] at hl
    cases hl
    exact ⟨c, r, hc, hp⟩

/-- A report that came supervised is answered with success. Otherwise nothing is sent. -/
def Closes (s s' : State) (t : Task) : Prop :=
  (t.msg.hid ≠ 0x6C01 → s'.answers = s.answers ∧ s'.sys.net = s.sys.net) ∧
  (t.msg.hid = 0x6C01 → ∀ v, t.msg.num? "sessionID" = some v → 0 ≤ v → v < 64 → s'.answers = s.answers ++ [⟨t.told, s.sys.net.calls.length⟩] ∧
    ∃ c, s'.sys.net.calls[s.sys.net.calls.length]? = some c ∧ c.node = t.nd.root ∧ c.destEP = t.nd.ep ∧ c.sourceEP = 0 ∧
      compose c.cmd = .ok [0x6C, 0x02, UInt8.ofNat v.toNat, 0xFF, 0x00])

/-- What the handler `j` does when the call it waits for has ended with `r`. -/
inductive Goes (s : State) (j : Nat) (t : Task) (r : Py Bool) (qs : List Ask) (ks : List Nat) (s' : State) : Prop
  | raised (e : PyErr) : r = .error e → s'.tasks = s.tasks.set j { t with pc := none } → s'.answers = s.answers → s'.sys.net = s.sys.net → Goes s j t r qs ks s'
  | finished (b : Bool) : r = .ok b → ks.length = qs.length → s'.tasks = s.tasks.set j { t with pc := none } → Closes s s' t → Goes s j t r qs ks s'
  | asks (b : Bool) (h : Nat) (q : Ask) (call : Call) : r = .ok b → qs[ks.length]? = some q →
      s'.tasks = s.tasks.set j { t with pc := some (h, s.sys.net.calls.length) } → s'.sys.net.calls[s.sys.net.calls.length]? = some call → Asks call t.nd q → Goes s j t r qs ks s'

theorem inv_resume {own : Nat} {ops : List Op} {j : Nat} (h : Inv own ops) {s : State} (hs : s = run (init own) ops) {told : Nat} {nd : Nd} {m : Msg} {hh k : Nat} {call : Call}
    {r : Py Bool} (ht : s.tasks[j]? = some ⟨told, nd, m, some (hh, k)⟩) (hcall : s.sys.net.calls[k]? = some call) (hp : call.pc = .done r) {s' : State}
    (hs' : s' = step s (.resume j)) :
    Inv own (ops ++ [.resume j]) ∧ ∃ c l, Wraps m c ∧ c.hid = 0x5904 ∧ infoGroups c = .ok l ∧
      Goes s j ⟨told, nd, m, some (hh, k)⟩ r (questions (l.map (·.1))) (asked own ops j) s' := by
  obtain ⟨c, l, hm, hc, hl, hg⟩ := h.task j _ (by rw [← hs]; exact ht)
  rw [← hs] at hg
  obtain ⟨hord, hst, hat⟩ := hg
  obtain ⟨pre, p, second, rest, e1, e2, e3⟩ := hat hh k rfl
  simp only [Stands] at hst
  simp only at hord e2
  have hstep : step s (.resume j) = goOn s told nd m hh (.sent hh r) fun s pc => { s with tasks := s.tasks.set j ⟨told, nd, m, pc⟩ } := by
    simp only [step, ht, hcall, hp]
  rw [hstep] at hs'
  have hjlt := (List.getElem?_eq_some_iff.mp ht).1
  have hset : ∀ (x : Task) (i : Nat), i ≠ j → (s.tasks.set j x)[i]? = s.tasks[i]? := fun x i hi => List.getElem?_set_ne (Ne.symm hi)
  have hself : ∀ (x : Task), (s.tasks.set j x)[j]? = some x := fun x => List.getElem?_set_self hjlt
  have hcur0 : current s j = some k := by simp only [current, ht]; rfl
  have hb : ∀ x ∈ asked own ops j, x < s.sys.net.calls.length := fun x hx => by rw [hs]; exact h.bound j x hx
  have hklt : k < s.sys.net.calls.length := last_lt hst hb
  have hhand : ∀ (x : Option Agi.Info) (s' : State), (s'.devs nd.obj).agi.handlers = (s.devs nd.obj).agi.handlers.set hh x → (∀ y, y ≠ nd.obj → s'.devs y = s.devs y) →
      ∀ (i : Nat) (t : Task), i ≠ j → s.tasks[i]? = some t → ∀ h k, t.pc = some (h, k) → (s'.devs t.nd.obj).agi.handlers[h]? = (s.devs t.nd.obj).agi.handlers[h]? := by
    intro x s' a1 a2 i t hi hti y k' hpi
    by_cases ho : t.nd.obj = nd.obj
    · rw [ho, a1]
      refine set_handler ?_
      exact h.distinct j i _ t hh k y k' (Ne.symm hi) (by rw [← hs]; exact ht) (by rw [← hs]; exact hti) rfl hpi ho.symm
    · rw [a2 _ ho]
  -- the handler ends
  have ends : ∀ (a : Agi.State) (x : Py Listen.Ret), Agi.step (s.devs nd.obj).agi (.sent hh r) = (a, some x) → a.handlers = (s.devs nd.obj).agi.handlers.set hh none →
      (Stands s.sys.net.calls ⟨told, nd, m, none⟩ (questions (l.map (·.1))) (asked own ops j)) →
      Inv own (ops ++ [.resume j]) ∧ s'.tasks = s.tasks.set j ⟨told, nd, m, none⟩ ∧ s' = finish { (s.put nd.obj { s.devs nd.obj with agi := a }) with
        tasks := s.tasks.set j ⟨told, nd, m, none⟩ } told nd m (x.map Listen.Ret.truthy) := by
    intro a x ha hha hstand
    have hs2 := goOn_ends s told nd m hh (.sent hh r) (fun s pc => { s with tasks := s.tasks.set j ⟨told, nd, m, pc⟩ }) a x ha
    rw [← hs'] at hs2
    simp only at hs2
    have tf : s'.tasks = s.tasks.set j ⟨told, nd, m, none⟩ := by rw [hs2, finish_tasks]; rfl
    have df : s'.devs = fun y => if y = nd.obj then { s.devs nd.obj with agi := a } else s.devs y := by rw [hs2, finish_devs]; rfl
    have lf : Later s.sys.net.calls s'.sys.net.calls := by rw [hs2]; exact Later.sends (finish_sys _ _ _ _ _)
    have hcur : current s' j = none := by simp only [current, tf, hself]; rfl
    have hk : asked own (ops ++ [.resume j]) j = asked own ops j := by
      rw [asked_snoc, ← hs, hstep, ← hs', hcur, hcur0, if_neg (by simp)]; simp
    refine ⟨h.next hs (hs'.trans hstep.symm) j (fun i hi => by rw [tf, hset _ i hi]) lf (hhand none s' (by rw [df]; simp [hha]) (fun y hy => by rw [df]; simp [hy])) (.inl hk)
      (fun t ht' => ?_) (fun ht' => by rw [tf, hself] at ht'; cases ht') (fun i t u y k y' k' _ _ hu _ hp' => ?_), tf, hs2⟩
    · rw [tf, hself] at ht'
      cases ht'
      refine ⟨c, l, hm, hc, hl, ?_⟩
      rw [hk]
      have : Good s ⟨told, nd, m, none⟩ l (asked own ops j) := ⟨hord, hstand, fun _ _ hp => by cases hp⟩
      exact this.later lf (fun _ _ hp => by cases hp)
    · rw [tf, hself] at hu
      cases hu; cases hp'
  -- the handler asks
  have sends : ∀ (b : Bool) (a : Agi.State) (x : Agi.Sent) (info : Agi.Info) (pre' : List (Int × Int)) (p' : Int × Int) (second' : Bool) (rest' : List (Int × Int)), r = .ok b →
      Agi.step (s.devs nd.obj).agi (.sent hh r) = (a, none) → a.sent = (s.devs nd.obj).agi.sent ++ [x] → a.handlers = (s.devs nd.obj).agi.handlers.set hh (some info) →
      l = pre' ++ p' :: rest' → info = ⟨p'.1, second', rest'⟩ → (asked own ops j).length + 1 = 2 * pre'.length + (if second' then 2 else 1) →
      (questions (l.map (·.1)))[(asked own ops j).length]? = some (sentAsk x) →
      Inv own (ops ++ [.resume j]) ∧ Goes s j ⟨told, nd, m, some (hh, k)⟩ r (questions (l.map (·.1))) (asked own ops j) s' := by
    intro b a x info pre' p' second' rest' hr ha hx hha f1 f2 f3 f4
    obtain ⟨cmd, hcmd, hbytes⟩ := groupCmd_ok x
    have hs2 := goOn_sends s told nd m hh (.sent hh r) (fun s pc => { s with tasks := s.tasks.set j ⟨told, nd, m, pc⟩ }) a x cmd ha hx hcmd
    rw [← hs'] at hs2
    simp only at hs2
    obtain ⟨c1, call', c2, c3, c4, c5, c6⟩ := send_call (s.put nd.obj { s.devs nd.obj with agi := a }) nd cmd
    have lf := Later.sends (Sends.send (s.put nd.obj { s.devs nd.obj with agi := a }) nd cmd)
    have tf : s'.tasks = s.tasks.set j ⟨told, nd, m, some (hh, s.sys.net.calls.length)⟩ := by rw [hs2]; rfl
    have df : s'.devs = fun y => if y = nd.obj then { s.devs nd.obj with agi := a } else s.devs y := by rw [hs2]; rfl
    have nf : s'.sys.net = ((s.put nd.obj { s.devs nd.obj with agi := a }).send nd cmd).sys.net := by rw [hs2]
    rw [← nf] at c1 c2 lf
    have c1 : s.sys.net.calls.length < s'.sys.net.calls.length := c1
    have c2 : s'.sys.net.calls[s.sys.net.calls.length]? = some call' := c2
    have lf : Later s.sys.net.calls s'.sys.net.calls := lf
    have hcur : current s' j = some s.sys.net.calls.length := by simp only [current, tf, hself]; rfl
    have hk : asked own (ops ++ [.resume j]) j = asked own ops j ++ [s.sys.net.calls.length] := by
      rw [asked_snoc, ← hs, hstep, ← hs', hcur, hcur0, if_neg (by simp; omega)]; rfl
    have hask : Asks call' nd (sentAsk x) := ⟨c3, c5, c6, by rw [c4]; exact hbytes⟩
    have hlast : ∀ y, (asked own ops j).getLast? = some y → ∃ c r, s'.sys.net.calls[y]? = some c ∧ c.pc = .done (.ok r) := by
      intro y hy
      rw [hst] at hy
      cases hy
      obtain ⟨d, d1, -, d3⟩ := lf.2 k call hcall
      exact ⟨d, b, d1, d3 _ (by rw [hp, hr])⟩
    refine ⟨h.next hs (hs'.trans hstep.symm) j (fun i hi => by rw [tf, hset _ i hi]) lf (hhand (some info) s' (by rw [df]; simp [hha]) (fun y hy => by rw [df]; simp [hy]))
      (.inr ⟨hk, c1⟩) (fun t ht' => ?_) (fun ht' => by rw [tf, hself] at ht'; cases ht') (fun i t u y k1 y' k' hi hti hu hpi hp' ho => ?_), ?_⟩
    · rw [tf, hself] at ht'
      cases ht'
      refine ⟨c, l, hm, hc, hl, ?_, ?_, fun y z hyz => ?_⟩
      · rw [hk]
        exact (hord.later lf).more _ hb hlast call' _ c2 f4 hask
      · rw [hk]; simp [Stands]
      · cases hyz
        refine ⟨pre', p', second', rest', f1, ?_, by rw [hk]; simp only [List.length_append, List.length_cons, List.length_nil]; exact f3⟩
        rw [df]
        simp only [if_true, hha]
        rw [List.getElem?_set_self (List.getElem?_eq_some_iff.mp e2).1, f2]
    · rw [tf, hself] at hu
      cases hu; cases hp'
      exact h.distinct i j t ⟨told, nd, m, some (hh, k)⟩ y k1 hh k hi (by rw [← hs]; exact hti) (by rw [← hs]; exact ht) hpi rfl ho
    · exact .asks b hh (sentAsk x) call' hr f4 tf c2 hask
  cases r with
  | error e =>
    obtain ⟨i1, i2, i3⟩ := ends { (s.devs nd.obj).agi with handlers := (s.devs nd.obj).agi.handlers.set hh none } (.error e) (by simp only [Agi.step, e2]) rfl
      (.inr ⟨k, call, e, hst, hcall, hp⟩)
    refine ⟨i1, c, l, hm, hc, hl, .raised e rfl i2 ?_ ?_⟩ <;>
    · rw [i3]
      simp only [finish, Except.map]
      split <;> rfl
  | ok b =>
    cases second with
    | true =>
      cases rest with
      | nil =>
        have hlen : (asked own ops j).length = (questions (l.map (·.1))).length := by
          rw [questions_length, e1, e3]; simp; omega
        obtain ⟨i1, i2, i3⟩ := ends ⟨(s.devs nd.obj).agi.groups, (s.devs nd.obj).agi.handlers.set hh none, (s.devs nd.obj).agi.sent ++ []⟩ (.ok (.bool true))
          (by simp only [Agi.step, e2, Agi.next, if_true]) rfl (.inl ⟨hlen, all_done hord hst hcall hp⟩)
        refine ⟨i1, c, l, hm, hc, hl, .finished b rfl hlen i2 ⟨fun hsup => ?_, fun hsup v hv v0 v1 => ?_⟩⟩
        · rw [i3]
          have hsup : ¬ m.hid = Reg.Supervision.Get.hid := hsup
          simp only [finish, if_neg hsup]
          exact ⟨rfl, rfl⟩
        · have := finish_ok { (s.put nd.obj { s.devs nd.obj with agi := ⟨(s.devs nd.obj).agi.groups, (s.devs nd.obj).agi.handlers.set hh none, (s.devs nd.obj).agi.sent ++ []⟩ }) with
            tasks := s.tasks.set j ⟨told, nd, m, none⟩ } told nd m hsup v hv v0 v1 true
          rw [i3]
          exact this
      | cons p2 rest2 =>
        obtain ⟨i1, i2⟩ := sends b ⟨(s.devs nd.obj).agi.groups.set p2.1 ⟨none, p2.2, none⟩, (s.devs nd.obj).agi.handlers.set hh (some ⟨p2.1, false, rest2⟩),
          (s.devs nd.obj).agi.sent ++ [.nameGet p2.1]⟩ (.nameGet p2.1) ⟨p2.1, false, rest2⟩ (pre ++ [p]) p2 false rest2 rfl (by simp [Agi.step, e2, Agi.next]) rfl rfl
          (by rw [e1]; simp) rfl (by rw [e3]; simp; omega)
          (by
            have := questions_name ((pre ++ [p]).map (·.1)) p2.1 (rest2.map (·.1))
            rw [e1, e3]
            simp only [List.map_append, List.map_cons, List.map_nil, List.append_assoc, List.cons_append, List.nil_append, List.length_append, List.length_map, List.length_cons,
              List.length_nil, if_true, sentAsk] at this ⊢
            rw [show 2 * pre.length + 2 = 2 * (pre.length + (0 + 1)) by omega]
            exact this)
        exact ⟨i1, c, l, hm, hc, hl, i2⟩
    | false =>
      obtain ⟨i1, i2⟩ := sends b ⟨(s.devs nd.obj).agi.groups, (s.devs nd.obj).agi.handlers.set hh (some ⟨p.1, true, rest⟩), (s.devs nd.obj).agi.sent ++ [.commandListGet p.1]⟩
        (.commandListGet p.1) ⟨p.1, true, rest⟩ pre p true rest rfl (by simp [Agi.step, e2]) rfl rfl e1 rfl (by rw [e3]; simp)
        (by
          have := questions_commands (pre.map (·.1)) p.1 (rest.map (·.1))
          rw [e1, e3]
          simpa [sentAsk] using this)
      exact ⟨i1, c, l, hm, hc, hl, i2⟩

theorem inv_run (own : Nat) (ops : List Op) : Inv own ops := by
  induction ops using Conn.snoc_ind with
  | nil => constructor <;> simp [run, init, asked]
  | snoc ops o ih =>
    generalize hs : run (init own) ops = s
    have hs := hs.symm
    cases o with
    | deliver i x =>
      rcases deliver_cases s i x with e | ⟨nd, m, c, hh, e⟩
      · exact ih.still hs rfl ⟨by simp only [step, e], by simp only [step, e]; exact Later.sys s.sys [.deliver i], fun _ => by simp only [step, e]⟩
      · obtain ⟨-, hm, -⟩ := hands_came (ops := ops) (own := own) (by rw [← hs]; exact hh)
        have hnet : (System.step s.sys (.deliver i)).net = s.sys.net := System.run_net [.deliver i] s.sys
        have e' : step s (.deliver i x) = handle s i nd m c x := e
        unfold handle at e'
        simp only at e'
        split at e'
        · exact ih.still hs e'.symm ⟨rfl, by rw [hnet]; exact .refl _, fun _ => rfl⟩
        · split at e'
          · rename_i hc
            exact inv_start ih (s1 := { s with sys := System.step s.sys (.deliver i) }) hs hm hc.1 rfl hnet rfl e'.symm
          · generalize ha : Node.handlePlain (env nd x) ⟨s.sys.waiters nd.obj, s.devs nd.obj, []⟩ c = a at e'
            have hu := handlePlain_user nd x (s.sys.waiters nd.obj) (s.devs nd.obj) c
            rw [ha] at hu
            refine ih.still hs e'.symm ⟨finish_tasks _ _ _ _ _, ?_, fun obj => ?_⟩
            · have := Later.sends (finish_sys (({ s with sys := System.step s.sys (.deliver i) } : State).put nd.obj a.1.user) i nd m a.2)
              simp only [State.put, hnet] at this
              exact this
            · rw [finish_devs]
              simp only [State.put]
              split
              · rename_i ho
                rw [ho, hu]
                split
                · rfl
                · split
                  · exact does_handlers (classDoes_does c _)
                  · rfl
              · rfl
    | resume j =>
      have same : step s (.resume j) = s → Inv own (ops ++ [.resume j]) := fun e => ih.still hs e.symm ⟨rfl, .refl _, fun _ => rfl⟩
      cases ht : s.tasks[j]? with
      | none => exact same (by simp only [step, ht])
      | some t =>
        obtain ⟨told, nd, m, pc⟩ := t
        cases pc with
        | none => exact same (by simp only [step, ht])
        | some x =>
          obtain ⟨hh, k⟩ := x
          cases hc : s.sys.net.calls[k]? with
          | none => exact same (by simp only [step, ht, hc])
          | some call =>
            cases hp : call.pc with
            | done r => exact (inv_resume ih hs ht hc hp rfl).1
            | connecting _ => exact same (by simp only [step, ht, hc, hp])
            | sending _ _ => exact same (by simp only [step, ht, hc, hp])
    | sys o =>
      have hlater : Later s.sys.net.calls (step s (.sys o)).sys.net.calls := by
        have h0 := Later.sys s.sys [o]
        cases o with
        | deliver i => exact .refl _
        | _ => exact h0
      exact ih.still hs rfl ⟨by cases o <;> rfl, hlater, fun _ => by cases o <;> rfl⟩
    | load obj config groups =>
      refine ih.still hs rfl ⟨rfl, .refl _, fun x => ?_⟩
      simp only [step, State.put]
      split
      · rename_i e; rw [e]
      · rfl
    | sensor obj d =>
      refine ih.still hs rfl ⟨rfl, .refl _, fun x => ?_⟩
      simp only [step, State.put]
      split
      · rename_i e; rw [e]
      · rfl

/-! ## C136 -/

/-- **C136.** For every history, with any number of reports being handled at the same time: each handler asks for the groups of its own report, in their order, first for the name and
then for the commands of each, sent to the end point from which the report came; each question only after the send of the one before has ended. It stops when everything has been
asked, or when a send raises. -/
theorem C136_asked (own : Nat) (ops : List Op) (j : Nat) (t : Task) (ht : (run (init own) ops).tasks[j]? = some t) :
    ∃ c gs, Wraps t.msg c ∧ Names c gs ∧ Came own ops t.nd t.msg ∧ InOrder (run (init own) ops).sys.net.calls t.nd (questions gs) (asked own ops j) ∧
      Stands (run (init own) ops).sys.net.calls t (questions gs) (asked own ops j) := by
  obtain ⟨c, l, h1, h2, h3, h4⟩ := (inv_run own ops).task j t ht
  exact ⟨c, l.map (·.1), h1, infoGroups_names h2 h3, ((ainv_run own ops).torig t (List.mem_of_getElem? ht)).2, h4.1, h4.2.1⟩

/-- **C136.** No two handlers wait for the same call. -/
theorem C136_own_calls (own : Nat) (ops : List Op) (i j : Nat) (h : i ≠ j) : ∀ k ∈ asked own ops i, k ∉ asked own ops j := (inv_run own ops).disjoint i j h

/-- **C136.** When the send that a handler waits for has ended, the handler sends the next question; or it ends, and answers if its report came supervised; or the send raised, and it
ends without an answer. -/
theorem C136_next (own : Nat) (ops : List Op) (j : Nat) (t : Task) (h k : Nat) (c : Call) (r : Py Bool) (ht : (run (init own) ops).tasks[j]? = some t) (hp : t.pc = some (h, k))
    (hc : (run (init own) ops).sys.net.calls[k]? = some c) (hr : c.pc = .done r) :
    ∃ m gs, Wraps t.msg m ∧ Names m gs ∧ Goes (run (init own) ops) j t r (questions gs) (asked own ops j) (step (run (init own) ops) (.resume j)) := by
  obtain ⟨told, nd, m, pc⟩ := t
  simp only at hp
  subst hp
  obtain ⟨-, c', l, h1, h2, h3, h4⟩ := inv_resume (inv_run own ops) rfl ht hc hr rfl
  exact ⟨c', _, h1, infoGroups_names h2 h3, h4⟩

/-- The group information report is handled: a new handler, which has asked for the name of the first group, if there is one. -/
structure Starts (s s' : State) (i : Nat) (nd : Nd) (m : Msg) (gs : List Int) : Prop where
  task : ∃ pc, s'.tasks = s.tasks ++ [⟨i, nd, m, pc⟩] ∧
    match gs with
    | [] => pc = none
    | g :: _ => (∃ h, pc = some (h, s.sys.net.calls.length)) ∧ ∃ c, s'.sys.net.calls[s.sys.net.calls.length]? = some c ∧ Asks c nd (.name g)

theorem deliver_info {s : State} {i : Nat} {nd : Nd} {m c : Msg} (hh : Hands s.sys i nd m c) (hc : c.hid = 0x5904) (hsup : supports nd 0x59 = true)
    (hw : ∀ f, (s.sys.waiters nd.obj).sessions.get? 0x5904 = some f → (s.sys.waiters nd.obj).futs[f]? = some .pending) (x : Heard) :
    step s (.deliver i x) = start { s with sys := System.step s.sys (.deliver i) } i nd m c := by
  obtain ⟨t, ht⟩ := hands_waiter hh (by rw [hc]; exact hw)
  have hcls : c.cmdClass = 0x59 := by rw [Msg.cmdClass, hc]; decide
  have hn : c.hid = Reg.AssociationGrpInfo.GroupInfoReport.hid ∧ supports nd c.cmdClass = true := ⟨hc, by rw [hcls]; exact hsup⟩
  simp only [step, deliver_hands hh, handle, ht, if_pos hn]

theorem starts {s : State} {i : Nat} {nd : Nd} {m c : Msg} (hh : Hands s.sys i nd m c) (hc : c.hid = 0x5904) (hsup : supports nd 0x59 = true)
    (hw : ∀ f, (s.sys.waiters nd.obj).sessions.get? 0x5904 = some f → (s.sys.waiters nd.obj).futs[f]? = some .pending) (x : Heard) (l : List (Int × Int)) (hl : infoGroups c = .ok l) :
    Starts s (step s (.deliver i x)) i nd m (l.map (·.1)) := by
  rw [deliver_info hh hc hsup hw x]
  have hnet : (System.step s.sys (.deliver i)).net = s.sys.net := System.run_net [.deliver i] s.sys
  simp only [start, hl]
  cases l with
  | nil =>
    rw [goOn_ends { s with sys := System.step s.sys (.deliver i) } i nd m _ (.info []) _
      ⟨(s.devs nd.obj).agi.groups, (s.devs nd.obj).agi.handlers ++ [none], (s.devs nd.obj).agi.sent ++ []⟩ (.ok (.bool true)) rfl]
    exact ⟨none, by rw [finish_tasks]; rfl, rfl⟩
  | cons p rest =>
    obtain ⟨cmd, hcmd, hbytes⟩ := groupCmd_ok (.nameGet p.1)
    rw [goOn_sends { s with sys := System.step s.sys (.deliver i) } i nd m _ (.info (p :: rest)) _ ⟨(s.devs nd.obj).agi.groups.set p.1 ⟨none, p.2, none⟩,
      (s.devs nd.obj).agi.handlers ++ [some ⟨p.1, false, rest⟩], (s.devs nd.obj).agi.sent ++ [.nameGet p.1]⟩ (.nameGet p.1) cmd rfl rfl hcmd]
    obtain ⟨c1, call, c2, c3, c4, c5, c6⟩ := send_call (({ s with sys := System.step s.sys (.deliver i) } : State).put nd.obj { s.devs nd.obj with
      agi := ⟨(s.devs nd.obj).agi.groups.set p.1 ⟨none, p.2, none⟩, (s.devs nd.obj).agi.handlers ++ [some ⟨p.1, false, rest⟩], (s.devs nd.obj).agi.sent ++ [.nameGet p.1]⟩ }) nd cmd
    simp only [State.put, hnet] at c2
    refine ⟨some ((s.devs nd.obj).agi.handlers.length, s.sys.net.calls.length), ?_, ⟨_, rfl⟩, call, c2, c3, c5, c6, by rw [c4]; exact hbytes⟩
    simp only [hnet]
    rfl

/-- **C136**, from the wire: a group information report with the records `rs` arrives in a packet from the end point of a node. Whatever happens between the arrival and the task for it, if
the node object then is in the table and lists the class, a handler starts for these groups, in this order. -/
theorem C136_starts (own : Nat) (pre mid : List Op) (o : Gateway.Op) (nd : Nd) (h : ZipHeader) (b : UInt8) (rs : List GroupRec) (tl : Bytes) (hb : b.toNat % 64 = rs.length)
    (hne : rs.flatMap GroupRec.wire ++ tl ≠ []) (w : Waits own pre mid o nd h (0x59 :: 0x04 :: b :: (rs.flatMap GroupRec.wire ++ tl)) 0x5904) (s : State)
    (hs : s = run (init own) (pre ++ .sys (.net (.gw o)) :: mid)) (hsup : supports nd 0x59 = true)
    (hw : ∀ f, (s.sys.waiters nd.obj).sessions.get? 0x5904 = some f → (s.sys.waiters nd.obj).futs[f]? = some .pending) (x : Heard) :
    ∃ m, m.hid = 0x5904 ∧ Names m (rs.map fun r => (r.id.toNat : Int)) ∧
      Starts s (step s (.deliver (run (init own) pre).sys.net.gw.told.length x)) (run (init own) pre).sys.net.gw.told.length nd m (rs.map fun r => (r.id.toNat : Int)) := by
  obtain ⟨m, gs, h0, h1, -, h2, h3, h4⟩ := Props.C26_group_info b rs tl hb hne
  have hh := waits_hands (c := m) (by simp) h0 (by rw [h1]; decide) (by
    have : ¬ m.hid = Reg.Supervision.Get.hid := by rw [h1]; decide
    simp only [System.offered, if_neg this]) (by rw [h1]; exact w)
  rw [← hs] at hh
  have hl : infoGroups m = .ok (gs.map fun g => ((Dict.get? g "groupingIdentifier").getD 0, (Dict.get? g "profile").getD 0)) := by
    simp only [infoGroups, getAttr, h2]
  have hst := starts hh h1 hsup hw x _ hl
  have hn := infoGroups_names h1 hl
  have hids : (gs.map fun g => ((Dict.get? g "groupingIdentifier").getD 0, (Dict.get? g "profile").getD 0)).map (·.1) = rs.map fun r => (r.id.toNat : Int) := by
    refine List.ext_getElem? (fun i => ?_)
    simp only [List.getElem?_map]
    cases hg : gs[i]? with
    | none =>
      have : rs[i]? = none := by
        rw [List.getElem?_eq_none_iff] at hg ⊢; omega
      simp [this]
    | some g =>
      have : ∃ r, rs[i]? = some r := by
        have := (List.getElem?_eq_some_iff.mp hg).1
        exact ⟨_, List.getElem?_eq_getElem (by omega)⟩
      obtain ⟨r, hr⟩ := this
      simp [hr, (h4 i g r hg hr).1]
  rw [hids] at hst hn
  exact ⟨m, h1, hn, hst⟩

/-- **C136.** A group information report that ends before the groups is not answered, even if it came supervised, and nothing is asked. -/
theorem C136_no_groups {s : State} {i : Nat} {nd : Nd} {m c : Msg} (hh : Hands s.sys i nd m c) (hc : c.hid = 0x5904) (ha : c.attr "groups" = none) (hsup : supports nd 0x59 = true)
    (hw : ∀ f, (s.sys.waiters nd.obj).sessions.get? 0x5904 = some f → (s.sys.waiters nd.obj).futs[f]? = some .pending) (x : Heard) :
    (step s (.deliver i x)).tasks = s.tasks ∧ (step s (.deliver i x)).answers = s.answers ∧ (step s (.deliver i x)).sys.net = s.sys.net ∧
      (step s (.deliver i x)).devs = s.devs := by
  rw [deliver_info hh hc hsup hw x]
  have hnet : (System.step s.sys (.deliver i)).net = s.sys.net := System.run_net [.deliver i] s.sys
  have hf : registry.find? (fun d => decide (d.hid = 0x5904)) = some Reg.AssociationGrpInfo.GroupInfoReport := by decide +kernel
  have hl : infoGroups c = .error .type := by
    simp only [infoGroups, getAttr, ha, hc, hf]
    rfl
  simp only [start, hl]
  exact ⟨by first | trivial | rfl, by first | trivial | rfl, hnet, by first | trivial | rfl⟩

/-! ## Supervised reports about a group -/

theorem agi_handled {s : State} {i : Nat} {nd : Nd} {m : Msg} {hid : Nat} {a : Dict String Val} (hh : Hands s.sys i nd m (.known hid a)) (hcls : hid >>> 8 &&& 0xFF = 0x59)
    {f : Msg → Dev → Dev × Py Listen.Ret} (hf : handler 0x59 hid = some f) {name : String} (hn : (registry.find? (fun d => d.hid = hid)).map (·.msgName) = some name)
    (hsup : supports nd 0x59 = true) (hw : ∀ g, (s.sys.waiters nd.obj).sessions.get? hid = some g → (s.sys.waiters nd.obj).futs[g]? = some .pending) (x : Heard) :
    (∀ d : Dev, (f (.known hid a) d).2 = .ok (.bool true) → s.devs nd.obj = d → (Node.handlePlain (env nd x) ⟨s.sys.waiters nd.obj, s.devs nd.obj, []⟩ (.known hid a)).2 = .ok true) ∧
    ∀ (d : Dev) (e : PyErr), (f (.known hid a) d).2 = .error e → s.devs nd.obj = d →
      (Node.handlePlain (env nd x) ⟨s.sys.waiters nd.obj, s.devs nd.obj, []⟩ (.known hid a)).2 = .error e := by
  obtain ⟨t, ht⟩ := hands_waiter hh hw
  have hc : (Msg.known hid a).cmdClass = 0x59 := hcls
  have hn : Node.nameOf (.known hid a) = some name := hn
  have hf : (env nd x).handler 0x59 hid = some f := hf
  have hs : (env nd x).supported 0x59 = true := hsup
  refine ⟨fun d hd he => ?_, fun d e hd he => ?_⟩
  · simp only [Node.handlePlain, ht, hc, hs, if_true, Node.classHandle, hn, Msg.hid, hf, he, hd, Listen.Ret.truthy]
  · simp only [Node.handlePlain, ht, hc, hs, if_true, Node.classHandle, hn, Msg.hid, hf, he, hd]

/-- A report on the supervised command with the session id `v` is sent to the end point, with the status `st`. -/
def Replies (s s' : State) (i : Nat) (nd : Nd) (v : Int) (st : UInt8) : Prop :=
  s'.answers = s.answers ++ [⟨i, s.sys.net.calls.length⟩] ∧
  ∃ call, s'.sys.net.calls[s.sys.net.calls.length]? = some call ∧ call.node = nd.root ∧ call.destEP = nd.ep ∧ call.sourceEP = 0 ∧
    compose call.cmd = .ok [0x6C, 0x02, UInt8.ofNat v.toNat, st, 0x00]

theorem name_handler : handler 0x59 0x5902 = some nameReport := by
  have h1 : (Dispatch.load 0x59 false).handles.any (fun d => d.hid == 0x5902) = true := by decide +kernel
  unfold handler
  rw [if_pos h1]
  unfold builtin
  rw [if_neg (by decide +kernel), if_neg (by decide +kernel), if_pos (by decide +kernel)]

theorem commands_handler : handler 0x59 0x5906 = some commandsReport := by
  have h1 : (Dispatch.load 0x59 false).handles.any (fun d => d.hid == 0x5906) = true := by decide +kernel
  unfold handler
  rw [if_pos h1]
  unfold builtin
  rw [if_neg (by decide +kernel), if_neg (by decide +kernel), if_neg (by decide +kernel), if_pos (by decide +kernel)]

/-- **C130.** A supervised group name report is answered with success, even if the object does not have the group, or if the report has none. -/
theorem C130_group_name {s : State} {i : Nat} {nd : Nd} {m : Msg} {a : Dict String Val} (hh : Hands s.sys i nd m (.known 0x5902 a)) (hm : m.hid = 0x6C01) (hsup : supports nd 0x59 = true)
    (hw : ∀ g, (s.sys.waiters nd.obj).sessions.get? 0x5902 = some g → (s.sys.waiters nd.obj).futs[g]? = some .pending) (x : Heard) (v : Int) (hv : m.num? "sessionID" = some v)
    (v0 : 0 ≤ v) (v1 : v < 64) : Replies s (step s (.deliver i x)) i nd v 0xFF := by
  have hr : ∀ d : Dev, (nameReport (.known 0x5902 a) d).2 = .ok (.bool true) := by
    intro d
    unfold nameReport
    split
    · rfl
    · simp only [Agi.step]; split <;> rfl
  have h := (agi_handled hh (by decide) name_handler (name := "GROUP_NAME_REPORT") (by decide +kernel) hsup hw x).1 _ (hr _) rfl
  have := C130_result hh hm (show (0x5902 : Nat) ≠ 0x5904 by decide) x hw v hv v0 v1
  rw [h] at this
  exact this

/-- **C130.** A supervised command list report is answered with success if the object has the group; if it has not, the handler raises, and nothing is sent. -/
theorem C130_group_commands {s : State} {i : Nat} {nd : Nd} {m : Msg} {a : Dict String Val} (hh : Hands s.sys i nd m (.known 0x5906 a)) (hm : m.hid = 0x6C01) (g : Int)
    (l : List (UInt8 × UInt8)) (hg : (Msg.known 0x5906 a).num? "groupingIdentifier" = some g) (hl : (Msg.known 0x5906 a).attr "commandClass" = some (.pairs l))
    (hsup : supports nd 0x59 = true) (hw : ∀ g, (s.sys.waiters nd.obj).sessions.get? 0x5906 = some g → (s.sys.waiters nd.obj).futs[g]? = some .pending) (x : Heard) (v : Int)
    (hv : m.num? "sessionID" = some v) (v0 : 0 ≤ v) (v1 : v < 64) :
    match (s.devs nd.obj).agi.groups.get? g with
    | some _ => Replies s (step s (.deliver i x)) i nd v 0xFF
    | none => (step s (.deliver i x)).answers = s.answers ∧ (step s (.deliver i x)).sys.net = s.sys.net := by
  have hr : ∀ d : Dev, (commandsReport (.known 0x5906 a) d).2 = match d.agi.groups.get? g with
      | some _ => .ok (.bool true)
      | none => .error .key := by
    intro d
    simp only [commandsReport, getAttr, hl, numAttr_of_num hg, Agi.step]
    cases d.agi.groups.get? g <;> rfl
  have h := agi_handled hh (by decide) commands_handler (name := "GROUP_COMMAND_LIST_REPORT") (by decide +kernel) hsup hw x
  have hres := C130_result hh hm (show (0x5906 : Nat) ≠ 0x5904 by decide) x hw v hv v0 v1
  cases hd : (s.devs nd.obj).agi.groups.get? g with
  | some q =>
    have := h.1 (s.devs nd.obj) (by rw [hr, hd]) rfl
    rw [this] at hres
    exact hres
  | none =>
    have := h.2 (s.devs nd.obj) .key (by rw [hr, hd]) rfl
    rw [this] at hres
    exact hres

/-- A supervised name report without a group, and supervised command lists for a group that the object does not have and then has. -/
example : let s := run (init 1) (up ++ [.sys (.net (.gw (rcv [0x6C, 0x01, 0x05, 2, 0x59, 0x02]))), .deliver 0 quiet,
      .sys (.net (.gw (rcv [0x6C, 0x01, 0x06, 6, 0x59, 0x06, 1, 2, 0x20, 0x01]))), .deliver 1 quiet,
      .sys (.net (.gw (rcv [0x59, 0x04, 1, 1, 0, 0, 1, 0, 0, 0]))), .deliver 2 quiet,
      .sys (.net (.gw (rcv [0x6C, 0x01, 0x07, 6, 0x59, 0x06, 1, 2, 0x20, 0x01]))), .deliver 3 quiet])
    s.answers = [⟨0, 1⟩, ⟨3, 3⟩] ∧ (s.sys.net.calls[1]?).map (fun c => (compose c.cmd).toOption) = some (some [0x6C, 0x02, 0x05, 0xFF, 0x00]) ∧
    (s.sys.net.calls[3]?).map (fun c => (compose c.cmd).toOption) = some (some [0x6C, 0x02, 0x07, 0xFF, 0x00]) := by decide +kernel

/-! ## Examples -/

/-- A report of the groups 1 and 2, and then one of the group 3, each handled when it has arrived. -/
def two : List Op :=
  up ++ [.sys (.net (.gw (rcv [0x59, 0x04, 2, 1, 0, 0, 1, 0, 0, 0, 2, 0, 0, 1, 0, 0, 0]))), .deliver 0 quiet, .sys (.net (.gw (rcv [0x59, 0x04, 1, 3, 0, 0, 1, 0, 0, 0]))), .deliver 1 quiet]

/-- The packet number `seq` is acknowledged, and the call `k` with its send `i` continues. -/
def acked (seq i k : Nat) : List Op :=
  [.sys (.net (.gw (.link 0 (.packet (({ ackResponse := true, secure := true, seq := seq, src := 0, dst := 0 } : ZipHeader).bytes))))), .sys (.net (.gw (.link 0 (.resume i)))),
   .sys (.net (.resume k))]

/-- The two handlers take turns. -/
def turns : List Op := two ++ acked 3 2 2 ++ [.resume 1] ++ acked 2 1 1 ++ [.resume 0] ++ acked 4 3 3 ++ [.resume 1]

example : (run (init 1) turns).tasks.map (fun t => (t.told, t.pc)) = [(0, some (0, 4)), (1, none)] ∧ asked 1 turns 0 = [1, 4] ∧ asked 1 turns 1 = [2, 3] ∧
    (run (init 1) turns).sys.net.calls.map (fun c => (compose c.cmd).toOption) =
      [some [0x25, 0x02], some [0x59, 0x01, 1], some [0x59, 0x01, 3], some [0x59, 0x05, 0x80, 3], some [0x59, 0x05, 0x80, 1]] := by decide +kernel

/-- `C136_next` applies: the handler of the first report waits for a call that has ended. -/
example : let s := run (init 1) (turns ++ acked 5 4 4)
    (s.tasks[0]?).map (·.pc) = some (some (0, 4)) ∧ (s.sys.net.calls[4]?).map (·.pc) = some (.done (.ok true)) ∧ asked 1 (turns ++ acked 5 4 4 ++ [.resume 0]) 0 = [1, 4, 5] := by
  decide +kernel

/-- `C136_starts` applies, with another message between. -/
example : Waits 1 up [.sys (.net (.gw (rcv [0x25, 0x03, 0xFF]))), .deliver 1 quiet] (rcv [0x59, 0x04, 1, 3, 0, 0, 1, 0, 0, 0]) node2 packet [0x59, 0x04, 1, 3, 0, 0, 1, 0, 0, 0] 0x5904 where
  fits := by unfold ZipHeader.Fits; decide
  plain := rfl
  brings := .inr ⟨0, _, rfl, by decide +kernel, rfl, rfl, rfl, rfl, rfl, by decide +kernel⟩
  ep := rfl
  later := by
    intro x h
    have : (run (init 1) up).sys.net.gw.told.length = 0 := by decide +kernel
    rw [this] at h
    rcases List.mem_cons.mp h with h | h
    · cases h
    · rcases List.mem_cons.mp h with h | h <;> cases h
  known := by decide +kernel

/-- A supervised report without groups: no handler, no answer. -/
example : let s := run (init 1) (up ++ [.sys (.net (.gw (rcv [0x6C, 0x01, 0x06, 2, 0x59, 0x04]))), .deliver 0 quiet])
    supports node2 0x59 = true ∧ s.sys.delivered = [0] ∧ s.tasks = [] ∧ s.answers = [] := by decide +kernel

end Props.GroupAsk
