import Verif.Spec.ClassNet
import Verif.Props.System
import Verif.Props.ClassRun
import Verif.Props.Innocent
/-!
# Property theorems C152: what interviews of command classes hold came from the node
-/
namespace Props.ClassNet
open Model Model.ClassNet Spec.System Spec.ClassNet
open Model.App (Nd)
open Model.ClassRun (Cls pcOf itemsOf reports Says)
open Model.Body (Query Command Prog Item)
open Props.ClassRun (Waits go_wait go_ret pause_waits begins answered calls_set pc_lt pcOf_some)
open Model.Listen (Ret)

variable {σ : Type}

/-! ## Constructing -/

/-- The messages can always be constructed. -/
theorem constructed (id : Nat) (q : Query) : (∃ m, Version.question id = .ok m) ∧ (∃ m, q.request = .ok m) ∧ ∀ c : Command, ∃ m, c.message = .ok m := by
  refine ⟨⟨_, rfl⟩, ?_, ?_⟩
  · cases q with
    | group multi g => cases multi <;> exact ⟨_, rfl⟩
    | _ => exact ⟨_, rfl⟩
  · intro c
    cases c with
    | lifeLine m => exact ⟨m, rfl⟩
    | groupInfo => exact ⟨_, rfl⟩

/-! ## One step of the class -/

/-- What the operation does is done to call `i` only. -/
def At : ClassRun.Op σ → Nat → Prop
  | .versionAnswer j _, i | .answer j _, i | .acked j _, i => i = j
  | _, _ => False

theorem body_ends (d : Interview.State) (j : Nat) (r : Py Ret) :
    (∀ i, i ≠ j → pcOf (Interview.step d (.bodyEnds j r)) i = pcOf d i) ∧ (Interview.step d (.bodyEnds j r)).calls.length = d.calls.length ∧
    (Interview.step d (.bodyEnds j r)).version = d.version ∧ (Interview.step d (.bodyEnds j r)).id = d.id := by
  simp only [Interview.step]
  cases d.calls[j]? with
  | none => exact ⟨fun _ _ => rfl, rfl, rfl, rfl⟩
  | some c =>
    dsimp only
    split
    · cases r with
      | error e =>
        cases e <;> exact ⟨fun i hi => by rw [calls_set, if_neg fun h => hi h.1], by simp, rfl, rfl⟩
      | ok v => exact ⟨fun i hi => by rw [calls_set, if_neg fun h => hi h.1], by simp, rfl, rfl⟩
    · exact ⟨fun _ _ => rfl, rfl, rfl, rfl⟩

/-- What going on does not change. -/
structure Same (s s' : ClassRun.State σ) (j : Nat) : Prop where
  pc : ∀ i, i ≠ j → pcOf s'.dec i = pcOf s.dec i
  body : ∀ i, i ≠ j → s'.bodies[i]? = s.bodies[i]?
  calls : s'.dec.calls.length = s.dec.calls.length
  bodies : s'.bodies.length = s.bodies.length
  version : s'.dec.version = s.dec.version
  id : s'.dec.id = s.dec.id
  trace : s'.trace = s.trace

theorem go_same (s : ClassRun.State σ) (j : Nat) (p : Prog σ) : Same s (ClassRun.go s j p) j := by
  rcases pause_waits p s.attrs with hw | ⟨r, hr⟩
  · rw [go_wait s j p hw]
    exact ⟨fun _ _ => rfl, fun i hi => List.getElem?_set_ne fun e => hi e.symm, rfl, by simp, rfl, rfl, rfl⟩
  · rw [go_ret s j p r hr]
    obtain ⟨h1, h2, h3, h4⟩ := body_ends s.dec j r
    exact ⟨h1, fun i hi => List.getElem?_set_ne fun e => hi e.symm, h2, by simp, h3, h4, rfl⟩

/-- The number of calls after an operation. -/
def more : ClassRun.Op σ → Nat
  | .interview | .requestVersion => 1
  | _ => 0

theorem answer_version (d : Interview.State) (j : Nat) (r : Py Nat) :
    (Interview.step d (.versionAnswer j r)).version = d.version ∨ pcOf d j = some .version ∧ r = .ok (Interview.step d (.versionAnswer j r)).version := by
  cases hc : d.calls[j]? with
  | none => simp [Interview.step, hc]
  | some c =>
    by_cases hp : c.pc = .version
    · have hv : pcOf d j = some .version := by rw [pcOf_some hc, hp]
      cases r with
      | error e => left; cases e <;> simp [Interview.step, hc, hp]
      | ok v =>
        right
        refine ⟨hv, ?_⟩
        simp only [Interview.step, hc, if_pos hp]
        split
        · rfl
        · split <;> rfl
    · left; simp [Interview.step, hc, hp]

theorem answer_id (d : Interview.State) (j : Nat) (r : Py Nat) : (Interview.step d (.versionAnswer j r)).id = d.id := by
  simp only [Interview.step]
  cases d.calls[j]? with
  | none => rfl
  | some c =>
    dsimp only
    split
    · cases r with
      | error e => cases e <;> rfl
      | ok v =>
        dsimp only
        split
        · rfl
        · split <;> rfl
    · rfl

theorem begin_id (d : Interview.State) (o : Interview.Op) (ho : o = .interview ∨ o = .requestVersion) : (Interview.step d o).id = d.id ∧ (Interview.step d o).version = d.version := by
  rcases ho with rfl | rfl <;> simp only [Interview.step]
  · split
    · split <;> exact ⟨rfl, rfl⟩
    · exact ⟨rfl, rfl⟩
  · split <;> exact ⟨rfl, rfl⟩

/-- What an operation does not change. -/
structure Effect (s s' : ClassRun.State σ) (o : ClassRun.Op σ) : Prop where
  pc : ∀ i, i < s.dec.calls.length → ¬ At o i → pcOf s'.dec i = pcOf s.dec i
  body : ∀ i, i < s.dec.calls.length → ¬ At o i → s'.bodies[i]? = s.bodies[i]?
  calls : s'.dec.calls.length = s.dec.calls.length + more o
  bodies : s'.bodies.length = s.bodies.length + more o
  id : s'.dec.id = s.dec.id
  version : s'.dec.version = s.dec.version ∨ (∃ i v, o = .versionAnswer i (.ok v) ∧ pcOf s.dec i = some .version ∧ s'.dec.version = v) ∨ ∃ b f, o = .load s'.dec.version b f
  trace : s'.trace = s.trace ∨ (∃ i q k r, o = .answer i r ∧ s.bodies[i]? = some (.ask q k) ∧ s'.trace = s.trace ++ [⟨i, .asked q (some r)⟩]) ∨
    ∃ i q k r, o = .acked i r ∧ s.bodies[i]? = some (.send q k) ∧ s'.trace = s.trace ++ [⟨i, .sent q (some r)⟩]

theorem step_effect (c : Cls σ) (s : ClassRun.State σ) (hl : s.bodies.length = s.dec.calls.length) (o : ClassRun.Op σ) : Effect s (ClassRun.step c s o) o := by
  have grow : ∀ (x : Prog σ) i, i < s.dec.calls.length → (s.bodies ++ [x])[i]? = s.bodies[i]? := fun x i hi => List.getElem?_append_left (by rw [hl]; exact hi)
  cases o with
  | interview =>
    obtain ⟨e1, e2, -, -⟩ := begins s.dec .interview (.inl rfl)
    obtain ⟨e3, e4⟩ := begin_id s.dec .interview (.inl rfl)
    simp only [ClassRun.step]
    split
    · have h := go_same ({ s with dec := Interview.step s.dec .interview, bodies := s.bodies ++ [.ret (.ok .none)] } : ClassRun.State σ) s.dec.calls.length c.prog
      exact ⟨fun i hi _ => by rw [h.pc i (by omega)]; exact e1 i (by omega), fun i hi _ => by rw [h.body i (by omega)]; exact grow _ i hi,
        by rw [h.calls]; exact e2, by rw [h.bodies]; simp [more], by rw [h.id]; exact e3, .inl (by rw [h.version]; exact e4), .inl h.trace⟩
    · exact ⟨fun i hi _ => e1 i (by omega), fun i hi _ => grow _ i hi, e2, by simp [more], e3, .inl e4, .inl rfl⟩
  | requestVersion =>
    obtain ⟨e1, e2, -, -⟩ := begins s.dec .requestVersion (.inr rfl)
    obtain ⟨e3, e4⟩ := begin_id s.dec .requestVersion (.inr rfl)
    exact ⟨fun i hi _ => e1 i (by omega), fun i hi _ => grow _ i hi, e2, by simp [ClassRun.step, more], e3, .inl e4, .inl rfl⟩
  | versionAnswer j r =>
    obtain ⟨e1, e2, -, -⟩ := answered s.dec j r
    have e3 := answer_id s.dec j r
    have e4 := answer_version s.dec j r
    have e5 : ∀ v, v = (Interview.step s.dec (.versionAnswer j r)).version → v = s.dec.version ∨ (∃ i w, (ClassRun.Op.versionAnswer j r : ClassRun.Op σ) = .versionAnswer i (.ok w) ∧
        pcOf s.dec i = some .version ∧ v = w) ∨ ∃ b f, (ClassRun.Op.versionAnswer j r : ClassRun.Op σ) = .load v b f := by
      rintro v rfl
      rcases e4 with e4 | ⟨e4, e5⟩
      · exact .inl e4
      · exact .inr (.inl ⟨j, _, by rw [← e5], e4, rfl⟩)
    simp only [ClassRun.step]
    split
    · have h := go_same ({ s with dec := Interview.step s.dec (.versionAnswer j r), attrs := c.version (Interview.step s.dec (.versionAnswer j r)).version s.attrs } : ClassRun.State σ) j c.prog
      exact ⟨fun i _ hi => by rw [h.pc i hi]; exact e1 i hi, fun i _ hi => h.body i hi, by rw [h.calls]; exact e2, h.bodies, by rw [h.id]; exact e3, e5 _ h.version, .inl h.trace⟩
    · exact ⟨fun i _ hi => e1 i hi, fun _ _ _ => rfl, e2, rfl, e3, e5 _ rfl, .inl rfl⟩
  | answer j r =>
    cases hb : s.bodies[j]? with
    | none =>
      simp only [ClassRun.step, hb]
      exact ⟨fun _ _ _ => rfl, fun _ _ _ => rfl, rfl, rfl, rfl, .inl rfl, .inl rfl⟩
    | some p =>
      cases p with
      | ask q k =>
        simp only [ClassRun.step, hb]
        have h := go_same ({ s with trace := s.trace ++ [⟨j, .asked q (some r)⟩] } : ClassRun.State σ) j (k r)
        exact ⟨fun i _ hi => h.pc i hi, fun i _ hi => h.body i hi, h.calls, h.bodies, h.id, .inl h.version, .inr (.inl ⟨j, q, k, r, rfl, hb, h.trace⟩)⟩
      | _ =>
        simp only [ClassRun.step, hb]
        exact ⟨fun _ _ _ => rfl, fun _ _ _ => rfl, rfl, rfl, rfl, .inl rfl, .inl rfl⟩
  | acked j r =>
    cases hb : s.bodies[j]? with
    | none =>
      simp only [ClassRun.step, hb]
      exact ⟨fun _ _ _ => rfl, fun _ _ _ => rfl, rfl, rfl, rfl, .inl rfl, .inl rfl⟩
    | some p =>
      cases p with
      | send q k =>
        simp only [ClassRun.step, hb]
        have h := go_same ({ s with trace := s.trace ++ [⟨j, .sent q (some r)⟩] } : ClassRun.State σ) j (k r)
        exact ⟨fun i _ hi => h.pc i hi, fun i _ hi => h.body i hi, h.calls, h.bodies, h.id, .inl h.version, .inr (.inr ⟨j, q, k, r, rfl, hb, h.trace⟩)⟩
      | _ =>
        simp only [ClassRun.step, hb]
        exact ⟨fun _ _ _ => rfl, fun _ _ _ => rfl, rfl, rfl, rfl, .inl rfl, .inl rfl⟩
  | load v b f => exact ⟨fun _ _ _ => rfl, fun _ _ _ => rfl, rfl, rfl, rfl, .inr (.inr ⟨b, f, rfl⟩), .inl rfl⟩
  | others f => exact ⟨fun _ _ _ => rfl, fun _ _ _ => rfl, rfl, rfl, rfl, .inl rfl, .inl rfl⟩

theorem wants_same {c : Cls σ} {s : ClassRun.State σ} (hl : s.bodies.length = s.dec.calls.length) {o : ClassRun.Op σ} {i : Nat} (hi : i < s.dec.calls.length) (ho : ¬ At o i) :
    wants (ClassRun.step c s o) i = wants s i := by
  have h := step_effect c s hl o
  unfold wants
  rw [h.pc i hi ho, h.body i hi ho, h.id]

/-! ## The invariant -/

/-- The node object has been in the table. -/
def Known (own : Nat) (nd : Nd) (os : List System.Op) : Prop := ∃ a b, os = a ++ b ∧ (nd.id, nd) ∈ (System.run (System.init own) a).app.nodes

/-- The message came from the node. -/
def Came (own : Nat) (nd : Nd) (os : List System.Op) (m : Msg) : Prop :=
  ∃ x, Wraps x m ∧ ∃ before o after, os = before ++ .net (.gw o) :: after ∧ FromNode (System.run (System.init own) before).net.gw o nd.root nd.ep x

/-- The command was acknowledged by the node. -/
def Acked (own : Nat) (nd : Nd) (os : List System.Op) (cmd : Msg) : Prop :=
  ∃ before k b after, os = before ++ .net (.gw (.link k (.packet b))) :: after ∧
    ∃ d ∈ (System.run (System.init own) before).net.calls, ∃ l n, d.node = nd.root ∧ d.cmd = cmd ∧ d.destEP = nd.ep ∧ d.pc = .sending k n ∧
      (System.run (System.init own) before).net.gw.links[k]? = some l ∧ l.node = nd.root ∧ Spec.AckFor b ((n + 1) % 256)

theorem Known.mono {own : Nat} {nd : Nd} {os : List System.Op} (h : Known own nd os) (l : List System.Op) : Known own nd (os ++ l) := by
  obtain ⟨a, b, e, h⟩ := h
  exact ⟨a, b ++ l, by rw [e]; simp, h⟩

theorem Came.mono {own : Nat} {nd : Nd} {os : List System.Op} {m : Msg} (h : Came own nd os m) (l : List System.Op) : Came own nd (os ++ l) m := by
  obtain ⟨x, hx, a, o, b, e, h⟩ := h
  exact ⟨x, hx, a, o, b ++ l, by rw [e]; simp, h⟩

theorem Acked.mono {own : Nat} {nd : Nd} {os : List System.Op} {cmd : Msg} (h : Acked own nd os cmd) (l : List System.Op) : Acked own nd (os ++ l) cmd := by
  obtain ⟨a, k, b, z, e, h⟩ := h
  exact ⟨a, k, b, z ++ l, by rw [e]; simp, h⟩

/-- The call was made with this command and for this answer. -/
def Asked (own : Nat) (nd : Nd) (os : List System.Op) (t : Nat) (cmd : Msg) (hid : Nat) : Prop :=
  ∃ a b, os = a ++ .ask nd cmd hid 3 :: b ∧ Known own nd a ∧ t = ((System.run (System.init own) a).waiters nd.obj).tasks.length

theorem Asked.mono {own : Nat} {nd : Nd} {os : List System.Op} {t : Nat} {cmd : Msg} {hid : Nat} (h : Asked own nd os t cmd hid) (l : List System.Op) : Asked own nd (os ++ l) t cmd hid := by
  obtain ⟨a, b, e, h⟩ := h
  exact ⟨a, b ++ l, by rw [e]; simp, h⟩

theorem Asked.answer {own : Nat} {nd : Nd} {os : List System.Op} {t : Nat} {cmd : Msg} {hid : Nat} (h : Asked own nd os t cmd hid) {u : Waiter.Task} {m : Msg}
    (hu : ((System.run (System.init own) os).waiters nd.obj).tasks[t]? = some u) (hd : u.pc = .done (.ok m)) : m.hid = hid ∧ Came own nd os m ∧ Acked own nd os cmd := by
  obtain ⟨a, b, rfl, hk, rfl⟩ := h
  rw [System.run_append] at hu
  obtain ⟨h1, pre, i, post, x, rfl, hw, before, o, after, h2, h3⟩ := Props.System.answer_known own a b nd cmd hid 3 m hk ⟨u, hu, hd⟩
  obtain ⟨p2, k, y, q2, h4, d, l, n, h5, h6, h7, h8, h9, h10, h11, h12⟩ := Props.System.C100_acknowledged own a _ nd cmd hid 3 m ⟨u, hu, hd⟩
  refine ⟨h1, ⟨x, hw, before, o, after ++ .deliver i :: post, ?_, h3⟩, ?_⟩
  · rw [← List.cons_append, ← List.append_assoc, h2]; simp
  · rw [← System.run_append] at h5 h10
    exact ⟨a ++ .ask nd cmd hid 3 :: p2, k, y, q2, by rw [h4]; simp, d, List.mem_of_getElem? h5, l, n, h6, h7, h8, h9, h10, h11, h12⟩

/-- The send was made with this command. -/
def SentAs (own : Nat) (nd : Nd) (os : List System.Op) (k : Nat) (cmd : Msg) : Prop :=
  ∃ a b, os = a ++ .net (.send nd.root cmd 0 nd.ep 3) :: b ∧ k = (System.run (System.init own) a).net.calls.length

theorem SentAs.mono {own : Nat} {nd : Nd} {os : List System.Op} {k : Nat} {cmd : Msg} (h : SentAs own nd os k cmd) (l : List System.Op) : SentAs own nd (os ++ l) k cmd := by
  obtain ⟨a, b, e, h⟩ := h
  exact ⟨a, b ++ l, by rw [e]; simp, h⟩

theorem SentAs.acked {own : Nat} {nd : Nd} {os : List System.Op} {k : Nat} {cmd : Msg} (h : SentAs own nd os k cmd) {d : ToNode.Call}
    (hd : (System.run (System.init own) os).net.calls[k]? = some d) (hp : d.pc = .done (.ok true)) : Acked own nd os cmd := by
  obtain ⟨a, b, rfl, rfl⟩ := h
  -- what was sent
  obtain ⟨c0, c1, c2, c3, c4, c5, c6⟩ := ToNode.send_new (System.run (System.init own) a).net nd.root cmd 0 nd.ep 3
  obtain ⟨d1, e1, e2, e3, e4, e5, e6⟩ := ToNode.run_same (b.flatMap System.netOps) _ c1
  have hd1 : d1 = d := by
    rw [System.run_append, System.run_net] at hd
    exact Option.some.inj (e1.symm.trans hd)
  subst hd1
  -- when it returned
  rw [Props.System.net_init] at hd
  obtain ⟨x, y, d0, k, n, f1, f2, f3, f4, f5⟩ := ToNode.returned _ _ d1 true hd hp
  rw [f5] at f4
  obtain ⟨before, z, after, g1, g2, g3⟩ := Props.ToNode.C97_true x _ k n d0 f2 f3 f4
  rw [g1, List.append_assoc] at f1
  obtain ⟨pre, post, h1, h2⟩ := System.net_split (.link k (.packet z)) _ before _ f1
  have hnet : (System.run (System.init own) pre).net = ToNode.run ToNode.init before := by rw [Props.System.net_init, h2]
  have hok := (ToNode.inv_run before).calls _ d0 g3
  simp only [ToNode.CallOk, f3] at hok
  obtain ⟨l, l1, l2, -⟩ := hok
  obtain ⟨d2, i1, i2, i3, i4, i5, i6⟩ := ToNode.run_same (.gw (.link k (.packet z)) :: (after ++ .resume (System.run (System.init own) a).net.calls.length :: y)) _ g3
  have hd2 : d2 = d1 := by
    rw [f1, show ∀ (s : ToNode.State) a b, ToNode.run s (a ++ b) = ToNode.run (ToNode.run s a) b from fun s a b => List.foldl_append] at hd
    exact Option.some.inj (i1.symm.trans hd)
  subst hd2
  have hn : d0.node = nd.root := i2.symm.trans (e2.trans c2)
  exact ⟨pre, k, z, post, h1, d0, by rw [hnet]; exact List.mem_of_getElem? g3, l, n, hn, i3.symm.trans (e3.trans c3), i5.symm.trans (e5.trans c5), f3, by rw [hnet]; exact l1,
    l2.trans hn, g2⟩

/-- What is known, apart from what call `at?` awaits. -/
structure Good (own : Nat) (nd : Nd) (loaded : Nat → Prop) (os : List System.Op) (s : State σ) (at? : Option Nat) : Prop where
  waits : s.waits.length = s.cls.dec.calls.length
  bodies : s.cls.bodies.length = s.cls.dec.calls.length
  sys : s.sys = System.run (System.init own) os
  known : Known own nd os ∨ s.cls.dec.calls = []
  asked : ∀ i t, some i ≠ at? → s.waits[i]? = some (some (.received t)) → ∃ cmd hid, wants s.cls i = some (.ask (.ok cmd) hid) ∧ Asked own nd os t cmd hid
  sends : ∀ i k, some i ≠ at? → s.waits[i]? = some (some (.sent k)) → ∃ cmd, wants s.cls i = some (.send (.ok cmd)) ∧ SentAs own nd os k cmd
  trace : ∀ e ∈ s.cls.trace, ∀ q m, e.item = .asked q (some (.ok m)) → m.hid = q.awaits.hid ∧ Came own nd os m ∧ ∃ cmd, q.request = .ok cmd ∧ Acked own nd os cmd
  sent : ∀ e ∈ s.cls.trace, ∀ q, e.item = .sent q (some (.ok true)) → ∃ cmd, q.message = .ok cmd ∧ Acked own nd os cmd
  version : s.cls.dec.version = 0 ∨ loaded s.cls.dec.version ∨
    ∃ m cmd, m.hid = 0x8614 ∧ Version.taken (.ok m) = .ok s.cls.dec.version ∧ Came own nd os m ∧ Version.question s.cls.dec.id = .ok cmd ∧ Acked own nd os cmd

variable {own : Nat} {nd : Nd} {loaded : Nat → Prop} {os : List System.Op}

theorem Good.grow {s : State σ} {x : Option Nat} (h : Good own nd loaded os s x) (o : System.Op) : Good own nd loaded (os ++ [o]) { s with sys := System.step s.sys o } x :=
  ⟨h.waits, h.bodies, by rw [System.run_snoc, ← h.sys], h.known.imp (·.mono _) id,
    fun i t hi ht => by obtain ⟨cmd, hid, h1, h2⟩ := h.asked i t hi ht; exact ⟨cmd, hid, h1, h2.mono _⟩,
    fun i k hi hk => by obtain ⟨cmd, h1, h2⟩ := h.sends i k hi hk; exact ⟨cmd, h1, h2.mono _⟩,
    fun e he q m hm => by obtain ⟨h1, h2, cmd, h3, h4⟩ := h.trace e he q m hm; exact ⟨h1, h2.mono _, cmd, h3, h4.mono _⟩,
    fun e he q hm => by obtain ⟨cmd, h3, h4⟩ := h.sent e he q hm; exact ⟨cmd, h3, h4.mono _⟩,
    h.version.imp id (Or.imp id fun ⟨m, cmd, h1, h2, h3, h4, h5⟩ => ⟨m, cmd, h1, h2, h3.mono _, h4, h5.mono _⟩)⟩

/-- The class goes on with an operation that is not an answer, or is one that call `i` waited for. -/
theorem Good.cls {c : Cls σ} {s : State σ} (h : Good own nd loaded os s none) (o : ClassRun.Op σ) (loaded' : Nat → Prop) (hl : ∀ v, loaded v → loaded' v) (hlo : ∀ v b f, o = .load v b f → loaded' v)
    (w : List (Option Wait)) (hw : w.length = s.waits.length + more o) (hw' : ∀ i, i < s.waits.length → w[i]? = s.waits[i]?) (x : Option Nat)
    (hx : ∀ i, At o i → x = some i) (hx' : ∀ i, s.waits.length ≤ i → i < w.length → x = some i) (hk : Known own nd os ∨ more o = 0)
    (ha : ∀ i m, o = .answer i (.ok m) → pcOf s.cls.dec i ≠ some .version ∧ ∃ cmd hid, wants s.cls i = some (.ask (.ok cmd) hid) ∧ m.hid = hid ∧ Came own nd os m ∧ Acked own nd os cmd)
    (hs : ∀ i, o = .acked i (.ok true) → ∃ cmd, wants s.cls i = some (.send (.ok cmd)) ∧ Acked own nd os cmd)
    (hv : ∀ i v, o = .versionAnswer i (.ok v) → pcOf s.cls.dec i = some .version → ∃ m cmd, m.hid = 0x8614 ∧ Version.taken (.ok m) = .ok v ∧ Came own nd os m ∧ Version.question s.cls.dec.id = .ok cmd ∧ Acked own nd os cmd) :
    Good own nd loaded' os { s with cls := ClassRun.step c s.cls o, waits := w } x := by
  have e := step_effect c s.cls h.bodies o
  refine ⟨by simp only [hw, e.calls, h.waits], by simp only [e.bodies, e.calls, h.bodies], h.sys, ?_, ?_, ?_, ?_, ?_, ?_⟩
  · rcases hk with hk | hk
    · exact .inl hk
    · refine h.known.imp id fun hn => ?_
      have := e.calls
      rw [hn, hk] at this
      exact List.length_eq_zero_iff.1 this
  · intro i t hi ht
    dsimp only at ht ⊢
    have hlt : i < w.length := by
      rcases Nat.lt_or_ge i w.length with hlt | hge
      · exact hlt
      · rw [List.getElem?_eq_none hge] at ht; cases ht
    have hi' : i < s.waits.length := by
      rcases Nat.lt_or_ge i s.waits.length with hi' | hge
      · exact hi'
      · exact absurd (hx' i hge hlt).symm hi
    rw [hw' i hi'] at ht
    obtain ⟨cmd, hid, h1, h2⟩ := h.asked i t (by simp) ht
    exact ⟨cmd, hid, by rw [wants_same h.bodies (h.waits ▸ hi') fun ho => hi (hx i ho).symm]; exact h1, h2⟩
  · intro i t hi ht
    dsimp only at ht ⊢
    have hlt : i < w.length := by
      rcases Nat.lt_or_ge i w.length with hlt | hge
      · exact hlt
      · rw [List.getElem?_eq_none hge] at ht; cases ht
    have hi' : i < s.waits.length := by
      rcases Nat.lt_or_ge i s.waits.length with hi' | hge
      · exact hi'
      · exact absurd (hx' i hge hlt).symm hi
    rw [hw' i hi'] at ht
    obtain ⟨cmd, h1, h2⟩ := h.sends i t (by simp) ht
    exact ⟨cmd, by rw [wants_same h.bodies (h.waits ▸ hi') fun ho => hi (hx i ho).symm]; exact h1, h2⟩
  · intro ev hev q m hm
    dsimp only at hev
    rcases e.trace with e | ⟨i, q', k, r, rfl, hb, e⟩ | ⟨i, q', k, r, rfl, hb, e⟩
    · rw [e] at hev; exact h.trace ev hev q m hm
    · rw [e] at hev
      rcases List.mem_append.1 hev with hev | hev
      · exact h.trace ev hev q m hm
      · rw [List.mem_singleton] at hev
        subst hev
        cases hm
        obtain ⟨hpc, cmd, hid, h1, h2, h3, h4⟩ := ha i m rfl
        unfold wants at h1
        rw [hb] at h1
        split at h1
        · rename_i hpc'; exact absurd hpc' hpc
        · simp only [Option.some.injEq, Want.ask.injEq] at h1
          exact ⟨h2.trans h1.2.symm, h3, cmd, h1.1, h4⟩
        · cases h1
    · rw [e] at hev
      rcases List.mem_append.1 hev with hev | hev
      · exact h.trace ev hev q m hm
      · rw [List.mem_singleton] at hev
        subst hev
        cases hm
  · intro ev hev q hm
    dsimp only at hev
    rcases e.trace with e | ⟨i, q', k, r, rfl, hb, e⟩ | ⟨i, q', k, r, rfl, hb, e⟩
    · rw [e] at hev; exact h.sent ev hev q hm
    · rw [e] at hev
      rcases List.mem_append.1 hev with hev | hev
      · exact h.sent ev hev q hm
      · rw [List.mem_singleton] at hev
        subst hev
        cases hm
    · rw [e] at hev
      rcases List.mem_append.1 hev with hev | hev
      · exact h.sent ev hev q hm
      · rw [List.mem_singleton] at hev
        subst hev
        cases hm
        obtain ⟨cmd, h1, h2⟩ := hs i rfl
        unfold wants at h1
        rw [hb] at h1
        split at h1
        · cases h1
        · simp only [Option.some.injEq, Want.send.injEq] at h1
          exact ⟨cmd, h1, h2⟩
        · cases h1
  · dsimp only
    rcases e.version with e' | ⟨i, v, rfl, hp, e'⟩ | ⟨b, f, e'⟩
    · rw [e', e.id]; exact h.version.imp id (Or.imp (hl _) id)
    · rw [e', e.id]; exact .inr (.inr (hv i v rfl hp))
    · exact .inr (.inl (hlo _ b f e'))

/-- What issuing does to the system. -/
def issued (nd : Nd) (s : State σ) (i : Nat) : List System.Op :=
  match wants s.cls i with
  | some (.ask (.ok cmd) hid) => [.ask nd cmd hid 3]
  | some (.send (.ok cmd)) => [.net (.send nd.root cmd 0 nd.ep 3)]
  | _ => []

theorem Good.issue {s : State σ} {i : Nat} (h : Good own nd loaded os s (some i)) (hk : Known own nd os) : Good own nd loaded (os ++ issued nd s i) (issue nd s i) none := by
  have hset : ∀ (w : Option Wait) j (t : Wait), (s.waits.set i w)[j]? = some (some t) → (j = i ∧ w = some t) ∨ (j ≠ i ∧ s.waits[j]? = some (some t)) := by
    intro w j t ht
    rw [List.getElem?_set] at ht
    split at ht
    · rename_i e
      split at ht
      · exact .inl ⟨e.symm, Option.some.inj ht⟩
      · cases ht
    · rename_i e; exact .inr ⟨fun e' => e e'.symm, ht⟩
  have rest : Good own nd loaded os { s with waits := s.waits.set i none } none := by
    refine ⟨by simp [h.waits], h.bodies, h.sys, h.known, ?_, ?_, h.trace, h.sent, h.version⟩
    · intro j t _ ht
      rcases hset _ j _ ht with ⟨rfl, e⟩ | ⟨hj, ht⟩
      · cases e
      · exact h.asked j t (by simpa using hj) ht
    · intro j t _ ht
      rcases hset _ j _ ht with ⟨rfl, e⟩ | ⟨hj, ht⟩
      · cases e
      · exact h.sends j t (by simpa using hj) ht
  unfold ClassNet.issue issued
  cases hw : wants s.cls i with
  | none => simpa only [List.append_nil] using rest
  | some w =>
    cases w with
    | ask r hid =>
      cases r with
      | error e => simpa only [List.append_nil] using rest
      | ok cmd =>
        dsimp only
        have g := h.grow (.ask nd cmd hid 3)
        refine ⟨by simp [h.waits], g.bodies, g.sys, g.known, ?_, ?_, g.trace, g.sent, g.version⟩
        · intro j t _ ht
          rcases hset _ j _ ht with ⟨rfl, e⟩ | ⟨hj, ht⟩
          · cases e
            exact ⟨cmd, hid, hw, os, [], rfl, hk, by rw [h.sys]⟩
          · exact g.asked j t (by simpa using hj) ht
        · intro j t _ ht
          rcases hset _ j _ ht with ⟨rfl, e⟩ | ⟨hj, ht⟩
          · cases e
          · exact g.sends j t (by simpa using hj) ht
    | send r =>
      cases r with
      | error e => simpa only [List.append_nil] using rest
      | ok cmd =>
        dsimp only
        have g := h.grow (.net (.send nd.root cmd 0 nd.ep 3))
        refine ⟨by simp [h.waits], g.bodies, g.sys, g.known, ?_, ?_, g.trace, g.sent, g.version⟩
        · intro j t _ ht
          rcases hset _ j _ ht with ⟨rfl, e⟩ | ⟨hj, ht⟩
          · cases e
          · exact g.asked j t (by simpa using hj) ht
        · intro j t _ ht
          rcases hset _ j _ ht with ⟨rfl, e⟩ | ⟨hj, ht⟩
          · cases e
            exact ⟨cmd, hw, os, [], rfl, by rw [h.sys]⟩
          · exact g.sends j t (by simpa using hj) ht

/-- What an operation does to the system. -/
def sysOps (nd : Nd) (c : Cls σ) (s : State σ) : Op σ → List System.Op
  | .interview => issued nd { s with cls := ClassRun.step c s.cls .interview, waits := s.waits ++ [none] } s.waits.length
  | .requestVersion => issued nd { s with cls := ClassRun.step c s.cls .requestVersion, waits := s.waits ++ [none] } s.waits.length
  | .proceed i =>
    match gives nd s i with
    | some o => issued nd { s with cls := ClassRun.step c s.cls o } i
    | none => []
  | .sys o => [o]
  | .load _ _ _ | .others _ => []

/-- What an operation does to the class. -/
def clsOps (nd : Nd) (s : State σ) : Op σ → List (ClassRun.Op σ)
  | .interview => [.interview]
  | .requestVersion => [.requestVersion]
  | .proceed i => (gives nd s i).toList
  | .sys _ => []
  | .load v b f => [.load v b f]
  | .others f => [.others f]

theorem issue_cls (s : State σ) (i : Nat) : (ClassNet.issue nd s i).cls = s.cls := by
  unfold ClassNet.issue
  split <;> rfl

theorem step_cls (c : Cls σ) (s : State σ) (o : Op σ) : (step nd c s o).cls = ClassRun.run c s.cls (clsOps nd s o) := by
  cases o with
  | interview => simp only [step, issue_cls, clsOps]; rfl
  | requestVersion => simp only [step, issue_cls, clsOps]; rfl
  | proceed i =>
    simp only [step, clsOps]
    cases gives nd s i with
    | none => rfl
    | some o => simp only [issue_cls, Option.toList]; rfl
  | sys o => rfl
  | load v b f => rfl
  | others f => rfl

theorem gives_at {s : State σ} {i : Nat} {o : ClassRun.Op σ} (h : gives nd s i = some o) : At o i ∧ more o = 0 ∧ (∀ j, At o j → j = i) ∧ (∀ v b f, o ≠ .load v b f) ∧ ∀ f, o ≠ .others f := by
  unfold gives at h
  split at h
  · split at h
    · split at h
      · cases h
        split <;> exact ⟨rfl, rfl, fun j hj => hj, by simp, by simp⟩
      · cases h
    · cases h
  · split at h
    · split at h
      · cases h; exact ⟨rfl, rfl, fun j hj => hj, by simp, by simp⟩
      · cases h
    · cases h
  · cases h

/-- The version an operation loads. -/
def loads : Op σ → Nat → Prop
  | .load v _ _, w => w = v
  | _, _ => False

theorem Good.step {c : Cls σ} {s : State σ} (h : Good own nd loaded os s none) (o : Op σ) (hk : Known own nd os ∨ ∃ x, o = .sys x) :
    Good own nd (fun v => loaded v ∨ loads o v) (os ++ sysOps nd c s o) (ClassNet.step nd c s o) none := by
  have weak : ∀ {os' : List System.Op} {s' : State σ}, Good own nd loaded os' s' none → Good own nd (fun v => loaded v ∨ loads o v) os' s' none := fun g =>
    ⟨g.waits, g.bodies, g.sys, g.known, g.asked, g.sends, g.trace, g.sent, g.version.imp id (Or.imp .inl id)⟩
  have new : ∀ (o' : ClassRun.Op σ), (∀ i, ¬ At o' i) → more o' = 1 → (∀ v b f, o' ≠ .load v b f) → Known own nd os →
      Good own nd loaded os { s with cls := ClassRun.step c s.cls o', waits := s.waits ++ [none] } (some s.waits.length) := by
    intro o' h1 h2 h3 hk
    refine h.cls o' loaded (fun _ h => h) (fun v b f e => absurd e (h3 v b f)) _ (by simp [h2]) (fun i hi => List.getElem?_append_left hi) _ (fun i hi => absurd hi (h1 i))
      (fun i hi hi' => by simp at hi'; congr 1; omega) (.inl hk) ?_ ?_ ?_
    · rintro i m rfl; exact absurd rfl (h1 i)
    · rintro i rfl; exact absurd rfl (h1 i)
    · rintro i v rfl; exact absurd rfl (h1 i)
  have same : ∀ (o' : ClassRun.Op σ), (∀ i, ¬ At o' i) → more o' = 0 → (∀ v b f, o' = .load v b f → loads o v) →
      Good own nd (fun v => loaded v ∨ loads o v) os { s with cls := ClassRun.step c s.cls o' } none := by
    intro o' h1 h2 h3
    refine h.cls o' _ (fun _ h => .inl h) (fun v b f e => .inr (h3 v b f e)) s.waits (by simp [h2]) (fun i hi => rfl) none (fun i hi => absurd hi (h1 i))
      (fun i hi hi' => by omega) (.inr h2) ?_ ?_ ?_
    · rintro i m rfl; exact absurd rfl (h1 i)
    · rintro i rfl; exact absurd rfl (h1 i)
    · rintro i v rfl; exact absurd rfl (h1 i)
  cases o with
  | interview =>
    rcases hk with hk | ⟨x, hk⟩
    · exact weak ((new .interview (fun i h => h) rfl (by simp) hk).issue hk)
    · cases hk
  | requestVersion =>
    rcases hk with hk | ⟨x, hk⟩
    · exact weak ((new .requestVersion (fun i h => h) rfl (by simp) hk).issue hk)
    · cases hk
  | proceed i =>
    rcases hk with hk | ⟨x, hk⟩
    · simp only [ClassNet.step, sysOps]
      cases hg : gives nd s i with
      | none => rw [List.append_nil]; exact weak h
      | some o =>
        obtain ⟨g1, g2, g3, g4, g5⟩ := gives_at hg
        refine weak (Good.issue (h.cls o loaded (fun _ h => h) (fun v b f e => absurd e (g4 v b f)) s.waits (by simp [g2]) (fun _ _ => rfl) (some i) (fun j hj => by rw [g3 j hj])
          (fun j hj hj' => by omega) (.inl hk) ?_ ?_ ?_) hk)
        · rintro j m rfl
          obtain rfl := g3 j rfl
          unfold gives at hg
          split at hg
          · rename_i t ht
            split at hg
            · rename_i u hu
              split at hg
              · rename_i r hr
                split at hg
                · cases hg
                · rename_i hpc
                  cases hg
                  obtain ⟨cmd, hid, h1, h2⟩ := h.asked j t (by simp) ht
                  rw [h.sys] at hu
                  exact ⟨hpc, cmd, hid, h1, h2.answer hu hr⟩
              · cases hg
            · cases hg
          · split at hg
            · split at hg <;> cases hg
            · cases hg
          · cases hg
        · rintro j rfl
          obtain rfl := g3 j rfl
          unfold gives at hg
          split at hg
          · split at hg
            · split at hg
              · split at hg <;> cases hg
              · cases hg
            · cases hg
          · rename_i k hk'
            split at hg
            · rename_i d hd
              split at hg
              · rename_i r hr
                cases hg
                obtain ⟨cmd, h1, h2⟩ := h.sends j k (by simp) hk'
                rw [h.sys] at hd
                exact ⟨cmd, h1, h2.acked hd hr⟩
              · cases hg
            · cases hg
          · cases hg
        · rintro j v rfl hpc
          obtain rfl := g3 j rfl
          unfold gives at hg
          split at hg
          · rename_i t ht
            split at hg
            · rename_i u hu
              split at hg
              · rename_i r hr
                rw [if_pos hpc] at hg
                simp only [Option.some.injEq, ClassRun.Op.versionAnswer.injEq, true_and] at hg
                obtain ⟨cmd, hid, h1, h2⟩ := h.asked j t (by simp) ht
                unfold wants at h1
                rw [hpc] at h1
                simp only [Option.some.injEq, Want.ask.injEq] at h1
                cases r with
                | error e => cases hg
                | ok m =>
                  rw [h.sys] at hu
                  obtain ⟨h3, h4, h5⟩ := h2.answer hu hr
                  exact ⟨m, cmd, by rw [h3, ← h1.2]; rfl, hg, h4, h1.1, h5⟩
              · cases hg
            · cases hg
          · split at hg
            · split at hg <;> cases hg
            · cases hg
          · cases hg
    · cases hk
  | sys o => exact weak (h.grow o)
  | load v b f =>
    simp only [ClassNet.step, sysOps, List.append_nil]
    exact same (.load v b f) (fun i h => h) rfl (fun v' b' f' e => by cases e; rfl)
  | others f =>
    simp only [ClassNet.step, sysOps, List.append_nil]
    exact same (.others f) (fun i h => h) rfl (fun v' b' f' e => by cases e)

theorem run_snoc (c : Cls σ) (s : State σ) (l : List (Op σ)) (o : Op σ) : run nd c s (l ++ [o]) = step nd c (run nd c s l) o := by simp [run, List.foldl_append]

/-- What is known of the system and the class. -/
structure Whole (h : Life σ) (l : List (Op σ)) (os : List System.Op) (cs : List (ClassRun.Op σ)) : Prop where
  good : Good h.own h.nd (fun v => ∃ b f, .load v b f ∈ l) os (h.after l) none
  split : ∀ before o after, os = before ++ .net (.gw o) :: after → ∃ pre post, l = pre ++ .sys (.net (.gw o)) :: post ∧ (h.after pre).sys = System.run (System.init h.own) before
  cls : (h.after l).cls = ClassRun.run h.c (ClassRun.fresh h.id h.attrs) cs
  load : ∀ v b f, .load v b f ∈ cs → .load v b f ∈ l
  others : ∀ f, .others f ∈ cs → .others f ∈ l

theorem sysOps_gw (c : Cls σ) (s : State σ) (o : Op σ) : (∃ x, o = .sys x) ∨ sysOps nd c s o = [] ∨ ∃ x, sysOps nd c s o = [x] ∧ ∀ g, x ≠ .net (.gw g) := by
  have key : ∀ (s : State σ) i, issued nd s i = [] ∨ ∃ x, issued nd s i = [x] ∧ ∀ g, x ≠ .net (.gw g) := by
    intro s i
    unfold issued
    split
    · exact .inr ⟨_, rfl, by simp⟩
    · exact .inr ⟨_, rfl, by simp⟩
    · exact .inl rfl
  cases o with
  | interview => exact .inr (key _ _)
  | requestVersion => exact .inr (key _ _)
  | proceed i =>
    simp only [sysOps]
    cases gives nd s i with
    | none => exact .inr (.inl rfl)
    | some o => exact .inr (key _ _)
  | sys o => exact .inl ⟨o, rfl⟩
  | load v b f => exact .inr (.inl rfl)
  | others f => exact .inr (.inl rfl)

theorem Whole.step {h : Life σ} {l : List (Op σ)} {os : List System.Op} {cs : List (ClassRun.Op σ)} (w : Whole h l os cs) (o : Op σ) (hk : Known h.own h.nd os ∨ ∃ x, o = .sys x) :
    ∃ cs', Whole h (l ++ [o]) (os ++ sysOps h.nd h.c (h.after l) o) cs' := by
  have e : h.after (l ++ [o]) = ClassNet.step h.nd h.c (h.after l) o := run_snoc _ _ _ _
  refine ⟨cs ++ clsOps h.nd (h.after l) o, ?_, ?_, ?_, ?_, ?_⟩
  · rw [e]
    have g := w.good.step (c := h.c) o hk
    refine ⟨g.waits, g.bodies, g.sys, g.known, g.asked, g.sends, g.trace, g.sent, g.version.imp id (Or.imp ?_ id)⟩
    rintro (⟨b, f, h⟩ | h)
    · exact ⟨b, f, by simp [h]⟩
    · cases o <;> simp only [loads] at h
      exact ⟨_, _, by rw [h]; exact List.mem_append_right _ (List.mem_singleton.2 rfl)⟩
  · intro before g after hb
    have old : ∀ a', os = before ++ .net (.gw g) :: a' → ∃ pre post, l ++ [o] = pre ++ .sys (.net (.gw g)) :: post ∧ (h.after pre).sys = System.run (System.init h.own) before := by
      intro a' e
      obtain ⟨pre, post, h1, h2⟩ := w.split before g a' e
      exact ⟨pre, post ++ [o], by rw [h1]; simp, h2⟩
    have one : ∀ x, sysOps h.nd h.c (h.after l) o = [x] → (∃ a', os = before ++ .net (.gw g) :: a') ∨ before = os ∧ x = .net (.gw g) := by
      intro x hx
      rw [hx] at hb
      rcases List.eq_nil_or_concat after with rfl | ⟨a', y, rfl⟩
      · have := List.append_inj' hb (by simp)
        exact .inr ⟨this.1.symm, by simpa using this.2⟩
      · rw [List.concat_eq_append, ← List.cons_append, ← List.append_assoc] at hb
        exact .inl ⟨a', (List.append_inj' hb (by simp)).1⟩
    rcases sysOps_gw (nd := h.nd) h.c (h.after l) o with ⟨x, rfl⟩ | e | ⟨x, e, hx⟩
    · rcases one x rfl with ⟨a', e⟩ | ⟨rfl, rfl⟩
      · exact old a' e
      · exact ⟨l, [], rfl, w.good.sys⟩
    · rw [e, List.append_nil] at hb; exact old after hb
    · rcases one x e with ⟨a', e⟩ | ⟨-, e⟩
      · exact old a' e
      · exact absurd e (hx g)
  · rw [e, step_cls, w.cls]
    simp [ClassRun.run, List.foldl_append]
  · intro v b f hm
    rcases List.mem_append.1 hm with hm | hm
    · exact List.mem_append_left _ (w.load v b f hm)
    · cases o <;> simp only [clsOps, List.mem_singleton, Option.mem_toList, List.not_mem_nil] at hm
      · cases hm
      · cases hm
      · exact absurd rfl ((gives_at hm).2.2.2.1 v b f)
      · cases hm; simp
      · cases hm
  · intro f hm
    rcases List.mem_append.1 hm with hm | hm
    · exact List.mem_append_left _ (w.others f hm)
    · cases o <;> simp only [clsOps, List.mem_singleton, Option.mem_toList, List.not_mem_nil] at hm
      · cases hm
      · cases hm
      · exact absurd rfl ((gives_at hm).2.2.2.2 f)
      · cases hm
      · cases hm; simp

theorem whole (h : Life σ) : ∃ os cs, Whole h h.all os cs := by
  have first : ∀ p : List System.Op, ∃ cs, Whole h (p.map .sys) p cs := by
    intro p
    induction p using Conn.snoc_ind with
    | nil =>
      refine ⟨[], ⟨rfl, rfl, rfl, .inr rfl, ?_, ?_, ?_, ?_, .inl rfl⟩, ?_, rfl, by simp, by simp⟩
      · intro i t _ ht; simp [Life.after, run, init] at ht
      · intro i t _ ht; simp [Life.after, run, init] at ht
      · intro e he; simp [Life.after, run, init, ClassRun.fresh] at he
      · intro e he; simp [Life.after, run, init, ClassRun.fresh] at he
      · intro before o after e; simp at e
    | snoc p o ih =>
      obtain ⟨cs, w⟩ := ih
      obtain ⟨cs', w'⟩ := w.step (.sys o) (.inr ⟨o, rfl⟩)
      rw [List.map_append]
      exact ⟨cs', w'⟩
  obtain ⟨cs, w⟩ := first h.pre
  have hk : Known h.own h.nd h.pre := ⟨h.pre, [], by simp, h.known⟩
  unfold Life.all
  generalize h.ops = ops
  suffices hs : ∃ os cs, Whole h (h.pre.map .sys ++ ops) os cs ∧ Known h.own h.nd os by obtain ⟨os, cs, w, -⟩ := hs; exact ⟨os, cs, w⟩
  induction ops using Conn.snoc_ind with
  | nil => exact ⟨h.pre, cs, by rw [List.append_nil]; exact w, hk⟩
  | snoc ops o ih =>
    obtain ⟨os, cs, w, hk⟩ := ih
    obtain ⟨cs', w'⟩ := w.step o (.inl hk)
    exact ⟨_, cs', by rw [← List.append_assoc]; exact w', hk.mono _⟩

theorem Whole.said {h : Life σ} {os : List System.Op} {cs : List (ClassRun.Op σ)} (w : Whole h h.all os cs) {m : Msg} (hm : Came h.own h.nd os m) : h.Said m := by
  obtain ⟨x, hx, before, o, after, e, hf⟩ := hm
  obtain ⟨pre, post, h1, h2⟩ := w.split before o after e
  exact ⟨x, hx, pre, o, post, h1, by rw [h2]; exact hf⟩

theorem Whole.acknowledged {h : Life σ} {os : List System.Op} {cs : List (ClassRun.Op σ)} (w : Whole h h.all os cs) {cmd : Msg} (hm : Acked h.own h.nd os cmd) : h.Acknowledged cmd := by
  obtain ⟨before, k, b, after, e, hf⟩ := hm
  obtain ⟨pre, post, h1, h2⟩ := w.split before _ after e
  exact ⟨pre, k, b, post, h1, by rw [h2]; exact hf⟩

/-- **C152**, the answers. Whatever an interview takes for the answer to a question has the type that was asked for and came in a datagram from the node and end point of the class, and
the question was sent to this node and end point and acknowledged. -/
theorem C152_answers (h : Life σ) : ∀ e ∈ h.now.cls.trace, ∀ q m, e.item = .asked q (some (.ok m)) →
    m.hid = q.awaits.hid ∧ h.Said m ∧ ∃ cmd, q.request = .ok cmd ∧ h.Acknowledged cmd := by
  obtain ⟨os, cs, w⟩ := whole h
  intro e he q m hm
  obtain ⟨h1, h2, cmd, h3, h4⟩ := w.good.trace e he q m hm
  exact ⟨h1, w.said h2, cmd, h3, w.acknowledged h4⟩

/-- **C152**, the commands. If an interview is told that a command was sent, it was sent to the node and end point of the class and acknowledged. -/
theorem C152_commands (h : Life σ) : ∀ e ∈ h.now.cls.trace, ∀ c, e.item = .sent c (some (.ok true)) → ∃ cmd, c.message = .ok cmd ∧ h.Acknowledged cmd := by
  obtain ⟨os, cs, w⟩ := whole h
  intro e he c hc
  obtain ⟨cmd, h3, h4⟩ := w.good.sent e he c hc
  exact ⟨cmd, h3, w.acknowledged h4⟩

/-- **C152**, the version. The version of a class is not known, was loaded, or was in a version report from the node and end point of the class, after a question for the version of the
class that was sent to this node and end point and acknowledged. -/
theorem C152_version (h : Life σ) : h.now.cls.dec.version = 0 ∨ h.LoadedVersion h.now.cls.dec.version ∨
    ∃ m cmd, h.Said m ∧ m.hid = 0x8614 ∧ Version.taken (.ok m) = .ok h.now.cls.dec.version ∧ Version.question h.now.cls.dec.id = .ok cmd ∧ h.Acknowledged cmd := by
  obtain ⟨os, cs, w⟩ := whole h
  refine w.good.version.imp id (Or.imp ?_ ?_)
  · rintro ⟨b, f, hm⟩
    unfold Life.all at hm
    rcases List.mem_append.1 hm with hm | hm
    · simp at hm
    · exact ⟨b, f, hm⟩
  · rintro ⟨m, cmd, h1, h2, h3, h4, h5⟩
    exact ⟨m, cmd, w.said h3, h1, h2, h4, w.acknowledged h5⟩

/-! ## Example -/

/-- Manufacturer Specific of the end point 2 of node 3 is interviewed: the version is asked for and reported, then the manufacturer is asked for and the end point `ep` reports it. -/
def manufacturerOps (ep : UInt8) : List (Op (Dict String Int)) :=
  .interview ::
  ((Props.System.after100 2).take 9 ++
   [System.Op.net (.gw (.link 0 (.packet [0x23, 0x02, 0, 0x50, 7, 2, 0, 0x86, 0x14, 0x72, 0x02]))), .deliver 0, .waiter 3 (.resume 0)]).map .sys ++
  [.proceed 0] ++
  [System.Op.net (.gw (.link 0 (.packet [0x23, 0x02, 0x40, 0x10, 2, 0, 0]))), .net (.gw (.link 0 (.resume 1))), .net (.resume 1), .sent 1,
   .net (.gw (.link 0 (.packet [0x23, 0x02, 0, 0x50, 8, ep, 0, 0x72, 0x05, 0, 1, 0, 2, 0, 3]))), .deliver 1, .waiter 3 (.resume 1)].map .sys ++ [.proceed 0]

def manufacturerLife (ep : UInt8) : Life (Dict String Int) where
  own := 1
  nd := Props.System.asked
  c := Model.ClassRun.manufacturer
  id := 0x72
  attrs := []
  pre := Props.System.before100
  ops := manufacturerOps ep
  known := by decide +kernel

/-- The question number `n` is acknowledged and answered with `b`. -/
def turn (n : Nat) (b : List UInt8) : List (Op σ) :=
  [System.Op.net (.gw (.link 0 (.packet [0x23, 0x02, 0x40, 0x10, UInt8.ofNat (n + 1), 0, 0]))), .net (.gw (.link 0 (.resume n))), .net (.resume n), .sent n,
   .net (.gw (.link 0 (.packet ([0x23, 0x02, 0, 0x50, 8, 2, 0] ++ b)))), .deliver n, .waiter 3 (.resume n)].map .sys ++ [.proceed 0]

/-- An interview of class `id` of this end point with the answers `bs`. -/
def talk (bs : List (List UInt8)) : List (Op σ) :=
  .interview :: ((Props.System.after100 2).take 5).map .sys ++ (bs.mapIdx fun n b => turn n b).flatten

def life (c : Cls σ) (id : Nat) (a : σ) (bs : List (List UInt8)) : Life σ where
  own := 1
  nd := Props.System.asked
  c := c
  id := id
  attrs := a
  pre := Props.System.before100
  ops := talk bs
  known := by decide +kernel

theorem talk_only (c : Cls σ) (id : Nat) (a : σ) (bs : List (List UInt8)) : (life c id a bs).OnlyAsked := by
  intro o ho
  suffices h : ∃ x, o = .sys x ∨ o = .interview ∨ ∃ i, o = .proceed i by
    obtain ⟨x, rfl | rfl | ⟨i, rfl⟩⟩ := h <;> simp
  simp only [life, talk, List.mem_append, List.mem_cons, List.mem_map, List.mem_flatten] at ho
  rcases ho with (rfl | ⟨x, -, rfl⟩) | ⟨l, hl, ho⟩
  · exact ⟨.sent 0, .inr (.inl rfl)⟩
  · exact ⟨x, .inl rfl⟩
  · obtain ⟨n, b, -, rfl⟩ := List.mem_mapIdx.1 hl
    simp only [turn, List.mem_append, List.mem_map, List.mem_singleton] at ho
    rcases ho with ⟨x, -, rfl⟩ | rfl
    · exact ⟨x, .inl rfl⟩
    · exact ⟨.sent 0, .inr (.inr ⟨0, rfl⟩)⟩

/-- SensorMultilevel and Association. -/
example : (life Model.ClassRun.sensor 0x31 ⟨0, []⟩ [[0x86, 0x14, 0x31, 0x05], [0x31, 0x02, 0x01], [0x31, 0x06, 0x01, 0x03]]).now.cls.attrs.types = [(1, 3)] ∧
    (life (Model.ClassRun.association fun _ => false) 0x85 [] [[0x86, 0x14, 0x85, 0x02], [0x85, 0x06, 0x01], [0x85, 0x03, 0x01, 0x05, 0x00, 0x01]]).now.cls.attrs = [(1, ⟨5, [(1, none)]⟩)] := by
  decide +kernel

/-- AssociationGrpInfo. -/
example : (life (⟨Body.groupInfo, fun _ s => s⟩ : Cls Unit) 0x59 () [[0x86, 0x14, 0x59, 0x01], [0x25, 0x03, 0xFF]]).now.cls.trace = [⟨0, .sent .groupInfo (some (.ok true))⟩] := by
  decide +kernel

/-- The report of this end point is stored, that of another one is not. -/
example :
    (manufacturerLife 2).OnlyAsked ∧ (manufacturerLife 2).now.cls.dec.version = 2 ∧ (manufacturerLife 2).now.cls.attrs = [("manufacturerID", 1), ("productTypeID", 2), ("productID", 3)] ∧
    (manufacturerLife 2).now.cls.dec.interviewed = true ∧ (manufacturerLife 2).now.cls.trace.length = 1 ∧
    (manufacturerLife 1).now.sys.net.gw.told.length = 2 ∧ (manufacturerLife 1).now.cls.attrs = [] ∧ (manufacturerLife 1).now.cls.trace = [] := by
  refine ⟨?_, ?_⟩
  · simp [Life.OnlyAsked, manufacturerLife, manufacturerOps, Props.System.after100]
  · decide +kernel

/-! ## Attributes -/

/-- What the program writes keeps `P`, if the answers are as `R` says. -/
def Keeps (P : σ → Prop) (R : Query → Msg → Prop) : Prog σ → Prop
  | .ret _ => True
  | .ask q k => ∀ r, (∀ m, r = .ok m → R q m) → Keeps P R (k r)
  | .send _ k => ∀ r, Keeps P R (k r)
  | .look k => ∀ s, Keeps P R (k s)
  | .write f p => (∀ s, P s → P (f s)) ∧ Keeps P R p

theorem keeps_pause {P : σ → Prop} {R : Query → Msg → Prop} (p : Prog σ) : ∀ s, P s → Keeps P R p → P (ClassRun.pause p s).1 ∧ Keeps P R (ClassRun.pause p s).2 := by
  induction p with
  | ret r => intro s hs h; exact ⟨hs, h⟩
  | ask q k => intro s hs h; exact ⟨hs, h⟩
  | send c k => intro s hs h; exact ⟨hs, h⟩
  | look k ih => intro s hs h; exact ih s s hs (h s)
  | write f p ih => intro s hs h; exact ih (f s) (h.1 s hs) h.2

theorem keeps_go {P : σ → Prop} {R : Query → Msg → Prop} (s : ClassRun.State σ) (i : Nat) (p : Prog σ) (h1 : P s.attrs) (h2 : ∀ b ∈ s.bodies, Keeps P R b) (h3 : Keeps P R p) :
    P (ClassRun.go s i p).attrs ∧ ∀ b ∈ (ClassRun.go s i p).bodies, Keeps P R b := by
  obtain ⟨h4, h5⟩ := keeps_pause p s.attrs h1 h3
  have hb : ∀ b ∈ s.bodies.set i (ClassRun.pause p s.attrs).2, Keeps P R b := by
    intro b hb
    rcases List.mem_or_eq_of_mem_set hb with hb | rfl
    · exact h2 b hb
    · exact h5
  rcases pause_waits p s.attrs with hw | ⟨r, hr⟩
  · rw [go_wait s i p hw]; exact ⟨h4, hb⟩
  · rw [go_ret s i p r hr]; rw [hr] at hb; exact ⟨h4, hb⟩

/-- What else changes the attributes keeps `P`. -/
def Mild (P : σ → Prop) : ClassRun.Op σ → Prop
  | .load _ _ f | .others f => ∀ s, P s → P (f s)
  | _ => True

theorem keeps_run {P : σ → Prop} {R : Query → Msg → Prop} (c : Cls σ) (id : Nat) (a : σ) (cs : List (ClassRun.Op σ)) (ho : ∀ o ∈ cs, Mild P o) (ha : P a) (hc : Keeps P R c.prog)
    (hv : ∀ v s, P s → P (c.version v s))
    (hr : ∀ e ∈ (ClassRun.run c (ClassRun.fresh id a) cs).trace, ∀ q m, e.item = .asked q (some (.ok m)) → R q m) : P (ClassRun.run c (ClassRun.fresh id a) cs).attrs := by
  suffices h : (∀ e ∈ (ClassRun.run c (ClassRun.fresh id a) cs).trace, ∀ q m, e.item = .asked q (some (.ok m)) → R q m) →
      P (ClassRun.run c (ClassRun.fresh id a) cs).attrs ∧ (∀ b ∈ (ClassRun.run c (ClassRun.fresh id a) cs).bodies, Keeps P R b) ∧
      (ClassRun.run c (ClassRun.fresh id a) cs).bodies.length = (ClassRun.run c (ClassRun.fresh id a) cs).dec.calls.length from (h hr).1
  clear hr
  induction cs using Conn.snoc_ind with
  | nil => intro _; exact ⟨ha, by simp [ClassRun.run, ClassRun.fresh], rfl⟩
  | snoc cs o ih =>
    rw [show ClassRun.run c (ClassRun.fresh id a) (cs ++ [o]) = ClassRun.step c (ClassRun.run c (ClassRun.fresh id a) cs) o by simp [ClassRun.run, List.foldl_append]]
    specialize ih fun x hx => ho x (List.mem_append_left _ hx)
    have ho' := ho o (by simp)
    generalize ClassRun.run c (ClassRun.fresh id a) cs = s at ih ⊢
    intro hr
    have htr : ∀ e ∈ s.trace, e ∈ (ClassRun.step c s o).trace := by
      intro e he
      cases o with
      | interview =>
        simp only [ClassRun.step]
        split
        · rw [(go_same _ _ _).trace]; exact he
        · exact he
      | requestVersion => exact he
      | versionAnswer i r =>
        simp only [ClassRun.step]
        split
        · rw [(go_same _ _ _).trace]; exact he
        · exact he
      | answer i r =>
        simp only [ClassRun.step]
        split
        · rw [(go_same _ _ _).trace]; exact List.mem_append_left _ he
        · exact he
      | acked i r =>
        simp only [ClassRun.step]
        split
        · rw [(go_same _ _ _).trace]; exact List.mem_append_left _ he
        · exact he
      | load v b f => exact he
      | others f => exact he
    obtain ⟨h1, h2, h3⟩ := ih fun e he => hr e (htr e he)
    have e := step_effect c s h3 o
    suffices hs : P (ClassRun.step c s o).attrs ∧ ∀ b ∈ (ClassRun.step c s o).bodies, Keeps P R b from ⟨hs.1, hs.2, by rw [e.bodies, e.calls, h3]⟩
    have hnew : ∀ b ∈ s.bodies ++ [Prog.ret (.ok .none)], Keeps P R b := by
      intro b hb
      rcases List.mem_append.1 hb with hb | hb
      · exact h2 b hb
      · rw [List.mem_singleton] at hb; subst hb; exact trivial
    cases o with
    | interview =>
      simp only [ClassRun.step]
      split
      · exact keeps_go _ _ _ h1 hnew hc
      · exact ⟨h1, hnew⟩
    | requestVersion => exact ⟨h1, hnew⟩
    | versionAnswer i r =>
      simp only [ClassRun.step]
      split
      · exact keeps_go _ _ _ (hv _ _ h1) h2 hc
      · exact ⟨hv _ _ h1, h2⟩
    | answer i r =>
      cases hb : s.bodies[i]? with
      | none => simp only [ClassRun.step, hb]; exact ⟨h1, h2⟩
      | some p =>
        cases p with
        | ask q k =>
          simp only [ClassRun.step, hb] at hr ⊢
          refine keeps_go _ _ _ h1 h2 ((h2 _ (List.mem_of_getElem? hb)) r fun m hm => ?_)
          rw [(go_same _ _ _).trace] at hr
          exact hr ⟨i, .asked q (some r)⟩ (by simp) q m (by rw [hm])
        | _ => simp only [ClassRun.step, hb]; exact ⟨h1, h2⟩
    | acked i r =>
      cases hb : s.bodies[i]? with
      | none => simp only [ClassRun.step, hb]; exact ⟨h1, h2⟩
      | some p =>
        cases p with
        | send q k =>
          simp only [ClassRun.step, hb]
          exact keeps_go _ _ _ h1 h2 ((h2 _ (List.mem_of_getElem? hb)) r)
        | _ => simp only [ClassRun.step, hb]; exact ⟨h1, h2⟩
    | load v b f => exact ⟨hv v _ (ho' _ h1), h2⟩
    | others f => exact ⟨ho' _ h1, h2⟩

/-- What holds if the answers came from the node. -/
theorem keeps_mild {P : σ → Prop} (h : Life σ) (hl : ∀ v b f, .load v b f ∈ h.ops → ∀ s, P s → P (f s)) (ho : ∀ f, .others f ∈ h.ops → ∀ s, P s → P (f s)) (ha : P h.attrs) (hv : ∀ v s, P s → P (h.c.version v s))
    (hc : Keeps P (fun q m => h.Said m ∧ m.hid = q.awaits.hid) h.c.prog) : P h.now.cls.attrs := by
  have hans := C152_answers h
  obtain ⟨os, cs, w⟩ := whole h
  unfold Life.now at hans ⊢
  rw [w.cls] at hans ⊢
  have hmem : ∀ o ∈ h.all, (∃ x, o = .sys x) ∨ o ∈ h.ops := by
    intro o hm
    unfold Life.all at hm
    rcases List.mem_append.1 hm with hm | hm
    · obtain ⟨x, -, rfl⟩ := List.mem_map.1 hm; exact .inl ⟨x, rfl⟩
    · exact .inr hm
  refine keeps_run h.c h.id h.attrs cs ?_ ha hc hv fun e he q m hm => ⟨(hans e he q m hm).2.1, (hans e he q m hm).1⟩
  intro o hm
  cases o with
  | load v b f =>
    rcases hmem _ (w.load v b f hm) with ⟨x, e⟩ | e
    · cases e
    · exact hl v b f e
  | others f =>
    rcases hmem _ (w.others f hm) with ⟨x, e⟩ | e
    · cases e
    · exact ho f e
  | _ => exact trivial

theorem keeps_now {P : σ → Prop} (h : Life σ) (ho : h.OnlyAsked) (ha : P h.attrs) (hv : ∀ v s, P s → P (h.c.version v s))
    (hc : Keeps P (fun q m => h.Said m ∧ m.hid = q.awaits.hid) h.c.prog) : P h.now.cls.attrs :=
  keeps_mild h (fun v b f hm => absurd rfl ((ho _ hm).1 v b f)) (fun f hm => absurd rfl ((ho _ hm).2 f)) ha hv hc

/-- Whatever is true of the values that were there before, of those that are loaded and of those in reports from the node and end point of the class is true of all values. -/
theorem values_keep (h : Life (Dict String Int)) (q : Query) (names : List String) (hc : (h.c, q, names) ∈ ClassRun.copied) (Q : String → Int → Prop)
    (hl : ∀ v b f, .load v b f ∈ h.ops → ∀ d : Dict String Int, (∀ n x, d.get? n = some x → Q n x) → ∀ n x, Dict.get? (f d) n = some x → Q n x)
    (ho : ∀ f, .others f ∈ h.ops → ∀ d : Dict String Int, (∀ n x, d.get? n = some x → Q n x) → ∀ n x, Dict.get? (f d) n = some x → Q n x)
    (ha : ∀ n x, h.attrs.get? n = some x → Q n x) (hs : ∀ m, h.Said m → m.hid = q.awaits.hid → ∀ n x, Says m n x → Q n x) (n : String) (x : Int)
    (hn : h.now.cls.attrs.get? n = some x) : Q n x := by
  obtain ⟨hp, hver, -⟩ := ClassRun.copied_prog hc
  refine keeps_mild (P := fun d => ∀ n x, d.get? n = some x → Q n x) h hl ho ha (fun v s hs => by rw [hver]; exact hs) ?_ n x hn
  rw [hp]
  unfold Body.copying
  intro r hr
  cases r with
  | error e => exact trivial
  | ok m =>
    obtain ⟨h1, h2⟩ := hr m rfl
    have key : ∀ l, Keeps (fun d : Dict String Int => ∀ n x, d.get? n = some x → Q n x) (fun q m => h.Said m ∧ m.hid = q.awaits.hid) (Body.copy m l) := by
      intro l
      induction l with
      | nil => exact trivial
      | cons n' ns ih =>
        unfold Body.copy
        cases hn : Classes.needNum m n' with
        | error e => exact trivial
        | ok v =>
          refine ⟨fun s hd n x hx => ?_, ih⟩
          rw [Dict.get?_set] at hx
          split at hx
          · rename_i e
            cases hx
            subst e
            exact hs m h1 h2 _ _ hn
          · exact hd n x hx
    exact key names

/-- **C152**, Version, ManufacturerSpecific and ZwavePlusInfo. Each value was there before or was in a report from the node and end point of the class. -/
theorem C152_values (h : Life (Dict String Int)) (q : Query) (names : List String) (hc : (h.c, q, names) ∈ ClassRun.copied) (ho : h.OnlyAsked) (n : String) (x : Int)
    (hn : h.now.cls.attrs.get? n = some x) : h.attrs.get? n = some x ∨ ∃ m, h.Said m ∧ m.hid = q.awaits.hid ∧ Says m n x :=
  values_keep h q names hc (fun n x => h.attrs.get? n = some x ∨ ∃ m, h.Said m ∧ m.hid = q.awaits.hid ∧ Says m n x) (fun v b f hm => absurd rfl ((ho _ hm).1 v b f)) (fun f hm => absurd rfl ((ho _ hm).2 f)) (fun _ _ h => .inl h)
    (fun m h1 h2 _ _ h3 => .inr ⟨m, h1, h2, h3⟩) n x hn

/-- The same for SensorMultilevel. -/
theorem scales_keep (h : Life Classes.Sensor.State) (hc : h.c = Model.ClassRun.sensor) (Q : Int → Int → Prop)
    (hl : ∀ v b f, .load v b f ∈ h.ops → ∀ d : Classes.Sensor.State, (∀ t mask, d.types.get? t = some mask → Q t mask) → ∀ t mask, (f d).types.get? t = some mask → Q t mask)
    (ho : ∀ f, .others f ∈ h.ops → ∀ d : Classes.Sensor.State, (∀ t mask, d.types.get? t = some mask → Q t mask) → ∀ t mask, (f d).types.get? t = some mask → Q t mask)
    (ha : ∀ t mask, h.attrs.types.get? t = some mask → Q t mask) (hs : ∀ m, h.Said m → m.hid = 0x3106 → ∀ mask, Says m "scaleBitMask" mask → ∀ t, Q t mask) (t mask : Int)
    (hn : h.now.cls.attrs.types.get? t = some mask) : Q t mask := by
  have key : ∀ l, Keeps (fun d : Classes.Sensor.State => ∀ t mask, d.types.get? t = some mask → Q t mask) (fun q m => h.Said m ∧ m.hid = q.awaits.hid) (Body.sensorLoop l) := by
    intro l
    induction l with
    | nil => exact trivial
    | cons n ns ih =>
      unfold Body.sensorLoop
      intro r hr
      cases r with
      | error e => exact trivial
      | ok m =>
        obtain ⟨h1, h2⟩ := hr m rfl
        dsimp only
        cases hm : Classes.needNum m "scaleBitMask" with
        | error e => exact trivial
        | ok v =>
          refine ⟨fun s hd t' mask' hx => ?_, ih⟩
          dsimp only at hx
          rw [Dict.get?_set] at hx
          split at hx
          · cases hx; exact hs m h1 (h2.trans (show Reg.SensorMultilevel.SupportedScaleReport.hid = 0x3106 by decide +kernel)) _ hm _
          · exact hd t' mask' hx
  refine keeps_mild (P := fun d => ∀ t mask, d.types.get? t = some mask → Q t mask) h hl ho ha (fun v s hs => by rw [hc]; exact hs) ?_ t mask hn
  rw [hc]
  unfold Model.ClassRun.sensor Body.sensor
  intro s
  dsimp only
  split
  · exact trivial
  · intro r hr
    cases r with
    | error e => exact trivial
    | ok m =>
      dsimp only
      split
      · exact key _
      · exact trivial

/-- **C152**, SensorMultilevel. The scales of each sensor were there before or were in a report from the node and end point of the class. -/
theorem C152_scales (h : Life Classes.Sensor.State) (hc : h.c = Model.ClassRun.sensor) (ho : h.OnlyAsked) (t mask : Int) (hn : h.now.cls.attrs.types.get? t = some mask) :
    h.attrs.types.get? t = some mask ∨ ∃ m, h.Said m ∧ m.hid = 0x3106 ∧ Says m "scaleBitMask" mask :=
  scales_keep h hc (fun t mask => h.attrs.types.get? t = some mask ∨ ∃ m, h.Said m ∧ m.hid = 0x3106 ∧ Says m "scaleBitMask" mask) (fun v b f hm => absurd rfl ((ho _ hm).1 v b f)) (fun f hm => absurd rfl ((ho _ hm).2 f)) (fun _ _ h => .inl h)
    (fun m h1 h2 _ h3 _ => .inr ⟨m, h1, h2, h3⟩) t mask hn

/-- What is known of a group of Association. -/
def GroupFrom (h : Life (Dict Int Classes.Assoc.Group)) (g : Int) (grp : Classes.Assoc.Group) : Prop :=
  h.attrs.get? g = some grp ∨ grp = ⟨0, []⟩ ∨
  ∃ m, h.Said m ∧ (m.hid = 0x8503 ∨ m.hid = 0x8E03) ∧ Says m "groupingIdentifier" g ∧ Says m "maxNodesSupported" grp.maxNodes ∧ getAttr registry m "nodes" = some (.nodes grp.nodes)

private theorem get_addGroups' (n : Nat) : ∀ (i : Int) (d : Dict Int Classes.Assoc.Group) (g : Int) (x : Classes.Assoc.Group),
    (Classes.Assoc.addGroups i n d).get? g = some x → d.get? g = some x ∨ x = ⟨0, []⟩ := by
  induction n with
  | zero => intro i d g x h; exact .inl h
  | succ n ih =>
    intro i d g x h
    rcases ih _ _ _ _ h with h | h
    · split at h
      · exact .inl h
      · rw [Dict.get?_set] at h
        split at h
        · cases h; exact .inr rfl
        · exact .inl h
    · exact .inr h

/-- **C152**, Association. Each group was there before, is empty, or is what a report for this group from the node and end point of the class says. -/
theorem C152_groups (h : Life (Dict Int Classes.Assoc.Group)) (supp : Nat → Bool) (hc : h.c = Model.ClassRun.association supp) (ho : h.OnlyAsked) (g : Int) (grp : Classes.Assoc.Group)
    (hn : h.now.cls.attrs.get? g = some grp) : GroupFrom h g grp := by
  let P : Dict Int Classes.Assoc.Group → Prop := fun d => ∀ g grp, d.get? g = some grp → GroupFrom h g grp
  let R : Query → Msg → Prop := fun q m => h.Said m ∧ m.hid = q.awaits.hid
  have grouping : ∀ g k, (∀ r, Keeps P R (k r)) → Keeps P R (Body.grouping supp g k) := by
    intro g k hk
    unfold Body.grouping
    intro d
    dsimp only
    split
    · intro r hr
      cases r with
      | error e => exact hk _
      | ok m =>
        obtain ⟨h1, h2⟩ := hr m rfl
        have h3 : m.hid = 0x8503 ∨ m.hid = 0x8E03 := by
          rw [h2]
          simp only [Query.awaits]
          split
          · exact .inr rfl
          · exact .inl rfl
        intro d
        refine ⟨fun s hs g' grp' hx => ?_, hk _⟩
        unfold Classes.Assoc.update at hx
        split at hx
        · rename_i hg
          cases hm : Classes.needNum m "maxNodesSupported" with
          | error e => rw [hm] at hx; exact hs g' grp' hx
          | ok mx =>
            rw [hm] at hx
            dsimp only at hx
            split at hx
            · rename_i l hl
              rw [Dict.get?_set] at hx
              split at hx
              · rename_i e
                cases hx
                subst e
                refine .inr (.inr ⟨m, h1, h3, ?_, hm, hl⟩)
                unfold Says
                unfold Classes.needNum
                rw [hg]
              · exact hs g' grp' hx
            · exact hs g' grp' hx
        · exact hs g' grp' hx
    · exact hk _
  have lifeLine : ∀ g, Keeps P R (Body.lifeLine supp g) := by
    intro g
    unfold Body.lifeLine
    dsimp only
    split
    · intro d
      dsimp only
      split
      · exact trivial
      · split
        · exact trivial
        · split
          · exact trivial
          · intro r
            cases r with
            | error e => exact trivial
            | ok b => exact grouping _ _ fun r => trivial
    · exact trivial
  have loop : ∀ size gs, Keeps P R (Body.groupLoop supp size gs) := by
    intro size gs
    induction gs with
    | nil =>
      unfold Body.groupLoop
      intro d
      dsimp only
      split
      · exact lifeLine 1
      · exact trivial
    | cons g gs ih =>
      unfold Body.groupLoop
      intro d
      dsimp only
      split
      · refine grouping g _ fun r => ?_
        split
        · exact ih
        · exact ih
        · exact trivial
      · exact trivial
  refine keeps_now (P := P) h ho (fun g grp h => .inl h) (fun v s hs => by rw [hc]; exact hs) ?_ g grp hn
  rw [hc]
  show Keeps P R (Body.association supp)
  unfold Body.association
  intro r hr
  cases r with
  | error e => exact trivial
  | ok m =>
    dsimp only
    split
    · exact trivial
    · refine ⟨fun s hs g' grp' hx => ?_, fun d => loop _ _⟩
      rcases get_addGroups' _ _ _ _ _ hx with hx | hx
      · exact hs g' grp' hx
      · exact .inr (.inl hx)

end Props.ClassNet
