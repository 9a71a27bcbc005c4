import Verif.Lemmas.Silence
import Verif.Props.ClassNet
/-!
# Property theorems C153: interviews end also when nothing arrives any more
-/
namespace Props.Silence
open Model Model.ClassNet Spec.ClassNet Spec.Silence
open Model.ClassRun (Cls pcOf)
open Model.Body (Prog)
open Model.Listen (Ret)
open Props.ClassRun (Waits go_wait go_ret pause_waits begins answered ended pc_lt pcOf_some calls_set)
open Props.ClassNet (At more step_effect wants_same issue_cls gives_at constructed Good Whole whole)

variable {σ : Type}

/-! ## The class -/

/-- An interview that is not done waits for something. -/
def Ready (s : ClassRun.State σ) : Prop := s.bodies.length = s.dec.calls.length ∧ ∀ i, pcOf s.dec i = some .body → ∃ p, s.bodies[i]? = some p ∧ Waits p

theorem go_at (s : ClassRun.State σ) (i : Nat) (p : Prog σ) (hi : i < s.bodies.length) (hb : pcOf s.dec i = some .body) :
    (∃ how r, pcOf (ClassRun.go s i p).dec i = some (.done how r)) ∨
    pcOf (ClassRun.go s i p).dec i = some .body ∧ (ClassRun.go s i p).bodies[i]? = some (ClassRun.pause p s.attrs).2 ∧ Waits (ClassRun.pause p s.attrs).2 := by
  rcases pause_waits p s.attrs with hw | ⟨r, hr⟩
  · rw [go_wait s i p hw]
    exact .inr ⟨hb, List.getElem?_set_self hi, hw⟩
  · rw [go_ret s i p r hr]
    obtain ⟨-, -, -, how, x, e, -, -⟩ := ended s.dec i r hb
    exact .inl ⟨how, x, e⟩

theorem go_ready (s : ClassRun.State σ) (i : Nat) (p : Prog σ) (hi : i < s.bodies.length) (h : pcOf (ClassRun.go s i p).dec i = some .body) :
    ∃ q, (ClassRun.go s i p).bodies[i]? = some q ∧ Waits q := by
  rcases pause_waits p s.attrs with hw | ⟨r, hr⟩
  · rw [go_wait s i p hw]
    exact ⟨_, List.getElem?_set_self hi, hw⟩
  · rw [go_ret s i p r hr] at h
    by_cases hb : pcOf s.dec i = some .body
    · obtain ⟨-, -, -, how, x, e, -, -⟩ := ended s.dec i r hb
      exact absurd (e.symm.trans h) (by simp)
    · simp only [Interview.step] at h
      cases hc : s.dec.calls[i]? with
      | none => rw [hc] at h; exact absurd h hb
      | some c =>
        rw [hc] at h
        have hn : ¬ c.pc = .body := fun e => hb (by rw [pcOf_some hc, e])
        simp only [if_neg hn] at h
        exact absurd h hb

theorem Ready.step {c : Cls σ} {s : ClassRun.State σ} (h : Ready s) (o : ClassRun.Op σ) : Ready (ClassRun.step c s o) := by
  have e := step_effect c s h.1 o
  refine ⟨by rw [e.bodies, e.calls, h.1], fun i hb => ?_⟩
  have old : i < s.dec.calls.length → ¬ At o i → ∃ p, (ClassRun.step c s o).bodies[i]? = some p ∧ Waits p := by
    intro hi ho
    rw [e.body i hi ho]
    rw [e.pc i hi ho] at hb
    exact h.2 i hb
  cases o with
  | interview =>
    rcases Nat.lt_or_ge i s.dec.calls.length with hi | hi
    · exact old hi id
    · have hlt := pc_lt hb
      rw [e.calls] at hlt
      have hi : i = s.dec.calls.length := by simp only [more] at hlt; omega
      subst hi
      simp only [ClassRun.step] at hb ⊢
      split at hb
      · rename_i hp
        rw [if_pos hp]
        exact go_ready _ _ _ (by simp [h.1]) hb
      · rename_i hp; exact absurd hb hp
  | requestVersion =>
    rcases Nat.lt_or_ge i s.dec.calls.length with hi | hi
    · exact old hi id
    · have hlt := pc_lt hb
      rw [e.calls] at hlt
      have hi : i = s.dec.calls.length := by simp only [more] at hlt; omega
      subst hi
      simp only [ClassRun.step] at hb
      obtain ⟨-, -, -, h1 | ⟨h1, -⟩ | ⟨p, h1, how, r, rfl, -⟩⟩ := begins s.dec .requestVersion (.inr rfl)
      · rw [h1] at hb; cases hb
      · cases h1
      · rw [h1] at hb; cases hb
  | versionAnswer j r =>
    have hlt := pc_lt hb
    rw [e.calls] at hlt
    by_cases hj : i = j
    · subst hj
      simp only [ClassRun.step] at hb ⊢
      split at hb
      · rename_i hp
        rw [if_pos hp]
        exact go_ready _ _ _ (by simp only; rw [h.1]; exact hlt) hb
      · rename_i hp
        rw [if_neg hp]
        simp only at hb ⊢
        obtain ⟨-, -, -, h1 | ⟨h1, -⟩⟩ := answered s.dec i r
        · rw [h1] at hb; exact h.2 i hb
        · exact absurd ⟨h1, hb⟩ hp
    · exact old hlt hj
  | answer j r =>
    have hlt := pc_lt hb
    rw [e.calls] at hlt
    by_cases hj : i = j
    · subst hj
      simp only [ClassRun.step] at hb ⊢
      split at hb
      · exact go_ready _ _ _ (by simp only; rw [h.1]; exact hlt) hb
      · exact h.2 i hb
    · exact old hlt hj
  | acked j r =>
    have hlt := pc_lt hb
    rw [e.calls] at hlt
    by_cases hj : i = j
    · subst hj
      simp only [ClassRun.step] at hb ⊢
      split at hb
      · exact go_ready _ _ _ (by simp only; rw [h.1]; exact hlt) hb
      · exact h.2 i hb
    · exact old hlt hj
  | load v b f =>
    have hlt := pc_lt hb
    rw [e.calls] at hlt
    exact old hlt id
  | others f =>
    have hlt := pc_lt hb
    rw [e.calls] at hlt
    exact old hlt id

theorem ready_fresh (id : Nat) (a : σ) : Ready (ClassRun.fresh id a) := ⟨rfl, fun i h => by simp [pcOf, ClassRun.fresh, Interview.fresh] at h⟩

theorem ready_run (c : Cls σ) (id : Nat) (a : σ) (cs : List (ClassRun.Op σ)) : Ready (ClassRun.run c (ClassRun.fresh id a) cs) := by
  have all : ∀ (cs : List (ClassRun.Op σ)) (s : ClassRun.State σ), Ready s → Ready (ClassRun.run c s cs) := by
    intro cs
    induction cs with
    | nil => intro s h; exact h
    | cons o cs ih => intro s h; exact ih _ (h.step o)
  exact all cs _ (ready_fresh id a)

/-! ## What an interview waits for has been asked -/

/-- Calls that want something wait for it, apart from `x`. -/
def Served (s : State σ) (x : Option Nat) : Prop := ∀ i, some i ≠ x → (wants s.cls i).isSome → ∃ w, s.waits[i]? = some (some w)

theorem Served.issue {nd : App.Nd} {s : State σ} {i : Nat} (h : Served s (some i)) (hi : i < s.waits.length) : Served (issue nd s i) none := by
  intro j _ hj
  rw [issue_cls] at hj
  have hset : ∀ w : Option Wait, j ≠ i → ∃ y, (s.waits.set i w)[j]? = some (some y) := fun w hn => by
    rw [List.getElem?_set_ne fun e => hn e.symm]; exact h j (by simpa using hn) hj
  unfold ClassNet.issue
  cases hw : wants s.cls i with
  | none =>
    exact hset none (by rintro rfl; rw [hw] at hj; cases hj)
  | some w =>
    have made : (∃ cmd hid, w = .ask (.ok cmd) hid) ∨ ∃ cmd, w = .send (.ok cmd) := by
      unfold wants at hw
      split at hw
      · cases hw
        obtain ⟨m, hm⟩ := (constructed s.cls.dec.id .manufacturer).1
        exact .inl ⟨m, _, by rw [hm]⟩
      · split at hw
        · rename_i q k _
          cases hw
          obtain ⟨m, hm⟩ := (constructed 0 q).2.1
          exact .inl ⟨m, _, by rw [hm]⟩
        · rename_i c k _
          cases hw
          obtain ⟨m, hm⟩ := (constructed 0 .manufacturer).2.2 c
          exact .inr ⟨m, by rw [hm]⟩
        · cases hw
      · cases hw
    rcases made with ⟨cmd, hid, rfl⟩ | ⟨cmd, rfl⟩ <;> dsimp only <;> by_cases hn : j = i
    · subst hn; exact ⟨_, List.getElem?_set_self hi⟩
    · exact hset _ hn
    · subst hn; exact ⟨_, List.getElem?_set_self hi⟩
    · exact hset _ hn

theorem Served.step {nd : App.Nd} {c : Cls σ} {s : State σ} (h : Served s none) (hw : s.waits.length = s.cls.dec.calls.length) (hb : s.cls.bodies.length = s.cls.dec.calls.length) (o : Op σ) :
    Served (ClassNet.step nd c s o) none := by
  have lt : ∀ {x : ClassRun.State σ} {i : Nat}, (wants x i).isSome → i < x.dec.calls.length := by
    intro x i hx
    unfold wants at hx
    split at hx
    · rename_i e; exact pc_lt e
    · rename_i e; exact pc_lt e
    · cases hx
  have new : ∀ o : ClassRun.Op σ, (∀ i, ¬ At o i) → more o = 1 → Served { s with cls := ClassRun.step c s.cls o, waits := s.waits ++ [none] } (some s.waits.length) := by
    intro o h1 h2 i hi hx
    have hlt := lt hx
    simp only at hx hlt ⊢
    rw [(step_effect c s.cls hb o).calls, h2] at hlt
    have hi : i < s.cls.dec.calls.length := by
      rcases Nat.lt_or_ge i s.cls.dec.calls.length with h | h
      · exact h
      · exact absurd (congrArg some (show i = s.waits.length by omega)) hi
    rw [wants_same hb hi (h1 i)] at hx
    rw [List.getElem?_append_left (by omega)]
    exact h i (by simp) hx
  have same : ∀ (o : ClassRun.Op σ) (x : Option Nat), (∀ i, At o i → x = some i) → more o = 0 → Served { s with cls := ClassRun.step c s.cls o } x := by
    intro o x h1 h2 i hi hx
    have hlt := lt hx
    simp only at hx hlt ⊢
    rw [(step_effect c s.cls hb o).calls, h2] at hlt
    rw [wants_same hb hlt fun e => hi (h1 i e).symm] at hx
    exact h i (by simp) hx
  cases o with
  | interview => exact (new .interview (fun i h => h) rfl).issue (by simp)
  | requestVersion => exact (new .requestVersion (fun i h => h) rfl).issue (by simp)
  | proceed i =>
    simp only [ClassNet.step]
    cases hg : gives nd s i with
    | none => exact h
    | some o =>
      obtain ⟨g1, g2, g3, g4, g5⟩ := gives_at hg
      refine Served.issue (same o (some i) (fun j hj => by rw [g3 j hj]) g2) ?_
      simp only
      unfold gives at hg
      rcases Nat.lt_or_ge i s.waits.length with hl | hl
      · exact hl
      · rw [List.getElem?_eq_none hl] at hg; cases hg
  | sys o => exact h
  | load v b f => exact same (.load v b f) none (fun i h => h.elim) rfl
  | others f => exact same (.others f) none (fun i h => h.elim) rfl

/-- What else happens. -/
def more' (h : Life σ) (l : List (Op σ)) : Life σ := { h with ops := h.ops ++ l }

theorem now_more (h : Life σ) (l : List (Op σ)) : (more' h l).now = run h.nd h.c h.now l := by
  simp only [Life.now, Life.after, Life.all, more', ← List.append_assoc]
  rw [run, List.foldl_append]; rfl

theorem served (h : Life σ) : Served h.now none := by
  have first : ∀ p : List System.Op, ∀ s : State σ, s.cls.dec.calls = [] → Served (run h.nd h.c s (p.map .sys)) none ∧ (run h.nd h.c s (p.map .sys)).cls.dec.calls = [] := by
    intro p
    induction p with
    | nil =>
      intro s hs
      refine ⟨fun i _ hx => ?_, hs⟩
      simp [run, wants, pcOf, hs] at hx
    | cons o p ih => intro s hs; exact ih { s with sys := System.step s.sys o } hs
  obtain ⟨own, nd, c, id, attrs, pre, ops, known⟩ := h
  replace first := (first pre (init own id attrs) rfl).1
  induction ops using Conn.snoc_ind with
  | nil =>
    simpa [Life.now, Life.after, Life.all] using first
  | snoc ops o ih =>
    obtain ⟨os, cs, w⟩ := whole ⟨own, nd, c, id, attrs, pre, ops, known⟩
    have e := now_more ⟨own, nd, c, id, attrs, pre, ops, known⟩ [o]
    rw [more'] at e
    rw [e]
    exact (ih first).step w.good.waits w.good.bodies o

/-! ## The end -/

theorem sys_turns {nd : App.Nd} {c : Cls σ} (os : List System.Op) : ∀ s : State σ, run nd c s (os.map .sys) = { s with sys := System.run s.sys os } := by
  induction os with
  | nil => intro s; rfl
  | cons o os ih => intro s; exact ih { s with sys := System.step s.sys o }

/-- Call `i` can end without anything from outside. -/
def Ends (ok : Bool) (h : Life σ) (i : Nat) : Prop := ∃ l, (∀ o ∈ l, turn ok o = true) ∧ ∃ how r, pcOf (run h.nd h.c h.now l).cls.dec i = some (.done how r)

theorem Ends.more {ok : Bool} {h : Life σ} {i : Nat} {l : List (Op σ)} (hl : ∀ o ∈ l, turn ok o = true) (he : Ends ok (more' h l) i) : Ends ok h i := by
  obtain ⟨l', h1, how, r, h2⟩ := he
  refine ⟨l ++ l', fun o ho => ?_, how, r, ?_⟩
  · rcases List.mem_append.mp ho with ho | ho
    · exact hl o ho
    · exact h1 o ho
  · rw [now_more] at h2
    rw [run, List.foldl_append]
    exact h2

/-- What call `i` awaits ends. -/
theorem goes (ok : Bool) (h : Life σ) (i : Nat) (hw : (wants h.now.cls i).isSome) : ∃ os, (∀ o ∈ os, systemTurn ok o = true) ∧
    ((∃ r cmd hid, wants h.now.cls i = some (.ask cmd hid) ∧
      gives h.nd { h.now with sys := System.run h.now.sys os } i = some (if pcOf h.now.cls.dec i = some .version then .versionAnswer i (Version.taken r) else .answer i r)) ∨
     (∃ r cmd, wants h.now.cls i = some (.send cmd) ∧ gives h.nd { h.now with sys := System.run h.now.sys os } i = some (.acked i r))) := by
  obtain ⟨os0, cs, w⟩ := whole h
  have g : Good h.own h.nd _ os0 h.now none := w.good
  have fit : System.Fit h.now.sys := by rw [g.sys]; exact (System.fit_init h.own).run os0
  obtain ⟨x, hx⟩ := served h i (by simp) hw
  cases x with
  | received t =>
    obtain ⟨cmd, hid, h1, a, b, rfl, -, ht⟩ := g.asked i t (by simp) hx
    have hq : h.now.sys.asks[(System.run (System.init h.own) a).asks.length]? = some ⟨h.nd, t, (System.run (System.init h.own) a).net.calls.length⟩ := by
      rw [g.sys, System.run_append, System.run_cons]
      refine System.run_asks b _ _ _ ?_
      show ((System.run (System.init h.own) a).asks ++ [_])[_]? = _
      rw [List.getElem?_append_right (Nat.le_refl _), Nat.sub_self, ht]; rfl
    obtain ⟨os, h2, u, r, h3, h4⟩ := System.ask_ends ok fit hq
    refine ⟨os, h2, .inl ⟨r, _, _, h1, ?_⟩⟩
    simp only at h3
    simp only [gives, hx, h3, h4]
  | sent k =>
    obtain ⟨cmd, h1, a, b, rfl, ht⟩ := g.sends i k (by simp) hx
    have hk : k < h.now.sys.net.calls.length := by
      rw [g.sys, System.run_append, System.run_cons, System.run_net]
      obtain ⟨c0, c1, -⟩ := ToNode.send_new (System.run (System.init h.own) a).net h.nd.root cmd 0 h.nd.ep 3
      obtain ⟨d1, e1, -⟩ := ToNode.run_same (b.flatMap System.netOps) _ c1
      rw [ht]
      exact (List.getElem?_eq_some_iff.mp e1).1
    obtain ⟨os, h2, d, r, h3, h4⟩ := System.send_ends ok fit hk
    refine ⟨os, h2, .inr ⟨r, _, h1, ?_⟩⟩
    simp only [gives, hx, h3, h4]

theorem proceeds {ok : Bool} {h : Life σ} {i : Nat} {os : List System.Op} {o : ClassRun.Op σ} (h1 : ∀ o ∈ os, systemTurn ok o = true)
    (h2 : gives h.nd { h.now with sys := System.run h.now.sys os } i = some o)
    (h3 : ∀ h' : Life σ, h'.c = h.c → h'.now.cls = ClassRun.step h.c h.now.cls o → Ends ok h' i) : Ends ok h i := by
  refine Ends.more (l := os.map .sys ++ [.proceed i]) (fun o ho => ?_) (h3 _ rfl ?_)
  · rcases List.mem_append.mp ho with ho | ho
    · obtain ⟨x, hx, rfl⟩ := List.mem_map.mp ho
      exact h1 x hx
    · simp at ho; subst ho; rfl
  · rw [now_more, Props.ClassNet.run_snoc, sys_turns]
    simp only [ClassNet.step, h2, issue_cls]

theorem next_ends {ok : Bool} {i : Nat} {h : Life σ} {s : ClassRun.State σ} {p : Prog σ} (e : h.now.cls = ClassRun.go s i p) (hb : pcOf s.dec i = some .body) (hi : i < s.bodies.length)
    (ih : ∀ a (h : Life σ), pcOf h.now.cls.dec i = some .body → h.now.cls.bodies[i]? = some (ClassRun.pause p a).2 → Waits (ClassRun.pause p a).2 → Ends ok h i) : Ends ok h i := by
  rcases go_at s i p hi hb with ⟨how, r, hd⟩ | ⟨h1, h2, h3⟩
  · exact ⟨[], by simp, how, r, by show pcOf h.now.cls.dec i = _; rw [e]; exact hd⟩
  · exact ih s.attrs h (by rw [e]; exact h1) (by rw [e]; exact h2) h3

/-- An interview that goes on with a program ends. -/
theorem body_ends (ok : Bool) (i : Nat) (p : Prog σ) : ∀ (a : σ) (h : Life σ), pcOf h.now.cls.dec i = some .body → h.now.cls.bodies[i]? = some (ClassRun.pause p a).2 →
    Waits (ClassRun.pause p a).2 → Ends ok h i := by
  induction p with
  | ret r => intro a h _ _ hw; exact hw.elim
  | look k ih => intro a h hb hp hw; exact ih a a h hb hp hw
  | write f p ih => intro a h hb hp hw; exact ih (f a) h hb hp hw
  | ask q k ih =>
    intro a h hb hp hw
    simp only [ClassRun.pause] at hp
    have hwants : wants h.now.cls i = some (.ask q.request q.awaits.hid) := by simp only [wants, hb, hp]
    obtain ⟨os, h1, ⟨r, cmd, hid, h2, h3⟩ | ⟨r, cmd, h2, h3⟩⟩ := goes ok h i (by rw [hwants]; rfl)
    · rw [hb, if_neg (by simp)] at h3
      refine proceeds h1 h3 fun h' hc e => ?_
      simp only [ClassRun.step, hp] at e
      exact next_ends e hb (List.getElem?_eq_some_iff.mp hp).1 (ih r)
    · rw [hwants] at h2; cases h2
  | send c k ih =>
    intro a h hb hp hw
    simp only [ClassRun.pause] at hp
    have hwants : wants h.now.cls i = some (.send c.message) := by simp only [wants, hb, hp]
    obtain ⟨os, h1, ⟨r, cmd, hid, h2, h3⟩ | ⟨r, cmd, h2, h3⟩⟩ := goes ok h i (by rw [hwants]; rfl)
    · rw [hwants] at h2; cases h2
    · refine proceeds h1 h3 fun h' hc e => ?_
      simp only [ClassRun.step, hp] at e
      exact next_ends e hb (List.getElem?_eq_some_iff.mp hp).1 (ih r)

theorem version_goes (d : Interview.State) (i : Nat) (r : Py Nat) (h : pcOf d i = some .version) : pcOf (Interview.step d (.versionAnswer i r)) i ≠ some .version := by
  have hlt := pc_lt h
  cases hc : d.calls[i]? with
  | none => simp [pcOf, hc] at h
  | some c =>
    have hp : c.pc = .version := by rw [pcOf_some hc] at h; exact Option.some.inj h
    cases r with
    | error e =>
      cases e <;> simp only [Interview.step, hc, if_pos hp] <;> rw [calls_set, if_pos ⟨rfl, hlt⟩] <;> (try split) <;> simp
    | ok v =>
      simp only [Interview.step, hc, if_pos hp]
      split
      · rw [calls_set, if_pos ⟨rfl, hlt⟩]; simp
      · split <;> rw [calls_set, if_pos ⟨rfl, hlt⟩] <;> simp

/-- **C153.** Whatever has happened, every call of `interview()` or `requestVersion()` that has not ended can end without anything from outside: time passes, timers fire and coroutines
have their turns, and sockets that are being opened are opened, or cannot be. -/
theorem C153_ends (ok : Bool) (h : Life σ) (i : Nat) (hi : i < h.now.cls.dec.calls.length) :
    ∃ l, (∀ o ∈ l, turn ok o = true) ∧ ∃ how r, pcOf (run h.nd h.c h.now l).cls.dec i = some (.done how r) := by
  obtain ⟨os, cs, w⟩ := whole h
  have hr : Ready h.now.cls := by
    have e : h.now.cls = _ := w.cls
    rw [e]; exact ready_run h.c h.id h.attrs cs
  have hpc : pcOf h.now.cls.dec i = some (h.now.cls.dec.calls[i]).pc := pcOf_some (List.getElem?_eq_getElem hi)
  cases hp : (h.now.cls.dec.calls[i]).pc with
  | done how r => exact ⟨[], by simp, how, r, by rw [← hp]; exact hpc⟩
  | body =>
    rw [hp] at hpc
    obtain ⟨p, h1, h2⟩ := hr.2 i hpc
    have e : ∀ a : σ, (ClassRun.pause p a).2 = p := by
      cases p <;> first | exact h2.elim | exact fun _ => rfl
    exact body_ends ok i p h.attrs h hpc (by rw [e]; exact h1) (by rw [e]; exact h2)
  | version =>
    rw [hp] at hpc
    have hwants : wants h.now.cls i = some (.ask (Version.question h.now.cls.dec.id) Reg.Version.VersionCommandClassReport.hid) := by simp only [wants, hpc]
    obtain ⟨os, h1, ⟨r, cmd, hid, h2, h3⟩ | ⟨r, cmd, h2, h3⟩⟩ := goes ok h i (by rw [hwants]; rfl)
    · rw [if_pos hpc] at h3
      refine proceeds h1 h3 fun h' hc e => ?_
      have hno := version_goes h.now.cls.dec i (Version.taken r) hpc
      have hlen : (Interview.step h.now.cls.dec (.versionAnswer i (Version.taken r))).calls.length = h.now.cls.dec.calls.length := (answered h.now.cls.dec i (Version.taken r)).2.1
      simp only [ClassRun.step] at e
      split at e
      · rename_i hb
        exact next_ends e hb.2 (by rw [← hr.1] at hi; exact hi) (body_ends ok i h.c.prog)
      · rename_i hb
        obtain ⟨-, -, -, h5 | ⟨-, h5 | ⟨p, h5, how, x, rfl, -⟩⟩⟩ := answered h.now.cls.dec i (Version.taken r)
        · rw [h5] at hno; exact absurd hpc hno
        · exact absurd ⟨hpc, h5⟩ hb
        · exact ⟨[], by simp, how, x, by show pcOf h'.now.cls.dec i = _; rw [e]; exact h5⟩
    · rw [hwants] at h2; cases h2

/-! ## All of them -/

theorem dec_done (d : Interview.State) (o : Interview.Op) {i : Nat} {how : Interview.How} {r : Py Ret} (h : pcOf d i = some (.done how r)) : pcOf (Interview.step d o) i = some (.done how r) := by
  have hlt := pc_lt h
  have none : ∀ (j : Nat) (c : Interview.Call), d.calls[j]? = some c → c.pc = .version ∨ c.pc = .body → ¬ (i = j ∧ j < d.calls.length) := by
    rintro j c hc hp ⟨rfl, -⟩
    rw [pcOf_some hc] at h
    rcases hp with hp | hp <;> rw [hp] at h <;> cases h
  cases o with
  | interview => rw [(begins d .interview (.inl rfl)).1 i (by omega)]; exact h
  | requestVersion => rw [(begins d .requestVersion (.inr rfl)).1 i (by omega)]; exact h
  | versionAnswer j x =>
    obtain ⟨h1, -, -, h2⟩ := answered d j x
    by_cases hj : i = j
    · subst hj
      rcases h2 with h2 | ⟨h2, -⟩
      · rw [h2]; exact h
      · rw [h2] at h; cases h
    · rw [h1 i hj]; exact h
  | bodyEnds j x =>
    by_cases hj : i = j
    · subst hj
      simp only [Interview.step]
      cases hc : d.calls[i]? with
      | none => exact h
      | some c =>
        have hn : ¬ c.pc = .body := fun e => none i c hc (.inr e) ⟨rfl, hlt⟩
        simp only [if_neg hn]; exact h
    · rw [(Props.ClassNet.body_ends d j x).1 i hj]; exact h
  | load v b => exact h

theorem cls_done (c : Cls σ) (s : ClassRun.State σ) (o : ClassRun.Op σ) {i : Nat} {how : Interview.How} {r : Py Ret} (h : pcOf s.dec i = some (.done how r)) :
    pcOf (ClassRun.step c s o).dec i = some (.done how r) := by
  have go : ∀ (s : ClassRun.State σ) j p, pcOf s.dec i = some (.done how r) → pcOf (ClassRun.go s j p).dec i = some (.done how r) := by
    intro s j p h
    rcases pause_waits p s.attrs with hw | ⟨x, hx⟩
    · rw [go_wait s j p hw]; exact h
    · rw [go_ret s j p x hx]; exact dec_done _ _ h
  cases o with
  | interview =>
    simp only [ClassRun.step]
    split
    · exact go _ _ _ (dec_done _ _ h)
    · exact dec_done _ _ h
  | requestVersion => exact dec_done _ _ h
  | versionAnswer j x =>
    simp only [ClassRun.step]
    split
    · exact go _ _ _ (dec_done _ _ h)
    · exact dec_done _ _ h
  | answer j x =>
    simp only [ClassRun.step]
    split
    · exact go _ _ _ h
    · exact h
  | acked j x =>
    simp only [ClassRun.step]
    split
    · exact go _ _ _ h
    · exact h
  | load v b f => exact dec_done _ _ h
  | others f => exact h

theorem run_done {nd : App.Nd} {c : Cls σ} (l : List (Op σ)) : ∀ (s : State σ) {i : Nat} {how : Interview.How} {r : Py Ret}, pcOf s.cls.dec i = some (.done how r) →
    pcOf (run nd c s l).cls.dec i = some (.done how r) := by
  have all : ∀ (cs : List (ClassRun.Op σ)) (s : ClassRun.State σ) {i : Nat} {how : Interview.How} {r : Py Ret}, pcOf s.dec i = some (.done how r) →
      pcOf (ClassRun.run c s cs).dec i = some (.done how r) := by
    intro cs
    induction cs with
    | nil => intro s i how r h; exact h
    | cons o cs ih => intro s i how r h; exact ih _ (cls_done c s o h)
  induction l with
  | nil => intro s i how r h; exact h
  | cons o l ih =>
    intro s i how r h
    refine ih (step nd c s o) ?_
    rw [Props.ClassNet.step_cls]
    exact all _ _ h

theorem turn_length {ok : Bool} {nd : App.Nd} {c : Cls σ} {s : State σ} (hb : s.cls.bodies.length = s.cls.dec.calls.length) {o : Op σ} (ho : turn ok o = true) :
    (step nd c s o).cls.dec.calls.length = s.cls.dec.calls.length := by
  cases o with
  | proceed i =>
    simp only [step]
    cases hg : gives nd s i with
    | none => rfl
    | some x =>
      rw [issue_cls]
      have := (step_effect c s.cls hb x).calls
      rw [(gives_at hg).2.1] at this
      exact this
  | sys x => rfl
  | _ => cases ho

/-- **C153**, all of them. Every call of `interview()` and `requestVersion()` there is ends, and no further one is made. -/
theorem C153_all (ok : Bool) (h : Life σ) :
    ∃ l, (∀ o ∈ l, turn ok o = true) ∧ (run h.nd h.c h.now l).cls.dec.calls.length = h.now.cls.dec.calls.length ∧
      ∀ x ∈ (run h.nd h.c h.now l).cls.dec.calls, ∃ how r, x.pc = .done how r := by
  have len : ∀ (l : List (Op σ)) (h : Life σ), (∀ o ∈ l, turn ok o = true) → (run h.nd h.c h.now l).cls.dec.calls.length = h.now.cls.dec.calls.length := by
    intro l
    induction l using Conn.snoc_ind with
    | nil => intro h _; rfl
    | snoc l o ih =>
      intro h hl
      rw [Props.ClassNet.run_snoc, ← ih h fun x hx => hl x (List.mem_append_left _ hx)]
      obtain ⟨os, cs, w⟩ := whole (more' h l)
      have hb := w.good.bodies
      rw [show (more' h l).after (more' h l).all = _ from now_more h l] at hb
      exact turn_length hb (hl o (by simp))
  have upto : ∀ n, n ≤ h.now.cls.dec.calls.length → ∃ l, (∀ o ∈ l, turn ok o = true) ∧ ∀ i, i < n → ∃ how r, pcOf (run h.nd h.c h.now l).cls.dec i = some (.done how r) := by
    intro n
    induction n with
    | zero => intro _; exact ⟨[], by simp, by omega⟩
    | succ n ih =>
      intro hn
      obtain ⟨l, h1, h2⟩ := ih (by omega)
      obtain ⟨l', h3, how, r, h4⟩ := C153_ends ok (more' h l) n (by rw [now_more, len l h h1]; omega)
      rw [now_more] at h4
      refine ⟨l ++ l', fun o ho => ?_, fun i hi => ?_⟩
      · rcases List.mem_append.mp ho with ho | ho
        · exact h1 o ho
        · exact h3 o ho
      · rw [run, List.foldl_append]
        rcases Nat.lt_or_ge i n with hl | hl
        · obtain ⟨how', r', h5⟩ := h2 i hl
          exact ⟨how', r', run_done l' _ h5⟩
        · have : i = n := by omega
          subst this
          exact ⟨how, r, h4⟩
  obtain ⟨l, h1, h2⟩ := upto _ (Nat.le_refl _)
  refine ⟨l, h1, len l h h1, fun x hx => ?_⟩
  obtain ⟨i, hi⟩ := List.getElem?_of_mem hx
  have hlt := (List.getElem?_eq_some_iff.mp hi).1
  rw [len l h h1] at hlt
  obtain ⟨how, r, h3⟩ := h2 i hlt
  rw [pcOf_some hi] at h3
  exact ⟨how, r, Option.some.inj h3⟩

/-! ## Example -/

/-- An interview whose first question is not even sent yet, since the address of the node is being looked up: the look-up times out, and the interview ends without a version. -/
example :
    let h : Life (Dict String Int) := { Props.ClassNet.manufacturerLife 2 with ops := [.interview] }
    let l : List (Op (Dict String Int)) := (List.replicate 3 (System.Op.net (.gw (.conn .tick))) ++
      ([.net (.gw (.conn (.waiter (.timer 0)))), .net (.gw (.conn (.waiter (.resume 0)))), .net (.gw (.conn (.waiter (.cancelDone 0)))), .net (.gw (.job 0 [])), .net (.resume 0), .sent 0] : List System.Op)).map .sys ++
      [.proceed 0]
    (∀ o ∈ l, turn true o = true) ∧ pcOf h.now.cls.dec 0 = some .version ∧ pcOf (run h.nd h.c h.now l).cls.dec 0 = some (.done .noVersion (.ok .none)) := by
  refine ⟨?_, ?_⟩
  · simp [turn, systemTurn, netTurn, gatewayTurn, connTurn, waiterTurn]
  · decide +kernel

end Props.Silence
