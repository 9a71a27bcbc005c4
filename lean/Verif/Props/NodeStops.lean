import Verif.Spec.Innocent
import Verif.Props.Innocent
import Verif.Props.NodeNet
/-!
# Property theorems C158: one class does not keep the others from being interviewed
-/
namespace Props.NodeNet
open Model Model.NodeNet Spec.NodeNet
open Model.ClassRun (itemsOf WholeItem Blames NeverRaises Raised)
open Model.NodeInterview (Pc Ev)

variable {σ : Nat → Type}

/-- **C158.** When a call of `Node.interview()` has ended, it has interviewed every class of the node. -/
def C158_statement : Prop :=
  ∀ (σ : Nat → Type) (h : Life σ) (n : Nat) (r : Py Unit), h.now.calls[n]? = some (Pc.done r) → ∀ k, k < h.node.size → ∃ j, Ev.began n k j ∈ h.now.trace

/-- The report of the manufacturer is too short. -/
def short : List (Op two) :=
  (ClassNet.turn (σ := Dict String Int) 0 [0x86, 0x14, 0x72, 0x02] ++ ClassNet.turn 1 [0x72, 0x05, 0, 1]).map (lift (σ := two) 0) ++ [.resume 0]

/-- The socket for the connection to the node cannot be opened. -/
def unreachable : List (Op two) :=
  .interview :: (((Props.System.after100 2).take 3 ++ [System.Op.net (.gw (.opened 0 false)), .net (.resume 0), .sent 0, .waiter 3 (.resume 0)]).map Op.sys ++ [.cls 0 (.proceed 0), .resume 0])

theorem C158_violated : ¬ C158_statement := by
  intro h
  obtain ⟨j, hj⟩ := h two (twoLife (asking ++ short)) 0 (.error .type) (by decide +kernel) 1 (by decide)
  have : (twoLife (asking ++ short)).now.trace = [.began 0 0 0, .ended 0 0 0 (.error .type)] := by decide +kernel
  rw [this] at hj
  simp at hj

/-- It is the same if no connection to the node can be opened: then the interview ends at the first class. -/
theorem C158_unreachable : ¬ C158_statement := by
  intro h
  obtain ⟨j, hj⟩ := h two (twoLife unreachable) 0 (.error .runtime) (by decide +kernel) 1 (by decide)
  have : (twoLife unreachable).now.trace = [.began 0 0 0, .ended 0 0 0 (.error .runtime)] := by decide +kernel
  rw [this] at hj
  simp at hj

theorem began_visits (n : Nat) : ∀ (rs : List (Nat × Py Listen.Ret)) (i k j : Nat) (r : Py Listen.Ret), rs[k]? = some (j, r) → Ev.began n (i + k) j ∈ NodeInterview.visits n i rs := by
  intro rs
  induction rs with
  | nil => intro i k j r h; simp at h
  | cons p rs ih =>
    intro i k j r h
    cases k with
    | zero => simp at h; subst h; simp [NodeInterview.visits]
    | succ k =>
      simp only [List.getElem?_cons_succ] at h
      have := ih (i + 1) k j r h
      rw [show i + 1 + k = i + (k + 1) by omega] at this
      exact List.mem_cons_of_mem _ (List.mem_cons_of_mem _ this)

/-- How it can be otherwise: if it has left out a class, it has raised something that is no timeout, which the interview of an earlier class raised. -/
theorem C158_left_out_partial (h : Life σ) (n : Nat) (r : Py Unit) (hd : h.now.calls[n]? = some (Pc.done r)) (k : Nat) (hk : k < h.node.size) (hno : ∀ j, Ev.began n k j ∉ h.now.trace) :
    ∃ e k' j, r = .error e ∧ e ≠ .timeout ∧ k' < k ∧ Ended h.now k' j (.error e) := by
  have mem : ∀ {x : Ev}, x ∈ NodeInterview.mine n h.now.trace → x ∈ h.now.trace := fun hx => (List.mem_filter.1 hx).1
  cases r with
  | ok u =>
    obtain ⟨rs, h1, h2, -⟩ := C156_interviewed h n hd
    have hlt : k < rs.length := by omega
    have := began_visits n rs 0 k rs[k].1 rs[k].2 (List.getElem?_eq_getElem hlt)
    rw [← h2, Nat.zero_add] at this
    exact absurd (mem this) (hno _)
  | error e =>
    obtain ⟨he, rs, k', j, -, h2, -, h4, h5⟩ := C156_raises h n e hd
    refine ⟨e, k', j, rfl, he, ?_, h5⟩
    rcases Nat.lt_or_ge k' k with hl | hl
    · exact hl
    · exfalso
      rcases Nat.lt_or_ge k rs.length with hlt | hge
      · have := began_visits n rs 0 k rs[k].1 rs[k].2 (List.getElem?_eq_getElem hlt)
        rw [Nat.zero_add] at this
        exact hno _ (mem (by rw [h4]; exact List.mem_append_left _ this))
      · have : k = k' := by omega
        subst this
        exact hno j (mem (by rw [h4]; simp))

/-! ## Why a class raises -/

/-- Only what was raised is marked so. -/
theorem dec_raised (d : Interview.State) (h : ∀ x ∈ d.calls, ∀ how e, x.pc = .done how (.error e) → how = .raised) (o : Interview.Op) :
    ∀ x ∈ (Interview.step d o).calls, ∀ how e, x.pc = .done how (.error e) → how = .raised := by
  have app : ∀ c : Interview.Call, (∀ how e, c.pc = .done how (.error e) → how = .raised) → ∀ x ∈ d.calls ++ [c], ∀ how e, x.pc = .done how (.error e) → how = .raised := by
    intro c hc x hx
    rcases List.mem_append.1 hx with hx | hx
    · exact h x hx
    · simp at hx; subst hx; exact hc
  have set : ∀ (i : Nat) (c : Interview.Call), (∀ how e, c.pc = .done how (.error e) → how = .raised) → ∀ x ∈ d.calls.set i c, ∀ how e, x.pc = .done how (.error e) → how = .raised := by
    intro i c hc x hx
    rcases List.mem_or_eq_of_mem_set hx with hx | rfl
    · exact h x hx
    · exact hc
  cases o with
  | interview =>
    simp only [Interview.step]
    split
    · split <;> exact app _ (by simp)
    · exact app _ (by simp)
  | requestVersion =>
    simp only [Interview.step]
    split <;> exact app _ (by simp)
  | versionAnswer i r =>
    simp only [Interview.step]
    split
    · exact h
    · split
      · split
        · split <;> exact set _ _ (by simp)
        · exact set _ _ (by simp)
        · split
          · exact set _ _ (by simp)
          · split <;> exact set _ _ (by simp)
      · exact h
  | bodyEnds i r =>
    simp only [Interview.step]
    split
    · exact h
    · split
      · split <;> exact set _ _ (by simp)
      · exact h
  | load v b => exact h

theorem run_raised {τ : Type} (c : ClassRun.Cls τ) (id : Nat) (a : τ) (cs : List (ClassRun.Op τ)) :
    ∀ x ∈ (ClassRun.run c (ClassRun.fresh id a) cs).dec.calls, ∀ how e, x.pc = .done how (.error e) → how = .raised := by
  induction cs using Conn.snoc_ind with
  | nil => simp [ClassRun.run, ClassRun.fresh, Interview.fresh]
  | snoc cs o ih =>
    have all : ∀ (l : List Interview.Op) (d : Interview.State), (∀ x ∈ d.calls, ∀ how e, x.pc = .done how (.error e) → how = .raised) →
        ∀ x ∈ (l.foldl Interview.step d).calls, ∀ how e, x.pc = .done how (.error e) → how = .raised := by
      intro l
      induction l with
      | nil => intro d h; exact h
      | cons o l ih => intro d h; exact ih _ (dec_raised d h o)
    obtain ⟨l, e, -⟩ := cls_dec c (ClassRun.run c (ClassRun.fresh id a) cs) o
    rw [ClassRun.run, List.foldl_append]
    show ∀ x ∈ (ClassRun.step c (ClassRun.run c (ClassRun.fresh id a) cs) o).dec.calls, _
    rw [e]
    exact all l _ ih

/-- And why a class raises, if it had asked something and only interviews change it: for classes that raise nothing on their own (C151: Version, ManufacturerSpecific, ZwavePlusInfo and
SensorMultilevel), if all reports to this class were complete, then a request or a send of that interview raised the exception. -/
theorem C158_blame_partial (h : Life σ) (k j : Nat) (e : PyErr) (he : Ended h.now k j (.error e)) (hc : NeverRaises (h.node.c k)) (ho : h.OnlyAsked k)
    (hw : ∀ x ∈ (h.now.cls k).cls.trace, WholeItem x.item) (hi : itemsOf (h.now.cls k).cls.trace j ≠ []) : ∃ x ∈ itemsOf (h.now.cls k).cls.trace j, Blames e x := by
  obtain ⟨l, -, -, e1, -, -, e2, -, -, -, hl⟩ := life h k
  obtain ⟨os, cs, w⟩ := ClassNet.whole l
  have hcls : (h.now.cls k).cls = ClassRun.run (h.node.c k) (ClassRun.fresh l.id l.attrs) cs := by
    rw [← e2, ← e1]; exact w.cls
  obtain ⟨x, hx, -, how, hpc⟩ := he
  have hx : (h.now.cls k).cls.dec.calls[j]? = some x := hx
  rw [hcls] at hx hw hi ⊢
  have hr := run_raised _ _ _ _ x (List.mem_of_getElem? hx) how e hpc
  subst hr
  have ho' : ClassRun.OnlyAsked cs := by
    have mem : ∀ o, o ∈ l.all → (∃ x, o = .sys x) ∨ o ∈ l.ops := by
      intro o ho
      rcases List.mem_append.1 ho with ho | ho
      · obtain ⟨y, -, rfl⟩ := List.mem_map.1 ho; exact .inl ⟨y, rfl⟩
      · exact .inr ho
    intro o hm
    refine ⟨?_, ?_⟩
    · rintro v b f rfl
      rcases mem _ (w.load v b f hm) with ⟨y, hy⟩ | hy
      · cases hy
      · exact (hl ho _ hy).1 v b f rfl
    · rintro f rfl
      rcases mem _ (w.others f hm) with ⟨y, hy⟩ | hy
      · cases hy
      · exact (hl ho _ hy).2 f rfl
  exact hc _ _ cs j e ho' hw ⟨⟨x.only, by rw [hx]; cases x; simp at hpc; subst hpc; rfl⟩, hi⟩

end Props.NodeNet
