import Verif.Spec.Late
import Verif.Props.InTimeUpdate
/-!
# Property theorems C145: node list reports that are handled later
-/
namespace Props.Late
open Spec Spec.Late Model Model.Late

variable {σ ω : Type} (next : σ → ω → σ) (report : ω → Bool)

/-- **C145.** Whenever the handling of the reports begins: everything is as if each report had arrived when its task began. Reports whose task has not begun have had no effect. -/
theorem C145_state (s : State σ ω) (ops : List (Op ω)) : (Late.run next report s ops).now = (effects report s.queued ops).foldl next s.now := by
  induction ops generalizing s with
  | nil => rfl
  | cons o ops ih =>
    show (Late.run next report (Late.step next report s o) ops).now = _
    rw [ih]
    cases o with
    | happens o =>
      simp only [Late.step, effects]
      split <;> rfl
    | starts i =>
      simp only [Late.step, effects]
      cases s.queued[i]? <;> rfl

/-- **C145.** Nothing else is delayed or reordered, and nothing but reports. -/
theorem C145_others (queue : List ω) (hq : ∀ o ∈ queue, report o = true) (ops : List (Op ω)) :
    (effects report queue ops).filter (fun o => !report o) = (events ops).filter fun o => !report o := by
  induction ops generalizing queue with
  | nil => rfl
  | cons o ops ih =>
    cases o with
    | happens o =>
      simp only [effects, events]
      split
      · rename_i h
        rw [ih _ (by simpa [or_imp, forall_and, h] using hq)]
        simp [h]
      · rename_i h
        simp only [List.filter_cons, h]
        simp [ih _ hq]
    | starts i =>
      simp only [effects, events]
      cases hi : queue[i]? with
      | none => exact ih _ hq
      | some o =>
        have h := hq o (List.mem_of_getElem? hi)
        simp only [List.filter_cons, h]
        simpa using ih _ fun o ho => hq o (List.mem_of_mem_eraseIdx ho)

theorem front {o : ω} : ∀ (l : List ω) (i : Nat), l[i]? = some o → (o :: l.eraseIdx i).Perm l
  | [], _, h => by simp at h
  | a :: l, 0, h => by
    obtain rfl : a = o := by simpa using h
    exact .refl _
  | a :: l, i + 1, h => by
    have := front l i (by simpa using h)
    exact (List.Perm.swap a o _).trans (this.cons a)

/-- **C145.** Each report that has arrived takes effect once, or is still waiting. -/
theorem C145_once (s : State σ ω) (hq : ∀ o ∈ s.queued, report o = true) (ops : List (Op ω)) :
    ((effects report s.queued ops).filter report ++ (Late.run next report s ops).queued).Perm (s.queued ++ (events ops).filter report) := by
  induction ops generalizing s with
  | nil => simp [effects, events, Late.run]
  | cons o ops ih =>
    have e : Late.run next report s (o :: ops) = Late.run next report (Late.step next report s o) ops := rfl
    rw [e]
    cases o with
    | happens o =>
      simp only [effects, events, Late.step]
      split
      · rename_i h
        have := ih { s with queued := s.queued ++ [o] } (by simpa [or_imp, forall_and, h] using hq)
        simpa [h] using this
      · rename_i h
        have := ih { s with now := next s.now o } hq
        simpa [List.filter_cons, h] using this
    | starts i =>
      simp only [effects, events, Late.step]
      cases hi : s.queued[i]? with
      | none => exact ih s hq
      | some o =>
        have h := hq o (List.mem_of_getElem? hi)
        have hp : (o :: s.queued.eraseIdx i).Perm s.queued := by
          exact front s.queued i hi
        have := ih ⟨next s.now o, s.queued.eraseIdx i⟩ fun o ho => hq o (List.mem_of_mem_eraseIdx ho)
        simp only [List.filter_cons, h, if_true, List.cons_append]
        exact (this.cons o).trans (hp.append_right _)

/-- **C145.** With the order of asyncio reports take effect in the order in which they have arrived. -/
theorem C145_order (s : State σ ω) (hq : ∀ o ∈ s.queued, report o = true) (ops : List (Op ω)) (ho : InOrder ops) :
    (effects report s.queued ops).filter report ++ (Late.run next report s ops).queued = s.queued ++ (events ops).filter report := by
  induction ops generalizing s with
  | nil => simp [effects, events, Late.run]
  | cons o ops ih =>
    have e : Late.run next report s (o :: ops) = Late.run next report (Late.step next report s o) ops := rfl
    have ih := fun s hq => ih s hq fun i hi => ho i (List.mem_cons_of_mem _ hi)
    rw [e]
    cases o with
    | happens o =>
      simp only [effects, events, Late.step]
      split
      · rename_i h
        have := ih { s with queued := s.queued ++ [o] } (by simpa [or_imp, forall_and, h] using hq)
        simpa [h] using this
      · rename_i h
        have := ih { s with now := next s.now o } hq
        simpa [List.filter_cons, h] using this
    | starts i =>
      obtain rfl := ho i (by simp)
      simp only [effects, events, Late.step]
      obtain ⟨now, queued⟩ := s
      cases queued with
      | nil => exact ih ⟨now, []⟩ hq
      | cons o q =>
        have h := hq o (by simp)
        have := ih ⟨next now o, q⟩ fun o ho => hq o (by simp [ho])
        simpa [List.filter_cons, h] using this

/-- **C145**, for the gateway: there are no states of the gateway other than those it has when reports are handled at once. What holds in all of them holds. -/
theorem C145_gateway (ops : List (Op Gateway.Op)) : (gateway ops).now = Gateway.run Gateway.init (effects gwReport [] ops) := C145_state _ _ _ ops

/-- **C145**, for the application on the gateway. -/
theorem C145_application (ops : List (Op Boot.Op)) : (boot ops).now = Boot.run Boot.init (effects bootReport [] ops) := C145_state _ _ _ ops

/-- **C145.** Until the task of a report has begun, a message is attributed to its sender by the table as it was before (C45), whatever is queued. -/
theorem C145_meanwhile (s : State Gateway.State Gateway.Op) (h : ZipHeader) (hf : h.Fits) (hx : h.ext = false) (cb : Bytes) (c : Msg) (hne : cb ≠ []) (hc : decode cb = .ok c) (hid : c.hid ≠ 0x5202)
    (sender : Bytes) (order : List Nat) (n : Nat) (pre post : Dict Nat (Option Bytes)) (hn : s.now.nodes = pre ++ (n, some sender) :: post) (hfirst : ∀ e ∈ pre, e.2 ≠ some sender) :
    Late.step Gateway.step gwReport s (.happens (.unsolicited (h.bytes ++ cb) sender order)) = { s with now := Props.Gateway.delivered s.now h n (some c) (some (.hdr [])) sender } := by
  have hr : gwReport (.unsolicited (h.bytes ++ cb) sender order) = false := by
    have hz := zip_decode h.flags0 h.flags1 (UInt8.ofNat h.seq) (UInt8.ofNat h.src) (UInt8.ofNat h.dst) cb
    have hb : zipBody h.flags1 cb = .ok (some [], cb) := by
      cases cb with
      | nil => exact absurd rfl hne
      | cons len tl => simp [zipBody, (flags1_ext h).mpr hx]
    rw [hb] at hz
    simp only [bind, Except.bind, hc, if_neg hne] at hz
    have hz : decode (h.bytes ++ cb) = _ := hz
    simp only [gwReport, reportIn, hz, Msg.command]
    simpa using hid
  simp only [Late.step, hr]
  rw [Props.Gateway.C45_known_sender s.now h hf hx cb c hne hc hid sender order n pre post hn hfirst]
  rfl

theorem quiet (s : State σ ω) : ∀ l : List ω, (∀ o ∈ l, report o = false) → Late.run next report s (l.map .happens) = { s with now := l.foldl next s.now }
  | [], _ => rfl
  | o :: l, h => by
    show Late.run next report (Late.step next report s (.happens o)) (l.map .happens) = _
    rw [quiet _ l fun o ho => h o (by simp [ho])]
    simp [Late.step, h o (by simp)]

theorem touches {o : Gateway.Op} (h : Model.Gateway.touchesTable o = false) : gwReport o = false := by
  cases o with
  | unsolicited pkt _ _ =>
    simp only [Model.Gateway.touchesTable, Model.Gateway.carriesNodeList] at h
    simp only [gwReport, reportIn]
    cases hd : decode pkt with
    | error e => rfl
    | ok p =>
      simp only [hd] at h
      cases hc : p.command with
      | none => simp [hc]
      | some c => simpa [hc, Option.filter] using h
  | _ => rfl

/-- **C145.** Once its task has begun and ended, the table is that of the report (C44), although other things happened between its arrival and the beginning of the task (`before`). -/
theorem C145_table (g : Gateway.State) (h : ZipHeader) (hf : h.Fits) (hx : h.ext = false) (seq status ctl : UInt8) (mask : Bytes) (hm : mask.length = 28) (sender : Bytes) (order : List Nat)
    (before after : List Gateway.Op) (hb : ∀ o ∈ before, gwReport o = false) (ha : ∀ o ∈ after, Model.Gateway.touchesTable o = false) (r : Gateway.Ret)
    (hidle : Props.Gateway.TableIdle (Gateway.run g before))
    (hdone : (Late.run Gateway.step gwReport ⟨g, []⟩ (.happens (.unsolicited (Props.Gateway.nodeListPacket h seq status ctl mask) sender order) ::
      (before.map .happens ++ .starts 0 :: after.map .happens))).now.jobs[(Gateway.run g before).jobs.length]? = some (.done (.ok r))) :
    let s := Late.run Gateway.step gwReport ⟨g, []⟩ (.happens (.unsolicited (Props.Gateway.nodeListPacket h seq status ctl mask) sender order) :: (before.map .happens ++ .starts 0 :: after.map .happens))
    (∀ n, n ∈ s.now.nodes.keys ↔ Props.MarkedIn mask n) ∧ s.now.listUpdated = (Gateway.run g before).listUpdated + 1 ∧ s.queued = [] := by
  intro s
  have hr : gwReport (.unsolicited (Props.Gateway.nodeListPacket h seq status ctl mask) sender order) = true := by
    obtain ⟨p, c, l, e1, e2, e3, -⟩ := Props.Gateway.nodeListPacket_decode h hf hx seq status ctl mask hm
    simp [gwReport, reportIn, e1, e2, e3]
  have hs : s = ⟨Gateway.run (Gateway.step (Gateway.run g before) (.unsolicited (Props.Gateway.nodeListPacket h seq status ctl mask) sender order)) after, []⟩ := by
    show Late.run Gateway.step gwReport (Late.step Gateway.step gwReport ⟨g, []⟩ (.happens _)) _ = _
    rw [Late.run, List.foldl_append]
    show Late.run Gateway.step gwReport (Late.step Gateway.step gwReport (Late.run Gateway.step gwReport _ (before.map .happens)) (.starts 0)) (after.map .happens) = _
    rw [quiet _ _ _ before hb, quiet _ _ _ after fun o ho => touches (ha o ho)]
    simp only [Late.step, hr, if_true, List.nil_append, List.getElem?_cons_zero, List.eraseIdx_cons_zero]
    rfl
  change s.now.jobs[_]? = _ at hdone
  rw [hs] at hdone ⊢
  obtain ⟨e1, -, e2, -⟩ := Props.Gateway.C44_table_is_report (Gateway.run g before) h hf hx seq status ctl mask hm sender order after r hidle ha hdone
  exact ⟨e1, e2, rfl⟩

/-! ## Examples -/

open Props.Follow (freedom)

/-- Node 2 has left: the report with nodes 1 and 3 arrives, and before its task begins a message from node 2. -/
def arriving : List (Op Gateway.Op) :=
  [.happens (.unsolicited ({ Props.Startup.home with mask := 5 :: List.replicate 27 0 }.notice freedom.header 2 0) [] []),
   .happens (.unsolicited [0x23, 0x02, 0x00, 0x40, 9, 0, 0, 0x20, 0x03, 0xFF] (Props.Follow.addresses.of 2) [])]

/-- The message is told as one of node 2, the table still has it; after the beginning of the task it has not. -/
example : let s := Late.run Gateway.step gwReport ⟨Props.InTimeUpdate.grown.gw, []⟩ arriving
    s.now.told.map (·.node) = [2] ∧ Dict.keys s.now.nodes = [1, 2, 3] ∧ s.queued.length = 1 ∧
    Dict.keys (Late.step Gateway.step gwReport s (.starts 0)).now.nodes = [1, 3] := by decide +kernel

/-- Handled at once, the message would be one of an unknown sender. -/
example : (Gateway.run Props.InTimeUpdate.grown.gw (events arriving)).told = [] := by decide +kernel

/-- Two reports, the first one begun. -/
example : effects (fun n => n > 9) [] [.happens 10, .happens 1, .happens 11, .starts 0, .happens 2] = [1, 10, 2] := by decide


end Props.Late
