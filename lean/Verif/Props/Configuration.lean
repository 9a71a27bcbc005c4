import Verif.Model.Classes
import Verif.Lemmas.Dict
import Verif.Lemmas.Conn
import Verif.Props.Values
/-!
# Configuration parameters (C59, C91)
-/
namespace Props.Configuration
open Model Model.Classes Model.Classes.Config

/-- A report for parameter `n` with value `v`. -/
def ReportOf (m : Msg) (n v : Int) : Prop := numAttr m "parameterNumber" = some n ∧ numAttr m "value" = some v

/-- The value of the most recent report for `n`; the newest operation comes first. Loading replaces everything that was known. -/
def lastReported (n : Int) : List Op → Option Int
  | [] => none
  | .report m :: r =>
    match numAttr m "parameterNumber", numAttr m "value" with
    | some k, some v => if k = n then some v else lastReported n r
    | _, _ => lastReported n r
  | .load d :: _ => (d.get? n).map (·.value)
  | _ :: r => lastReported n r

/-- get(n) answers `v` at once and nothing is sent. -/
def AnswersAtOnce (s : State) (n v : Int) : Prop :=
  (step s (.get n true)).sent = s.sent ∧ (step s (.get n true)).gets = s.gets ++ [.done n (.ok (some v))] ∧ (step s (.get n true)).params = s.params

/-- get(n) asks the node. -/
def Asks (s : State) (n : Int) : Prop :=
  (step s (.get n true)).sent = s.sent ++ [.get n] ∧ (step s (.get n true)).gets = s.gets ++ [.waiting n] ∧ (step s (.get n true)).params = s.params

/-- The full property. -/
def C59_statement : Prop :=
  ∀ (ops : List Op) (n : Int),
    (∀ v, lastReported n ops.reverse = some v → AnswersAtOnce (run fresh ops) n v) ∧ (lastReported n ops.reverse = none → Asks (run fresh ops) n)

/-- The report `70 06 09`, which ends after the parameter number. -/
def shortReport : Msg := .known 0x7006 [("parameterNumber", .num (.uint 1) 9)]

example : decode [0x70, 0x06, 0x09] = .ok shortReport := by decide +kernel

/-- A truncated report raises, but makes get() answer 0 from then on. -/
theorem C59_violated : ¬ C59_statement := by
  intro h
  have := ((h [.report shortReport] 9).2 (by decide +kernel)).1
  revert this
  decide +kernel

/-- Reports are not truncated after the parameter number. -/
def Complete (ops : List Op) : Prop :=
  ∀ m, Op.report m ∈ ops → numAttr m "parameterNumber" = none ∨ ((numAttr m "value").isSome = true ∧ (numAttr m "size").isSome = true)

private theorem report_get (d : Dict Int Param) (m : Msg) (k v z : Int) (h1 : numAttr m "parameterNumber" = some k) (h2 : numAttr m "value" = some v)
    (h3 : numAttr m "size" = some z) (n : Int) : (report d m).1.get? n = if k = n then some ⟨v, z⟩ else d.get? n := by
  simp only [report, needNum, h1, h2, h3, Dict.get?_set]
  by_cases e : k = n <;> simp [e]

/-- **C59.** A report that is not truncated is used up by the class; any other raises TypeError. -/
theorem C59_handled (d : Dict Int Param) (m : Msg) :
    (((numAttr m "parameterNumber").isSome ∧ (numAttr m "value").isSome ∧ (numAttr m "size").isSome) → (report d m).2 = .ok (.bool true)) ∧
    (¬ ((numAttr m "parameterNumber").isSome ∧ (numAttr m "value").isSome ∧ (numAttr m "size").isSome) → (report d m).2 = .error .type) := by
  simp only [report, needNum]
  rcases numAttr m "parameterNumber" with _ | n <;> rcases numAttr m "value" with _ | v <;> rcases numAttr m "size" with _ | z <;> simp

example : ∃ m, decode [0x70, 0x06, 0x09, 0x01, 0x05] = .ok m ∧ (report [] m).2 = .ok (.bool true) ∧ (report [] shortReport).2 = .error .type :=
  ⟨_, rfl, by decide +kernel, by decide +kernel⟩

private theorem known (ops : List Op) (hc : Complete ops) (n : Int) : ((run fresh ops).params.get? n).map (·.value) = lastReported n ops.reverse := by
  induction ops using Conn.snoc_ind with
  | nil => rfl
  | snoc l o ih =>
    have ih := ih (fun m hm => hc m (List.mem_append_left _ hm))
    have hr : run fresh (l ++ [o]) = step (run fresh l) o := by simp [run]
    rw [hr, List.reverse_append, List.reverse_singleton, List.singleton_append]
    cases o with
    | report m =>
      rcases hc m (List.mem_append_right _ List.mem_cons_self) with h | ⟨h2, h3⟩
      · simp [step, report, needNum, h, lastReported, ih]
      · obtain ⟨v, hv⟩ := Option.isSome_iff_exists.1 h2
        obtain ⟨z, hz⟩ := Option.isSome_iff_exists.1 h3
        cases hk : numAttr m "parameterNumber" with
        | none => simp [step, report, needNum, hk, lastReported, ih]
        | some k =>
          simp only [step, report_get _ m k v z hk hv hz, lastReported, hk, hv]
          by_cases e : k = n <;> simp [e, ih]
    | get k c => simp only [step, lastReported]; split <;> exact ih
    | answer i r => simp only [step, lastReported]; split <;> exact ih
    | set k z v => exact ih
    | load d => rfl

/-- C59: get(n) gives at once the value of the most recent report (or loaded value) for n, and asks the node exactly if there was none. For every history of reports,
gets, answers, sets and loads. Missing: truncated reports (`C59_violated`). -/
theorem C59_cached_partial (ops : List Op) (hc : Complete ops) (n : Int) :
    (∀ v, lastReported n ops.reverse = some v → AnswersAtOnce (run fresh ops) n v) ∧ (lastReported n ops.reverse = none → Asks (run fresh ops) n) := by
  have h := known ops hc n
  generalize run fresh ops = s at h ⊢
  constructor
  · intro v hv
    rw [hv] at h
    cases hp : s.params.get? n with
    | none => rw [hp] at h; cases h
    | some p =>
      rw [hp] at h
      have hpv : p.value = v := by simpa using h
      simp [AnswersAtOnce, step, hp, hpv]
  · intro hv
    rw [hv] at h
    cases hp : s.params.get? n with
    | some p => rw [hp] at h; cases h
    | none => simp [Asks, step, hp]

/-- C59: without caching the node is always asked, and a set() is sent but does not change what is known. -/
theorem C59_uncached_partial (s : State) (n z v : Int) :
    ((step s (.get n false)).sent = s.sent ++ [.get n] ∧ (step s (.get n false)).gets = s.gets ++ [.waiting n]) ∧
    ((step s (.set n z v)).sent = s.sent ++ [.set n z v] ∧ (step s (.set n z v)).params = s.params) := by
  simp [step]

private theorem numAttr_of_num {m : Msg} {n : String} {v : Int} (h : m.num? n = some v) : numAttr m n = some v := by
  unfold Msg.num? at h
  unfold numAttr getAttr
  cases ha : m.attr n with
  | none => rw [ha] at h; cases h
  | some x => rw [ha] at h; exact h

/-- C59, from the wire: a report `70 06 n size value…` is handled (so it is not passed on as unhandled), and from then on get(n) answers its value, a big-endian unsigned
number; what is known about other parameters does not change. -/
theorem C59_wire (s : State) (n size : UInt8) (value tl : Spec.Bytes) (hs : size.toNat % 8 = value.length) (hne : value ++ tl ≠ []) :
    ∃ m, decode (0x70 :: 0x06 :: n :: size :: (value ++ tl)) = .ok m ∧ (report s.params m).2 = .ok (.bool true) ∧
      AnswersAtOnce (step s (.report m)) (n.toNat : Int) (Spec.beNat value : Int) ∧
      (step s (.report m)).params.get? (n.toNat : Int) = some ⟨(Spec.beNat value : Int), (value.length : Int)⟩ ∧
      ∀ k : Int, k ≠ (n.toNat : Int) → (step s (.report m)).params.get? k = s.params.get? k := by
  obtain ⟨m, h0, h1, h2, h3, h4⟩ := C23_report n size value tl hs hne
  replace h2 := numAttr_of_num h2
  replace h3 := numAttr_of_num h3
  replace h4 := numAttr_of_num h4
  have hg := report_get s.params m n.toNat (Spec.beNat value) value.length h2 h4 h3
  refine ⟨m, h0, ?_, ?_, ?_, fun k hk => ?_⟩
  · simp only [report, needNum, h2, h3, h4]
  · have := hg n.toNat
    rw [if_pos rfl] at this
    simp [AnswersAtOnce, step, this]
  · simp only [step, hg, if_pos]
  · simp only [step, hg, if_neg (Ne.symm hk)]

example : (0x02 : UInt8).toNat % 8 = [0x01, 0x02].length ∧ Spec.beNat [0x01, 0x02] = 258 := by decide

/-- The value as decoded from `70 06 09 02 01 02`. -/
def fullReport : Msg := .known 0x7006 [("parameterNumber", .num (.uint 1) 9), ("-", .num (.reserved 5) 0), ("size", .num (.ubits 3) 2), ("value", .num .pyint 258)]

/-- Two reports for a parameter, a set and a report that is too short for a number. -/
example : decode [0x70, 0x06, 0x09, 0x02, 0x01, 0x02] = .ok fullReport ∧
    (∃ m, decode [0x70, 0x06, 0x09, 0x01, 0x05] = .ok m ∧ ReportOf m 9 5 ∧
      lastReported 9 ([.report m, .report fullReport, .set 9 1 7, .report (.known 0x7006 [])] : List Op).reverse = some 258 ∧
      Complete [.report m, .report fullReport, .set 9 1 7, .report (.known 0x7006 [])]) := by
  refine ⟨by decide +kernel, _, rfl, by constructor <;> decide +kernel, by decide +kernel, ?_⟩
  intro m hm
  simp only [List.mem_cons, Op.report.injEq, reduceCtorEq, List.not_mem_nil, or_false, false_or] at hm
  rcases hm with rfl | rfl | rfl
  · exact Or.inr (by decide +kernel)
  · exact Or.inr (by decide +kernel)
  · exact Or.inl (by decide +kernel)

/-! ## C91 -/

/-- Nothing is loaded. -/
def NoLoad (ops : List Op) : Prop := ∀ d, Op.load d ∉ ops

/-- The answers are configuration reports, which is what is waited for. -/
def Reports (ops : List Op) : Prop := ∀ i m, Op.answer i (.ok m) ∈ ops → m.hid = Reg.Configuration.Report.hid

/-- C91: what get(n) gives has been reported for parameter n. -/
def C91_statement : Prop :=
  ∀ (ops : List Op) (i : Nat) (n v : Int), NoLoad ops → Reports ops → Complete ops → (run fresh ops).gets[i]? = some (.done n (.ok (some v))) →
    ∃ m, (Op.report m ∈ ops ∨ ∃ j, Op.answer j (.ok m) ∈ ops) ∧ ReportOf m n v

/-- The next report from the node is taken for the answer, whichever parameter it is about. -/
theorem C91_violated : ¬ C91_statement := by
  intro h
  obtain ⟨m, hm, hn, -⟩ := h [.get 1 true, .answer 0 (.ok fullReport)] 0 1 258
    (by intro d hd; simp at hd) (by intro i m hm; simp at hm; rw [hm.2]; rfl) (by intro m hm; simp at hm) (by decide +kernel)
  have : m = fullReport := by
    rcases hm with hm | ⟨j, hm⟩
    · simp at hm
    · simp at hm; exact hm.2
  subst this
  revert hn
  decide +kernel

/-- Every answer is for the parameter that was asked for. -/
def Matched (s : State) : List Op → Prop
  | [] => True
  | o :: os => (∀ i m n, o = .answer i (.ok m) → s.gets[i]? = some (.waiting n) → numAttr m "parameterNumber" = some n) ∧ Matched (step s o) os

private structure Inv (ops : List Op) (s : State) : Prop where
  params : ∀ n p, s.params.get? n = some p → ∃ m, Op.report m ∈ ops ∧ ReportOf m n p.value
  gets : ∀ (i : Nat) n v, s.gets[i]? = some (.done n (.ok (some v))) → ∃ m, (Op.report m ∈ ops ∨ ∃ j, Op.answer j (.ok m) ∈ ops) ∧ ReportOf m n v

private theorem matched_append (s : State) (xs ys : List Op) (h : Matched s (xs ++ ys)) : Matched s xs ∧ Matched (run s xs) ys := by
  induction xs generalizing s with
  | nil => exact ⟨trivial, h⟩
  | cons o os ih => obtain ⟨a, b⟩ := ih (step s o) h.2; exact ⟨⟨h.1, a⟩, b⟩

private theorem inv (ops : List Op) (hl : NoLoad ops) (hc : Complete ops) (hm : Matched fresh ops) : Inv ops (run fresh ops) := by
  induction ops using Conn.snoc_ind with
  | nil => exact ⟨by intro n p h; simp [run, fresh] at h, by intro i n v h; simp [run, fresh] at h⟩
  | snoc l o ih =>
    obtain ⟨hm1, hm2, -⟩ := matched_append _ _ _ hm
    have ih := ih (fun d hd => hl d (List.mem_append_left _ hd)) (fun m hm => hc m (List.mem_append_left _ hm)) hm1
    have hr : run fresh (l ++ [o]) = step (run fresh l) o := by simp [run]
    rw [hr]
    generalize run fresh l = s at *
    have ih1 : ∀ n p, s.params.get? n = some p → ∃ m, Op.report m ∈ l ++ [o] ∧ ReportOf m n p.value := by
      intro n p h
      obtain ⟨m, h1, h2⟩ := ih.params n p h
      exact ⟨m, List.mem_append_left _ h1, h2⟩
    have ih2 : ∀ (i : Nat) n v, s.gets[i]? = some (.done n (.ok (some v))) →
        ∃ m, (Op.report m ∈ l ++ [o] ∨ ∃ j, Op.answer j (.ok m) ∈ l ++ [o]) ∧ ReportOf m n v := by
      intro i n v h
      obtain ⟨m, h1, h2⟩ := ih.gets i n v h
      refine ⟨m, ?_, h2⟩
      rcases h1 with h1 | ⟨j, h1⟩
      · exact Or.inl (List.mem_append_left _ h1)
      · exact Or.inr ⟨j, List.mem_append_left _ h1⟩
    have happ : ∀ (x : Get) (i : Nat) n v, (s.gets ++ [x])[i]? = some (.done n (.ok (some v))) →
        s.gets[i]? = some (.done n (.ok (some v))) ∨ x = .done n (.ok (some v)) := by
      intro x i n v h
      rcases Nat.lt_or_ge i s.gets.length with hl | hl
      · rw [List.getElem?_append_left hl] at h; exact Or.inl h
      · rw [List.getElem?_append_right hl] at h
        exact Or.inr (List.mem_singleton.1 (List.mem_of_getElem? h)).symm
    cases o with
    | report m =>
      refine ⟨?_, ih2⟩
      rcases hc m (List.mem_append_right _ List.mem_cons_self) with h | ⟨h2, h3⟩
      · simpa [step, report, needNum, h] using ih1
      · obtain ⟨v, hv⟩ := Option.isSome_iff_exists.1 h2
        obtain ⟨z, hz⟩ := Option.isSome_iff_exists.1 h3
        cases hk : numAttr m "parameterNumber" with
        | none => simpa [step, report, needNum, hk] using ih1
        | some k =>
          intro n p hp
          simp only [step, report_get _ m k v z hk hv hz] at hp
          by_cases e : k = n
          · rw [if_pos e] at hp; cases hp; subst e
            exact ⟨m, List.mem_append_right _ List.mem_cons_self, hk, hv⟩
          · rw [if_neg e] at hp; exact ih1 n p hp
    | get k c =>
      refine ⟨by simp only [step]; split <;> exact ih1, ?_⟩
      intro i n v h
      simp only [step] at h
      split at h
      · rename_i p hp
        rcases happ _ i n v h with h | h
        · exact ih2 i n v h
        · cases h
          split at hp
          · obtain ⟨m, h1, h2⟩ := ih1 k p hp
            exact ⟨m, Or.inl h1, h2⟩
          · cases hp
      · rcases happ _ i n v h with h | h
        · exact ih2 i n v h
        · cases h
    | answer j r =>
      refine ⟨by simp only [step]; split <;> exact ih1, ?_⟩
      intro i n v h
      simp only [step] at h
      split at h
      · rename_i k hk
        by_cases e : j = i
        · subst e
          rw [List.getElem?_set_self (Waiter.lt_of_getElem? hk)] at h
          cases r with
          | error e => cases h
          | ok m =>
            injection h with h; injection h with h1 h2; injection h2 with h2
            subst h1
            exact ⟨m, Or.inr ⟨j, List.mem_append_right _ List.mem_cons_self⟩, hm2 j m k rfl hk, h2⟩
        · rw [List.getElem?_set_ne e] at h; exact ih2 i n v h
      · exact ih2 i n v h
    | set k z v => exact ⟨ih1, ih2⟩
    | load d => exact absurd (List.mem_append_right _ List.mem_cons_self) (hl d)

/-- C91 for histories in which every answer is for the parameter asked for. Missing: other reports arriving in between (`C91_violated`). -/
theorem C91_value_partial (ops : List Op) (i : Nat) (n v : Int) (hl : NoLoad ops) (hc : Complete ops) (hm : Matched fresh ops)
    (h : (run fresh ops).gets[i]? = some (.done n (.ok (some v)))) : ∃ m, (Op.report m ∈ ops ∨ ∃ j, Op.answer j (.ok m) ∈ ops) ∧ ReportOf m n v :=
  (inv ops hl hc hm).gets i n v h

/-- An answered get and a cached one. -/
example : Matched fresh [.get 9 true, .answer 0 (.ok fullReport), .report fullReport, .get 9 true] ∧
    (run fresh [.get 9 true, .answer 0 (.ok fullReport), .report fullReport, .get 9 true]).gets = [.done 9 (.ok (some 258)), .done 9 (.ok (some 258))] := by
  refine ⟨⟨by intro i m n h; simp at h, ?_, ⟨by intro i m n h; simp at h, by intro i m n h; simp at h, trivial⟩⟩, by decide +kernel⟩
  intro i m n h hw
  simp at h
  obtain ⟨rfl, rfl⟩ := h
  have : (step fresh (.get 9 true)).gets[0]? = some (.waiting 9) := by decide +kernel
  rw [this] at hw
  cases hw
  decide +kernel

end Props.Configuration
