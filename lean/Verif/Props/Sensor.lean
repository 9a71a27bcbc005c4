import Verif.Model.Classes
import Verif.Lemmas.Dict
import Verif.Lemmas.Conn
/-!
# Sensor reports (C60)
-/
namespace Props.Sensor
open Model Model.Classes Model.Classes.Sensor Model.Listen Model.Node

/-- The mask in the answer to the question for the scales of a sensor type. -/
def scaleAnswer (r : Py Msg) : Option Int :=
  match r with
  | .ok m => numAttr m "scaleBitMask"
  | .error _ => none

/-- The sensor types in the answer to the question for the types. -/
def sensorsOf (r : Py Msg) : List Nat :=
  match r with
  | .ok m => match getAttr registry m "bitMask" with
    | some (.sensors l) => l
    | _ => []
  | .error _ => []

/-- The scales an interview found for type `t`: types are asked in turn until one does not answer. -/
def found (first : Py Msg) (ans : Nat → Py Msg) (t : Nat) : Option Int :=
  if t ∈ (sensorsOf first).takeWhile (fun u => (scaleAnswer (ans u)).isSome) then scaleAnswer (ans t) else none

/-- The version after a history, newest operation first. -/
def versionAfter (v0 : Nat) : List Op → Nat
  | [] => v0
  | .version v :: _ => v
  | _ :: r => versionAfter v0 r

/-- The scales found for `t` by the most recent interview that got an answer for it, newest operation first. Before version 5 an interview asks nothing. -/
def supportedScales (v0 : Nat) (t : Nat) : List Op → Option Int
  | [] => none
  | .interview first ans :: r =>
    if 5 ≤ versionAfter v0 r then (found first ans t).or (supportedScales v0 t r) else supportedScales v0 t r
  | _ :: r => supportedScales v0 t r

/-- The report is about type `t` with scale `sc`. -/
def About (m : Msg) (t : Nat) (sc : Nat) : Prop :=
  numAttr m "sensorType" = some (t : Int) ∧ ∃ mant prec size, getAttr registry m "sensorValue" = some (.float mant prec size sc)

/-- The scale is among those of the mask. -/
def Has (mask : Option Int) (sc : Nat) : Prop := ∃ k : Int, mask = some k ∧ k.toNat.testBit sc = true

private theorem of_takeWhile {α : Type} {p : α → Bool} {l : List α} {a : α} (h : a ∈ l.takeWhile p) : p a = true := by
  induction l with
  | nil => cases h
  | cons x xs ih =>
    rw [List.takeWhile_cons] at h
    split at h
    · rcases List.mem_cons.1 h with rfl | h
      · assumption
      · exact ih h
    · cases h

private theorem scales_get (ans : Nat → Py Msg) (l : List Nat) (d : Dict Int Int) (t : Nat) :
    (scales ans l d).1.get? (t : Int) =
      if t ∈ l.takeWhile (fun u => (scaleAnswer (ans u)).isSome) then scaleAnswer (ans t) else d.get? (t : Int) := by
  induction l generalizing d with
  | nil => rfl
  | cons u us ih =>
    cases hu : ans u with
    | error e => simp [scales, hu, scaleAnswer, List.takeWhile]
    | ok m =>
      cases hk : numAttr m "scaleBitMask" with
      | none => simp [scales, hu, needNum, hk, scaleAnswer, List.takeWhile]
      | some k =>
        simp only [scales, hu, needNum, hk]
        rw [ih, Dict.get?_set]
        have hs : scaleAnswer (ans u) = some k := by simp [scaleAnswer, hu, hk]
        rw [List.takeWhile_cons_of_pos (by rw [hs]; rfl)]
        by_cases htu : t = u
        · subst htu
          rw [if_pos List.mem_cons_self, hs]
          split
          · rfl
          · simp
        · have hne : ¬ ((u : Int) = (t : Int)) := by omega
          simp [hne, List.mem_cons, htu]

private theorem types_get (v0 : Nat) (ops : List Op) (t : Nat) :
    (run ⟨v0, []⟩ ops).version = versionAfter v0 ops.reverse ∧ (run ⟨v0, []⟩ ops).types.get? (t : Int) = supportedScales v0 t ops.reverse := by
  induction ops using Conn.snoc_ind with
  | nil => exact ⟨rfl, rfl⟩
  | snoc l o ih =>
    have hr : run ⟨v0, []⟩ (l ++ [o]) = step (run ⟨v0, []⟩ l) o := by simp [run]
    rw [hr, List.reverse_append, List.reverse_singleton, List.singleton_append]
    generalize run ⟨v0, []⟩ l = s at *
    obtain ⟨iv, it⟩ := ih
    cases o with
    | version v => exact ⟨rfl, it⟩
    | report m => exact ⟨iv, it⟩
    | interview first ans =>
      simp only [step, Sensor.interview, versionAfter, supportedScales]
      rw [← iv]
      by_cases hv : s.version < 5
      · rw [if_pos hv, if_neg (by omega)]; exact ⟨rfl, it⟩
      · rw [if_neg hv, if_pos (by omega)]
        cases first with
        | error e => exact ⟨rfl, by simp [found, sensorsOf, it]⟩
        | ok m =>
          cases hb : getAttr registry m "bitMask" with
          | none => exact ⟨by simp only [hb], by simp [found, sensorsOf, hb, it]⟩
          | some x =>
            cases x with
            | sensors sl =>
              refine ⟨by simp only [hb], ?_⟩
              simp only [scales_get, found, sensorsOf, hb, it]
              split
              · rename_i hmem
                have : (scaleAnswer (ans t)).isSome = true := of_takeWhile (p := fun u => (scaleAnswer (ans u)).isSome) hmem
                cases hs : scaleAnswer (ans t) with
                | none => rw [hs] at this; cases this
                | some k => rfl
              · rfl
            | _ => exact ⟨by simp only [hb], by simp [found, sensorsOf, hb, it]⟩

private theorem and_shift (k sc : Nat) : k &&& (1 <<< sc) = 0 ↔ k.testBit sc = false := by
  constructor
  · intro h
    have := congrArg (Nat.testBit · sc) h
    simpa [Nat.testBit_and, Nat.testBit_shiftLeft] using this
  · intro h
    apply Nat.eq_of_testBit_eq
    intro i
    rw [Nat.testBit_and, Nat.shiftLeft_eq, Nat.one_mul, Nat.testBit_two_pow]
    by_cases e : sc = i
    · subst e; simp [h]
    · simp [e]

/-- The handler after a history: whether further processing is suppressed. -/
private theorem report_passes (v0 : Nat) (ops : List Op) (m : Msg) (t sc : Nat) (ha : About m t sc) :
    (∃ r, Sensor.report (run ⟨v0, []⟩ ops) m = .ok r ∧
      (r.truthy = false ↔ versionAfter v0 ops.reverse < 5 ∨ Has (supportedScales v0 t ops.reverse) sc)) := by
  obtain ⟨hv, ht⟩ := types_get v0 ops t
  obtain ⟨h1, mant, prec, size, h2⟩ := ha
  rw [← hv, ← ht]
  generalize run ⟨v0, []⟩ ops = s
  simp only [Sensor.report, h1, h2]
  by_cases hlt : s.version < 5
  · rw [if_pos hlt]; exact ⟨_, rfl, by simp [hlt, Ret.truthy]⟩
  · rw [if_neg hlt]
    cases hm : s.types.get? (t : Int) with
    | none => exact ⟨_, rfl, by simp [hlt, Has, Ret.truthy]⟩
    | some mask =>
      simp only
      by_cases h0 : mask = 0
      · rw [if_pos h0]; exact ⟨_, rfl, by simp [hlt, Has, h0, Ret.truthy]⟩
      · rw [if_neg h0]
        by_cases hb : mask.toNat &&& 1 <<< sc = 0
        · rw [if_pos hb]
          have := (and_shift _ _).1 hb
          exact ⟨_, rfl, by simp [hlt, Has, this, Ret.truthy]⟩
        · rw [if_neg hb]
          have : mask.toNat.testBit sc = true := by
            cases hx : mask.toNat.testBit sc with
            | true => rfl
            | false => exact absurd ((and_shift _ _).2 hx) hb
          exact ⟨_, rfl, by simp [hlt, Has, this, Ret.truthy]⟩

/-- C60: after any history of versions, interviews and reports, a sensor report reaches the listeners of the class exactly if the version is below 5 or its type and
scale were found by the most recent interview that got an answer for its type; otherwise it is taken and no listener sees it. -/
theorem C60_filter {σ : Type} (v0 : Nat) (ops : List Op) (e : Env σ) (w : World σ) (m : Msg) (t sc : Nat) (ha : About m t sc)
    (hm : m.hid = Reg.SensorMultilevel.Report.hid) (hk : ∃ a, m = .known m.hid a)
    (hh : ∀ m' u, (e.handler 0x31 Reg.SensorMultilevel.Report.hid).map (fun h => h m' u) = some (u, Sensor.report (run ⟨v0, []⟩ ops) m')) :
    ∃ r, (versionAfter v0 ops.reverse < 5 ∨ Has (supportedScales v0 t ops.reverse) sc →
        classHandle e w 0x31 m = askClass e { w with trace := w.trace ++ [.handler 0x31 r] } 0x31 "REPORT" m) ∧
      (¬ (versionAfter v0 ops.reverse < 5 ∨ Has (supportedScales v0 t ops.reverse) sc) →
        classHandle e w 0x31 m = ({ w with trace := w.trace ++ [.handler 0x31 r] }, .ok true)) := by
  obtain ⟨r, hr, hiff⟩ := report_passes v0 ops m t sc ha
  refine ⟨.ok r, ?_⟩
  have hn : nameOf m = some "REPORT" := by
    obtain ⟨a, ha⟩ := hk
    rw [ha, hm]
    simp only [nameOf]
    decide +kernel
  cases hf : e.handler 0x31 Reg.SensorMultilevel.Report.hid with
  | none => have := hh m w.user; rw [hf] at this; cases this
  | some h =>
    have hx := hh m w.user
    rw [hf] at hx
    have hx : h m w.user = (w.user, .ok r) := by rw [← hr]; simpa using hx
    constructor
    · intro hp
      simp [classHandle, hn, hm, hf, hx, hiff.2 hp]
    · intro hp
      have ht : r.truthy = true := by
        cases hy : r.truthy with
        | true => rfl
        | false => exact absurd (hiff.1 hy) hp
      simp [classHandle, hn, hm, hf, hx, ht]

/-- An interview that finds temperature in Celsius and Fahrenheit and does not get an answer for luminance; reports of a known and an unknown scale. -/
example : ∃ sensors scale celsius kelvin,
    decode [0x31, 0x02, 0x05] = .ok sensors ∧ decode [0x31, 0x06, 0x01, 0x03] = .ok scale ∧ decode [0x31, 0x05, 0x01, 0x01, 0x20] = .ok celsius ∧
    decode [0x31, 0x05, 0x01, 0x11, 0x20] = .ok kelvin ∧ About celsius 1 0 ∧ About kelvin 1 2 ∧ sensorsOf (.ok sensors) = [1, 3] ∧
    supportedScales 5 1 [.interview (.ok sensors) (fun u => if u = 1 then .ok scale else .error .timeout)] = some 3 ∧
    Sensor.report (run ⟨5, []⟩ [.interview (.ok sensors) (fun u => if u = 1 then .ok scale else .error .timeout)]) celsius = .ok .none ∧
    Sensor.report (run ⟨5, []⟩ [.interview (.ok sensors) (fun u => if u = 1 then .ok scale else .error .timeout)]) kelvin = .ok (.bool true) := by
  refine ⟨_, _, _, _, rfl, rfl, rfl, rfl, ⟨by decide +kernel, _, _, _, rfl⟩, ⟨by decide +kernel, _, _, _, rfl⟩, by decide +kernel, by decide +kernel,
    by decide +kernel, by decide +kernel⟩

/-- C60: a report too short to have a value raises when its type is supported, and one without a type is suppressed. -/
theorem C60_truncated (s : State) (m : Msg) (hv : 5 ≤ s.version) :
    (numAttr m "sensorType" = none → Sensor.report s m = .ok (.bool true)) ∧
    (∀ t mask, numAttr m "sensorType" = some t → s.types.get? t = some mask → mask ≠ 0 → getAttr registry m "sensorValue" = none →
      Sensor.report s m = .error .attribute) := by
  have : ¬ s.version < 5 := by omega
  constructor
  · intro h; simp [Sensor.report, this, h]
  · intro t mask h1 h2 h3 h4; simp [Sensor.report, this, h1, h2, h3, h4]

example : ∃ m, decode [0x31, 0x05, 0x01] = .ok m ∧ numAttr m "sensorType" = some 1 ∧ getAttr registry m "sensorValue" = none := by
  exact ⟨_, rfl, by decide +kernel, by decide +kernel⟩

end Props.Sensor
