import Verif.Props.Debug
import Verif.Lemmas.ZipOptions
/-!
# Property theorems C127, continued: routes in maintenance reports
-/
namespace Props.Debug
open Spec Model Model.Debug
/-- A number in hexadecimal and in decimal. -/
def ShownNumber (v : Nat) (t : Str) : Prop := ∃ h d, t = "0x".toList ++ h ++ " (".toList ++ d ++ ")".toList ∧ readBase 16 h = some v ∧ pyInt d = .ok (v : Int)

/-- A line of a description: the name of an attribute and its value. -/
def Line (indent : Nat) (name : String) (value t : Str) : Prop := Part ('\n' :: List.replicate (indent + 1) '\t' ++ name.toList ++ " = ".toList ++ value) t

/-- The name of the speed of a route. -/
def speedName (v : Nat) : String := if v = 1 then "SPEED_9_6_KBIT_S" else if v = 2 then "SPEED_40_KBIT_S" else if v = 3 then "SPEED_100_KBIT_S" else "UNKNOWN"

theorem uint8_shown (v : Nat) : ShownNumber v (numText (.uint 1) v) := by
  refine ⟨fmt 16 1 v, intStr v, ?_, C127_digits 16 1 v (by decide) (by decide), pyInt_intStr v⟩
  unfold numText
  exact Eq.refl _

theorem enum_text (v : Nat) (f : Int → Option Str) : enumText v (.names f) = (f v).getD "UNKNOWN".toList ++ " (0x".toList ++ fmt 16 0 v ++ ")".toList := by
  simp only [enumText]
  cases f v <;> rfl

theorem speed_text (v : Nat) : enumText v speeds = (speedName v).toList ++ " (0x".toList ++ fmt 16 0 v ++ ")".toList := by
  unfold speeds
  rw [enum_text]
  have : ((if (v : Int) = 1 then some "SPEED_9_6_KBIT_S".toList else if (v : Int) = 2 then some "SPEED_40_KBIT_S".toList else if (v : Int) = 3 then some "SPEED_100_KBIT_S".toList
      else none).getD "UNKNOWN".toList) = (speedName v).toList := by
    unfold speedName
    by_cases h1 : v = 1
    · subst h1; rfl
    · by_cases h2 : v = 2
      · subst h2; rfl
      · by_cases h3 : v = 3
        · subst h3; rfl
        · rw [if_neg (by omega), if_neg (by omega), if_neg (by omega), if_neg h1, if_neg h2, if_neg h3]; rfl
  rw [this]

theorem nums_line (env : Env) (cls : String) (enums : String → Option Enumeration) (fields : List (String × FT)) (attrs : Dict String Int) (i : Nat) (n : String) (t : FT) (v : Int)
    (hf : (n, t) ∈ fields) (hv : Dict.get? attrs n = some v) :
    Line i n (match enums n with | some e => enumText v e | none => numText t v) (numsText env cls enums fields attrs i) := by
  have : ∀ l, entry i n.toList (match enums n with | some e => enumText v e | none => numText t v) ∈ l → Line i n (match enums n with | some e => enumText v e | none => numText t v) (block (env.object cls) l) := by
    intro l hl
    have := block_part (env.object cls) l _ hl
    simpa [Line, entry, tabs] using this
  exact this _ (List.mem_filterMap.2 ⟨(n, t), hf, by rw [hv]; rfl⟩)

/-- **C127.** The last working route in a maintenance report is shown with its repeaters, as numbers, and the name of its speed; a speed without a name does not raise. -/
theorem C127_route (env : Env) (i : Nat) (r1 r2 r3 r4 speed : UInt8) (rest : Bytes) : ∃ a t, loadIME 2 (r1 :: r2 :: r3 :: r4 :: speed :: rest) = .ok (.route a) ∧ imeText env 2 i (.route a) = t ∧
    (∃ v, ShownNumber r1.toNat v ∧ Line i "repeater1" v t) ∧ (∃ v, ShownNumber r2.toNat v ∧ Line i "repeater2" v t) ∧
    (∃ v, ShownNumber r3.toNat v ∧ Line i "repeater3" v t) ∧ (∃ v, ShownNumber r4.toNat v ∧ Line i "repeater4" v t) ∧
    ∃ h, readBase 16 h = some speed.toNat ∧ Line i "speed" ((speedName speed.toNat).toList ++ " (0x".toList ++ h ++ ")".toList) t := by
  have e := loadIME_ok 2 (r1 :: r2 :: r3 :: r4 :: speed :: rest) (by simp) (by simp)
  refine ⟨[("repeater1", (r1.toNat : Int)), ("repeater2", (r2.toNat : Int)), ("repeater3", (r3.toNat : Int)), ("repeater4", (r4.toNat : Int)), ("speed", (speed.toNat : Int))], _, e, rfl, ?_⟩
  have line := nums_line env "IMELastWorkingRoute" (fun n => if n = "speed" then some speeds else none) routeFields
    [("repeater1", (r1.toNat : Int)), ("repeater2", (r2.toNat : Int)), ("repeater3", (r3.toNat : Int)), ("repeater4", (r4.toNat : Int)), ("speed", (speed.toNat : Int))] i
  refine ⟨⟨_, uint8_shown _, line _ _ _ (by decide) rfl⟩, ⟨_, uint8_shown _, line _ _ _ (by decide) rfl⟩, ⟨_, uint8_shown _, line _ _ _ (by decide) rfl⟩, ⟨_, uint8_shown _, line _ _ _ (by decide) rfl⟩, ?_⟩
  refine ⟨fmt 16 0 speed.toNat, C127_digits 16 0 _ (by decide) (by decide), ?_⟩
  rw [← speed_text]
  exact line "speed" (.uint 1) speed.toNat (by decide) rfl

example : imeText plainEnv 2 0 (.route [("repeater1", 7), ("repeater2", 255), ("speed", 2)]) = ":\n\trepeater1 = 0x7 (7)\n\trepeater2 = 0xFF (255)\n\tspeed = SPEED_40_KBIT_S (0x2)".toList := by decide +kernel
end Props.Debug
