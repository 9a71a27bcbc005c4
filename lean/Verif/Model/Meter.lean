import Verif.Model.Codec
import Verif.Model.Registry
/-!
# Meters

The property `scale` of meter reports (Meter.py:93-100).
-/
namespace Model.Meter

/-- A scale: an `ElectricMeterScale` (Meter.py:40-50) or a plain number. Both are equal to the number. -/
inductive Scale
  | electric (n : Nat)
  | plain (n : Nat)
  deriving DecidableEq, Repr

/-- The values of the enum `ElectricMeterScale` (Meter.py:40-50). -/
def electricScales : List Nat := [0x00, 0x01, 0x02, 0x03, 0x04, 0x05, 0x06, 0x07]

/-- Meter.py:93-100 -/
def scale (m : Msg) : Py Scale :=
  match getAttr registry m "meterValue" with
  | some (.float _ _ _ sc) =>
    let sc := if m.flag "scale2" then sc ||| 0x04 else sc
    if m.num? "meterType" = some 0x01 then
      if sc ∈ electricScales then .ok (.electric sc) else .error .value
    else .ok (.plain sc)
  | _ => .error .attribute                        -- None has no scale

end Model.Meter
