/-!
# Specification vocabulary: the sensor types and kinds of metadata the library knows
-/
namespace Spec

/-- Sensor types with a name (SensorMultilevel.py:26-46). -/
def sensorKinds : List (Nat × String) :=
  [(0x01, "TEMPERATURE"), (0x02, "GENERAL_PURPOSE"), (0x03, "LUMINANCE"), (0x04, "POWER"), (0x05, "HUMIDITY"), (0x06, "VELOCITY"), (0x09, "BAROMETRIC_PRESSURE"),
   (0x0B, "DEW_POINT"), (0x0C, "RAIN_RATE"), (0x0E, "WEIGHT"), (0x0F, "VOLTAGE"), (0x11, "CO2"), (0x13, "VOLUME"), (0x1B, "UV"), (0x1E, "LOUDNESS"), (0x1F, "MOISTURE"),
   (0x23, "PM25"), (0x28, "CO")]

/-- Kinds of metadata with a name (NodeProvisioning.py:16-28). -/
def metaKinds : List (Nat × String) :=
  [(0x00, "PRODUCT_TYPE"), (0x01, "PRODUCT_ID"), (0x02, "MAX_INCLUSION_REQUEST_INTERVAL"), (0x03, "UUID16"), (0x32, "NAME"), (0x33, "LOCATION"),
   (0x34, "SMART_START_INCLUSION_SETTING"), (0x35, "ADVANCED_JOINING"), (0x36, "BOOTSTRAPPING_MODE"), (0x37, "NETWORK_STATUS")]

/-- The library has a name for the sensor type `t`. -/
abbrev KnownSensor (t : Nat) : Prop := t ∈ sensorKinds.map Prod.fst

/-- The library has a name for the kind of metadata `t`. -/
abbrev KnownMeta (t : Nat) : Prop := t ∈ metaKinds.map Prod.fst

end Spec
