/-!
# Specification vocabulary: the names of the command classes

The names of the Z-Wave command classes by number, from the constants `COMMAND_CLASS_...` (const/ZW_classcmd.py, Mailbox.py:20, NodeProvisioning.py:8, Supervision.py:6). Some
numbers have two names.
-/
namespace Spec

/-- Number and name. -/
def zwClasses : List (Nat × String) :=
  [(0x00, "NO_OPERATION"), (0x20, "BASIC"), (0x21, "CONTROLLER_REPLICATION"), (0x22, "APPLICATION_STATUS"), (0x23, "ZIP"),
   (0x24, "SECURITY_PANEL_MODE"), (0x25, "SWITCH_BINARY"), (0x26, "SWITCH_MULTILEVEL"), (0x27, "SWITCH_ALL"), (0x28, "SWITCH_TOGGLE_BINARY"),
   (0x29, "SWITCH_TOGGLE_MULTILEVEL"), (0x2A, "CHIMNEY_FAN"), (0x2B, "SCENE_ACTIVATION"), (0x2C, "SCENE_ACTUATOR_CONF"),
   (0x2D, "SCENE_CONTROLLER_CONF"), (0x2E, "SECURITY_PANEL_ZONE"), (0x2F, "SECURITY_PANEL_ZONE_SENSOR"), (0x30, "SENSOR_BINARY"),
   (0x31, "SENSOR_MULTILEVEL"), (0x32, "METER"), (0x33, "COLOR_CONTROL"), (0x34, "NETWORK_MANAGEMENT_INCLUSION"), (0x35, "METER_PULSE"),
   (0x36, "BASIC_TARIFF_INFO"), (0x37, "HRV_STATUS"), (0x38, "THERMOSTAT_HEATING"), (0x39, "HRV_CONTROL"), (0x3A, "DCP_CONFIG"),
   (0x3B, "DCP_MONITOR"), (0x3C, "METER_TBL_CONFIG"), (0x3D, "METER_TBL_MONITOR"), (0x3E, "METER_TBL_PUSH"), (0x3F, "PREPAYMENT"),
   (0x40, "THERMOSTAT_MODE"), (0x41, "PREPAYMENT_ENCAPSULATION"), (0x42, "THERMOSTAT_OPERATING_STATE"), (0x43, "THERMOSTAT_SETPOINT"),
   (0x44, "THERMOSTAT_FAN_MODE"), (0x45, "THERMOSTAT_FAN_STATE"), (0x46, "CLIMATE_CONTROL_SCHEDULE"), (0x47, "THERMOSTAT_SETBACK"),
   (0x48, "RATE_TBL_CONFIG"), (0x49, "RATE_TBL_MONITOR"), (0x4A, "TARIFF_CONFIG"), (0x4B, "TARIFF_TBL_MONITOR"), (0x4C, "DOOR_LOCK_LOGGING"),
   (0x4D, "NETWORK_MANAGEMENT_BASIC"), (0x4E, "SCHEDULE_ENTRY_LOCK"), (0x4F, "ZIP_6LOWPAN"), (0x50, "BASIC_WINDOW_COVERING"),
   (0x51, "MTP_WINDOW_COVERING"), (0x52, "NETWORK_MANAGEMENT_PROXY"), (0x53, "SCHEDULE"), (0x54, "NETWORK_MANAGEMENT_PRIMARY"),
   (0x55, "TRANSPORT_SERVICE"), (0x56, "CRC_16_ENCAP"), (0x57, "APPLICATION_CAPABILITY"), (0x58, "ZIP_ND"), (0x59, "ASSOCIATION_GRP_INFO"),
   (0x5A, "DEVICE_RESET_LOCALLY"), (0x5B, "CENTRAL_SCENE"), (0x5C, "IP_ASSOCIATION"), (0x5D, "ANTITHEFT"), (0x5E, "ZWAVEPLUS_INFO"),
   (0x5F, "ZIP_GATEWAY"), (0x60, "MULTI_CHANNEL"), (0x60, "MULTI_INSTANCE"), (0x61, "ZIP_PORTAL"), (0x62, "DOOR_LOCK"), (0x63, "USER_CODE"),
   (0x69, "MAILBOX"), (0x6C, "SUPERVISION"), (0x70, "CONFIGURATION"), (0x71, "ALARM"), (0x71, "NOTIFICATION"), (0x72, "MANUFACTURER_SPECIFIC"),
   (0x73, "POWERLEVEL"), (0x75, "PROTECTION"), (0x76, "LOCK"), (0x77, "NODE_NAMING"), (0x78, "NODE_PROVISIONING"), (0x7A, "FIRMWARE_UPDATE_MD"),
   (0x7B, "GROUPING_NAME"), (0x7C, "REMOTE_ASSOCIATION_ACTIVATE"), (0x7D, "REMOTE_ASSOCIATION"), (0x80, "BATTERY"), (0x81, "CLOCK"), (0x82, "HAIL"),
   (0x84, "WAKE_UP"), (0x85, "ASSOCIATION"), (0x86, "VERSION"), (0x87, "INDICATOR"), (0x88, "PROPRIETARY"), (0x89, "LANGUAGE"), (0x8A, "TIME"),
   (0x8B, "TIME_PARAMETERS"), (0x8C, "GEOGRAPHIC_LOCATION"), (0x8E, "MULTI_CHANNEL_ASSOCIATION"), (0x8E, "MULTI_INSTANCE_ASSOCIATION"),
   (0x8F, "MULTI_CMD"), (0x90, "ENERGY_PRODUCTION"), (0x91, "MANUFACTURER_PROPRIETARY"), (0x92, "SCREEN_MD"), (0x93, "SCREEN_ATTRIBUTES"),
   (0x94, "SIMPLE_AV_CONTROL"), (0x95, "AV_CONTENT_DIRECTORY_MD"), (0x96, "AV_RENDERER_STATUS"), (0x97, "AV_CONTENT_SEARCH_MD"), (0x98, "SECURITY"),
   (0x99, "AV_TAGGING_MD"), (0x9A, "IP_CONFIGURATION"), (0x9B, "ASSOCIATION_COMMAND_CONFIGURATION"), (0x9C, "SENSOR_ALARM"), (0x9D, "SILENCE_ALARM"),
   (0x9E, "SENSOR_CONFIGURATION"), (0x9F, "SECURITY_2"), (0xEF, "MARK"), (0xF0, "NON_INTEROPERABLE")]

/-- The command classes the library has a Python class for. -/
def ownClasses : List (Nat × String) :=
  [(0x20, "Basic"), (0x31, "SensorMultilevel"), (0x32, "Meter"), (0x59, "AssociationGrpInfo"), (0x5E, "ZwavePlusInfo"), (0x69, "Mailbox"), (0x70, "Configuration"),
   (0x72, "ManufacturerSpecific"), (0x80, "Battery"), (0x85, "Association"), (0x86, "Version"), (0x87, "Indicator")]

/-- `s` is a name of the command class `c`. -/
def IsClassName (c : Nat) (s : List Char) : Prop := ∃ n, (c, n) ∈ zwClasses ∧ s = n.toList

end Spec
