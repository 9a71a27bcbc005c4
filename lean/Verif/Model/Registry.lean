import Verif.Model.Codec
/-!
# The message table

Generated by `tools/gen_registry.py` from the `@ZWaveMessage` classes in
`/repo/pyzwave/commandclass/` (constants from `const/ZW_classcmd.py`). Do not edit.
-/
namespace Model.Reg

/-- commandclass/ApplicationStatus.py:23-29 -/
def ApplicationStatus.ApplicationBusy : MsgDef :=
  ⟨"ApplicationStatus.ApplicationBusy", "APPLICATION_BUSY", 0x22, 0x01, [
    ⟨"status", .uint 1, none, none⟩,
    ⟨"waitTime", .uint 1, none, none⟩]⟩

/-- commandclass/Association.py:192-198 -/
def Association.Get : MsgDef :=
  ⟨"Association.Get", "GET", 0x85, 0x02, [
    ⟨"groupingIdentifier", .uint 1, none, none⟩]⟩

/-- commandclass/Association.py:201-212 -/
def Association.Report : MsgDef :=
  ⟨"Association.Report", "REPORT", 0x85, 0x03, [
    ⟨"groupingIdentifier", .uint 1, none, none⟩,
    ⟨"maxNodesSupported", .uint 1, none, none⟩,
    ⟨"reportsToFollow", .uint 1, none, none⟩,
    ⟨"nodes", .nodes, none, none⟩]⟩

/-- commandclass/Association.py:215-224 -/
def Association.Set : MsgDef :=
  ⟨"Association.Set", "SET", 0x85, 0x01, [
    ⟨"groupingIdentifier", .uint 1, none, none⟩,
    ⟨"nodes", .nodes, none, none⟩]⟩

/-- commandclass/Association.py:227-231 -/
def Association.GroupingsGet : MsgDef :=
  ⟨"Association.GroupingsGet", "GROUPINGS_GET", 0x85, 0x05, []⟩

/-- commandclass/Association.py:234-240 -/
def Association.GroupingsReport : MsgDef :=
  ⟨"Association.GroupingsReport", "GROUPINGS_REPORT", 0x85, 0x06, [
    ⟨"supportedGroupings", .uint 1, none, none⟩]⟩

/-- commandclass/AssociationGrpInfo.py:51-63 -/
def AssociationGrpInfo.GroupCommandListGet : MsgDef :=
  ⟨"AssociationGrpInfo.GroupCommandListGet", "GROUP_COMMAND_LIST_GET", 0x59, 0x05, [
    ⟨"allowCache", .flag, none, none⟩,
    ⟨"-", .reserved 7, none, none⟩,
    ⟨"groupingIdentifier", .uint 1, none, none⟩]⟩

/-- commandclass/AssociationGrpInfo.py:66-92 -/
def AssociationGrpInfo.GroupCommandListReport : MsgDef :=
  ⟨"AssociationGrpInfo.GroupCommandListReport", "GROUP_COMMAND_LIST_REPORT", 0x59, 0x06, [
    ⟨"groupingIdentifier", .uint 1, none, none⟩,
    ⟨"commandClass", .pylist, some .agiCommandClass, none⟩]⟩

/-- commandclass/AssociationGrpInfo.py:95-105 -/
def AssociationGrpInfo.GroupInfoGet : MsgDef :=
  ⟨"AssociationGrpInfo.GroupInfoGet", "GROUP_INFO_GET", 0x59, 0x03, [
    ⟨"refreshCache", .flag, none, none⟩,
    ⟨"listMode", .flag, none, none⟩,
    ⟨"-", .reserved 6, none, none⟩,
    ⟨"groupingIdentifier", .uint 1, none, none⟩]⟩

/-- commandclass/AssociationGrpInfo.py:120-140 -/
def AssociationGrpInfo.GroupInfoReport : MsgDef :=
  ⟨"AssociationGrpInfo.GroupInfoReport", "GROUP_INFO_REPORT", 0x59, 0x04, [
    ⟨"listMode", .flag, none, none⟩,
    ⟨"dynamicInfo", .flag, none, none⟩,
    ⟨"groupCount", .bits 6, none, none⟩,
    ⟨"groups", .pylist, some .agiGroups, none⟩]⟩

/-- commandclass/AssociationGrpInfo.py:143-148 -/
def AssociationGrpInfo.GroupNameGet : MsgDef :=
  ⟨"AssociationGrpInfo.GroupNameGet", "GROUP_NAME_GET", 0x59, 0x01, [
    ⟨"groupingIdentifier", .uint 1, none, none⟩]⟩

/-- commandclass/AssociationGrpInfo.py:151-160 -/
def AssociationGrpInfo.GroupNameReport : MsgDef :=
  ⟨"AssociationGrpInfo.GroupNameReport", "GROUP_NAME_REPORT", 0x59, 0x02, [
    ⟨"groupingIdentifier", .uint 1, none, none⟩,
    ⟨"name", .str, none, none⟩]⟩

/-- commandclass/Basic.py:13-17 -/
def Basic.Get : MsgDef :=
  ⟨"Basic.Get", "GET", 0x20, 0x02, []⟩

/-- commandclass/Basic.py:20-26 -/
def Basic.Report : MsgDef :=
  ⟨"Basic.Report", "REPORT", 0x20, 0x03, [
    ⟨"value", .uint 1, none, none⟩]⟩

/-- commandclass/Basic.py:29-35 -/
def Basic.Set : MsgDef :=
  ⟨"Basic.Set", "SET", 0x20, 0x01, [
    ⟨"value", .uint 1, none, none⟩]⟩

/-- commandclass/Battery.py:12-16 -/
def Battery.Get : MsgDef :=
  ⟨"Battery.Get", "GET", 0x80, 0x02, []⟩

/-- commandclass/Battery.py:19-25 -/
def Battery.Report : MsgDef :=
  ⟨"Battery.Report", "REPORT", 0x80, 0x03, [
    ⟨"batteryLevel", .uint 1, none, none⟩]⟩

/-- commandclass/Configuration.py:41-46 -/
def Configuration.BulkGet : MsgDef :=
  ⟨"Configuration.BulkGet", "BULK_GET", 0x70, 0x08, [
    ⟨"parameterOffset", .uint 2, none, none⟩,
    ⟨"numberOfParameters", .uint 1, none, none⟩]⟩

/-- commandclass/Configuration.py:49-63 -/
def Configuration.BulkReport : MsgDef :=
  ⟨"Configuration.BulkReport", "BULK_REPORT", 0x70, 0x09, [
    ⟨"parameterOffset", .uint 2, none, none⟩,
    ⟨"numberOfParameters", .uint 1, none, none⟩,
    ⟨"reportsToFollow", .uint 1, none, none⟩,
    ⟨"default", .flag, none, none⟩,
    ⟨"handshake", .flag, none, none⟩,
    ⟨"-", .reserved 3, none, none⟩,
    ⟨"size", .ubits 3, none, none⟩,
    ⟨"parameter", .bytes, none, none⟩]⟩

/-- commandclass/Configuration.py:66-71 -/
def Configuration.Get : MsgDef :=
  ⟨"Configuration.Get", "GET", 0x70, 0x05, [
    ⟨"parameterNumber", .uint 1, none, none⟩]⟩

/-- commandclass/Configuration.py:74-89 -/
def Configuration.Report : MsgDef :=
  ⟨"Configuration.Report", "REPORT", 0x70, 0x06, [
    ⟨"parameterNumber", .uint 1, none, none⟩,
    ⟨"-", .reserved 5, none, none⟩,
    ⟨"size", .ubits 3, none, none⟩,
    ⟨"value", .pyint, some .configValue, none⟩]⟩

/-- commandclass/Configuration.py:92-108 -/
def Configuration.Set : MsgDef :=
  ⟨"Configuration.Set", "SET", 0x70, 0x04, [
    ⟨"parameterNumber", .uint 1, none, none⟩,
    ⟨"default", .flag, none, none⟩,
    ⟨"-", .reserved 4, none, none⟩,
    ⟨"size", .ubits 3, none, none⟩,
    ⟨"value", .pyint, none, some .configValue⟩]⟩

/-- commandclass/Indicator.py:13-17 -/
def Indicator.Get : MsgDef :=
  ⟨"Indicator.Get", "GET", 0x87, 0x02, []⟩

/-- commandclass/Indicator.py:20-26 -/
def Indicator.Report : MsgDef :=
  ⟨"Indicator.Report", "REPORT", 0x87, 0x03, [
    ⟨"value", .uint 1, none, none⟩]⟩

/-- commandclass/Indicator.py:29-35 -/
def Indicator.Set : MsgDef :=
  ⟨"Indicator.Set", "SET", 0x87, 0x01, [
    ⟨"value", .uint 1, none, none⟩]⟩

/-- commandclass/Mailbox.py:41-45 -/
def Mailbox.ConfigurationGet : MsgDef :=
  ⟨"Mailbox.ConfigurationGet", "CONFIGURATION_GET", 0x69, 0x01, []⟩

/-- commandclass/Mailbox.py:48-60 -/
def Mailbox.ConfigurationReport : MsgDef :=
  ⟨"Mailbox.ConfigurationReport", "CONFIGURATION_REPORT", 0x69, 0x03, [
    ⟨"-", .reserved 3, none, none⟩,
    ⟨"supportedModes", .bits 2, none, none⟩,
    ⟨"mode", .ubits 3, none, none⟩,
    ⟨"mailboxCapacity", .uint 2, none, none⟩,
    ⟨"forwardingDestinationIPv6Address", .ipv6, none, none⟩,
    ⟨"udpPortNumber", .uint 2, none, none⟩]⟩

/-- commandclass/Mailbox.py:63-79 -/
def Mailbox.NodeFailing : MsgDef :=
  ⟨"Mailbox.NodeFailing", "NODE_FAILING", 0x69, 0x06, [
    ⟨"queueHandle", .uint 1, some .nodeFailing, none⟩]⟩

/-- commandclass/Mailbox.py:82-104 -/
def Mailbox.Queue : MsgDef :=
  ⟨"Mailbox.Queue", "QUEUE", 0x69, 0x04, [
    ⟨"-", .reserved 4, none, none⟩,
    ⟨"last", .flag, none, none⟩,
    ⟨"operation", .ubits 3, none, none⟩,
    ⟨"queueHandle", .uint 1, none, none⟩,
    ⟨"mailboxEntry", .bytes, none, none⟩]⟩

/-- commandclass/Mailbox.py:107-112 -/
def Mailbox.QueueFlush : MsgDef :=
  ⟨"Mailbox.QueueFlush", "QUEUE_FLUSH", 0x69, 0x07, [
    ⟨"queueHandle", .uint 1, none, none⟩]⟩

/-- commandclass/Mailbox.py:115-125 -/
def Mailbox.ConfigurationSet : MsgDef :=
  ⟨"Mailbox.ConfigurationSet", "CONFIGURATION_SET", 0x69, 0x02, [
    ⟨"-", .reserved 5, none, none⟩,
    ⟨"mode", .ubits 3, none, none⟩,
    ⟨"forwardingDestinationIPv6Address", .ipv6, none, none⟩,
    ⟨"udpPortNumber", .uint 2, none, none⟩]⟩

/-- commandclass/Mailbox.py:128-133 -/
def Mailbox.WakeupNotification : MsgDef :=
  ⟨"Mailbox.WakeupNotification", "WAKEUP_NOTIFICATION", 0x69, 0x05, [
    ⟨"queueHandle", .uint 1, none, none⟩]⟩

/-- commandclass/ManufacturerSpecific.py:30-34 -/
def ManufacturerSpecific.Get : MsgDef :=
  ⟨"ManufacturerSpecific.Get", "GET", 0x72, 0x04, []⟩

/-- commandclass/ManufacturerSpecific.py:37-47 -/
def ManufacturerSpecific.Report : MsgDef :=
  ⟨"ManufacturerSpecific.Report", "REPORT", 0x72, 0x05, [
    ⟨"manufacturerID", .uint 2, none, none⟩,
    ⟨"productTypeID", .uint 2, none, none⟩,
    ⟨"productID", .uint 2, none, none⟩]⟩

/-- commandclass/Meter.py:65-76 -/
def Meter.Get : MsgDef :=
  ⟨"Meter.Get", "GET", 0x32, 0x01, [
    ⟨"rateType", .bits 2, none, none⟩,
    ⟨"scale", .bits 3, none, none⟩,
    ⟨"-", .reserved 3, none, none⟩,
    ⟨"scale2", .uint 1, none, none⟩]⟩

/-- commandclass/Meter.py:79-101 -/
def Meter.Report : MsgDef :=
  ⟨"Meter.Report", "REPORT", 0x32, 0x02, [
    ⟨"scale2", .flag, none, none⟩,
    ⟨"rateType", .bits 2, none, none⟩,
    ⟨"meterType", .bits 5, none, none⟩,
    ⟨"meterValue", .float, none, none⟩,
    ⟨"deltaTime", .uint 2, none, none⟩]⟩

/-- commandclass/Meter.py:104-108 -/
def Meter.Reset : MsgDef :=
  ⟨"Meter.Reset", "RESET", 0x32, 0x05, []⟩

/-- commandclass/Meter.py:111-115 -/
def Meter.SupportedGet : MsgDef :=
  ⟨"Meter.SupportedGet", "SUPPORTED_GET", 0x32, 0x03, []⟩

/-- commandclass/Meter.py:118-132 -/
def Meter.SupportedReport : MsgDef :=
  ⟨"Meter.SupportedReport", "SUPPORTED_REPORT", 0x32, 0x04, [
    ⟨"meterReset", .flag, none, none⟩,
    ⟨"rateType", .bits 2, none, none⟩,
    ⟨"meterType", .bits 5, none, none⟩,
    ⟨"moreScaleTypes", .flag, none, none⟩,
    ⟨"scaleSupported", .ubits 7, none, none⟩,
    ⟨"nbrScaleSupportedBytesToFollow", .uint 1, none, none⟩,
    ⟨"scaleSupportedByteN", .bytes, none, none⟩]⟩

/-- commandclass/MultiChannelAssociation.py:16-25 -/
def MultiChannelAssociation.MultiChannelGet : MsgDef :=
  ⟨"MultiChannelAssociation.MultiChannelGet", "MULTICHANNEL_GET", 0x8E, 0x02, [
    ⟨"groupingIdentifier", .uint 1, none, none⟩]⟩

/-- commandclass/MultiChannelAssociation.py:28-37 -/
def MultiChannelAssociation.MultiChannelReport : MsgDef :=
  ⟨"MultiChannelAssociation.MultiChannelReport", "MULTICHANNEL_REPORT", 0x8E, 0x03, [
    ⟨"groupingIdentifier", .uint 1, none, none⟩,
    ⟨"maxNodesSupported", .uint 1, none, none⟩,
    ⟨"reportsToFollow", .uint 1, none, none⟩,
    ⟨"nodes", .nodes, none, none⟩]⟩

/-- commandclass/MultiChannelAssociation.py:40-49 -/
def MultiChannelAssociation.MultiChannelSet : MsgDef :=
  ⟨"MultiChannelAssociation.MultiChannelSet", "MULTICHANNEL_SET", 0x8E, 0x01, [
    ⟨"groupingIdentifier", .uint 1, none, none⟩,
    ⟨"nodes", .nodes, none, none⟩]⟩

/-- commandclass/NetworkManagementInclusion.py:44-53 -/
def NetworkManagementInclusion.FailedNodeRemove : MsgDef :=
  ⟨"NetworkManagementInclusion.FailedNodeRemove", "FAILED_NODE_REMOVE", 0x34, 0x07, [
    ⟨"seqNo", .uint 1, none, none⟩,
    ⟨"nodeID", .uint 1, none, none⟩]⟩

/-- commandclass/NetworkManagementInclusion.py:56-73 -/
def NetworkManagementInclusion.FailedNodeRemoveStatus : MsgDef :=
  ⟨"NetworkManagementInclusion.FailedNodeRemoveStatus", "FAILED_NODE_REMOVE_STATUS", 0x34, 0x08, [
    ⟨"seqNo", .uint 1, none, none⟩,
    ⟨"status", .uint 1, none, none⟩,
    ⟨"nodeID", .uint 1, none, none⟩]⟩

/-- commandclass/NetworkManagementInclusion.py:76-87 -/
def NetworkManagementInclusion.FailedNodeReplace : MsgDef :=
  ⟨"NetworkManagementInclusion.FailedNodeReplace", "FAILED_NODE_REPLACE", 0x34, 0x09, [
    ⟨"seqNo", .uint 1, none, none⟩,
    ⟨"nodeID", .uint 1, none, none⟩,
    ⟨"txOptions", .uint 1, none, none⟩,
    ⟨"mode", .uint 1, none, none⟩]⟩

/-- commandclass/NetworkManagementInclusion.py:90-104 -/
def NetworkManagementInclusion.FailedNodeReplaceStatus : MsgDef :=
  ⟨"NetworkManagementInclusion.FailedNodeReplaceStatus", "FAILED_NODE_REPLACE_STATUS", 0x34, 0x0A, [
    ⟨"seqNo", .uint 1, none, none⟩,
    ⟨"status", .uint 1, none, none⟩,
    ⟨"nodeID", .uint 1, none, none⟩]⟩

/-- commandclass/NetworkManagementInclusion.py:107-116 -/
def NetworkManagementInclusion.IncludedNIFReport : MsgDef :=
  ⟨"NetworkManagementInclusion.IncludedNIFReport", "INCLUDED_NIF_REPORT", 0x34, 0x19, [
    ⟨"seqNo", .uint 1, none, none⟩,
    ⟨"dsk", .dsk, none, none⟩]⟩

/-- commandclass/NetworkManagementInclusion.py:119-137 -/
def NetworkManagementInclusion.NodeAdd : MsgDef :=
  ⟨"NetworkManagementInclusion.NodeAdd", "NODE_ADD", 0x34, 0x01, [
    ⟨"seqNo", .uint 1, none, none⟩,
    ⟨"-", .reserved 8, none, none⟩,
    ⟨"mode", .uint 1, none, none⟩,
    ⟨"txOptions", .uint 1, none, none⟩]⟩

/-- commandclass/NetworkManagementInclusion.py:140-151 -/
def NetworkManagementInclusion.NodeAddDSKReport : MsgDef :=
  ⟨"NetworkManagementInclusion.NodeAddDSKReport", "NODE_ADD_DSK_REPORT", 0x34, 0x13, [
    ⟨"seqNo", .uint 1, none, none⟩,
    ⟨"-", .reserved 4, none, none⟩,
    ⟨"inputDSKLength", .ubits 4, none, none⟩,
    ⟨"dsk", .dsk, none, none⟩]⟩

/-- commandclass/NetworkManagementInclusion.py:154-166 -/
def NetworkManagementInclusion.NodeAddDSKSet : MsgDef :=
  ⟨"NetworkManagementInclusion.NodeAddDSKSet", "NODE_ADD_DSK_SET", 0x34, 0x14, [
    ⟨"seqNo", .uint 1, none, none⟩,
    ⟨"accept", .flag, none, none⟩,
    ⟨"-", .reserved 3, none, none⟩,
    ⟨"inputDSKLength", .ubits 4, none, none⟩,
    ⟨"dsk", .dsk, none, none⟩]⟩

/-- commandclass/NetworkManagementInclusion.py:178-189 -/
def NetworkManagementInclusion.NodeAddKeysReport : MsgDef :=
  ⟨"NetworkManagementInclusion.NodeAddKeysReport", "NODE_ADD_KEYS_REPORT", 0x34, 0x11, [
    ⟨"seqNo", .uint 1, none, none⟩,
    ⟨"-", .reserved 7, none, none⟩,
    ⟨"requestCSA", .flag, none, none⟩,
    ⟨"requestedKeys", .uint 1, none, none⟩]⟩

/-- commandclass/NetworkManagementInclusion.py:192-204 -/
def NetworkManagementInclusion.NodeAddKeysSet : MsgDef :=
  ⟨"NetworkManagementInclusion.NodeAddKeysSet", "NODE_ADD_KEYS_SET", 0x34, 0x12, [
    ⟨"seqNo", .uint 1, none, none⟩,
    ⟨"-", .reserved 6, none, none⟩,
    ⟨"grantCSA", .flag, none, none⟩,
    ⟨"accept", .flag, none, none⟩,
    ⟨"grantedKeys", .uint 1, none, none⟩]⟩

/-- commandclass/NetworkManagementInclusion.py:207-246 -/
def NetworkManagementInclusion.NodeAddStatus : MsgDef :=
  ⟨"NetworkManagementInclusion.NodeAddStatus", "NODE_ADD_STATUS", 0x34, 0x02, [
    ⟨"seqNo", .uint 1, none, none⟩,
    ⟨"status", .uint 1, none, none⟩,
    ⟨"-", .reserved 8, none, none⟩,
    ⟨"newNodeID", .uint 1, none, none⟩,
    ⟨"nodeInfoLength", .uint 1, none, none⟩,
    ⟨"listening", .flag, none, none⟩,
    ⟨"zwaveProtocolSpecific", .reserved 7, none, none⟩,
    ⟨"optFunc", .flag, none, none⟩,
    ⟨"zwaveProtocolSpecific", .reserved 7, none, none⟩,
    ⟨"basicDeviceClass", .uint 1, none, none⟩,
    ⟨"genericDeviceClass", .uint 1, none, none⟩,
    ⟨"specificDeviceClass", .uint 1, none, none⟩,
    ⟨"commandClass", .pylist, some .nodeAddCommandClass, none⟩]⟩

/-- commandclass/NetworkManagementInclusion.py:249-262 -/
def NetworkManagementInclusion.NodeNeightborUpdateRequest : MsgDef :=
  ⟨"NetworkManagementInclusion.NodeNeightborUpdateRequest", "NODE_NEIGHBOR_UPDATE_REQUEST", 0x34, 0x0B, [
    ⟨"seqNo", .uint 1, none, none⟩,
    ⟨"nodeID", .uint 1, none, none⟩]⟩

/-- commandclass/NetworkManagementInclusion.py:265-278 -/
def NetworkManagementInclusion.NodeNeightborUpdateStatus : MsgDef :=
  ⟨"NetworkManagementInclusion.NodeNeightborUpdateStatus", "NODE_NEIGHBOR_UPDATE_STATUS", 0x34, 0x0C, [
    ⟨"seqNo", .uint 1, none, none⟩,
    ⟨"status", .uint 1, none, none⟩]⟩

/-- commandclass/NetworkManagementInclusion.py:281-297 -/
def NetworkManagementInclusion.NodeRemove : MsgDef :=
  ⟨"NetworkManagementInclusion.NodeRemove", "NODE_REMOVE", 0x34, 0x03, [
    ⟨"seqNo", .uint 1, none, none⟩,
    ⟨"-", .reserved 8, none, none⟩,
    ⟨"mode", .uint 1, none, none⟩]⟩

/-- commandclass/NetworkManagementInclusion.py:300-316 -/
def NetworkManagementInclusion.NodeRemoveStatus : MsgDef :=
  ⟨"NetworkManagementInclusion.NodeRemoveStatus", "NODE_REMOVE_STATUS", 0x34, 0x04, [
    ⟨"seqNo", .uint 1, none, none⟩,
    ⟨"status", .uint 1, none, none⟩,
    ⟨"nodeID", .uint 1, none, none⟩]⟩

/-- commandclass/NetworkManagementInclusion.py:319-329 -/
def NetworkManagementInclusion.ReturnRouteAssign : MsgDef :=
  ⟨"NetworkManagementInclusion.ReturnRouteAssign", "RETURN_ROUTE_ASSIGN", 0x34, 0x0D, [
    ⟨"seqNo", .uint 1, none, none⟩,
    ⟨"sourceNodeID", .uint 1, none, none⟩,
    ⟨"destinationNodeID", .uint 1, none, none⟩]⟩

/-- commandclass/NetworkManagementInclusion.py:332-345 -/
def NetworkManagementInclusion.ReturnRouteAssignComplete : MsgDef :=
  ⟨"NetworkManagementInclusion.ReturnRouteAssignComplete", "RETURN_ROUTE_ASSIGN_COMPLETE", 0x34, 0x0E, [
    ⟨"seqNo", .uint 1, none, none⟩,
    ⟨"status", .uint 1, none, none⟩]⟩

/-- commandclass/NetworkManagementInclusion.py:348-357 -/
def NetworkManagementInclusion.ReturnRouteDelete : MsgDef :=
  ⟨"NetworkManagementInclusion.ReturnRouteDelete", "RETURN_ROUTE_DELETE", 0x34, 0x0F, [
    ⟨"seqNo", .uint 1, none, none⟩,
    ⟨"nodeID", .uint 1, none, none⟩]⟩

/-- commandclass/NetworkManagementInclusion.py:360-373 -/
def NetworkManagementInclusion.ReturnRouteDeleteComplete : MsgDef :=
  ⟨"NetworkManagementInclusion.ReturnRouteDeleteComplete", "RETURN_ROUTE_DELETE_COMPLETE", 0x34, 0x10, [
    ⟨"seqNo", .uint 1, none, none⟩,
    ⟨"status", .uint 1, none, none⟩]⟩

/-- commandclass/NetworkManagementInclusion.py:376-391 -/
def NetworkManagementInclusion.SmartStartJoinStartedReport : MsgDef :=
  ⟨"NetworkManagementInclusion.SmartStartJoinStartedReport", "SMART_START_JOIN_STARTED_REPORT", 0x34, 0x15, [
    ⟨"seqNo", .uint 1, none, none⟩,
    ⟨"dsk", .dsk, none, none⟩]⟩

/-- commandclass/NetworkManagementProxy.py:48-54 -/
def NetworkManagementProxy.FailedNodeListGet : MsgDef :=
  ⟨"NetworkManagementProxy.FailedNodeListGet", "COMMAND_FAILED_NODE_LIST_GET", 0x52, 0x0B, [
    ⟨"seqNo", .uint 1, none, none⟩]⟩

/-- commandclass/NetworkManagementProxy.py:57-68 -/
def NetworkManagementProxy.FailedNodeListReport : MsgDef :=
  ⟨"NetworkManagementProxy.FailedNodeListReport", "COMMAND_FAILED_NODE_LIST_REPORT", 0x52, 0x0C, [
    ⟨"seqNo", .uint 1, none, none⟩,
    ⟨"failedNodeList", .nodeList, none, none⟩]⟩

/-- commandclass/NetworkManagementProxy.py:71-85 -/
def NetworkManagementProxy.MultiChannelCapabilityGet : MsgDef :=
  ⟨"NetworkManagementProxy.MultiChannelCapabilityGet", "NM_MULTI_CHANNEL_CAPABILITY_GET", 0x52, 0x07, [
    ⟨"seqNo", .uint 1, none, none⟩,
    ⟨"nodeID", .uint 1, none, none⟩,
    ⟨"-", .reserved 1, none, none⟩,
    ⟨"endPoint", .ubits 7, none, none⟩]⟩

/-- commandclass/NetworkManagementProxy.py:88-108 -/
def NetworkManagementProxy.MultiChannelCapabilityReport : MsgDef :=
  ⟨"NetworkManagementProxy.MultiChannelCapabilityReport", "NM_MULTI_CHANNEL_CAPABILITY_REPORT", 0x52, 0x08, [
    ⟨"seqNo", .uint 1, none, none⟩,
    ⟨"nodeID", .uint 1, none, none⟩,
    ⟨"commandClassLength", .uint 1, none, none⟩,
    ⟨"-", .reserved 1, none, none⟩,
    ⟨"endPoint", .ubits 7, none, none⟩,
    ⟨"genericDeviceClass", .uint 1, none, none⟩,
    ⟨"specificDeviceClass", .uint 1, none, none⟩,
    ⟨"commandClass", .bytes, none, none⟩]⟩

/-- commandclass/NetworkManagementProxy.py:111-123 -/
def NetworkManagementProxy.MultiChannelEndPointGet : MsgDef :=
  ⟨"NetworkManagementProxy.MultiChannelEndPointGet", "NM_MULTI_CHANNEL_END_POINT_GET", 0x52, 0x05, [
    ⟨"seqNo", .uint 1, none, none⟩,
    ⟨"nodeID", .uint 1, none, none⟩]⟩

/-- commandclass/NetworkManagementProxy.py:126-143 -/
def NetworkManagementProxy.MultiChannelEndPointReport : MsgDef :=
  ⟨"NetworkManagementProxy.MultiChannelEndPointReport", "NM_MULTI_CHANNEL_END_POINT_REPORT", 0x52, 0x06, [
    ⟨"seqNo", .uint 1, none, none⟩,
    ⟨"nodeID", .uint 1, none, none⟩,
    ⟨"-", .reserved 8, none, none⟩,
    ⟨"-", .reserved 1, none, none⟩,
    ⟨"individualEndPoints", .ubits 7, none, none⟩,
    ⟨"-", .reserved 1, none, none⟩,
    ⟨"aggregatedEndPoints", .ubits 7, none, none⟩]⟩

/-- commandclass/NetworkManagementProxy.py:146-157 -/
def NetworkManagementProxy.NodeInfoCachedGet : MsgDef :=
  ⟨"NetworkManagementProxy.NodeInfoCachedGet", "NODE_INFO_CACHED_GET", 0x52, 0x03, [
    ⟨"seqNo", .uint 1, none, none⟩,
    ⟨"-", .reserved 4, none, none⟩,
    ⟨"maxAge", .bits 4, none, none⟩,
    ⟨"nodeID", .uint 1, none, none⟩]⟩

/-- commandclass/NetworkManagementProxy.py:160-186 -/
def NetworkManagementProxy.NodeInfoCachedReport : MsgDef :=
  ⟨"NetworkManagementProxy.NodeInfoCachedReport", "NODE_INFO_CACHED_REPORT", 0x52, 0x04, [
    ⟨"seqNo", .uint 1, none, none⟩,
    ⟨"status", .ubits 4, none, none⟩,
    ⟨"age", .ubits 4, none, none⟩,
    ⟨"listening", .flag, none, none⟩,
    ⟨"zwaveProtocolSpecific", .reserved 7, none, none⟩,
    ⟨"optFunc", .flag, none, none⟩,
    ⟨"zwaveProtocolSpecific", .reserved 7, none, none⟩,
    ⟨"-", .reserved 8, none, none⟩,
    ⟨"basicDeviceClass", .uint 1, none, none⟩,
    ⟨"genericDeviceClass", .uint 1, none, none⟩,
    ⟨"specificDeviceClass", .uint 1, none, none⟩,
    ⟨"commandClass", .bytes, none, none⟩]⟩

/-- commandclass/NetworkManagementProxy.py:189-195 -/
def NetworkManagementProxy.NodeListGet : MsgDef :=
  ⟨"NetworkManagementProxy.NodeListGet", "NODE_LIST_GET", 0x52, 0x01, [
    ⟨"seqNo", .uint 1, none, none⟩]⟩

/-- commandclass/NetworkManagementProxy.py:198-209 -/
def NetworkManagementProxy.NodeListReport : MsgDef :=
  ⟨"NetworkManagementProxy.NodeListReport", "NODE_LIST_REPORT", 0x52, 0x02, [
    ⟨"seqNo", .uint 1, none, none⟩,
    ⟨"status", .uint 1, none, none⟩,
    ⟨"nodeListControllerId", .uint 1, none, none⟩,
    ⟨"nodes", .nodeList, none, none⟩]⟩

/-- commandclass/NodeProvisioning.py:46-52 -/
def NodeProvisioning.Set : MsgDef :=
  ⟨"NodeProvisioning.Set", "NODE_PROVISIONING_SET", 0x78, 0x01, [
    ⟨"seqNo", .uint 1, none, none⟩,
    ⟨"dsk", .dsk, none, none⟩,
    ⟨"metaDataExtension", .bytes, none, none⟩]⟩

/-- commandclass/NodeProvisioning.py:55-67 -/
def NodeProvisioning.ListIterationGet : MsgDef :=
  ⟨"NodeProvisioning.ListIterationGet", "LIST_ITERATION_GET", 0x78, 0x03, [
    ⟨"seqNo", .uint 1, none, none⟩,
    ⟨"remainingCounter", .uint 1, none, none⟩]⟩

/-- commandclass/NodeProvisioning.py:70-93 -/
def NodeProvisioning.ListIterationReport : MsgDef :=
  ⟨"NodeProvisioning.ListIterationReport", "LIST_ITERATION_REPORT", 0x78, 0x04, [
    ⟨"seqNo", .uint 1, none, none⟩,
    ⟨"remainingCount", .uint 1, none, none⟩,
    ⟨"-", .reserved 3, none, none⟩,
    ⟨"dskLengthN", .ubits 5, none, none⟩,
    ⟨"dsk", .dsk, some .dskN, none⟩,
    ⟨"metaDataExtension", .metaExt, none, none⟩]⟩

/-- commandclass/SensorMultilevel.py:69-80 -/
def SensorMultilevel.Get : MsgDef :=
  ⟨"SensorMultilevel.Get", "GET", 0x31, 0x04, [
    ⟨"sensorType", .uint 1, none, none⟩,
    ⟨"-", .reserved 3, none, none⟩,
    ⟨"scale", .bits 2, none, none⟩,
    ⟨"-", .reserved 3, none, none⟩]⟩

/-- commandclass/SensorMultilevel.py:83-92 -/
def SensorMultilevel.Report : MsgDef :=
  ⟨"SensorMultilevel.Report", "REPORT", 0x31, 0x05, [
    ⟨"sensorType", .uint 1, none, none⟩,
    ⟨"sensorValue", .float, none, none⟩]⟩

/-- commandclass/SensorMultilevel.py:95-104 -/
def SensorMultilevel.SupportedGetScale : MsgDef :=
  ⟨"SensorMultilevel.SupportedGetScale", "SUPPORTED_GET_SCALE", 0x31, 0x03, [
    ⟨"sensorType", .uint 1, none, none⟩]⟩

/-- commandclass/SensorMultilevel.py:107-117 -/
def SensorMultilevel.SupportedGetSensor : MsgDef :=
  ⟨"SensorMultilevel.SupportedGetSensor", "SUPPORTED_GET_SENSOR", 0x31, 0x01, []⟩

/-- commandclass/SensorMultilevel.py:120-135 -/
def SensorMultilevel.SupportedScaleReport : MsgDef :=
  ⟨"SensorMultilevel.SupportedScaleReport", "SUPPORTED_SCALE_REPORT", 0x31, 0x06, [
    ⟨"sensorType", .uint 1, none, none⟩,
    ⟨"-", .reserved 4, none, none⟩,
    ⟨"scaleBitMask", .bits 4, none, none⟩]⟩

/-- commandclass/SensorMultilevel.py:138-149 -/
def SensorMultilevel.SupportedSensorReport : MsgDef :=
  ⟨"SensorMultilevel.SupportedSensorReport", "SUPPORTED_SENSOR_REPORT", 0x31, 0x02, [
    ⟨"bitMask", .sensors, none, none⟩]⟩

/-- commandclass/Supervision.py:13-30 -/
def Supervision.Get : MsgDef :=
  ⟨"Supervision.Get", "SUPERVISION_GET", 0x6C, 0x01, [
    ⟨"statusUpdates", .flag, none, none⟩,
    ⟨"-", .reserved 1, none, none⟩,
    ⟨"sessionID", .bits 6, none, none⟩,
    ⟨"command", .message, some .supervisionCommand, none⟩]⟩

/-- commandclass/Supervision.py:33-45 -/
def Supervision.Report : MsgDef :=
  ⟨"Supervision.Report", "SUPERVISION_REPORT", 0x6C, 0x02, [
    ⟨"moreStatusUpdates", .flag, none, none⟩,
    ⟨"wakeUpRequest", .flag, none, none⟩,
    ⟨"sessionID", .bits 6, none, none⟩,
    ⟨"status", .uint 1, none, none⟩,
    ⟨"duration", .uint 1, none, none⟩]⟩

/-- commandclass/SwitchBinary.py:14-18 -/
def SwitchBinary.Get : MsgDef :=
  ⟨"SwitchBinary.Get", "GET", 0x25, 0x02, []⟩

/-- commandclass/SwitchBinary.py:21-27 -/
def SwitchBinary.Report : MsgDef :=
  ⟨"SwitchBinary.Report", "REPORT", 0x25, 0x03, [
    ⟨"value", .uint 1, none, none⟩]⟩

/-- commandclass/SwitchBinary.py:30-36 -/
def SwitchBinary.Set : MsgDef :=
  ⟨"SwitchBinary.Set", "SET", 0x25, 0x01, [
    ⟨"value", .uint 1, none, none⟩]⟩

/-- commandclass/Version.py:37-41 -/
def Version.VersionGet : MsgDef :=
  ⟨"Version.VersionGet", "VERSION_GET", 0x86, 0x11, []⟩

/-- commandclass/Version.py:44-56 -/
def Version.VersionReport : MsgDef :=
  ⟨"Version.VersionReport", "VERSION_REPORT", 0x86, 0x12, [
    ⟨"zwaveLibraryType", .uint 1, none, none⟩,
    ⟨"zwaveProtocolVersion", .uint 1, none, none⟩,
    ⟨"zwaveProtocolSubVersion", .uint 1, none, none⟩,
    ⟨"applicationVersion", .uint 1, none, none⟩,
    ⟨"applicationSubVersion", .uint 1, none, none⟩]⟩

/-- commandclass/Version.py:59-64 -/
def Version.VersionCommandClassGet : MsgDef :=
  ⟨"Version.VersionCommandClassGet", "VERSION_COMMAND_CLASS_GET", 0x86, 0x13, [
    ⟨"requestedCommandClass", .uint 1, none, none⟩]⟩

/-- commandclass/Version.py:67-76 -/
def Version.VersionCommandClassReport : MsgDef :=
  ⟨"Version.VersionCommandClassReport", "VERSION_COMMAND_CLASS_REPORT", 0x86, 0x14, [
    ⟨"requestedCommandClass", .uint 1, none, none⟩,
    ⟨"commandClassVersion", .uint 1, none, none⟩]⟩

/-- commandclass/Zip.py:211-223 -/
def Zip.ZipKeepAlive : MsgDef :=
  ⟨"Zip.ZipKeepAlive", "ZIP_KEEP_ALIVE", 0x23, 0x03, [
    ⟨"ackRequest", .flag, none, none⟩,
    ⟨"ackResponse", .flag, none, none⟩,
    ⟨"_", .reserved 6, none, none⟩]⟩

/-- commandclass/Zip.py:226-289 -/
def Zip.ZipPacket : MsgDef :=
  ⟨"Zip.ZipPacket", "ZIP_PACKET", 0x23, 0x02, [
    ⟨"ackRequest", .flag, none, none⟩,
    ⟨"ackResponse", .flag, none, none⟩,
    ⟨"nackResponse", .flag, none, none⟩,
    ⟨"nackWaiting", .flag, none, none⟩,
    ⟨"nackQueueFull", .flag, none, none⟩,
    ⟨"nackOptionError", .flag, none, none⟩,
    ⟨"_", .reserved 2, none, none⟩,
    ⟨"headerExtIncluded", .flag, none, none⟩,
    ⟨"zwCmdIncluded", .flag, none, none⟩,
    ⟨"moreInformation", .flag, none, none⟩,
    ⟨"secureOrigin", .flag, none, none⟩,
    ⟨"_", .reserved 4, none, none⟩,
    ⟨"seqNo", .uint 1, none, none⟩,
    ⟨"-", .reserved 1, none, none⟩,
    ⟨"sourceEP", .ubits 7, none, none⟩,
    ⟨"-", .reserved 1, none, none⟩,
    ⟨"destEP", .ubits 7, none, none⟩,
    ⟨"headerExtension", .hdr, some .headerExtension, none⟩,
    ⟨"command", .message, none, none⟩]⟩

/-- commandclass/ZipGateway.py:24-31 -/
def ZipGateway.ApplicationNodeInfoSet : MsgDef :=
  ⟨"ZipGateway.ApplicationNodeInfoSet", "COMMAND_APPLICATION_NODE_INFO_SET", 0x5F, 0x0B, [
    ⟨"commandClasses", .bytes, none, none⟩]⟩

/-- commandclass/ZipGateway.py:34-40 -/
def ZipGateway.GatewayModeGet : MsgDef :=
  ⟨"ZipGateway.GatewayModeGet", "GATEWAY_MODE_GET", 0x5F, 0x02, []⟩

/-- commandclass/ZipGateway.py:43-50 -/
def ZipGateway.GatewayModeReport : MsgDef :=
  ⟨"ZipGateway.GatewayModeReport", "GATEWAY_MODE_REPORT", 0x5F, 0x03, [
    ⟨"mode", .uint 1, none, none⟩]⟩

/-- commandclass/ZipGateway.py:53-60 -/
def ZipGateway.GatewayModeSet : MsgDef :=
  ⟨"ZipGateway.GatewayModeSet", "GATEWAY_MODE_SET", 0x5F, 0x01, [
    ⟨"mode", .uint 1, none, none⟩]⟩

/-- commandclass/ZipGateway.py:63-76 -/
def ZipGateway.GatewayPeerSet : MsgDef :=
  ⟨"ZipGateway.GatewayPeerSet", "GATEWAY_PEER_SET", 0x5F, 0x04, [
    ⟨"peerProfile", .uint 1, none, none⟩,
    ⟨"ipv6", .ipv6, none, none⟩,
    ⟨"port", .uint 2, none, none⟩,
    ⟨"-", .reserved 2, none, none⟩,
    ⟨"peerNameLength", .bits 6, none, none⟩]⟩

/-- commandclass/ZipGateway.py:79-89 -/
def ZipGateway.UnsolicitedDestinationSet : MsgDef :=
  ⟨"ZipGateway.UnsolicitedDestinationSet", "UNSOLICITED_DESTINATION_SET", 0x5F, 0x08, [
    ⟨"unsolicitedIPv6Destination", .ipv6, none, none⟩,
    ⟨"port", .uint 2, none, none⟩]⟩

/-- commandclass/ZipND.py:20-32 -/
def ZipND.ZipInvNodeSolicitation : MsgDef :=
  ⟨"ZipND.ZipInvNodeSolicitation", "ZIP_INV_NODE_SOLICITATION", 0x58, 0x04, [
    ⟨"-", .reserved 4, none, none⟩,
    ⟨"local", .flag, none, none⟩,
    ⟨"-", .reserved 3, none, none⟩,
    ⟨"nodeId", .uint 1, none, none⟩]⟩

/-- commandclass/ZipND.py:35-50 -/
def ZipND.ZipNodeAdvertisement : MsgDef :=
  ⟨"ZipND.ZipNodeAdvertisement", "ZIP_NODE_ADVERTISEMENT", 0x58, 0x01, [
    ⟨"-", .reserved 5, none, none⟩,
    ⟨"local", .flag, none, none⟩,
    ⟨"validity", .bits 2, none, none⟩,
    ⟨"nodeId", .uint 1, none, none⟩,
    ⟨"ipv6", .ipv6, none, none⟩,
    ⟨"homeId", .uint 4, none, none⟩]⟩

/-- commandclass/ZwavePlusInfo.py:34-38 -/
def ZwavePlusInfo.Get : MsgDef :=
  ⟨"ZwavePlusInfo.Get", "GET", 0x5E, 0x01, []⟩

/-- commandclass/ZwavePlusInfo.py:41-53 -/
def ZwavePlusInfo.Report : MsgDef :=
  ⟨"ZwavePlusInfo.Report", "REPORT", 0x5E, 0x02, [
    ⟨"zwavePlusVersion", .uint 1, none, none⟩,
    ⟨"roleType", .uint 1, none, none⟩,
    ⟨"nodeType", .uint 1, none, none⟩,
    ⟨"installerIconType", .uint 2, none, none⟩,
    ⟨"userIconType", .uint 2, none, none⟩]⟩

end Model.Reg

namespace Model
open Reg

/-- `ZWaveMessage` (commandclass/__init__.py:9-25,45) after importing the package. -/
def registry : List MsgDef := [
  ApplicationStatus.ApplicationBusy,
  Association.Get,
  Association.Report,
  Association.Set,
  Association.GroupingsGet,
  Association.GroupingsReport,
  AssociationGrpInfo.GroupCommandListGet,
  AssociationGrpInfo.GroupCommandListReport,
  AssociationGrpInfo.GroupInfoGet,
  AssociationGrpInfo.GroupInfoReport,
  AssociationGrpInfo.GroupNameGet,
  AssociationGrpInfo.GroupNameReport,
  Basic.Get,
  Basic.Report,
  Basic.Set,
  Battery.Get,
  Battery.Report,
  Configuration.BulkGet,
  Configuration.BulkReport,
  Configuration.Get,
  Configuration.Report,
  Configuration.Set,
  Indicator.Get,
  Indicator.Report,
  Indicator.Set,
  Mailbox.ConfigurationGet,
  Mailbox.ConfigurationReport,
  Mailbox.NodeFailing,
  Mailbox.Queue,
  Mailbox.QueueFlush,
  Mailbox.ConfigurationSet,
  Mailbox.WakeupNotification,
  ManufacturerSpecific.Get,
  ManufacturerSpecific.Report,
  Meter.Get,
  Meter.Report,
  Meter.Reset,
  Meter.SupportedGet,
  Meter.SupportedReport,
  MultiChannelAssociation.MultiChannelGet,
  MultiChannelAssociation.MultiChannelReport,
  MultiChannelAssociation.MultiChannelSet,
  NetworkManagementInclusion.FailedNodeRemove,
  NetworkManagementInclusion.FailedNodeRemoveStatus,
  NetworkManagementInclusion.FailedNodeReplace,
  NetworkManagementInclusion.FailedNodeReplaceStatus,
  NetworkManagementInclusion.IncludedNIFReport,
  NetworkManagementInclusion.NodeAdd,
  NetworkManagementInclusion.NodeAddDSKReport,
  NetworkManagementInclusion.NodeAddDSKSet,
  NetworkManagementInclusion.NodeAddKeysReport,
  NetworkManagementInclusion.NodeAddKeysSet,
  NetworkManagementInclusion.NodeAddStatus,
  NetworkManagementInclusion.NodeNeightborUpdateRequest,
  NetworkManagementInclusion.NodeNeightborUpdateStatus,
  NetworkManagementInclusion.NodeRemove,
  NetworkManagementInclusion.NodeRemoveStatus,
  NetworkManagementInclusion.ReturnRouteAssign,
  NetworkManagementInclusion.ReturnRouteAssignComplete,
  NetworkManagementInclusion.ReturnRouteDelete,
  NetworkManagementInclusion.ReturnRouteDeleteComplete,
  NetworkManagementInclusion.SmartStartJoinStartedReport,
  NetworkManagementProxy.FailedNodeListGet,
  NetworkManagementProxy.FailedNodeListReport,
  NetworkManagementProxy.MultiChannelCapabilityGet,
  NetworkManagementProxy.MultiChannelCapabilityReport,
  NetworkManagementProxy.MultiChannelEndPointGet,
  NetworkManagementProxy.MultiChannelEndPointReport,
  NetworkManagementProxy.NodeInfoCachedGet,
  NetworkManagementProxy.NodeInfoCachedReport,
  NetworkManagementProxy.NodeListGet,
  NetworkManagementProxy.NodeListReport,
  NodeProvisioning.Set,
  NodeProvisioning.ListIterationGet,
  NodeProvisioning.ListIterationReport,
  SensorMultilevel.Get,
  SensorMultilevel.Report,
  SensorMultilevel.SupportedGetScale,
  SensorMultilevel.SupportedGetSensor,
  SensorMultilevel.SupportedScaleReport,
  SensorMultilevel.SupportedSensorReport,
  Supervision.Get,
  Supervision.Report,
  SwitchBinary.Get,
  SwitchBinary.Report,
  SwitchBinary.Set,
  Version.VersionGet,
  Version.VersionReport,
  Version.VersionCommandClassGet,
  Version.VersionCommandClassReport,
  Zip.ZipKeepAlive,
  Zip.ZipPacket,
  ZipGateway.ApplicationNodeInfoSet,
  ZipGateway.GatewayModeGet,
  ZipGateway.GatewayModeReport,
  ZipGateway.GatewayModeSet,
  ZipGateway.GatewayPeerSet,
  ZipGateway.UnsolicitedDestinationSet,
  ZipND.ZipInvNodeSolicitation,
  ZipND.ZipNodeAdvertisement,
  ZwavePlusInfo.Get,
  ZwavePlusInfo.Report]

/-- `Message.decode` (message.py:72-75). Python's recursion limit is modelled by the nesting
budget of `decodeN`; here it is large enough for every packet (theorem C09). -/
def decode (pkt : Spec.Bytes) : Py Msg := decodeN registry (pkt.length + 1) pkt

/-- `Message.compose` (message.py:18-43). -/
def compose (m : Msg) : Py Spec.Bytes := composeWith registry m

end Model
