import Verif.Spec.Wire
/-!
# Frame layouts

Plain data: title, command class, command, slots in wire order.
-/
namespace Spec

/-- The layouts of the 88 messages whose attributes can all be encoded. -/
def layouts : List Layout := [
  ⟨"ApplicationStatus.ApplicationBusy", 0x22, 0x01, [.num "status" 8, .num "waitTime" 8]⟩,
  ⟨"Association.Get", 0x85, 0x02, [.num "groupingIdentifier" 8]⟩,
  ⟨"Association.Report", 0x85, 0x03, [.num "groupingIdentifier" 8, .num "maxNodesSupported" 8, .num "reportsToFollow" 8, .nodes "nodes"]⟩,
  ⟨"Association.Set", 0x85, 0x01, [.num "groupingIdentifier" 8, .nodes "nodes"]⟩,
  ⟨"Association.GroupingsGet", 0x85, 0x05, []⟩,
  ⟨"Association.GroupingsReport", 0x85, 0x06, [.num "supportedGroupings" 8]⟩,
  ⟨"AssociationGrpInfo.GroupCommandListGet", 0x59, 0x05, [.flag "allowCache", .zero 7, .num "groupingIdentifier" 8]⟩,
  ⟨"AssociationGrpInfo.GroupInfoGet", 0x59, 0x03, [.flag "refreshCache", .flag "listMode", .zero 6, .num "groupingIdentifier" 8]⟩,
  ⟨"AssociationGrpInfo.GroupNameGet", 0x59, 0x01, [.num "groupingIdentifier" 8]⟩,
  ⟨"Basic.Get", 0x20, 0x02, []⟩,
  ⟨"Basic.Report", 0x20, 0x03, [.num "value" 8]⟩,
  ⟨"Basic.Set", 0x20, 0x01, [.num "value" 8]⟩,
  ⟨"Battery.Get", 0x80, 0x02, []⟩,
  ⟨"Battery.Report", 0x80, 0x03, [.num "batteryLevel" 8]⟩,
  ⟨"Configuration.BulkGet", 0x70, 0x08, [.num "parameterOffset" 16, .num "numberOfParameters" 8]⟩,
  ⟨"Configuration.BulkReport", 0x70, 0x09, [.num "parameterOffset" 16, .num "numberOfParameters" 8, .num "reportsToFollow" 8, .flag "default", .flag "handshake", .zero 3, .num "size" 3, .rest "parameter"]⟩,
  ⟨"Configuration.Get", 0x70, 0x05, [.num "parameterNumber" 8]⟩,
  ⟨"Indicator.Get", 0x87, 0x02, []⟩,
  ⟨"Indicator.Report", 0x87, 0x03, [.num "value" 8]⟩,
  ⟨"Indicator.Set", 0x87, 0x01, [.num "value" 8]⟩,
  ⟨"Mailbox.ConfigurationGet", 0x69, 0x01, []⟩,
  ⟨"Mailbox.ConfigurationReport", 0x69, 0x03, [.zero 3, .num "supportedModes" 2, .num "mode" 3, .num "mailboxCapacity" 16, .ipv6 "forwardingDestinationIPv6Address", .num "udpPortNumber" 16]⟩,
  ⟨"Mailbox.NodeFailing", 0x69, 0x06, [.num "queueHandle" 8]⟩,
  ⟨"Mailbox.Queue", 0x69, 0x04, [.zero 4, .flag "last", .num "operation" 3, .num "queueHandle" 8, .rest "mailboxEntry"]⟩,
  ⟨"Mailbox.QueueFlush", 0x69, 0x07, [.num "queueHandle" 8]⟩,
  ⟨"Mailbox.ConfigurationSet", 0x69, 0x02, [.zero 5, .num "mode" 3, .ipv6 "forwardingDestinationIPv6Address", .num "udpPortNumber" 16]⟩,
  ⟨"Mailbox.WakeupNotification", 0x69, 0x05, [.num "queueHandle" 8]⟩,
  ⟨"ManufacturerSpecific.Get", 0x72, 0x04, []⟩,
  ⟨"ManufacturerSpecific.Report", 0x72, 0x05, [.num "manufacturerID" 16, .num "productTypeID" 16, .num "productID" 16]⟩,
  ⟨"Meter.Get", 0x32, 0x01, [.num "rateType" 2, .num "scale" 3, .zero 3, .num "scale2" 8]⟩,
  ⟨"Meter.Reset", 0x32, 0x05, []⟩,
  ⟨"Meter.SupportedGet", 0x32, 0x03, []⟩,
  ⟨"Meter.SupportedReport", 0x32, 0x04, [.flag "meterReset", .num "rateType" 2, .num "meterType" 5, .flag "moreScaleTypes", .num "scaleSupported" 7, .num "nbrScaleSupportedBytesToFollow" 8, .rest "scaleSupportedByteN"]⟩,
  ⟨"MultiChannelAssociation.MultiChannelGet", 0x8E, 0x02, [.num "groupingIdentifier" 8]⟩,
  ⟨"MultiChannelAssociation.MultiChannelReport", 0x8E, 0x03, [.num "groupingIdentifier" 8, .num "maxNodesSupported" 8, .num "reportsToFollow" 8, .nodes "nodes"]⟩,
  ⟨"MultiChannelAssociation.MultiChannelSet", 0x8E, 0x01, [.num "groupingIdentifier" 8, .nodes "nodes"]⟩,
  ⟨"NetworkManagementInclusion.FailedNodeRemove", 0x34, 0x07, [.num "seqNo" 8, .num "nodeID" 8]⟩,
  ⟨"NetworkManagementInclusion.FailedNodeRemoveStatus", 0x34, 0x08, [.num "seqNo" 8, .num "status" 8, .num "nodeID" 8]⟩,
  ⟨"NetworkManagementInclusion.FailedNodeReplace", 0x34, 0x09, [.num "seqNo" 8, .num "nodeID" 8, .num "txOptions" 8, .num "mode" 8]⟩,
  ⟨"NetworkManagementInclusion.FailedNodeReplaceStatus", 0x34, 0x0A, [.num "seqNo" 8, .num "status" 8, .num "nodeID" 8]⟩,
  ⟨"NetworkManagementInclusion.IncludedNIFReport", 0x34, 0x19, [.num "seqNo" 8, .dsk "dsk"]⟩,
  ⟨"NetworkManagementInclusion.NodeAdd", 0x34, 0x01, [.num "seqNo" 8, .zero 8, .num "mode" 8, .num "txOptions" 8]⟩,
  ⟨"NetworkManagementInclusion.NodeAddDSKReport", 0x34, 0x13, [.num "seqNo" 8, .zero 4, .num "inputDSKLength" 4, .dsk "dsk"]⟩,
  ⟨"NetworkManagementInclusion.NodeAddDSKSet", 0x34, 0x14, [.num "seqNo" 8, .flag "accept", .zero 3, .num "inputDSKLength" 4, .dsk "dsk"]⟩,
  ⟨"NetworkManagementInclusion.NodeAddKeysReport", 0x34, 0x11, [.num "seqNo" 8, .zero 7, .flag "requestCSA", .num "requestedKeys" 8]⟩,
  ⟨"NetworkManagementInclusion.NodeAddKeysSet", 0x34, 0x12, [.num "seqNo" 8, .zero 6, .flag "grantCSA", .flag "accept", .num "grantedKeys" 8]⟩,
  ⟨"NetworkManagementInclusion.NodeNeightborUpdateRequest", 0x34, 0x0B, [.num "seqNo" 8, .num "nodeID" 8]⟩,
  ⟨"NetworkManagementInclusion.NodeNeightborUpdateStatus", 0x34, 0x0C, [.num "seqNo" 8, .num "status" 8]⟩,
  ⟨"NetworkManagementInclusion.NodeRemove", 0x34, 0x03, [.num "seqNo" 8, .zero 8, .num "mode" 8]⟩,
  ⟨"NetworkManagementInclusion.NodeRemoveStatus", 0x34, 0x04, [.num "seqNo" 8, .num "status" 8, .num "nodeID" 8]⟩,
  ⟨"NetworkManagementInclusion.ReturnRouteAssign", 0x34, 0x0D, [.num "seqNo" 8, .num "sourceNodeID" 8, .num "destinationNodeID" 8]⟩,
  ⟨"NetworkManagementInclusion.ReturnRouteAssignComplete", 0x34, 0x0E, [.num "seqNo" 8, .num "status" 8]⟩,
  ⟨"NetworkManagementInclusion.ReturnRouteDelete", 0x34, 0x0F, [.num "seqNo" 8, .num "nodeID" 8]⟩,
  ⟨"NetworkManagementInclusion.ReturnRouteDeleteComplete", 0x34, 0x10, [.num "seqNo" 8, .num "status" 8]⟩,
  ⟨"NetworkManagementInclusion.SmartStartJoinStartedReport", 0x34, 0x15, [.num "seqNo" 8, .dsk "dsk"]⟩,
  ⟨"NetworkManagementProxy.FailedNodeListGet", 0x52, 0x0B, [.num "seqNo" 8]⟩,
  ⟨"NetworkManagementProxy.MultiChannelCapabilityGet", 0x52, 0x07, [.num "seqNo" 8, .num "nodeID" 8, .zero 1, .num "endPoint" 7]⟩,
  ⟨"NetworkManagementProxy.MultiChannelCapabilityReport", 0x52, 0x08, [.num "seqNo" 8, .num "nodeID" 8, .num "commandClassLength" 8, .zero 1, .num "endPoint" 7, .num "genericDeviceClass" 8, .num "specificDeviceClass" 8, .rest "commandClass"]⟩,
  ⟨"NetworkManagementProxy.MultiChannelEndPointGet", 0x52, 0x05, [.num "seqNo" 8, .num "nodeID" 8]⟩,
  ⟨"NetworkManagementProxy.MultiChannelEndPointReport", 0x52, 0x06, [.num "seqNo" 8, .num "nodeID" 8, .zero 8, .zero 1, .num "individualEndPoints" 7, .zero 1, .num "aggregatedEndPoints" 7]⟩,
  ⟨"NetworkManagementProxy.NodeInfoCachedGet", 0x52, 0x03, [.num "seqNo" 8, .zero 4, .num "maxAge" 4, .num "nodeID" 8]⟩,
  ⟨"NetworkManagementProxy.NodeInfoCachedReport", 0x52, 0x04, [.num "seqNo" 8, .num "status" 4, .num "age" 4, .flag "listening", .zero 7, .flag "optFunc", .zero 7, .zero 8, .num "basicDeviceClass" 8, .num "genericDeviceClass" 8, .num "specificDeviceClass" 8, .rest "commandClass"]⟩,
  ⟨"NetworkManagementProxy.NodeListGet", 0x52, 0x01, [.num "seqNo" 8]⟩,
  ⟨"NodeProvisioning.Set", 0x78, 0x01, [.num "seqNo" 8, .dsk "dsk", .rest "metaDataExtension"]⟩,
  ⟨"NodeProvisioning.ListIterationGet", 0x78, 0x03, [.num "seqNo" 8, .num "remainingCounter" 8]⟩,
  ⟨"SensorMultilevel.Get", 0x31, 0x04, [.num "sensorType" 8, .zero 3, .num "scale" 2, .zero 3]⟩,
  ⟨"SensorMultilevel.SupportedGetScale", 0x31, 0x03, [.num "sensorType" 8]⟩,
  ⟨"SensorMultilevel.SupportedGetSensor", 0x31, 0x01, []⟩,
  ⟨"SensorMultilevel.SupportedScaleReport", 0x31, 0x06, [.num "sensorType" 8, .zero 4, .num "scaleBitMask" 4]⟩,
  ⟨"Supervision.Report", 0x6C, 0x02, [.flag "moreStatusUpdates", .flag "wakeUpRequest", .num "sessionID" 6, .num "status" 8, .num "duration" 8]⟩,
  ⟨"SwitchBinary.Get", 0x25, 0x02, []⟩,
  ⟨"SwitchBinary.Report", 0x25, 0x03, [.num "value" 8]⟩,
  ⟨"SwitchBinary.Set", 0x25, 0x01, [.num "value" 8]⟩,
  ⟨"Version.VersionGet", 0x86, 0x11, []⟩,
  ⟨"Version.VersionReport", 0x86, 0x12, [.num "zwaveLibraryType" 8, .num "zwaveProtocolVersion" 8, .num "zwaveProtocolSubVersion" 8, .num "applicationVersion" 8, .num "applicationSubVersion" 8]⟩,
  ⟨"Version.VersionCommandClassGet", 0x86, 0x13, [.num "requestedCommandClass" 8]⟩,
  ⟨"Version.VersionCommandClassReport", 0x86, 0x14, [.num "requestedCommandClass" 8, .num "commandClassVersion" 8]⟩,
  ⟨"Zip.ZipKeepAlive", 0x23, 0x03, [.flag "ackRequest", .flag "ackResponse", .zero 6]⟩,
  ⟨"ZipGateway.ApplicationNodeInfoSet", 0x5F, 0x0B, [.rest "commandClasses"]⟩,
  ⟨"ZipGateway.GatewayModeGet", 0x5F, 0x02, []⟩,
  ⟨"ZipGateway.GatewayModeReport", 0x5F, 0x03, [.num "mode" 8]⟩,
  ⟨"ZipGateway.GatewayModeSet", 0x5F, 0x01, [.num "mode" 8]⟩,
  ⟨"ZipGateway.GatewayPeerSet", 0x5F, 0x04, [.num "peerProfile" 8, .ipv6 "ipv6", .num "port" 16, .zero 2, .num "peerNameLength" 6]⟩,
  ⟨"ZipGateway.UnsolicitedDestinationSet", 0x5F, 0x08, [.ipv6 "unsolicitedIPv6Destination", .num "port" 16]⟩,
  ⟨"ZipND.ZipInvNodeSolicitation", 0x58, 0x04, [.zero 4, .flag "local", .zero 3, .num "nodeId" 8]⟩,
  ⟨"ZipND.ZipNodeAdvertisement", 0x58, 0x01, [.zero 5, .flag "local", .num "validity" 2, .num "nodeId" 8, .ipv6 "ipv6", .num "homeId" 32]⟩,
  ⟨"ZwavePlusInfo.Get", 0x5E, 0x01, []⟩,
  ⟨"ZwavePlusInfo.Report", 0x5E, 0x02, [.num "zwavePlusVersion" 8, .num "roleType" 8, .num "nodeType" 8, .num "installerIconType" 16, .num "userIconType" 16]⟩]

end Spec
