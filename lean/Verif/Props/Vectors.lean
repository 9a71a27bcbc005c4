import Verif.Model.Zip
import Verif.Model.Dsk
import Verif.Model.Meter
import Verif.Model.Conn
import Verif.Model.Debug
import Verif.Model.Node
import Verif.Model.Application
import Verif.Model.Mailbox
import Verif.Model.MailboxInit
import Verif.Model.Classes
import Verif.Model.Interview
import Verif.Model.Storage
/-!
# The project's own tests, on the model

The code cannot be run here, so the inputs and outputs written down in `/repo/tests` are the evidence there is for what it does. Each `example` is one of
these tests (named in its comment) on the definitions of the model. Tests that only look at mocks, or at functions that raise NotImplementedError, have no counterpart.
-/
namespace Props.Vectors
open Spec Model

/-- The number in an attribute of a decoded message. -/
def num (m : Py Msg) (name : String) : Option Int := match m with | .ok m => m.num? name | .error _ => none
/-- The value of an attribute of a decoded message. -/
def val (m : Py Msg) (name : String) : Option Val := match m with | .ok m => m.attr name | .error _ => none
/-- The hid of a decoded message. -/
def typ (m : Py Msg) : Option Nat := match m with | .ok m => some m.hid | .error _ => none
/-- Result of a read, without the reader. -/
def got {α : Type} (x : Py (α × Reader)) : Py α := x.map (·.1)
/-- Keyword arguments that are numbers. -/
def nums (l : List (String × Int)) (n : String) : Option Val := (l.find? (fun p => p.1 = n)).map fun p => .num .pyint p.2

/-! ## tests/test_types.py -/

/-- types.py fixture `streamReader`. -/
def sr : Reader := Reader.new [0x02, 0x01, 0xcb, 0x40]

/-- The reader after a read. -/
def after {α : Type} (x : Py (α × Reader)) : Reader := match x with | .ok (_, r) => r | .error _ => sr

/-- test_BitStreamReader_bits -/
example : (let r := sr.advance 16; r.peekValue 1 = .ok [0xCB] ∧ r.peekByte = .ok 0xCB ∧ got r.bit = .ok 1 ∧ got (after r.bit).bit = .ok 1 ∧ got ((after (after r.bit).bit).bits 4) = .ok 2) := by decide +kernel

/-- test_BitStreamReader_bytes, test_BitStreamReader_bytesLeft -/
example : got (sr.value 1) = .ok [0x02] ∧
    (let r := after (sr.value 1); r.peekValue 2 = .ok [0x01, 0xCB] ∧ got (r.value 1) = .ok [0x01] ∧ sr.bytesLeft = 4 ∧ r.bytesLeft = 3 ∧ (after (r.value 1)).bytesLeft = 2) := by decide +kernel

/-- test_BitStreamReader_eof -/
example : (let r := sr.remaining.2; r.bytesLeft = 0 ∧ got r.byte = .error .eof) := by decide +kernel

/-- test_BitStreamReader_remaining -/
example : (sr.remaining false).1 = [0x02, 0x01, 0xcb, 0x40] ∧
    (after (sr.value 1)).remaining.1 = [0x01, 0xcb, 0x40] := by decide +kernel

/-- test_BitStreamWriter_bits -/
example : (do let w ← Writer.new.addBits 1 1; pure w.data) = Except.ok [0x80] ∧
    (do let w ← Writer.new.addBits 1 1; let w ← w.addBits 3 2; pure w.data) = Except.ok [0xE0] ∧
    (do let w ← Writer.new.addBits 1 1; let w ← w.addBits 3 2; let w ← w.addBits 3 5; pure w.data) = Except.ok [0xE3] ∧
    (do let w ← Writer.new.addBits 1 1; let w ← w.addBits 3 2; let w ← w.addBits 3 5; let w ← w.addBits 1 1; pure w.data) = Except.ok [0xE3, 0x80] := by
  decide +kernel

/-- test_BitStreamWriter_bytes -/
example : (do let w ← Writer.new.addBytes 2 1 false; let w ← w.addBytes 2 2 false; let w ← w.addBytes (-2) 1 true; pure w.data) = Except.ok [0x02, 0x00, 0x02, 0xFE] := by
  decide +kernel

/-- test_bytes_t -/
example : got (deserVal .bytes sr) = .ok (.bytes [0x02, 0x01, 0xcb, 0x40]) ∧
    (serVal (.bytes [0x02, 0x01, 0xcb, 0x40]) Writer.new).map (·.data) = .ok [0x02, 0x01, 0xcb, 0x40] := by decide +kernel

/-- test_dsk_t -/
example : dskSetState [] (.text "32333-28706-61913-46249-43027-54794-27762-42208".toList) = .ok [0x7e, 0x4d, 0x70, 0x22, 0xf1, 0xd9, 0xb4, 0xa9, 0xa8, 0x13, 0xd6, 0x0a, 0x6c, 0x72, 0xa4, 0xe0] ∧
    dskGetState [0x7e, 0x4d, 0x70, 0x22, 0xf1, 0xd9, 0xb4, 0xa9, 0xa8, 0x13, 0xd6, 0x0a, 0x6c, 0x72, 0xa4, 0xe0] = .ok "32333-28706-61913-46249-43027-54794-27762-42208".toList ∧
    (serVal (.dsk [0x7e, 0x4d, 0x70, 0x22, 0xf1, 0xd9, 0xb4, 0xa9, 0xa8, 0x13, 0xd6, 0x0a, 0x6c, 0x72, 0xa4, 0xe0]) Writer.new).map (·.data) = .ok [0x7e, 0x4d, 0x70, 0x22, 0xf1, 0xd9, 0xb4, 0xa9, 0xa8, 0x13, 0xd6, 0x0a, 0x6c, 0x72, 0xa4, 0xe0] ∧
    got (deserVal .dsk (Reader.new [0x7e, 0x4d, 0x70, 0x22, 0xf1, 0xd9, 0xb4, 0xa9, 0xa8, 0x13, 0xd6, 0x0a, 0x6c, 0x72, 0xa4, 0xe0])) = .ok (.dsk [0x7e, 0x4d, 0x70, 0x22, 0xf1, 0xd9, 0xb4, 0xa9, 0xa8, 0x13, 0xd6, 0x0a, 0x6c, 0x72, 0xa4, 0xe0]) ∧
    got (deserDskN (Reader.new [0x7e, 0x4d, 0x70, 0x22, 0xf1, 0xd9, 0xb4, 0xa9, 0xa8, 0x13, 0xd6, 0x0a, 0x6c, 0x72, 0xa4, 0xe0]) 0) = .ok [] := by decide +kernel

/-- test_dsk_t_invalid_data -/
example : dskSetState [] (.text "12345-67890".toList) = .ok [] ∧
    got (deserVal .dsk (Reader.new [0x0f, 0x7e, 0x4d, 0x70, 0x22, 0xf1, 0xd9, 0xb4, 0xa9, 0xa8, 0x13])) = .error .eof ∧
    dskSetState [] (.raw [0x31, 0x32, 0x33, 0x34, 0x35, 0x2d, 0x36, 0x37, 0x38, 0x39, 0x30]) = .error .value ∧
    got (deserDskN (Reader.new [0x0f, 0x7e, 0x4d, 0x70, 0x22, 0xf1, 0xd9, 0xb4, 0xa9, 0xa8, 0x13]) 8) = .error .value := by decide +kernel

/-- test_float_t_values -/
example : got (deserVal .float (Reader.new [0x22, 0x00, 0x7b])) = .ok (.float (123) 1 2 0) := by decide +kernel

/-- test_float_t_values -/
example : got (deserVal .float (Reader.new [0x22, 0x00, 0xe4])) = .ok (.float (228) 1 2 0) := by decide +kernel

/-- test_float_t_values -/
example : got (deserVal .float (Reader.new [0x22, 0xff, 0x82])) = .ok (.float (-126) 1 2 0) := by decide +kernel

/-- test_float_t_values -/
example : got (deserVal .float (Reader.new [0x22, 0xff, 0xba])) = .ok (.float (-70) 1 2 0) := by decide +kernel

/-- test_float_t_values -/
example : got (deserVal .float (Reader.new [0x22, 0xff, 0x5a])) = .ok (.float (-166) 1 2 0) := by decide +kernel

/-- test_IPv6_t -/
example : (do let (a, r) ← (Reader.new [0x58, 0x01, 0x00, 0x06, 0x00, 0x00, 0x00, 0x00, 0x00, 0x00, 0x00, 0x00, 0x00, 0x00, 0xff, 0xff, 0xc0, 0xa8, 0x00, 0xee, 0xea, 0xec, 0xfa, 0xf9]).byte; let (b, r) ← r.byte; let (c, r) ← r.bits 5; let (d, r) ← r.bit; let (e, r) ← r.bits 2; let (f, r) ← r.byte
              let (v, _) ← deserVal .ipv6 r; pure ([a, b, f], [c, d, e], v)) =
    Except.ok ([88, 1, 6], [0, 0, 0], .ipv6 [0x00, 0x00, 0x00, 0x00, 0x00, 0x00, 0x00, 0x00, 0x00, 0x00, 0xff, 0xff, 0xc0, 0xa8, 0x00, 0xee]) := by decide +kernel

/-- test_str_t -/
example : got (deserVal .str (Reader.new [0x0b, 0x48, 0x65, 0x6c, 0x6c, 0x6f, 0x20, 0x57, 0x6f, 0x72, 0x6c, 0x64])) = .ok (.str [72, 101, 108, 108, 111, 32, 87, 111, 114, 108, 100]) := by decide +kernel

/-- test_uint3_t -/
example : got (deserNum (.ubits 3) ((sr).advance 16)) = .ok 6 ∧
    got (deserNum (.ubits 3) (after (deserNum (.ubits 3) ((sr).advance 16)))) = .ok 2 ∧
    got (deserNum (.ubits 3) ((after (deserNum (.ubits 3) (after (deserNum (.ubits 3) ((sr).advance 16))))).advance 2)) = .ok 2 ∧
    got (deserNum (.ubits 3) (after (deserNum (.ubits 3) ((after (deserNum (.ubits 3) (after (deserNum (.ubits 3) ((sr).advance 16))))).advance 2)))) = .ok 0 ∧
    (serVal (.num (.ubits 3) 2) Writer.new).map (·.data) = .ok [0x40] := by decide +kernel

/-- test_uint4_t -/
example : got (deserNum (.ubits 4) (sr)) = .ok 0 ∧
    got (deserNum (.ubits 4) (after (deserNum (.ubits 4) (sr)))) = .ok 2 ∧
    got (deserNum (.ubits 4) (after (deserNum (.ubits 4) (after (deserNum (.ubits 4) (sr)))))) = .ok 0 ∧
    got (deserNum (.ubits 4) (after (deserNum (.ubits 4) (after (deserNum (.ubits 4) (after (deserNum (.ubits 4) (sr)))))))) = .ok 1 ∧
    (serVal (.num (.ubits 4) 2) Writer.new).map (·.data) = .ok [0x20] := by decide +kernel

/-- test_uint5_t -/
example : got (deserNum (.ubits 5) (sr)) = .ok 0 ∧
    got (deserNum (.ubits 5) ((after (deserNum (.ubits 5) (sr))).advance 3)) = .ok 0 ∧
    got (deserNum (.ubits 5) ((after (deserNum (.ubits 5) ((after (deserNum (.ubits 5) (sr))).advance 3))).advance 3)) = .ok 25 ∧
    got (deserNum (.ubits 5) ((after (deserNum (.ubits 5) ((after (deserNum (.ubits 5) ((after (deserNum (.ubits 5) (sr))).advance 3))).advance 3))).advance 3)) = .ok 8 ∧
    (serVal (.num (.ubits 5) 20) Writer.new).map (·.data) = .ok [0xa0] := by decide +kernel

/-- test_uint7_t -/
example : got (deserNum (.ubits 7) (sr)) = .ok 1 ∧
    got (deserNum (.ubits 7) (after (deserNum (.ubits 7) (sr)))) = .ok 0 ∧
    got (deserNum (.ubits 7) (after (deserNum (.ubits 7) (after (deserNum (.ubits 7) (sr)))))) = .ok 32 ∧
    got (deserNum (.ubits 7) (after (deserNum (.ubits 7) (after (deserNum (.ubits 7) (after (deserNum (.ubits 7) (sr)))))))) = .ok 48 ∧
    (serVal (.num (.ubits 7) 20) Writer.new).map (·.data) = .ok [0x28] := by decide +kernel

/-- test_uint8_t -/
example : got (deserNum (.uint 1) (sr)) = .ok 2 ∧
    got (deserNum (.uint 1) (after (deserNum (.uint 1) (sr)))) = .ok 1 ∧
    got (deserNum (.uint 1) (after (deserNum (.uint 1) (after (deserNum (.uint 1) (sr)))))) = .ok 203 ∧
    got (deserNum (.uint 1) (after (deserNum (.uint 1) (after (deserNum (.uint 1) (after (deserNum (.uint 1) (sr)))))))) = .ok 64 := by decide +kernel

/-! ## tests/test_message.py -/

/-- test_compose_no_attribute -/
example : (construct Reg.Basic.Report (nums [])).bind compose = .error .attribute := by decide +kernel

/-- test_decode_default -/
example : (decode [0x85, 0x03, 0x01, 0x05, 0x00]).map (getAttr registry · "nodes") = .ok (some (.nodes [])) := by decide +kernel

/-! ## tests/test_cc_*.py -/

/-- test_cc_association.py: test_nodes_deserialize, test_nodes_serialize -/
example : deserNodes [1, 0, 2, 0] = .ok [(1, none), (2, some 0)] ∧
    serNodes [(1, none), (2, some 0)] = .ok [1, 0, 2, 0] := by decide +kernel

/-- test_cc_association.py: test_nodes__getstate__, test_nodes__setstate__ -/
example : nodesGetState [(1, none), (2, some 0)] = ["1".toList, "2:0".toList] ∧
    nodesSetState [] [.str "1".toList, .str "2:0".toList] = .ok [(1, none), (2, some 0)] := by decide +kernel

/-- test_cc_associationgrpinfo.py: test_groupcommandlistreport -/
example : val (decode [0x59, 0x06, 0x09, 0x02, 0x31, 0x05]) "commandClass" = some (.pairs [(49, 5)]) := by decide +kernel

/-- test_cc_associationgrpinfo.py: test_groupinforeport -/
example : num (decode [0x59, 0x04, 0x81, 0x01, 0x00, 0x71, 0x07, 0x00, 0x00, 0x00]) "groupCount" = some 1 ∧
    val (decode [0x59, 0x04, 0x81, 0x01, 0x00, 0x71, 0x07, 0x00, 0x00, 0x00]) "groups" = some (.groups [[("groupingIdentifier", 1), ("mode", 0), ("profile", 0x7107), ("-", 0), ("eventCode", 0)]]) := by decide +kernel

/-- test_cc_basic.py: test_report -/
example : typ (decode [0x20, 0x03, 0x02]) = some Reg.Basic.Report.hid ∧
    num (decode [0x20, 0x03, 0x02]) "value" = some 2 ∧
    (decode [0x20, 0x03, 0x02]).bind compose = .ok [0x20, 0x03, 0x02] := by decide +kernel

/-- test_cc_configuration.py: test_Report -/
example : typ (decode [0x70, 0x06, 0x01, 0x01, 0x09]) = some Reg.Configuration.Report.hid ∧
    num (decode [0x70, 0x06, 0x01, 0x01, 0x09]) "parameterNumber" = some 1 ∧
    num (decode [0x70, 0x06, 0x01, 0x01, 0x09]) "size" = some 1 ∧
    num (decode [0x70, 0x06, 0x01, 0x01, 0x09]) "value" = some 9 := by decide +kernel

/-- test_cc_configuration.py: test_Set -/
example : (construct Reg.Configuration.Set (nums [("parameterNumber", 1), ("default", 0), ("size", 1), ("value", 0x42)])).bind compose = .ok [0x70, 0x04, 0x01, 0x01, 0x42] := by decide +kernel

/-- test_cc_configuration.py: test_Set -/
example : (construct Reg.Configuration.Set (nums [("parameterNumber", 1), ("default", 0), ("size", 2), ("value", 0x1234)])).bind compose = .ok [0x70, 0x04, 0x01, 0x02, 0x12, 0x34] := by decide +kernel

/-- test_cc_configuration.py: test_Set -/
example : (construct Reg.Configuration.Set (nums [("parameterNumber", 1), ("default", 0), ("size", 4), ("value", 0x12345678)])).bind compose = .ok [0x70, 0x04, 0x01, 0x04, 0x12, 0x34, 0x56, 0x78] := by decide +kernel

/-- test_cc_mailbox.py: test_NodeFailing -/
example : num (decode [0x69, 0x06, 0x48]) "queueHandle" = some 72 := by decide +kernel

/-- test_cc_mailbox.py: test_NodeFailing -/
example : num (decode [0x69, 0x06, 0xfd, 0x00, 0xbb, 0xbb, 0x00, 0x00, 0x00, 0x00, 0x00, 0x00, 0x00, 0x00, 0x00, 0x00, 0x00, 0x72]) "queueHandle" = some 114 := by decide +kernel

/-- test_cc_meter.py: test_decode -/
example : num (decode [0x32, 0x02, 0xa1, 0x6c, 0x00, 0x00, 0x00, 0x25, 0x00, 0x00, 0x43]) "rateType" = some 1 ∧
    num (decode [0x32, 0x02, 0xa1, 0x6c, 0x00, 0x00, 0x00, 0x25, 0x00, 0x00, 0x43]) "meterType" = some 1 ∧
    num (decode [0x32, 0x02, 0xa1, 0x6c, 0x00, 0x00, 0x00, 0x25, 0x00, 0x00, 0x43]) "deltaTime" = some 0 ∧
    (match val (decode [0x32, 0x02, 0xa1, 0x6c, 0x00, 0x00, 0x00, 0x25, 0x00, 0x00, 0x43]) "meterValue" with | some (.float m p _ _) => some (m, p) | _ => none) = some (37, 3) ∧
    (decode [0x32, 0x02, 0xa1, 0x6c, 0x00, 0x00, 0x00, 0x25, 0x00, 0x00, 0x43]).bind Meter.scale = .ok (.electric 5) := by decide +kernel

/-- test_cc_meter.py: test_decode -/
example : num (decode [0x32, 0x02, 0xa2, 0x6c, 0x00, 0x00, 0x00, 0x25, 0x00, 0x00, 0x43]) "rateType" = some 1 ∧
    num (decode [0x32, 0x02, 0xa2, 0x6c, 0x00, 0x00, 0x00, 0x25, 0x00, 0x00, 0x43]) "meterType" = some 2 ∧
    num (decode [0x32, 0x02, 0xa2, 0x6c, 0x00, 0x00, 0x00, 0x25, 0x00, 0x00, 0x43]) "deltaTime" = some 0 ∧
    (match val (decode [0x32, 0x02, 0xa2, 0x6c, 0x00, 0x00, 0x00, 0x25, 0x00, 0x00, 0x43]) "meterValue" with | some (.float m p _ _) => some (m, p) | _ => none) = some (37, 3) ∧
    (decode [0x32, 0x02, 0xa2, 0x6c, 0x00, 0x00, 0x00, 0x25, 0x00, 0x00, 0x43]).bind Meter.scale = .ok (.plain 5) := by decide +kernel

/-- test_cc_meter.py: test_decode -/
example : num (decode [0x32, 0x02, 0xa1, 0x64, 0x00, 0x03, 0x92, 0x99, 0x00, 0x00, 0x64]) "rateType" = some 1 ∧
    num (decode [0x32, 0x02, 0xa1, 0x64, 0x00, 0x03, 0x92, 0x99, 0x00, 0x00, 0x64]) "meterType" = some 1 ∧
    num (decode [0x32, 0x02, 0xa1, 0x64, 0x00, 0x03, 0x92, 0x99, 0x00, 0x00, 0x64]) "deltaTime" = some 0 ∧
    (match val (decode [0x32, 0x02, 0xa1, 0x64, 0x00, 0x03, 0x92, 0x99, 0x00, 0x00, 0x64]) "meterValue" with | some (.float m p _ _) => some (m, p) | _ => none) = some (234137, 3) ∧
    (decode [0x32, 0x02, 0xa1, 0x64, 0x00, 0x03, 0x92, 0x99, 0x00, 0x00, 0x64]).bind Meter.scale = .ok (.electric 4) := by decide +kernel

/-- test_cc_meter.py: test_decode -/
example : num (decode [0x32, 0x02, 0x21, 0x34, 0x00, 0x00, 0x00, 0x60, 0x00, 0x00]) "rateType" = some 1 ∧
    num (decode [0x32, 0x02, 0x21, 0x34, 0x00, 0x00, 0x00, 0x60, 0x00, 0x00]) "meterType" = some 1 ∧
    num (decode [0x32, 0x02, 0x21, 0x34, 0x00, 0x00, 0x00, 0x60, 0x00, 0x00]) "deltaTime" = some 0 ∧
    (match val (decode [0x32, 0x02, 0x21, 0x34, 0x00, 0x00, 0x00, 0x60, 0x00, 0x00]) "meterValue" with | some (.float m p _ _) => some (m, p) | _ => none) = some (96, 1) ∧
    (decode [0x32, 0x02, 0x21, 0x34, 0x00, 0x00, 0x00, 0x60, 0x00, 0x00]).bind Meter.scale = .ok (.electric 2) := by decide +kernel

/-- test_cc_meter.py: test_decode -/
example : num (decode [0x32, 0x02, 0x21, 0x34, 0x00, 0x00, 0x00, 0x60]) "rateType" = some 1 ∧
    num (decode [0x32, 0x02, 0x21, 0x34, 0x00, 0x00, 0x00, 0x60]) "meterType" = some 1 ∧
    num (decode [0x32, 0x02, 0x21, 0x34, 0x00, 0x00, 0x00, 0x60]) "deltaTime" = none ∧
    (match val (decode [0x32, 0x02, 0x21, 0x34, 0x00, 0x00, 0x00, 0x60]) "meterValue" with | some (.float m p _ _) => some (m, p) | _ => none) = some (96, 1) ∧
    (decode [0x32, 0x02, 0x21, 0x34, 0x00, 0x00, 0x00, 0x60]).bind Meter.scale = .ok (.electric 2) := by decide +kernel

/-- test_cc_networkmanagementinclusion.py: test_node_add_dsk_report -/
example : typ (decode [0x34, 0x13, 0x08, 0x00, 0x54, 0xcb, 0xc0, 0x7d, 0x2f, 0x5f, 0x14, 0x1e, 0x65, 0x9e, 0x82, 0x82, 0xe6, 0x37, 0xc5, 0x0e]) = some Reg.NetworkManagementInclusion.NodeAddDSKReport.hid ∧
    num (decode [0x34, 0x13, 0x08, 0x00, 0x54, 0xcb, 0xc0, 0x7d, 0x2f, 0x5f, 0x14, 0x1e, 0x65, 0x9e, 0x82, 0x82, 0xe6, 0x37, 0xc5, 0x0e]) "seqNo" = some 8 ∧
    num (decode [0x34, 0x13, 0x08, 0x00, 0x54, 0xcb, 0xc0, 0x7d, 0x2f, 0x5f, 0x14, 0x1e, 0x65, 0x9e, 0x82, 0x82, 0xe6, 0x37, 0xc5, 0x0e]) "inputDSKLength" = some 0 ∧
    (match val (decode [0x34, 0x13, 0x08, 0x00, 0x54, 0xcb, 0xc0, 0x7d, 0x2f, 0x5f, 0x14, 0x1e, 0x65, 0x9e, 0x82, 0x82, 0xe6, 0x37, 0xc5, 0x0e]) "dsk" with | some (.dsk b) => dskGetState b | _ => .error .type) = .ok "21707-49277-12127-05150-26014-33410-58935-50446".toList := by decide +kernel

/-- test_cc_networkmanagementinclusion.py: test_node_add_status -/
example : typ (decode [0x34, 0x02, 0x0c, 0x06, 0x00, 0x4e, 0x15, 0xd3, 0x9c, 0x04, 0x10, 0x01, 0x5e, 0x25, 0x27, 0x85, 0x5c, 0x70, 0x72, 0x75, 0x86, 0x5a, 0x59, 0x73, 0x7a, 0x68, 0x23, 0x00, 0x00, 0x00]) = some Reg.NetworkManagementInclusion.NodeAddStatus.hid ∧
    num (decode [0x34, 0x02, 0x0c, 0x06, 0x00, 0x4e, 0x15, 0xd3, 0x9c, 0x04, 0x10, 0x01, 0x5e, 0x25, 0x27, 0x85, 0x5c, 0x70, 0x72, 0x75, 0x86, 0x5a, 0x59, 0x73, 0x7a, 0x68, 0x23, 0x00, 0x00, 0x00]) "seqNo" = some 12 ∧
    num (decode [0x34, 0x02, 0x0c, 0x06, 0x00, 0x4e, 0x15, 0xd3, 0x9c, 0x04, 0x10, 0x01, 0x5e, 0x25, 0x27, 0x85, 0x5c, 0x70, 0x72, 0x75, 0x86, 0x5a, 0x59, 0x73, 0x7a, 0x68, 0x23, 0x00, 0x00, 0x00]) "newNodeID" = some 78 ∧
    val (decode [0x34, 0x02, 0x0c, 0x06, 0x00, 0x4e, 0x15, 0xd3, 0x9c, 0x04, 0x10, 0x01, 0x5e, 0x25, 0x27, 0x85, 0x5c, 0x70, 0x72, 0x75, 0x86, 0x5a, 0x59, 0x73, 0x7a, 0x68, 0x23, 0x00, 0x00, 0x00]) "commandClass" = some (.byteList [94, 37, 39, 133, 92, 112, 114, 117, 134, 90, 89, 115, 122, 104]) := by decide +kernel

/-- test_cc_networkmanagementinclusion.py: test_node_add_status_partial -/
example : typ (decode [0x34, 0x02, 0x0c, 0x06, 0x00, 0x4e, 0x15, 0xd3, 0x9c, 0x04, 0x10, 0x01, 0x5e, 0x25, 0x27, 0x85, 0x5c, 0x70, 0x72, 0x75, 0x86]) = some Reg.NetworkManagementInclusion.NodeAddStatus.hid ∧
    num (decode [0x34, 0x02, 0x0c, 0x06, 0x00, 0x4e, 0x15, 0xd3, 0x9c, 0x04, 0x10, 0x01, 0x5e, 0x25, 0x27, 0x85, 0x5c, 0x70, 0x72, 0x75, 0x86]) "seqNo" = some 12 ∧
    num (decode [0x34, 0x02, 0x0c, 0x06, 0x00, 0x4e, 0x15, 0xd3, 0x9c, 0x04, 0x10, 0x01, 0x5e, 0x25, 0x27, 0x85, 0x5c, 0x70, 0x72, 0x75, 0x86]) "newNodeID" = some 78 ∧
    val (decode [0x34, 0x02, 0x0c, 0x06, 0x00, 0x4e, 0x15, 0xd3, 0x9c, 0x04, 0x10, 0x01, 0x5e, 0x25, 0x27, 0x85, 0x5c, 0x70, 0x72, 0x75, 0x86]) "commandClass" = some (.byteList [94, 37, 39, 133, 92, 112, 114, 117, 134]) := by decide +kernel

/-- test_cc_networkmanagementproxy.py: test_node_list_get -/
example : typ (decode [0x52, 0x01, 0x02]) = some Reg.NetworkManagementProxy.NodeListGet.hid ∧
    num (decode [0x52, 0x01, 0x02]) "seqNo" = some 2 ∧
    (decode [0x52, 0x01, 0x02]).bind compose = .ok [0x52, 0x01, 0x02] := by decide +kernel

/-- test_cc_networkmanagementproxy.py: test_node_list_report -/
example : typ (decode [0x52, 0x02, 0x02, 0x00, 0x01, 0x21, 0x00, 0x00, 0x00, 0x00, 0x00, 0x00, 0x00, 0x00, 0x00, 0x00, 0x00, 0x00, 0x00, 0x00, 0x00, 0x00, 0x00, 0x00, 0x00, 0x00, 0x00, 0x00, 0x00, 0x00, 0x00, 0x00, 0x00, 0x00]) = some Reg.NetworkManagementProxy.NodeListReport.hid ∧
    num (decode [0x52, 0x02, 0x02, 0x00, 0x01, 0x21, 0x00, 0x00, 0x00, 0x00, 0x00, 0x00, 0x00, 0x00, 0x00, 0x00, 0x00, 0x00, 0x00, 0x00, 0x00, 0x00, 0x00, 0x00, 0x00, 0x00, 0x00, 0x00, 0x00, 0x00, 0x00, 0x00, 0x00, 0x00]) "seqNo" = some 2 ∧
    num (decode [0x52, 0x02, 0x02, 0x00, 0x01, 0x21, 0x00, 0x00, 0x00, 0x00, 0x00, 0x00, 0x00, 0x00, 0x00, 0x00, 0x00, 0x00, 0x00, 0x00, 0x00, 0x00, 0x00, 0x00, 0x00, 0x00, 0x00, 0x00, 0x00, 0x00, 0x00, 0x00, 0x00, 0x00]) "status" = some 0 ∧
    num (decode [0x52, 0x02, 0x02, 0x00, 0x01, 0x21, 0x00, 0x00, 0x00, 0x00, 0x00, 0x00, 0x00, 0x00, 0x00, 0x00, 0x00, 0x00, 0x00, 0x00, 0x00, 0x00, 0x00, 0x00, 0x00, 0x00, 0x00, 0x00, 0x00, 0x00, 0x00, 0x00, 0x00, 0x00]) "nodeListControllerId" = some 1 ∧
    val (decode [0x52, 0x02, 0x02, 0x00, 0x01, 0x21, 0x00, 0x00, 0x00, 0x00, 0x00, 0x00, 0x00, 0x00, 0x00, 0x00, 0x00, 0x00, 0x00, 0x00, 0x00, 0x00, 0x00, 0x00, 0x00, 0x00, 0x00, 0x00, 0x00, 0x00, 0x00, 0x00, 0x00, 0x00]) "nodes" = some (.nodeSet [1, 6]) := by decide +kernel

/-- test_cc_nodeprovisioning.py: test_ListIterationReport -/
example : num (decode [0x78, 0x04, 0x02, 0x01, 0x10, 0x7e, 0x4d, 0x70, 0x22, 0xf1, 0xd9, 0xb4, 0xa9, 0xa8, 0x13, 0xd6, 0x0a, 0x6c, 0x72, 0xa4, 0xe0, 0x6d, 0x01, 0x01, 0x69, 0x01, 0x00, 0x6e, 0x02, 0x00, 0x00]) "seqNo" = some 2 ∧
    num (decode [0x78, 0x04, 0x02, 0x01, 0x10, 0x7e, 0x4d, 0x70, 0x22, 0xf1, 0xd9, 0xb4, 0xa9, 0xa8, 0x13, 0xd6, 0x0a, 0x6c, 0x72, 0xa4, 0xe0, 0x6d, 0x01, 0x01, 0x69, 0x01, 0x00, 0x6e, 0x02, 0x00, 0x00]) "remainingCount" = some 1 ∧
    (match val (decode [0x78, 0x04, 0x02, 0x01, 0x10, 0x7e, 0x4d, 0x70, 0x22, 0xf1, 0xd9, 0xb4, 0xa9, 0xa8, 0x13, 0xd6, 0x0a, 0x6c, 0x72, 0xa4, 0xe0, 0x6d, 0x01, 0x01, 0x69, 0x01, 0x00, 0x6e, 0x02, 0x00, 0x00]) "dsk" with | some (.dsk b) => dskGetState b | _ => .error .type) = .ok "32333-28706-61913-46249-43027-54794-27762-42208".toList := by decide +kernel

/-- test_cc_sensormultilevel.py: test_SupportedSensorReport -/
example : val (decode [0x31, 0x02, 0x01]) "bitMask" = some (.sensors [1]) ∧
    val (decode [0x31, 0x02, 0x05]) "bitMask" = some (.sensors [1, 3]) := by decide +kernel

/-- test_cc_supervision.py: test_parse_command -/
example : typ (decode [0x6c, 0x01, 0x03, 0x03, 0x20, 0x03, 0x02]) = some Reg.Supervision.Get.hid ∧
    num (decode [0x6c, 0x01, 0x03, 0x03, 0x20, 0x03, 0x02]) "sessionID" = some 3 ∧
    (decode [0x6c, 0x01, 0x03, 0x03, 0x20, 0x03, 0x02]).map (fun m => m.command.map (·.hid)) = .ok (some Reg.Basic.Report.hid) := by decide +kernel

/-- test_cc_zip.py: test_zip_packet_networkmanagementproxt_nodelistget -/
example : typ (decode [0x23, 0x02, 0x80, 0x50, 0x02, 0x00, 0x00, 0x52, 0x01, 0x02]) = some Reg.Zip.ZipPacket.hid ∧
    num (decode [0x23, 0x02, 0x80, 0x50, 0x02, 0x00, 0x00, 0x52, 0x01, 0x02]) "ackRequest" = some 1 ∧
    num (decode [0x23, 0x02, 0x80, 0x50, 0x02, 0x00, 0x00, 0x52, 0x01, 0x02]) "ackResponse" = some 0 ∧
    num (decode [0x23, 0x02, 0x80, 0x50, 0x02, 0x00, 0x00, 0x52, 0x01, 0x02]) "nackResponse" = some 0 ∧
    num (decode [0x23, 0x02, 0x80, 0x50, 0x02, 0x00, 0x00, 0x52, 0x01, 0x02]) "nackWaiting" = some 0 ∧
    num (decode [0x23, 0x02, 0x80, 0x50, 0x02, 0x00, 0x00, 0x52, 0x01, 0x02]) "nackQueueFull" = some 0 ∧
    num (decode [0x23, 0x02, 0x80, 0x50, 0x02, 0x00, 0x00, 0x52, 0x01, 0x02]) "nackOptionError" = some 0 ∧
    num (decode [0x23, 0x02, 0x80, 0x50, 0x02, 0x00, 0x00, 0x52, 0x01, 0x02]) "headerExtIncluded" = some 0 ∧
    num (decode [0x23, 0x02, 0x80, 0x50, 0x02, 0x00, 0x00, 0x52, 0x01, 0x02]) "zwCmdIncluded" = some 1 ∧
    num (decode [0x23, 0x02, 0x80, 0x50, 0x02, 0x00, 0x00, 0x52, 0x01, 0x02]) "moreInformation" = some 0 ∧
    num (decode [0x23, 0x02, 0x80, 0x50, 0x02, 0x00, 0x00, 0x52, 0x01, 0x02]) "secureOrigin" = some 1 ∧
    num (decode [0x23, 0x02, 0x80, 0x50, 0x02, 0x00, 0x00, 0x52, 0x01, 0x02]) "seqNo" = some 2 ∧
    num (decode [0x23, 0x02, 0x80, 0x50, 0x02, 0x00, 0x00, 0x52, 0x01, 0x02]) "sourceEP" = some 0 ∧
    num (decode [0x23, 0x02, 0x80, 0x50, 0x02, 0x00, 0x00, 0x52, 0x01, 0x02]) "destEP" = some 0 ∧
    (decode [0x23, 0x02, 0x80, 0x50, 0x02, 0x00, 0x00, 0x52, 0x01, 0x02]).map (fun m => m.command.map (·.hid)) = .ok (some Reg.NetworkManagementProxy.NodeListGet.hid) ∧
    (decode [0x23, 0x02, 0x80, 0x50, 0x02, 0x00, 0x00, 0x52, 0x01, 0x02]).bind compose = .ok [0x23, 0x02, 0x80, 0x50, 0x02, 0x00, 0x00, 0x52, 0x01, 0x02] := by decide +kernel

/-- test_cc_zip.py: test_zip_packet_networkmanagementproxt_nodelistreport -/
example : typ (decode [0x23, 0x02, 0x00, 0xd0, 0x60, 0x00, 0x00, 0x05, 0x84, 0x02, 0x04, 0x00, 0x52, 0x02, 0x01, 0x00, 0x01, 0x21, 0x00, 0x00, 0x00, 0x00, 0x00, 0x00, 0x00, 0x00, 0x00, 0x00, 0x00, 0x00, 0x00, 0x00, 0x00, 0x00, 0x00, 0x00, 0x00, 0x00, 0x00, 0x00, 0x00, 0x00, 0x00, 0x00, 0x00, 0x00]) = some Reg.Zip.ZipPacket.hid ∧
    num (decode [0x23, 0x02, 0x00, 0xd0, 0x60, 0x00, 0x00, 0x05, 0x84, 0x02, 0x04, 0x00, 0x52, 0x02, 0x01, 0x00, 0x01, 0x21, 0x00, 0x00, 0x00, 0x00, 0x00, 0x00, 0x00, 0x00, 0x00, 0x00, 0x00, 0x00, 0x00, 0x00, 0x00, 0x00, 0x00, 0x00, 0x00, 0x00, 0x00, 0x00, 0x00, 0x00, 0x00, 0x00, 0x00, 0x00]) "ackRequest" = some 0 ∧
    num (decode [0x23, 0x02, 0x00, 0xd0, 0x60, 0x00, 0x00, 0x05, 0x84, 0x02, 0x04, 0x00, 0x52, 0x02, 0x01, 0x00, 0x01, 0x21, 0x00, 0x00, 0x00, 0x00, 0x00, 0x00, 0x00, 0x00, 0x00, 0x00, 0x00, 0x00, 0x00, 0x00, 0x00, 0x00, 0x00, 0x00, 0x00, 0x00, 0x00, 0x00, 0x00, 0x00, 0x00, 0x00, 0x00, 0x00]) "ackResponse" = some 0 ∧
    num (decode [0x23, 0x02, 0x00, 0xd0, 0x60, 0x00, 0x00, 0x05, 0x84, 0x02, 0x04, 0x00, 0x52, 0x02, 0x01, 0x00, 0x01, 0x21, 0x00, 0x00, 0x00, 0x00, 0x00, 0x00, 0x00, 0x00, 0x00, 0x00, 0x00, 0x00, 0x00, 0x00, 0x00, 0x00, 0x00, 0x00, 0x00, 0x00, 0x00, 0x00, 0x00, 0x00, 0x00, 0x00, 0x00, 0x00]) "nackResponse" = some 0 ∧
    num (decode [0x23, 0x02, 0x00, 0xd0, 0x60, 0x00, 0x00, 0x05, 0x84, 0x02, 0x04, 0x00, 0x52, 0x02, 0x01, 0x00, 0x01, 0x21, 0x00, 0x00, 0x00, 0x00, 0x00, 0x00, 0x00, 0x00, 0x00, 0x00, 0x00, 0x00, 0x00, 0x00, 0x00, 0x00, 0x00, 0x00, 0x00, 0x00, 0x00, 0x00, 0x00, 0x00, 0x00, 0x00, 0x00, 0x00]) "nackWaiting" = some 0 ∧
    num (decode [0x23, 0x02, 0x00, 0xd0, 0x60, 0x00, 0x00, 0x05, 0x84, 0x02, 0x04, 0x00, 0x52, 0x02, 0x01, 0x00, 0x01, 0x21, 0x00, 0x00, 0x00, 0x00, 0x00, 0x00, 0x00, 0x00, 0x00, 0x00, 0x00, 0x00, 0x00, 0x00, 0x00, 0x00, 0x00, 0x00, 0x00, 0x00, 0x00, 0x00, 0x00, 0x00, 0x00, 0x00, 0x00, 0x00]) "nackQueueFull" = some 0 ∧
    num (decode [0x23, 0x02, 0x00, 0xd0, 0x60, 0x00, 0x00, 0x05, 0x84, 0x02, 0x04, 0x00, 0x52, 0x02, 0x01, 0x00, 0x01, 0x21, 0x00, 0x00, 0x00, 0x00, 0x00, 0x00, 0x00, 0x00, 0x00, 0x00, 0x00, 0x00, 0x00, 0x00, 0x00, 0x00, 0x00, 0x00, 0x00, 0x00, 0x00, 0x00, 0x00, 0x00, 0x00, 0x00, 0x00, 0x00]) "nackOptionError" = some 0 ∧
    num (decode [0x23, 0x02, 0x00, 0xd0, 0x60, 0x00, 0x00, 0x05, 0x84, 0x02, 0x04, 0x00, 0x52, 0x02, 0x01, 0x00, 0x01, 0x21, 0x00, 0x00, 0x00, 0x00, 0x00, 0x00, 0x00, 0x00, 0x00, 0x00, 0x00, 0x00, 0x00, 0x00, 0x00, 0x00, 0x00, 0x00, 0x00, 0x00, 0x00, 0x00, 0x00, 0x00, 0x00, 0x00, 0x00, 0x00]) "headerExtIncluded" = some 1 ∧
    num (decode [0x23, 0x02, 0x00, 0xd0, 0x60, 0x00, 0x00, 0x05, 0x84, 0x02, 0x04, 0x00, 0x52, 0x02, 0x01, 0x00, 0x01, 0x21, 0x00, 0x00, 0x00, 0x00, 0x00, 0x00, 0x00, 0x00, 0x00, 0x00, 0x00, 0x00, 0x00, 0x00, 0x00, 0x00, 0x00, 0x00, 0x00, 0x00, 0x00, 0x00, 0x00, 0x00, 0x00, 0x00, 0x00, 0x00]) "zwCmdIncluded" = some 1 ∧
    num (decode [0x23, 0x02, 0x00, 0xd0, 0x60, 0x00, 0x00, 0x05, 0x84, 0x02, 0x04, 0x00, 0x52, 0x02, 0x01, 0x00, 0x01, 0x21, 0x00, 0x00, 0x00, 0x00, 0x00, 0x00, 0x00, 0x00, 0x00, 0x00, 0x00, 0x00, 0x00, 0x00, 0x00, 0x00, 0x00, 0x00, 0x00, 0x00, 0x00, 0x00, 0x00, 0x00, 0x00, 0x00, 0x00, 0x00]) "moreInformation" = some 0 ∧
    num (decode [0x23, 0x02, 0x00, 0xd0, 0x60, 0x00, 0x00, 0x05, 0x84, 0x02, 0x04, 0x00, 0x52, 0x02, 0x01, 0x00, 0x01, 0x21, 0x00, 0x00, 0x00, 0x00, 0x00, 0x00, 0x00, 0x00, 0x00, 0x00, 0x00, 0x00, 0x00, 0x00, 0x00, 0x00, 0x00, 0x00, 0x00, 0x00, 0x00, 0x00, 0x00, 0x00, 0x00, 0x00, 0x00, 0x00]) "secureOrigin" = some 1 ∧
    num (decode [0x23, 0x02, 0x00, 0xd0, 0x60, 0x00, 0x00, 0x05, 0x84, 0x02, 0x04, 0x00, 0x52, 0x02, 0x01, 0x00, 0x01, 0x21, 0x00, 0x00, 0x00, 0x00, 0x00, 0x00, 0x00, 0x00, 0x00, 0x00, 0x00, 0x00, 0x00, 0x00, 0x00, 0x00, 0x00, 0x00, 0x00, 0x00, 0x00, 0x00, 0x00, 0x00, 0x00, 0x00, 0x00, 0x00]) "seqNo" = some 96 ∧
    num (decode [0x23, 0x02, 0x00, 0xd0, 0x60, 0x00, 0x00, 0x05, 0x84, 0x02, 0x04, 0x00, 0x52, 0x02, 0x01, 0x00, 0x01, 0x21, 0x00, 0x00, 0x00, 0x00, 0x00, 0x00, 0x00, 0x00, 0x00, 0x00, 0x00, 0x00, 0x00, 0x00, 0x00, 0x00, 0x00, 0x00, 0x00, 0x00, 0x00, 0x00, 0x00, 0x00, 0x00, 0x00, 0x00, 0x00]) "sourceEP" = some 0 ∧
    num (decode [0x23, 0x02, 0x00, 0xd0, 0x60, 0x00, 0x00, 0x05, 0x84, 0x02, 0x04, 0x00, 0x52, 0x02, 0x01, 0x00, 0x01, 0x21, 0x00, 0x00, 0x00, 0x00, 0x00, 0x00, 0x00, 0x00, 0x00, 0x00, 0x00, 0x00, 0x00, 0x00, 0x00, 0x00, 0x00, 0x00, 0x00, 0x00, 0x00, 0x00, 0x00, 0x00, 0x00, 0x00, 0x00, 0x00]) "destEP" = some 0 ∧
    (decode [0x23, 0x02, 0x00, 0xd0, 0x60, 0x00, 0x00, 0x05, 0x84, 0x02, 0x04, 0x00, 0x52, 0x02, 0x01, 0x00, 0x01, 0x21, 0x00, 0x00, 0x00, 0x00, 0x00, 0x00, 0x00, 0x00, 0x00, 0x00, 0x00, 0x00, 0x00, 0x00, 0x00, 0x00, 0x00, 0x00, 0x00, 0x00, 0x00, 0x00, 0x00, 0x00, 0x00, 0x00, 0x00, 0x00]).map (fun m => m.command.map (·.hid)) = .ok (some Reg.NetworkManagementProxy.NodeListReport.hid) := by decide +kernel

/-- test_cc_zip.py: test_zip_packet_response -/
example : num ((decode [0x23, 0x02, 0x00, 0xd0, 0x60, 0x00, 0x00, 0x05, 0x84, 0x02, 0x04, 0x00, 0x52, 0x02, 0x01, 0x00, 0x01, 0x21, 0x00, 0x00, 0x00, 0x00, 0x00, 0x00, 0x00, 0x00, 0x00, 0x00, 0x00, 0x00, 0x00, 0x00, 0x00, 0x00, 0x00, 0x00, 0x00, 0x00, 0x00, 0x00, 0x00, 0x00, 0x00, 0x00, 0x00, 0x00]).bind (fun m => zipResponse m true)) "ackRequest" = some 0 ∧
    num ((decode [0x23, 0x02, 0x00, 0xd0, 0x60, 0x00, 0x00, 0x05, 0x84, 0x02, 0x04, 0x00, 0x52, 0x02, 0x01, 0x00, 0x01, 0x21, 0x00, 0x00, 0x00, 0x00, 0x00, 0x00, 0x00, 0x00, 0x00, 0x00, 0x00, 0x00, 0x00, 0x00, 0x00, 0x00, 0x00, 0x00, 0x00, 0x00, 0x00, 0x00, 0x00, 0x00, 0x00, 0x00, 0x00, 0x00]).bind (fun m => zipResponse m true)) "ackResponse" = some 1 ∧
    num ((decode [0x23, 0x02, 0x00, 0xd0, 0x60, 0x00, 0x00, 0x05, 0x84, 0x02, 0x04, 0x00, 0x52, 0x02, 0x01, 0x00, 0x01, 0x21, 0x00, 0x00, 0x00, 0x00, 0x00, 0x00, 0x00, 0x00, 0x00, 0x00, 0x00, 0x00, 0x00, 0x00, 0x00, 0x00, 0x00, 0x00, 0x00, 0x00, 0x00, 0x00, 0x00, 0x00, 0x00, 0x00, 0x00, 0x00]).bind (fun m => zipResponse m true)) "nackResponse" = some 0 ∧
    num ((decode [0x23, 0x02, 0x00, 0xd0, 0x60, 0x00, 0x00, 0x05, 0x84, 0x02, 0x04, 0x00, 0x52, 0x02, 0x01, 0x00, 0x01, 0x21, 0x00, 0x00, 0x00, 0x00, 0x00, 0x00, 0x00, 0x00, 0x00, 0x00, 0x00, 0x00, 0x00, 0x00, 0x00, 0x00, 0x00, 0x00, 0x00, 0x00, 0x00, 0x00, 0x00, 0x00, 0x00, 0x00, 0x00, 0x00]).bind (fun m => zipResponse m true)) "nackWaiting" = some 0 ∧
    num ((decode [0x23, 0x02, 0x00, 0xd0, 0x60, 0x00, 0x00, 0x05, 0x84, 0x02, 0x04, 0x00, 0x52, 0x02, 0x01, 0x00, 0x01, 0x21, 0x00, 0x00, 0x00, 0x00, 0x00, 0x00, 0x00, 0x00, 0x00, 0x00, 0x00, 0x00, 0x00, 0x00, 0x00, 0x00, 0x00, 0x00, 0x00, 0x00, 0x00, 0x00, 0x00, 0x00, 0x00, 0x00, 0x00, 0x00]).bind (fun m => zipResponse m true)) "nackQueueFull" = some 0 ∧
    num ((decode [0x23, 0x02, 0x00, 0xd0, 0x60, 0x00, 0x00, 0x05, 0x84, 0x02, 0x04, 0x00, 0x52, 0x02, 0x01, 0x00, 0x01, 0x21, 0x00, 0x00, 0x00, 0x00, 0x00, 0x00, 0x00, 0x00, 0x00, 0x00, 0x00, 0x00, 0x00, 0x00, 0x00, 0x00, 0x00, 0x00, 0x00, 0x00, 0x00, 0x00, 0x00, 0x00, 0x00, 0x00, 0x00, 0x00]).bind (fun m => zipResponse m true)) "nackOptionError" = some 0 ∧
    num ((decode [0x23, 0x02, 0x00, 0xd0, 0x60, 0x00, 0x00, 0x05, 0x84, 0x02, 0x04, 0x00, 0x52, 0x02, 0x01, 0x00, 0x01, 0x21, 0x00, 0x00, 0x00, 0x00, 0x00, 0x00, 0x00, 0x00, 0x00, 0x00, 0x00, 0x00, 0x00, 0x00, 0x00, 0x00, 0x00, 0x00, 0x00, 0x00, 0x00, 0x00, 0x00, 0x00, 0x00, 0x00, 0x00, 0x00]).bind (fun m => zipResponse m true)) "seqNo" = some 96 ∧
    num ((decode [0x23, 0x02, 0x00, 0xd0, 0x60, 0x00, 0x00, 0x05, 0x84, 0x02, 0x04, 0x00, 0x52, 0x02, 0x01, 0x00, 0x01, 0x21, 0x00, 0x00, 0x00, 0x00, 0x00, 0x00, 0x00, 0x00, 0x00, 0x00, 0x00, 0x00, 0x00, 0x00, 0x00, 0x00, 0x00, 0x00, 0x00, 0x00, 0x00, 0x00, 0x00, 0x00, 0x00, 0x00, 0x00, 0x00]).bind (fun m => zipResponse m false false true)) "ackRequest" = some 0 ∧
    num ((decode [0x23, 0x02, 0x00, 0xd0, 0x60, 0x00, 0x00, 0x05, 0x84, 0x02, 0x04, 0x00, 0x52, 0x02, 0x01, 0x00, 0x01, 0x21, 0x00, 0x00, 0x00, 0x00, 0x00, 0x00, 0x00, 0x00, 0x00, 0x00, 0x00, 0x00, 0x00, 0x00, 0x00, 0x00, 0x00, 0x00, 0x00, 0x00, 0x00, 0x00, 0x00, 0x00, 0x00, 0x00, 0x00, 0x00]).bind (fun m => zipResponse m false false true)) "ackResponse" = some 0 ∧
    num ((decode [0x23, 0x02, 0x00, 0xd0, 0x60, 0x00, 0x00, 0x05, 0x84, 0x02, 0x04, 0x00, 0x52, 0x02, 0x01, 0x00, 0x01, 0x21, 0x00, 0x00, 0x00, 0x00, 0x00, 0x00, 0x00, 0x00, 0x00, 0x00, 0x00, 0x00, 0x00, 0x00, 0x00, 0x00, 0x00, 0x00, 0x00, 0x00, 0x00, 0x00, 0x00, 0x00, 0x00, 0x00, 0x00, 0x00]).bind (fun m => zipResponse m false false true)) "nackResponse" = some 1 ∧
    num ((decode [0x23, 0x02, 0x00, 0xd0, 0x60, 0x00, 0x00, 0x05, 0x84, 0x02, 0x04, 0x00, 0x52, 0x02, 0x01, 0x00, 0x01, 0x21, 0x00, 0x00, 0x00, 0x00, 0x00, 0x00, 0x00, 0x00, 0x00, 0x00, 0x00, 0x00, 0x00, 0x00, 0x00, 0x00, 0x00, 0x00, 0x00, 0x00, 0x00, 0x00, 0x00, 0x00, 0x00, 0x00, 0x00, 0x00]).bind (fun m => zipResponse m false false true)) "nackWaiting" = some 0 ∧
    num ((decode [0x23, 0x02, 0x00, 0xd0, 0x60, 0x00, 0x00, 0x05, 0x84, 0x02, 0x04, 0x00, 0x52, 0x02, 0x01, 0x00, 0x01, 0x21, 0x00, 0x00, 0x00, 0x00, 0x00, 0x00, 0x00, 0x00, 0x00, 0x00, 0x00, 0x00, 0x00, 0x00, 0x00, 0x00, 0x00, 0x00, 0x00, 0x00, 0x00, 0x00, 0x00, 0x00, 0x00, 0x00, 0x00, 0x00]).bind (fun m => zipResponse m false false true)) "nackQueueFull" = some 1 ∧
    num ((decode [0x23, 0x02, 0x00, 0xd0, 0x60, 0x00, 0x00, 0x05, 0x84, 0x02, 0x04, 0x00, 0x52, 0x02, 0x01, 0x00, 0x01, 0x21, 0x00, 0x00, 0x00, 0x00, 0x00, 0x00, 0x00, 0x00, 0x00, 0x00, 0x00, 0x00, 0x00, 0x00, 0x00, 0x00, 0x00, 0x00, 0x00, 0x00, 0x00, 0x00, 0x00, 0x00, 0x00, 0x00, 0x00, 0x00]).bind (fun m => zipResponse m false false true)) "nackOptionError" = some 0 ∧
    num ((decode [0x23, 0x02, 0x00, 0xd0, 0x60, 0x00, 0x00, 0x05, 0x84, 0x02, 0x04, 0x00, 0x52, 0x02, 0x01, 0x00, 0x01, 0x21, 0x00, 0x00, 0x00, 0x00, 0x00, 0x00, 0x00, 0x00, 0x00, 0x00, 0x00, 0x00, 0x00, 0x00, 0x00, 0x00, 0x00, 0x00, 0x00, 0x00, 0x00, 0x00, 0x00, 0x00, 0x00, 0x00, 0x00, 0x00]).bind (fun m => zipResponse m false false true)) "seqNo" = some 96 := by decide +kernel

/-- test_cc_zip.py: test_zip_packet_ima -/
example : ((got (deserHdr (Reader.new [0x1e, 0x03, 0x1b, 0x00, 0x01, 0x00, 0x01, 0x02, 0x00, 0x6d, 0x02, 0x05, 0x34, 0x00, 0x00, 0x00, 0x02, 0x03, 0x05, 0x7e, 0x7f, 0x7f, 0x7f, 0x7f, 0x04, 0x01, 0x01, 0x05, 0x01, 0x01]))).bind fun d => (coerce .hdr (.hdr d)).map fun v => match v with | .hdr d => (Dict.get? d 3).isSome | _ => false) = .ok true := by decide +kernel

/-- test_cc_zip.py: test_zip_packet_ima -/
example : ((got (deserHdr (Reader.new [0x05, 0x84, 0x02, 0x04, 0x00, 0x5f, 0x03, 0x01]))).bind fun d => (coerce .hdr (.hdr d)).map fun v => match v with | .hdr d => (Dict.get? d 4).isSome | _ => false) = .ok true := by decide +kernel

/-- test_cc_zip_nd.py: test_zipnd_zipnodeadvertisement -/
example : typ (decode [0x58, 0x01, 0x00, 0x06, 0x00, 0x00, 0x00, 0x00, 0x00, 0x00, 0x00, 0x00, 0x00, 0x00, 0xff, 0xff, 0xc0, 0xa8, 0x00, 0xee, 0xea, 0xec, 0xfa, 0xf9]) = some Reg.ZipND.ZipNodeAdvertisement.hid ∧
    num (decode [0x58, 0x01, 0x00, 0x06, 0x00, 0x00, 0x00, 0x00, 0x00, 0x00, 0x00, 0x00, 0x00, 0x00, 0xff, 0xff, 0xc0, 0xa8, 0x00, 0xee, 0xea, 0xec, 0xfa, 0xf9]) "local" = some 0 ∧
    num (decode [0x58, 0x01, 0x00, 0x06, 0x00, 0x00, 0x00, 0x00, 0x00, 0x00, 0x00, 0x00, 0x00, 0x00, 0xff, 0xff, 0xc0, 0xa8, 0x00, 0xee, 0xea, 0xec, 0xfa, 0xf9]) "nodeId" = some 6 ∧
    num (decode [0x58, 0x01, 0x00, 0x06, 0x00, 0x00, 0x00, 0x00, 0x00, 0x00, 0x00, 0x00, 0x00, 0x00, 0xff, 0xff, 0xc0, 0xa8, 0x00, 0xee, 0xea, 0xec, 0xfa, 0xf9]) "homeId" = some 3941399289 ∧
    val (decode [0x58, 0x01, 0x00, 0x06, 0x00, 0x00, 0x00, 0x00, 0x00, 0x00, 0x00, 0x00, 0x00, 0x00, 0xff, 0xff, 0xc0, 0xa8, 0x00, 0xee, 0xea, 0xec, 0xfa, 0xf9]) "ipv6" = some (.ipv6 [0x00, 0x00, 0x00, 0x00, 0x00, 0x00, 0x00, 0x00, 0x00, 0x00, 0xff, 0xff, 0xc0, 0xa8, 0x00, 0xee]) ∧
    (decode [0x58, 0x01, 0x00, 0x06, 0x00, 0x00, 0x00, 0x00, 0x00, 0x00, 0x00, 0x00, 0x00, 0x00, 0xff, 0xff, 0xc0, 0xa8, 0x00, 0xee, 0xea, 0xec, 0xfa, 0xf9]).bind compose = .ok [0x58, 0x01, 0x00, 0x06, 0x00, 0x00, 0x00, 0x00, 0x00, 0x00, 0x00, 0x00, 0x00, 0x00, 0xff, 0xff, 0xc0, 0xa8, 0x00, 0xee, 0xea, 0xec, 0xfa, 0xf9] := by decide +kernel

/-! ## tests/test_adaper.py -/

/-- test_nack_negative_expected_delay: the packet makes the call wait, the acknowledgement completes it. -/
example : let nack : Bytes := [0x23, 0x02, 0x30, 0x90, 0x01, 0x00, 0x00, 0x16, 0x01, 0x03, 0xff, 0xf9, 0xc3, 0x03, 0x0e, 0x00, 0x01, 0x00, 0x01, 0x02, 0x00, 0x1a, 0x02, 0x05, 0x00, 0x00, 0x00, 0x00, 0x02]
    let ack : Bytes := [0x23, 0x02, 0x40, 0x10, 0x01, 0x00, 0x00]
    (decode nack).bind (fun m => match m.attr "headerExtension" with | some (.hdr d) => expectedDelay d | _ => .error .type) = .ok (-1597) ∧
    (Conn.run Conn.init [.send .pure 0 0 3, .packet nack, .resume 0]).sends.map (·.pc) = [.waiting] ∧
    (Conn.run Conn.init [.send .pure 0 0 3, .packet nack, .resume 0, .packet ack, .resume 0]).sends.map (·.pc) = [.done (.ok true)] := by decide +kernel

/-- test_nack_waiting: the packet makes the call wait, the acknowledgement completes it. -/
example : let nack : Bytes := [0x23, 0x02, 0x30, 0x90, 0x01, 0x00, 0x00, 0x16, 0x01, 0x03, 0x00, 0x06, 0x3d, 0x03, 0x0e, 0x00, 0x01, 0x00, 0x01, 0x02, 0x00, 0x1a, 0x02, 0x05, 0x00, 0x00, 0x00, 0x00, 0x02]
    let ack : Bytes := [0x23, 0x02, 0x40, 0x10, 0x01, 0x00, 0x00]
    (decode nack).bind (fun m => match m.attr "headerExtension" with | some (.hdr d) => expectedDelay d | _ => .error .type) = .ok (1597) ∧
    (Conn.run Conn.init [.send .pure 0 0 3, .packet nack, .resume 0]).sends.map (·.pc) = [.waiting] ∧
    (Conn.run Conn.init [.send .pure 0 0 3, .packet nack, .resume 0, .packet ack, .resume 0]).sends.map (·.pc) = [.done (.ok true)] := by decide +kernel

/-- test_ack_timeout, test_send_timeout (test_zipconnection.py) -/
example : (Conn.run Conn.init [.send .pure 0 0 0, .timer 0, .resume 0, .cancelled 0]).sends.map (·.pc) = [.done (.ok false)] := by decide +kernel

/-- test_ack_not_existing, test_nack_not_existing: nothing is registered under the number. -/
example : (Conn.ackReceived Conn.init (.known 0x2302 [("seqNo", .num (.uint 1) 43)])).2 = .ok false ∧
    (Conn.ackReceived Conn.init (.known 0x2302 [("nackResponse", .num .flag 1), ("nackWaiting", .num .flag 1), ("seqNo", .num (.uint 1) 43)])).2 = .ok false := by
  decide +kernel

/-! ## tests/test_zipconnection.py -/

/-- test_onPacket -/
example : (Conn.onPacket Conn.init [0x6d, 0x61, 0x6c, 0x66, 0x6f, 0x72, 0x6d, 0x65, 0x64]).2 = .ok false ∧
    (Conn.onPacket Conn.init [0x20, 0x03]).2 = .ok false ∧
    (Conn.onPacket Conn.init [0x20]).2 = .ok false ∧
    (Conn.onPacket Conn.init [0x72, 0x05, 0x01]).2 = .ok false := by decide +kernel

/-- What `onPacket` returns for a composed packet. -/
def onComposed (m : Py Msg) : Py Bool := (m.bind compose).bind fun b => (Conn.onPacket Conn.init b).2

/-- test_onPacket_Zip (in the code the handlers of acknowledgements and commands are mocks) -/
example : onComposed (constructZip (nums [("ackRequest", 0), ("ackResponse", 1), ("nackResponse", 0), ("nackWaiting", 0), ("nackQueueFull", 0), ("nackOptionError", 0), ("headerExtIncluded", 0), ("zwCmdIncluded", 0), ("moreInformation", 0), ("secureOrigin", 1), ("seqNo", 0), ("sourceEP", 0), ("destEP", 0)]) .pure) = .ok true ∧
    onComposed (constructZip (nums [("ackRequest", 0), ("ackResponse", 0), ("nackResponse", 1), ("nackWaiting", 0), ("nackQueueFull", 0), ("nackOptionError", 0), ("headerExtIncluded", 0), ("zwCmdIncluded", 0), ("moreInformation", 0), ("secureOrigin", 1), ("seqNo", 0), ("sourceEP", 0), ("destEP", 0)]) .pure) = .ok false ∧
    onComposed (constructZip (nums [("ackRequest", 0), ("ackResponse", 0), ("nackResponse", 1), ("nackWaiting", 1), ("nackQueueFull", 0), ("nackOptionError", 0), ("headerExtIncluded", 0), ("zwCmdIncluded", 0), ("moreInformation", 0), ("secureOrigin", 1), ("seqNo", 0), ("sourceEP", 0), ("destEP", 0)]) .pure) = .ok true ∧
    onComposed (constructZip (nums [("ackRequest", 1), ("ackResponse", 0), ("nackResponse", 0), ("nackWaiting", 0), ("nackQueueFull", 0), ("nackOptionError", 0), ("headerExtIncluded", 0), ("zwCmdIncluded", 0), ("moreInformation", 0), ("secureOrigin", 1), ("seqNo", 0), ("sourceEP", 0), ("destEP", 0)]) .pure) = .ok false ∧
    onComposed (constructZip (nums [("ackRequest", 0), ("ackResponse", 0), ("nackResponse", 0), ("nackWaiting", 0), ("nackQueueFull", 0), ("nackOptionError", 0), ("headerExtIncluded", 0), ("zwCmdIncluded", 1), ("moreInformation", 0), ("secureOrigin", 1), ("seqNo", 0), ("sourceEP", 0), ("destEP", 0)]) (.known Reg.Basic.Get.hid [])) = .ok true := by decide +kernel

/-- test_onPacket_ZipND -/
example : onComposed (construct Reg.Zip.ZipKeepAlive (nums [("ackRequest", 1), ("ackResponse", 0)])) = .ok false ∧
    onComposed (construct Reg.Zip.ZipKeepAlive (nums [("ackRequest", 0), ("ackResponse", 1)])) = .ok true := by decide +kernel

/-- test_keepAlive -/
example : Conn.keepAlivePacket = .ok [0x23, 0x03, 0x80] := by decide +kernel

/-- test_send -/
example : (Conn.run Conn.init [.connect, .send (.known Reg.Basic.Get.hid []) 0 0 3]).out = [[0x23, 0x02, 0x80, 0x50, 0x01, 0x00, 0x00, 0x20, 0x02]] ∧
    (Conn.run Conn.init [.connect, .send (.known Reg.Basic.Get.hid []) 0 0 3, .packet [0x23, 0x02, 0x40, 0x10, 0x01, 0x00, 0x00], .resume 0]).sends.map (·.pc) = [.done (.ok true)] := by
  decide +kernel

end Props.Vectors
