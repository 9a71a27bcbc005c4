{"claims": [
{"property": "C01", "status": "proved", "theorems": ["Props.C01_bits", "Props.C01_peek_stable", "Props.C01_bit"], "note": ""},
{"property": "C02", "status": "proved", "theorems": ["Props.C02_value", "Props.C02_value_never_short", "Props.C02_eof", "Props.C02_byte", "Props.C02_remaining", "Props.C02_peek"], "note": ""},
{"property": "C03", "status": "proved", "theorems": ["Props.C03_writes"], "note": ""},
{"property": "C04", "status": "proved", "theorems": ["Props.C04_addBytes"], "note": ""},
{"property": "C05", "status": "proved", "theorems": ["Props.C05_int_roundtrip"], "note": ""},
{"property": "C06", "status": "proved", "theorems": ["Props.C06_roundtrip", "Props.C06_zip_roundtrip"], "note": ""},
{"property": "C07", "status": "proved", "theorems": ["Props.C07_layouts_cover", "Props.C07_layout"], "note": ""},
{"property": "C08", "status": "proved", "theorems": ["Props.C08_unique", "Props.C08_short", "Props.C08_unknown", "Props.C08_own_type"], "note": ""},
{"property": "C09", "status": "proved", "theorems": ["Props.C09_terminates"], "note": ""},
{"property": "C10", "status": "proved", "theorems": ["Props.C10_no_guess", "Props.C10_errors"], "note": ""},
{"property": "C11", "status": "partial", "theorems": ["Props.Clashing.C11_sensorGet_partial", "Props.Clashing.C11_solicitation_partial", "Props.Clashing.C11_endPoints_partial", "Props.Clashing.C11_cachedReport_partial", "Props.Clashing.C11_nodeFailing_partial", "Props.Clashing.C11_targets_partial", "Props.Clashing.C11_supervision_partial", "Props.Clashing.C11_supervision_empty_partial", "Props.Clashing.C11_zip_partial", "Props.Clashing.C11_zip_empty_partial", "Props.Clashing.C11_one_way_partial", "Props.Clashing.C11_unknown_partial", "Props.Clashing.C11_covered", "Props.C11_violated", "Props.C11_recompose_partial", "Props.C11_any_packet_partial", "Props.C11_truncated_partial"], "note": "Violated by the code (C11_violated). What decoding and composing gives instead is proved for every registered message and every packet (C11_covered lists them): most layouts give the packet back without trailing bytes, the others are described one by one."},
{"property": "C12", "status": "partial", "theorems": ["Props.C12_violated", "Props.C12_contained_partial"], "note": "Violated by the code (C12_violated): an over-range value changes attributes before it in the same byte. Proved: attributes in other bytes and later attributes are unchanged, negative values raise."},
{"property": "C13", "status": "proved", "theorems": ["Props.C13_response", "Props.C13_decoded"], "note": ""},
{"property": "C14", "status": "proved", "theorems": ["Props.C14_expected_delay"], "note": ""},
{"property": "C15", "status": "proved", "theorems": ["Props.C15_bad_option", "Props.C15_extension_too_long"], "note": ""},
{"property": "C16", "status": "proved", "theorems": ["Props.C16_nodes_wire", "Props.C16_same_targets", "Props.C16_too_large"], "note": ""},
{"property": "C17", "status": "proved", "theorems": ["Props.C17_nodes_state", "Props.C17_nodes_tuples"], "note": ""},
{"property": "C18", "status": "proved", "theorems": ["Props.C18_node_list", "Props.C18_failed_node_list", "Props.C18_short_mask"], "note": ""},
{"property": "C19", "status": "partial", "theorems": ["Props.C19_limit", "Props.C19_violated", "Props.C19_reportable_partial"], "note": "Violated by the code (C19_violated): only 28 of the 29 bytes of the node mask are read, nodes 225 to 232 are dropped. Proved for node ids up to 224."},
{"property": "C20", "status": "partial", "theorems": ["Props.C20_big_endian_partial", "Props.C20_violated", "Props.C20_one_byte_partial"], "note": "Violated by the code (C20_violated): masks of several bytes are read in the wrong byte order. Proved for one byte masks, and exactly which sensors are reported for longer ones."},
{"property": "C21", "status": "proved", "theorems": ["Props.C21_dsk_text", "Props.C21_other_text", "Props.C21_raw"], "note": ""},
{"property": "C22", "status": "proved", "theorems": ["Props.C22_scaled_value", "Props.C22_truncated", "Props.C22_sensor_report"], "note": ""},
{"property": "C23", "status": "proved", "theorems": ["Props.C23_set", "Props.C23_report", "Props.C23_report_truncated"], "note": ""},
{"property": "C24", "status": "partial", "theorems": ["Props.C24_violated", "Props.C24_decode_partial"], "note": "Violated by the code (C24_violated): composing leaves out the length of the supervised command. Proved: what decoding yields."},
{"property": "C25", "status": "proved", "theorems": ["Props.C25_command_classes"], "note": ""},
{"property": "C26", "status": "proved", "theorems": ["Props.C26_command_list", "Props.C26_command_list_truncated", "Props.C26_group_info"], "note": ""},
{"property": "C27", "status": "proved", "theorems": ["Props.C27_node_failing"], "note": ""},
{"property": "C28", "status": "proved", "theorems": ["Props.C28_metadata"], "note": ""},
{"property": "C29", "status": "proved", "theorems": ["Props.C29_true_only_after_ack"], "note": ""},
{"property": "C30", "status": "partial", "theorems": ["Props.C30_violated", "Props.C30_ack_completes_partial", "Props.C30_no_other_partial", "Props.C30_after_waiting_partial"], "note": "Violated by the code (C30_violated): an earlier send that cleans up late removes the registration of a newer one with the same number. Proved when no unfinished send has the same number, and that a packet affects no other send."},
{"property": "C31", "status": "proved", "theorems": ["Props.C31_rearms", "Props.C31_keeps_pending"], "note": ""},
{"property": "C32", "status": "proved", "theorems": ["Props.C32_registered", "Props.C32_reusable"], "note": ""},
{"property": "C33", "status": "proved", "theorems": ["Props.C33_consecutive", "Props.C33_distinct", "Props.C33_transmitted", "Props.C33_uncomposable", "Props.C33_number_taken"], "note": ""},
{"property": "C34", "status": "proved", "theorems": ["Props.C34_undecodable"], "note": ""},
{"property": "C35", "status": "partial", "theorems": ["Props.C35_violated", "Props.C35_command_partial", "Props.C35_responses_partial", "Props.C35_ignored_partial"], "note": "Violated by the code (C35_violated): a command arriving while its waiter is timing out is not delivered at all. Proved: exactly one delivery otherwise, responses are never delivered, other packets change nothing."},
{"property": "C36", "status": "partial", "theorems": ["Props.C36_violated", "Props.C36_with_extension_partial"], "note": "Violated by the code (C36_violated): a waiting response without header extension raises AttributeError. Proved with extension."},
{"property": "C37", "status": "proved", "theorems": ["Props.C37_one_timer", "Props.C37_rearmed", "Props.C37_keep_alive"], "note": ""},
{"property": "C38", "status": "proved", "theorems": ["Props.C38_requested_type"], "note": ""},
{"property": "C39", "status": "partial", "theorems": ["Props.C39_violated", "Props.C39_at_most_one_partial", "Props.C39_resolved_once_partial"], "note": "Violated by the code (C39_violated): a message arriving while its waiter is timing out raises InvalidStateError. Proved: at most one session is resolved, never twice, and the exact outcome in every reachable state."},
{"property": "C40", "status": "proved", "theorems": ["Props.C40_early_reply"], "note": ""},
{"property": "C41", "status": "partial", "theorems": ["Props.C41_violated", "Props.C41_reply_after_ack_partial"], "note": "Violated by the code (C41_violated): a reply arriving before the acknowledgement is lost. Proved for replies after it."},
{"property": "C42", "status": "partial", "theorems": ["Props.C42_violated", "Props.C42_delivery_violated", "Props.C42_shared_partial"], "note": "Violated by the code (C42_violated, C42_delivery_violated): a timeout cancels other callers, a finished caller removes the session of another one. Proved: all callers sharing the registered session get the message."},
{"property": "C43", "status": "partial", "theorems": ["Props.Gateway.C43_first_255_partial", "Props.Gateway.C43_stuck_partial", "Props.Gateway.C43_violated"], "note": "Violated by the code (C43_violated): the command number is never reduced, the 256th command and all later ones raise OverflowError. Proved: the first 255 commands are transmitted with their numbers; every later one raises."},
{"property": "C44", "status": "proved", "theorems": ["Props.Gateway.C44_table_is_report", "Props.Gateway.C44_progress"], "note": ""},
{"property": "C45", "status": "proved", "theorems": ["Props.Gateway.C45_known_sender", "Props.Gateway.C45_known_sender_extension", "Props.Gateway.C45_unknown_sender", "Props.Gateway.C45_undecodable", "Props.Gateway.C45_returns"], "note": ""},
{"property": "C46", "status": "proved", "theorems": ["Props.Gateway.C46_attributed", "Props.Gateway.C46_returned", "Props.Gateway.C46_same_connection", "Props.Gateway.C46_delivered", "Props.Gateway.C46_told"], "note": ""},
{"property": "C47", "status": "partial", "theorems": ["Props.Gateway.C47_advertisement_bytes", "Props.Gateway.C47_violated", "Props.Gateway.C47_undisturbed_partial"], "note": "Violated by the code (C47_violated): an advertisement is taken for the answer to any lookup in flight. Proved when no advertisement for another node arrives during the call."},
{"property": "C48", "status": "partial", "theorems": ["Props.Node.C48_violated", "Props.Node.C48_every_list_partial", "Props.Node.C48_supported_partial", "Props.Node.C48_controlled_partial"], "note": "Violated by the code (C48_violated): a list ending with 0xF1 raises IndexError. Proved: every other list is read as described."},
{"property": "C49", "status": "partial", "theorems": ["Props.Node.C49_violated", "Props.Node.C49_unsupervised_partial", "Props.Node.C49_supervised_partial", "Props.Node.C49_raising_partial"], "note": "Violated by the code (C49_violated): a Supervision.Get without a command raises AttributeError and is not answered. Proved when handling the command does not raise."},
{"property": "C50", "status": "proved", "theorems": ["Props.Node.C50_routing"], "note": ""},
{"property": "C51", "status": "proved", "theorems": ["Props.Node.C51_batching"], "note": ""},
{"property": "C52", "status": "partial", "theorems": ["Props.Node.C52_violated", "Props.Node.C52_not_reentered_partial"], "note": "Violated by the code (C52_violated): entering the lock again forgets the updates so far. Proved when the lock is not entered again."},
{"property": "C53", "status": "proved", "theorems": ["Props.App.C53_orderly", "Props.App.C53_nodes", "Props.App.C53_ids", "Props.App.C53_kept", "Props.App.C53_succeeds"], "note": ""},
{"property": "C54", "status": "proved", "theorems": ["Props.App.C54_told", "Props.App.C54_removed", "Props.App.C54_added"], "note": ""},
{"property": "C55", "status": "proved", "theorems": ["Props.App.C55_unambiguous", "Props.App.C55_handed", "Props.App.C55_only", "Props.App.C55_unknown"], "note": ""},
{"property": "C56", "status": "proved", "theorems": ["Props.App.C56_ignored", "Props.App.C56_add", "Props.App.C56_remove", "Props.App.C56_removed_only", "Props.App.C56_other"], "note": ""},
{"property": "C57", "status": "partial", "theorems": ["Props.App.C57_violated", "Props.App.C57_violated_stale", "Props.App.C57_violated_twice", "Props.App.C57_table_partial", "Props.App.C57_told_partial"], "note": "Violated by the code (C57_violated, C57_violated_stale, C57_violated_twice): overlapping updates raise KeyError, keep nodes that have left, and load nodes twice. Proved for all interleavings: ids are unique and right, the controller is never entered, and only reported nodes are entered and announced."},
{"property": "C58", "status": "partial", "theorems": ["Props.Interview.C58_violated", "Props.Interview.C58_marked_partial", "Props.Interview.C58_during_partial"], "note": "Violated by the code (C58_violated): if the version is lost (a report of version 0, or a loaded state), an interview that cannot determine it leaves the mark of an earlier one. Proved for all histories of interviews that do not overlap."},
{"property": "C59", "status": "partial", "theorems": ["Props.Configuration.C59_violated", "Props.Configuration.C59_handled", "Props.Configuration.C59_cached_partial", "Props.Configuration.C59_uncached_partial", "Props.Configuration.C59_wire"], "note": "Violated by the code (C59_violated): a report truncated after the parameter number makes get() return 0 from then on. Proved for all other histories."},
{"property": "C60", "status": "proved", "theorems": ["Props.Sensor.C60_filter", "Props.Sensor.C60_truncated"], "note": ""},
{"property": "C61", "status": "proved", "theorems": ["Props.Association.C61_groups", "Props.Association.C61_content"], "note": ""},
{"property": "C62", "status": "proved", "theorems": ["Props.Association.C62_lifeline"], "note": ""},
{"property": "C63", "status": "proved", "theorems": ["Props.GroupInfo.C63_groups", "Props.GroupInfo.C63_unknown", "Props.GroupInfo.C63_information"], "note": ""},
{"property": "C64", "status": "proved", "theorems": ["Props.Storage.C64_restored", "Props.Storage.C64_others", "Props.Storage.C64_never_saved"], "note": ""},
{"property": "C65", "status": "partial", "theorems": ["Props.Storage.C65_always", "Props.Storage.C65_violated", "Props.Storage.C65_partial"], "note": "Violated by the code (C65_violated): a command class that was not interviewed is marked interviewed after loading, because the text 'false' is true. Proved: a command class that was interviewed stays so."},
{"property": "C66", "status": "partial", "theorems": ["Props.Storage.C66_partial", "Props.Storage.C66_violated"], "note": "Violated by the code (C66_violated): the numbers in the command lists are loaded as texts. Proved: groups, names and profiles are restored."},
{"property": "C67", "status": "partial", "theorems": ["Props.Storage.C67_lost", "Props.Storage.C67_violated", "Props.Storage.C67_partial"], "note": "Violated by the code (C67_violated): after the file was opened the previous settings are gone and loading raises. Proved for stops before and after, that other nodes are never affected and that the next save repairs the file."},
{"property": "C68", "status": "proved", "theorems": ["Props.Node.C68_effects", "Props.Node.C68_results", "Props.Node.C68_calls", "Props.Node.C68_ask_once", "Props.Node.C68_isolation"], "note": ""},
{"property": "C69", "status": "proved", "theorems": ["Props.Mailbox.C69_conserved", "Props.Mailbox.C69_handed"], "note": ""},
{"property": "C70", "status": "proved", "theorems": ["Props.Mailbox.C70_unique", "Props.Mailbox.C70_available"], "note": ""},
{"property": "C71", "status": "partial", "theorems": ["Props.Mailbox.C71_violated", "Props.Mailbox.C71_refused_partial"], "note": "Violated by the code (C71_violated): two overlapping pushes of the same entry are both stored. Proved: a push of an entry that is already stored is refused in every history; uniqueness without overlap is C70, which is proved."},
{"property": "C72", "status": "partial", "theorems": ["Props.Mailbox.C72_violated", "Props.Mailbox.C72_latest_partial", "Props.Mailbox.C72_single_partial"], "note": "Violated by the code (C72_violated): the latest entry is handed out first. Proved: exactly which entry is handed out, and the order for queues that never hold more than one entry."},
{"property": "C73", "status": "proved", "theorems": ["Props.Mailbox.C73_wire", "Props.Mailbox.C73_last"], "note": ""},
{"property": "C74", "status": "partial", "theorems": ["Props.Mailbox.C74_violated", "Props.Mailbox.C74_kept_partial"], "note": "Violated by the code (C74_violated): an entry is removed before it is sent. Proved: nothing but handing out an entry removes it."},
{"property": "C75", "status": "partial", "theorems": ["Props.Mailbox.C75_violated", "Props.Mailbox.C75_sequence_partial", "Props.Mailbox.C75_only_partial", "Props.Mailbox.C75_running_partial", "Props.Mailbox.C75_stops_partial"], "note": "Violated by the code (C75_violated): the heartbeat of an entry whose delivery failed never ends. Proved: which heartbeats are sent, that every stored entry has a running heartbeat and that it ends with successful delivery."},
{"property": "C76", "status": "partial", "theorems": ["Props.Mailbox.C76_violated", "Props.Mailbox.C76_announced_partial", "Props.Mailbox.C76_stored_partial", "Props.Mailbox.C76_neighbours_partial", "Props.Mailbox.C76_byte_partial"], "note": "Violated by the code (C76_violated): entries with equal CRC are taken for duplicates. Proved when the checksums differ, and that they differ for entries that differ in at most two neighbouring bytes."},
{"property": "C77", "status": "partial", "theorems": ["Props.C77_violated", "Props.C77_length_zero_partial"], "note": "Violated by the code (C77_violated): length 0 makes the parser go back one byte and the length byte is taken as the start of the command. Proved: the exact (wrong) outcome."},
{"property": "C78", "status": "proved", "theorems": ["Props.C78_maintenance_report"], "note": ""},
{"property": "C79", "status": "proved", "theorems": ["Props.C79_text", "Props.C79_rejected", "Props.C79_group_name", "Props.C79_group_name_rejected"], "note": ""},
{"property": "C80", "status": "proved", "theorems": ["Props.C80_contains"], "note": ""},
{"property": "C81", "status": "partial", "theorems": ["Props.C81_violated", "Props.C81_outcomes_partial"], "note": "Violated by the code (C81_violated): an acknowledgement arriving just after the timer makes send() raise KeyError. Proved: the possible outcomes and when KeyError is raised."},
{"property": "C82", "status": "partial", "theorems": ["Props.GatewayCalls.C82_violated", "Props.GatewayCalls.C82_newest_partial", "Props.GatewayCalls.C82_wins_partial"], "note": "Violated by the code (C82_violated): the older handler, still looking up a node, adds it after the newer report removed it. Proved: after a report the table never has other nodes than those of the report and those that earlier handlers had still to look up then, and it has all nodes of the report when its handler has ended without an exception."},
{"property": "C83", "status": "partial", "theorems": ["Props.GatewayCalls.C83_violated", "Props.GatewayCalls.C83_answered_partial"], "note": "Violated by the code (C83_violated): a node that does not answer ends the handler with TimeoutError. Proved when it ends normally."},
{"property": "C84", "status": "partial", "theorems": ["Props.GatewayCalls.C84_violated", "Props.GatewayCalls.C84_not_overlapping_partial"], "note": "Violated by the code (C84_violated): the second connection replaces the first. Proved when no calls for a node overlap."},
{"property": "C85", "status": "partial", "theorems": ["Props.GatewayCalls.C85_violated", "Props.GatewayCalls.C85_result_partial"], "note": "Violated by the code (C85_violated): send() returns False instead of raising TimeoutError, and the result is ignored. Proved: the exact outcome."},
{"property": "C86", "status": "proved", "theorems": ["Props.GatewayCalls.C86_asks", "Props.GatewayCalls.C86_sets_if_different", "Props.GatewayCalls.C86_no_report", "Props.GatewayCalls.C86_report", "Props.GatewayMode.C86_result"], "note": ""},
{"property": "C87", "status": "proved", "theorems": ["Props.GatewayCalls.C87_result", "Props.GatewayCalls.C87_cached", "Props.GatewayCalls.C87_list", "Props.GatewayCalls.C87_stored", "Props.GatewayCalls.C87_end_points", "Props.GatewayCalls.C87_status"], "note": ""},
{"property": "C88", "status": "partial", "theorems": ["Props.GatewayCalls.C88_violated", "Props.GatewayCalls.C88_undisturbed_partial"], "note": "Violated by the code (C88_violated): a report for another node is accepted. Proved when none arrives during the call."},
{"property": "C89", "status": "proved", "theorems": ["Props.C89_fresh"], "note": ""},
{"property": "C90", "status": "partial", "theorems": ["Props.Interview.C90_violated", "Props.Interview.C90_mark_partial", "Props.Interview.C90_cleared_partial"], "note": "Violated by the code (C90_violated): the interview that ends first marks the class while the other still runs. Proved: the start of an interview always clears the mark and only the end of one (or loading) sets it."},
{"property": "C91", "status": "partial", "theorems": ["Props.Configuration.C91_violated", "Props.Configuration.C91_value_partial"], "note": "Violated by the code (C91_violated): the next report is taken for the answer whichever parameter it is about. Proved when answers are for the right parameter."},
{"property": "C92", "status": "proved", "theorems": ["Props.GroupInfo.C92_copied", "Props.GroupInfo.C92_unanswered", "Props.GroupInfo.C92_truncated", "Props.GroupInfo.C92_version", "Props.GroupInfo.C92_manufacturer", "Props.GroupInfo.C92_plus"], "note": ""},
{"property": "C93", "status": "partial", "theorems": ["Props.Mailbox.C93_violated", "Props.Mailbox.C93_answered_partial"], "note": "Violated by the code (C93_violated): an acknowledgement for queue 0 before any wakeup raises TypeError. Proved in all other cases."},
{"property": "C94", "status": "partial", "theorems": ["Props.App.C94_violated", "Props.App.C94_announced_partial"], "note": "Violated by the code (C94_violated): if the end points of a node cannot be read the node stays in the table and is never announced. Proved for all histories of calls that do not overlap and end normally."},
{"property": "C95", "status": "proved", "theorems": ["Props.App.C95_started"], "note": ""},
{"property": "C96", "status": "proved", "theorems": ["Props.Storage.C96_last"], "note": ""},
{"property": "C97", "status": "proved", "theorems": ["Props.ToNode.C97_connected", "Props.ToNode.C97_opened", "Props.ToNode.C97_unconnected", "Props.ToNode.C97_raises", "Props.ToNode.C97_only", "Props.ToNode.C97_true", "Props.ToNode.C97_result", "Props.ToNode.C97_node"], "note": ""},
{"property": "C98", "status": "proved", "theorems": ["Props.Wire.C98_connection", "Props.Wire.C98_unsolicited", "Props.Wire.C98_only", "Props.Wire.C98_no_endpoint"], "note": ""},
{"property": "C99", "status": "proved", "theorems": ["Props.NodeInterview.C99_all", "Props.NodeInterview.C99_raises", "Props.NodeInterview.C99_running", "Props.NodeInterview.C99_begins", "Props.NodeInterview.C99_continues", "Props.NodeInterview.C99_lock"], "note": ""},
{"property": "C100", "status": "proved", "theorems": ["Props.System.C100_answer", "Props.System.C100_acknowledged"], "note": ""},
{"property": "C101", "status": "proved", "theorems": ["Props.Ends.C101_waiting", "Props.Ends.C101_wait", "Props.Ends.C101_sendAndReceive", "Props.Ends.Send.C101_send", "Props.Ends.Send.C101_queued"], "note": ""},
{"property": "C102", "status": "proved", "theorems": ["Props.Socket.C102_handed"], "note": ""},
{"property": "C103", "status": "partial", "theorems": ["Props.Socket.C103_violated", "Props.Socket.C103_unconnected_partial", "Props.Socket.C103_connected_partial", "Props.Socket.C103_only_partial", "Props.Socket.C103_empty_partial"], "note": "Violated: send() returns True after the connection was lost or stopped. Proved: the answer and what is sent in every state, and that nothing else is sent."},
{"property": "C104", "status": "partial", "theorems": ["Props.Socket.C104_violated", "Props.Socket.C104_ended_partial", "Props.Socket.C104_once_partial"], "note": "Violated: the loss of the socket of an earlier connect() closes that of a later one. Proved for connections that are connected once, and that this is the only exception."},
{"property": "C105", "status": "proved", "theorems": ["Props.Meter.C105_report", "Props.Meter.C105_truncated"], "note": ""},
{"property": "C106", "status": "partial", "theorems": ["Props.Interview.C106_returns_partial", "Props.Version.C106_violated", "Props.Version.C106_answer_partial", "Props.Version.C106_question_partial", "Props.Version.C106_taken_partial", "Props.Version.C106_stored_partial"], "note": "Violated: the report for one class is taken as the answer for every class whose version is being asked for at that moment. Proved: the question names the class, the stored version is that of the report that was taken, and the report is for the class if no report for another class arrives after the call."},
{"property": "C107", "status": "partial", "theorems": ["Props.Frames.C107_first_partial", "Props.Frames.C107_single_partial", "Props.Frames.C107_violated"], "note": "Violated: only the first report is held. Proved: exactly the nodes of the first report are held, so a list that fits in one report is complete."},
{"property": "C108", "status": "partial", "theorems": ["Props.Dsk.C108_violated", "Props.Dsk.C108_sent_partial"], "note": "Violated: the length of the key is missing. Proved: everything else is sent as given."},
{"property": "C109", "status": "partial", "theorems": ["Props.Dsk.C109_violated", "Props.Dsk.C109_digits_violated", "Props.Dsk.C109_pin_text_violated", "Props.Dsk.C109_whole_partial", "Props.Dsk.C109_refused_partial"], "note": "Violated: a key as found in a report raises AttributeError, the two bytes of a PIN raise ValueError, a PIN as text is accepted but not sent. Proved: whole keys as bytes or text are sent, and what is refused raises before anything is sent."},
{"property": "C110", "status": "proved", "theorems": ["Props.Dtls.C110_handed", "Props.Dtls.C110_all", "Props.Dtls.C110_sender", "Props.Dtls.C110_errors"], "note": ""},
{"property": "C111", "status": "proved", "theorems": ["Props.Dtls.C111_returns", "Props.Dtls.C111_not_before", "Props.Dtls.C111_once", "Props.Dtls.C111_ends", "Props.Dtls.C111_timeout"], "note": ""},
{"property": "C112", "status": "partial", "theorems": ["Props.Dtls.C112_violated", "Props.Dtls.C112_handshake_violated", "Props.Dtls.C112_one_more_partial"], "note": "Violated: a datagram that arrives after stop() is handed on, and stop() during the handshake has no effect. Proved: once the thread reads, at most one more datagram is handed on."},
{"property": "C113", "status": "partial", "theorems": ["Props.Dtls.C113_violated", "Props.Dtls.C113_fits_partial"], "note": "Violated: the length of the buffer is ignored, so a key longer than it is written over what follows. Proved for keys that fit."},
{"property": "C114", "status": "partial", "theorems": ["Props.Equality.C114_violated", "Props.Equality.C114_raises_violated", "Props.Equality.C114_equal_partial"], "note": "Violated: messages of unknown types are all equal, and comparing a truncated message raises AttributeError. Proved: two complete messages with a known layout are equal exactly if they are the same bytes, and then have the same type and values."},
{"property": "C115", "status": "partial", "theorems": ["Props.Raises.C115_violated", "Props.Raises.C115_exact_partial", "Props.Raises.C115_harmless_partial"], "note": "Violated: a packet that promises a command and has none. Proved: exactly which datagrams raise in which states, with which exceptions, and that they change nothing for any call or listener."},
{"property": "C116", "status": "partial", "theorems": ["Props.Removal.C116_violated", "Props.Removal.C116_reported_partial", "Props.Removal.C116_not_removed_partial", "Props.Removal.C116_raises_partial"], "note": "Violated: a report about another node is taken for this one. Proved: True means a report received during the call says a node was removed, and this one if no report about another arrives; any other status or none gives False."},
{"property": "C117", "status": "partial", "theorems": ["Props.Setup.C117_violated", "Props.Setup.C117_addresses_partial", "Props.Setup.C117_progress_partial", "Props.Setup.C117_unanswered_partial"], "note": "Violated: getNodeList() during connect() replaces the table. Proved: if nothing else changes the table every node has an address, kept or advertised during the call; each answered lookup gets on; an unanswered one makes connect() raise TimeoutError."},
{"property": "C118", "status": "partial", "theorems": ["Props.Persist.C118_violated", "Props.Persist.C118_violated_interview", "Props.Persist.C118_violated_nested", "Props.Persist.C118_when", "Props.Persist.C118_written_partial", "Props.Persist.C118_partial", "Props.Persist.C118_interviews", "Props.Persist.C118_config"], "note": "Violated: group reports, interviews that time out and nested storage locks leave settings unsaved. Proved: exactly when the file is written; it then holds everything; and without such changes the settings are on disk whenever the storage is not locked."},
{"property": "C119", "status": "partial", "theorems": ["Props.Persist.C119_partial", "Props.Persist.C119_application", "Props.Persist.C119_violated"], "note": "Violated: a report between loading and announcing a node overwrites its file before it is read. Proved for every schedule in which nothing was saved for the node before."},
{"property": "C120", "status": "partial", "theorems": ["Props.Persist.C120_violated", "Props.Persist.C120_partial"], "note": "Violated: files are never removed, so the new node gets the old one's settings. Proved: nothing is loaded for a node number that was never saved."},
{"property": "C121", "status": "proved", "theorems": ["Props.GatewayTime.C121_not_early", "Props.GatewayTime.C121_ends"], "note": ""},
{"property": "C122", "status": "proved", "theorems": ["Props.Patience.Wait.C122_wait", "Props.Patience.Send.C122_send"], "note": ""},
{"property": "C123", "status": "partial", "theorems": ["Props.Leftover.C123_violated", "Props.Leftover.C123_partial", "Props.Leftover.C123_once"], "note": "Violated: a sendAndReceive() that ends while its command is being sent (an exception, cancellation, or a node that does not acknowledge) leaves its session behind, which takes the next message of the type. Proved: nothing else leaves one behind, and it takes only one message."},
{"property": "C124", "status": "partial", "theorems": ["Props.Connect.C124_violated", "Props.Connect.C124_order_partial", "Props.Connect.C124_registered_partial", "Props.Connect.C124_mode_partial", "Props.Connect.C124_ignored"], "note": "Violated: the results of setGatewayMode() and of the send are ignored, so connect() returns although the gateway never answered. Proved: the order of the steps, what is transmitted, and that both hold unless no mode was reported for three seconds or a send returned False."},
{"property": "C125", "status": "partial", "theorems": ["Props.Connect.C125_violated", "Props.Connect.C125_port_partial", "Props.Connect.C125_not_listening"], "note": "Violated: the address is fixed, 192.168.0.49, whatever the address of this host. Proved: the port is the one that is listened on, and nothing is registered if listening failed."},
{"property": "C126", "status": "proved", "theorems": ["Props.MailboxInit.C126_transmits", "Props.MailboxInit.C126_true_only_after_ack", "Props.MailboxInit.C126_bad_port"], "note": ""},
{"property": "C127", "status": "proved", "theorems": ["Props.Debug.C127_digits", "Props.Debug.C127_received", "Props.Debug.C127_constructed", "Props.Debug.C127_shown", "Props.Debug.C127_command", "Props.Debug.C127_numbers", "Props.Debug.C127_enum", "Props.Debug.C127_title", "Props.Debug.C127_class", "Props.Debug.C127_options", "Props.Debug.C127_route"], "note": ""},
{"property": "C128", "status": "proved", "theorems": ["Props.Dispatch.C128_id", "Props.Dispatch.C128_object", "Props.Dispatch.C128_class_name", "Props.Dispatch.C128_name", "Props.Dispatch.C128_handlers", "Props.Dispatch.C128_method", "Props.Dispatch.C128_distinct", "Props.Dispatch.C128_reserved", "Props.Dispatch.C128_one_type", "Props.Dispatch.C128_called"], "note": ""},
{"property": "C129", "status": "proved", "theorems": ["Props.Device.C129_parameters", "Props.Device.C129_groups", "Props.Device.C129_stored"], "note": ""},
{"property": "C130", "status": "proved", "theorems": ["Props.Device.C130_once", "Props.Device.C130_origin", "Props.Device.C130_result", "Props.Device.C130_supervised", "Props.GroupAsk.C130_group_name", "Props.GroupAsk.C130_group_commands", "Props.Device.C130_heard"], "note": ""},
{"property": "C131", "status": "partial", "theorems": ["Props.Device.C131_name_partial", "Props.Device.C131_violated"], "note": "Violated: a name report without the name gives the group the name None. Proved: otherwise a name was loaded or came in a name report for this group from this node and end point."},
{"property": "C132", "status": "partial", "theorems": ["Props.Boot.C132_violated", "Props.Boot.C132_origin_partial", "Props.Boot.C132_info", "Props.Boot.C132_info_empty", "Props.Boot.C132_capability"], "note": "Violated: startup and an update that ask for two nodes at the same time wait for the same kind of report, and one gets the information of the other's node. Proved for all histories: nodes of the table were listed, and what is said of them came in a node info or capability report."},
{"property": "C133", "status": "partial", "theorems": ["Props.Boot.C133_violated", "Props.Boot.C133_own_node_partial"], "note": "Violated: a node list report that arrives by itself before the gateway was asked leaves the controller id at 0, and the controller is loaded as a node. Proved: not if the controller id is known whenever such a report arrives."},
{"property": "C134", "status": "partial", "theorems": ["Props.Boot.C134_violated", "Props.Boot.C134_all_partial", "Props.Boot.C134_cause"], "note": "Violated: a silent node ends startup with a TypeError and nodes already loaded are never announced. Proved: startup without an exception announces exactly the table, and the possible causes of an exception."},
{"property": "C135", "status": "partial", "theorems": ["Props.Startup.C135_started_partial", "Props.Startup.C135_plain_partial", "Props.Startup.C135_overflow_partial", "Props.Startup.C135_violated"], "note": "Violated: the 256th question of startup raises OverflowError (C43), so networks with many multi channel nodes cannot be started. Proved: startup ends well, with the right table, for every network that needs at most 255 questions (all networks without multi channel nodes do), and fails for every other. The schedule is one in which every answer arrives before anything else happens."},
{"property": "C136", "status": "proved", "theorems": ["Props.GroupAsk.C136_asked", "Props.GroupAsk.C136_own_calls", "Props.GroupAsk.C136_next", "Props.GroupAsk.C136_starts", "Props.GroupAsk.C136_no_groups"], "note": ""},
{"property": "C137", "status": "partial", "theorems": ["Props.Follow.C137_followed_partial", "Props.Follow.C137_settled", "Props.Follow.C137_overflow_partial", "Props.Follow.C137_violated"], "note": "Violated: once 255 questions have been asked (C43) an update raises OverflowError. Proved: as long as the number of questions stays within 255 every update ends well with the right tables, and beyond it fails. The schedule is one in which every answer arrives before anything else happens, and the gateway itself is among the nodes it reports."},
{"property": "C138", "status": "proved", "theorems": ["Props.Attributes.C138_read", "Props.Attributes.C138_set", "Props.Attributes.C138_shared"], "note": ""},
{"property": "C139", "status": "partial", "theorems": ["Props.Attributes.C139_never_partial", "Props.Attributes.C139_violated"], "note": "Violated: nothing in the library sets isFailed. Proved: isFailed and flirs of every object stay False unless the user sets them."},
{"property": "C140", "status": "proved", "theorems": ["Props.System.C140_heard"], "note": ""},
{"property": "C141", "status": "proved", "theorems": ["Props.C141_encapsulation"], "note": ""},
{"property": "C142", "status": "proved", "theorems": ["Props.Float.C142_sensor", "Props.Float.C142_meter", "Props.Float.C142_distinct", "Props.Float.C142_digits"], "note": ""},
{"property": "C143", "status": "proved", "theorems": ["Props.InTime.C143_safe", "Props.InTime.C143_live"], "note": ""},
{"property": "C144", "status": "proved", "theorems": ["Props.InTimeUpdate.C144_safe", "Props.InTimeUpdate.C144_live", "Props.InTimeUpdate.C144_started", "Props.InTimeUpdate.C144_between"], "note": ""},
{"property": "C145", "status": "proved", "theorems": ["Props.Late.C145_state", "Props.Late.C145_others", "Props.Late.C145_once", "Props.Late.C145_order", "Props.Late.C145_gateway", "Props.Late.C145_application", "Props.Late.C145_meanwhile", "Props.Late.C145_table"], "note": ""},
{"property": "C146", "status": "proved", "theorems": ["Props.Truthful.C146_known", "Props.Truthful.C146_returns", "Props.Truthful.C146_finishes", "Props.Truthful.C146_zero"], "note": ""},
{"property": "C147", "status": "proved", "theorems": ["Props.Ask.C147_order", "Props.Ask.C147_numbers", "Props.Ask.C147_everyone", "Props.Ask.C147_answers", "Props.Ask.C147_raises", "Props.Ask.C147_waits", "Props.Ask.C147_independent", "Props.Ask.C147_once"], "note": ""},
{"property": "C148", "status": "partial", "theorems": ["Props.Body.C148_violated", "Props.Body.C148_violated_silent", "Props.Body.C148_partial", "Props.Body.C148_asks_partial", "Props.Body.C148_sensors_partial", "Props.Body.C148_association_partial", "Props.Body.C148_groupInfo_partial", "Props.Body.C148_wire_partial", "Props.Body.C148_awaits_partial"], "note": "Violated: Association is marked although the node did not tell about its groups, AssociationGrpInfo although its question was not acknowledged. Proved for Version, ManufacturerSpecific, ZwavePlusInfo and SensorMultilevel, and exactly what can be missing for the two others."},
{"property": "C149", "status": "proved", "theorems": ["Props.ClassRun.C149_marked", "Props.ClassRun.C149_answered", "Props.ClassRun.C149_report", "Props.ClassRun.C149_history", "Props.ClassRun.C149_latest", "Props.ClassRun.C149_version"], "note": ""},
{"property": "C150", "status": "partial", "theorems": ["Props.ClassNet.C150_network_violated", "Props.ClassRun.C150_violated", "Props.ClassRun.C150_partial", "Props.ClassRun.C150_latest_partial"], "note": "Violated: the sensor type in the report is not looked at, so a late answer is stored for the sensor that is being asked for; also in the whole network when the node only answers questions. Proved when each answer is for the sensor that was asked for, and what is held in any case."},
{"property": "C151", "status": "partial", "theorems": ["Props.Innocent.C151_complete_partial", "Props.Innocent.C151_violated", "Props.Innocent.C151_partial", "Props.Innocent.C151_association_partial", "Props.Innocent.C151_same_partial"], "note": "Violated: Association iterates over its groups while it awaits; if an overlapping interview learns of more groups, RuntimeError is raised. Proved for the other classes in every schedule, and for Association in every schedule in which the node always reports the same number of groups."},
{"property": "C152", "status": "proved", "theorems": ["Props.ClassNet.C152_answers", "Props.ClassNet.C152_commands", "Props.ClassNet.C152_version", "Props.ClassNet.C152_values", "Props.ClassNet.C152_scales", "Props.ClassNet.C152_groups"], "note": ""},
{"property": "C153", "status": "proved", "theorems": ["Props.Silence.C153_ends", "Props.Silence.C153_all"], "note": ""},
{"property": "C154", "status": "proved", "theorems": ["Props.GatewayEnds.C154_ends", "Props.GatewayEnds.C154_all"], "note": ""},
{"property": "C155", "status": "proved", "theorems": ["Props.BootEnds.C155_ends", "Props.BootEnds.C155_all"], "note": ""},
{"property": "C156", "status": "proved", "theorems": ["Props.NodeNet.C156_class", "Props.NodeNet.C156_answers", "Props.NodeNet.C156_commands", "Props.NodeNet.C156_version", "Props.NodeNet.C156_interviewed", "Props.NodeNet.C156_raises"], "note": ""},
{"property": "C157", "status": "proved", "theorems": ["Props.NodeNet.C157_ends", "Props.NodeNet.C157_all"], "note": ""},
{"property": "C158", "status": "partial", "theorems": ["Props.NodeNet.C158_violated", "Props.NodeNet.C158_unreachable", "Props.NodeNet.C158_left_out_partial", "Props.NodeNet.C158_blame_partial"], "note": "Violated: Node.interview() catches only timeouts, so a report that is too short, or a connection that cannot be opened, ends it at that class. Proved: a class is left out only after the interview of an earlier class raised something that is no timeout; and for classes that raise nothing on their own, with complete reports, a request or a send of that interview raised it."},
{"property": "C159", "status": "proved", "theorems": ["Props.Connect.C159_ends", "Props.Connect.C159_all"], "note": ""},
{"property": "C160", "status": "proved", "theorems": ["Props.MailNet.C160_heartbeats", "Props.MailNet.C160_stored", "Props.MailNet.C160_sent", "Props.MailNet.C160_stopped"], "note": ""},
{"property": "C161", "status": "partial", "theorems": ["Props.MailNet.C161_violated", "Props.MailNet.C161_one_partial", "Props.MailNet.C161_queues_partial", "Props.MailNet.C161_violated_unnamed", "Props.MailNet.C161_waiting_partial"], "note": "Violated: queues are found by their number alone, so a node that wakes up with the number of another node's queue gets the entry of that node, whose heartbeats then stop. Also with different numbers: an acknowledgement with queue number 0 is taken for the queue of the node that woke up last. Proved: it holds when each number is used by one node only and every acknowledgement names its queue, and when only one node uses the mailbox; and messages that only say that an entry waits always go to the node that pushed it."},
{"property": "C162", "status": "proved", "theorems": ["Props.MailEnds.C162_ends", "Props.MailEnds.C162_beat", "Props.MailEnds.C162_all"], "note": ""},
{"property": "C163", "status": "proved", "theorems": ["Props.Restarts.C163_version", "Props.Restarts.C163_values", "Props.Restarts.C163_scales"], "note": ""},
{"property": "C164", "status": "partial", "theorems": ["Props.Restarts.C164_violated", "Props.Restarts.C164_partial"], "note": "Violated, with every YAML library: a class that was saved before it was interviewed is marked after loading (C65), although no run has ever interviewed it. Proved: it holds if files are only written while the class is marked."},
{"property": "C165", "status": "partial", "theorems": ["Props.Sleeping.C165_violated", "Props.Sleeping.C165_partial"], "note": "Violated: the 256th send after one that is still queued raises 'Duplicate ackid used!', with only one send outstanding. Proved: a send is not refused if all but the last 255 sends have ended and were not cancelled."},
{"property": "C166", "status": "partial", "theorems": ["Props.Sleeping.C166_violated", "Props.Sleeping.C166_partial"], "note": "Violated: the packet of a send that is refused (C165) has been transmitted, and its acknowledgement makes the older send with the same number return True. Proved for sends that are not followed by 256 further ones."},
{"property": "C167", "status": "partial", "theorems": ["Props.Sleeping.C167_forever", "Props.Sleeping.C167_violated", "Props.Sleeping.C167_partial", "Props.Sleeping.C167_always", "Props.Sleeping.C167_first", "Props.Sleeping.C167_nodes"], "note": "Violated: the number of a cancelled send stays registered until it is acknowledged, so every 256th later send raises, for ever (C167_forever); this is so in all schedules without the acknowledgement (C167_always, C167_first), also for calls of sendToNode (C167_nodes). Proved: it holds when the sends that were cancelled have been acknowledged nevertheless."},
{"property": "C168", "status": "partial", "theorems": ["Props.Announced.C168_violated", "Props.Announced.C168_violated_late", "Props.Announced.C168_partial", "Props.Announced.C168_silent"], "note": "Violated: an exception of sendToNode ends a heartbeat, also when its entry is still stored (C168_violated: the number of an outstanding command is taken again; C168_violated_late: the acknowledgement of a heartbeat arrives when its timer has just fired), and it is silent for ever (C168_silent). Proved: every stored entry has a heartbeat that goes on unless sendToNode raised for one of its heartbeats."}
]}
