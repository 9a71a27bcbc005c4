# Axioms of the theorems in MANIFEST.json

Generated by `tools/gen_axioms.py` from `#print axioms`.

| property | theorem | axioms |
|---|---|---|
| C01 | `Props.C01_bits` | Classical.choice, Quot.sound, propext |
| C01 | `Props.C01_peek_stable` | propext |
| C01 | `Props.C01_bit` | Classical.choice, Quot.sound, propext |
| C02 | `Props.C02_value` | Classical.choice, Quot.sound, propext |
| C02 | `Props.C02_value_never_short` | Quot.sound, propext |
| C02 | `Props.C02_eof` | Quot.sound, propext |
| C02 | `Props.C02_byte` | Quot.sound, propext |
| C02 | `Props.C02_remaining` | Quot.sound, propext |
| C02 | `Props.C02_peek` | Quot.sound, propext |
| C03 | `Props.C03_writes` | Classical.choice, Quot.sound, propext |
| C04 | `Props.C04_addBytes` | Classical.choice, Quot.sound, propext |
| C05 | `Props.C05_int_roundtrip` | Classical.choice, Quot.sound, propext |
| C06 | `Props.C06_roundtrip` | Classical.choice, Quot.sound, propext |
| C06 | `Props.C06_zip_roundtrip` | Classical.choice, Quot.sound, propext |
| C07 | `Props.C07_layouts_cover` | propext |
| C07 | `Props.C07_layout` | Classical.choice, Quot.sound, propext |
| C08 | `Props.C08_unique` | none |
| C08 | `Props.C08_short` | Quot.sound, propext |
| C08 | `Props.C08_unknown` | Classical.choice, Quot.sound, propext |
| C08 | `Props.C08_own_type` | Classical.choice, Quot.sound, propext |
| C09 | `Props.C09_terminates` | Classical.choice, Quot.sound, propext |
| C10 | `Props.C10_no_guess` | Quot.sound, propext |
| C10 | `Props.C10_errors` | Classical.choice, Quot.sound, propext |
| C11 | `Props.Clashing.C11_sensorGet_partial` | Classical.choice, Quot.sound, propext |
| C11 | `Props.Clashing.C11_solicitation_partial` | Classical.choice, Quot.sound, propext |
| C11 | `Props.Clashing.C11_endPoints_partial` | Classical.choice, Quot.sound, propext |
| C11 | `Props.Clashing.C11_cachedReport_partial` | Classical.choice, Quot.sound, propext |
| C11 | `Props.Clashing.C11_nodeFailing_partial` | Classical.choice, Quot.sound, propext |
| C11 | `Props.Clashing.C11_targets_partial` | Classical.choice, Quot.sound, propext |
| C11 | `Props.Clashing.C11_supervision_partial` | Classical.choice, Quot.sound, propext |
| C11 | `Props.Clashing.C11_supervision_empty_partial` | Classical.choice, Quot.sound, propext |
| C11 | `Props.Clashing.C11_zip_partial` | Classical.choice, Quot.sound, propext |
| C11 | `Props.Clashing.C11_zip_empty_partial` | Classical.choice, Quot.sound, propext |
| C11 | `Props.Clashing.C11_one_way_partial` | Classical.choice, Quot.sound, propext |
| C11 | `Props.Clashing.C11_unknown_partial` | Classical.choice, Quot.sound, propext |
| C11 | `Props.Clashing.C11_covered` | Quot.sound, propext |
| C11 | `Props.C11_violated` | Quot.sound, propext |
| C11 | `Props.C11_recompose_partial` | Classical.choice, Quot.sound, propext |
| C11 | `Props.C11_any_packet_partial` | Classical.choice, Quot.sound, propext |
| C11 | `Props.C11_truncated_partial` | Classical.choice, Quot.sound, propext |
| C12 | `Props.C12_violated` | Classical.choice, Quot.sound, propext |
| C12 | `Props.C12_contained_partial` | Classical.choice, Quot.sound, propext |
| C13 | `Props.C13_response` | Classical.choice, Quot.sound, propext |
| C13 | `Props.C13_decoded` | Classical.choice, Quot.sound, propext |
| C14 | `Props.C14_expected_delay` | Classical.choice, Quot.sound, propext |
| C15 | `Props.C15_bad_option` | Classical.choice, Quot.sound, propext |
| C15 | `Props.C15_extension_too_long` | Classical.choice, Quot.sound, propext |
| C16 | `Props.C16_nodes_wire` | Quot.sound, propext |
| C16 | `Props.C16_same_targets` | propext |
| C16 | `Props.C16_too_large` | Quot.sound, propext |
| C17 | `Props.C17_nodes_state` | Classical.choice, Quot.sound, propext |
| C17 | `Props.C17_nodes_tuples` | propext |
| C18 | `Props.C18_node_list` | Classical.choice, Quot.sound, propext |
| C18 | `Props.C18_failed_node_list` | Classical.choice, Quot.sound, propext |
| C18 | `Props.C18_short_mask` | Classical.choice, Quot.sound, propext |
| C19 | `Props.C19_limit` | Classical.choice, Quot.sound, propext |
| C19 | `Props.C19_violated` | Classical.choice, Quot.sound, propext |
| C19 | `Props.C19_reportable_partial` | Classical.choice, Quot.sound, propext |
| C20 | `Props.C20_big_endian_partial` | Classical.choice, Quot.sound, propext |
| C20 | `Props.C20_violated` | Quot.sound, propext |
| C20 | `Props.C20_one_byte_partial` | Classical.choice, Quot.sound, propext |
| C21 | `Props.C21_dsk_text` | Classical.choice, Quot.sound, propext |
| C21 | `Props.C21_other_text` | propext |
| C21 | `Props.C21_raw` | Quot.sound, propext |
| C22 | `Props.C22_scaled_value` | Classical.choice, Quot.sound, propext |
| C22 | `Props.C22_truncated` | Classical.choice, Quot.sound, propext |
| C22 | `Props.C22_sensor_report` | Classical.choice, Quot.sound, propext |
| C23 | `Props.C23_set` | Classical.choice, Quot.sound, propext |
| C23 | `Props.C23_report` | Classical.choice, Quot.sound, propext |
| C23 | `Props.C23_report_truncated` | Classical.choice, Quot.sound, propext |
| C24 | `Props.C24_violated` | Quot.sound, propext |
| C24 | `Props.C24_decode_partial` | Classical.choice, Quot.sound, propext |
| C25 | `Props.C25_command_classes` | Classical.choice, Quot.sound, propext |
| C26 | `Props.C26_command_list` | Classical.choice, Quot.sound, propext |
| C26 | `Props.C26_command_list_truncated` | Classical.choice, Quot.sound, propext |
| C26 | `Props.C26_group_info` | Classical.choice, Quot.sound, propext |
| C27 | `Props.C27_node_failing` | Classical.choice, Quot.sound, propext |
| C28 | `Props.C28_metadata` | Classical.choice, Quot.sound, propext |
| C29 | `Props.C29_true_only_after_ack` | Classical.choice, Quot.sound, propext |
| C30 | `Props.C30_violated` | Classical.choice, Quot.sound, propext |
| C30 | `Props.C30_ack_completes_partial` | Classical.choice, Quot.sound, propext |
| C30 | `Props.C30_no_other_partial` | Classical.choice, Quot.sound, propext |
| C30 | `Props.C30_after_waiting_partial` | Classical.choice, Quot.sound, propext |
| C31 | `Props.C31_rearms` | Classical.choice, Quot.sound, propext |
| C31 | `Props.C31_keeps_pending` | Classical.choice, Quot.sound, propext |
| C32 | `Props.C32_registered` | Classical.choice, Quot.sound, propext |
| C32 | `Props.C32_reusable` | Classical.choice, Quot.sound, propext |
| C33 | `Props.C33_consecutive` | Classical.choice, Quot.sound, propext |
| C33 | `Props.C33_distinct` | Classical.choice, Quot.sound, propext |
| C33 | `Props.C33_transmitted` | Classical.choice, Quot.sound, propext |
| C33 | `Props.C33_uncomposable` | Classical.choice, Quot.sound, propext |
| C33 | `Props.C33_number_taken` | Quot.sound, propext |
| C34 | `Props.C34_undecodable` | Quot.sound, propext |
| C35 | `Props.C35_violated` | Quot.sound, propext |
| C35 | `Props.C35_command_partial` | Quot.sound, propext |
| C35 | `Props.C35_responses_partial` | Quot.sound, propext |
| C35 | `Props.C35_ignored_partial` | Quot.sound, propext |
| C36 | `Props.C36_violated` | Quot.sound, propext |
| C36 | `Props.C36_with_extension_partial` | Classical.choice, Quot.sound, propext |
| C37 | `Props.C37_one_timer` | Classical.choice, Quot.sound, propext |
| C37 | `Props.C37_rearmed` | Classical.choice, Quot.sound, propext |
| C37 | `Props.C37_keep_alive` | Quot.sound, propext |
| C38 | `Props.C38_requested_type` | Quot.sound, propext |
| C39 | `Props.C39_violated` | propext |
| C39 | `Props.C39_at_most_one_partial` | Quot.sound, propext |
| C39 | `Props.C39_resolved_once_partial` | Quot.sound, propext |
| C40 | `Props.C40_early_reply` | Classical.choice, Quot.sound, propext |
| C41 | `Props.C41_violated` | Quot.sound, propext |
| C41 | `Props.C41_reply_after_ack_partial` | Classical.choice, Quot.sound, propext |
| C42 | `Props.C42_violated` | Quot.sound, propext |
| C42 | `Props.C42_delivery_violated` | Quot.sound, propext |
| C42 | `Props.C42_shared_partial` | Quot.sound, propext |
| C43 | `Props.Gateway.C43_first_255_partial` | Classical.choice, Quot.sound, propext |
| C43 | `Props.Gateway.C43_stuck_partial` | Classical.choice, Quot.sound, propext |
| C43 | `Props.Gateway.C43_violated` | Classical.choice, Quot.sound, propext |
| C44 | `Props.Gateway.C44_table_is_report` | Classical.choice, Quot.sound, propext |
| C44 | `Props.Gateway.C44_progress` | Quot.sound, propext |
| C45 | `Props.Gateway.C45_known_sender` | Classical.choice, Quot.sound, propext |
| C45 | `Props.Gateway.C45_known_sender_extension` | Classical.choice, Quot.sound, propext |
| C45 | `Props.Gateway.C45_unknown_sender` | Quot.sound, propext |
| C45 | `Props.Gateway.C45_undecodable` | Quot.sound, propext |
| C45 | `Props.Gateway.C45_returns` | Classical.choice, Quot.sound, propext |
| C46 | `Props.Gateway.C46_attributed` | Classical.choice, Quot.sound, propext |
| C46 | `Props.Gateway.C46_returned` | Classical.choice, Quot.sound, propext |
| C46 | `Props.Gateway.C46_same_connection` | Classical.choice, Quot.sound, propext |
| C46 | `Props.Gateway.C46_delivered` | Classical.choice, Quot.sound, propext |
| C46 | `Props.Gateway.C46_told` | Classical.choice, Quot.sound, propext |
| C47 | `Props.Gateway.C47_advertisement_bytes` | Classical.choice, Quot.sound, propext |
| C47 | `Props.Gateway.C47_violated` | Quot.sound, propext |
| C47 | `Props.Gateway.C47_undisturbed_partial` | Classical.choice, Quot.sound, propext |
| C48 | `Props.Node.C48_violated` | none |
| C48 | `Props.Node.C48_every_list_partial` | Classical.choice, Quot.sound, propext |
| C48 | `Props.Node.C48_supported_partial` | Classical.choice, Quot.sound, propext |
| C48 | `Props.Node.C48_controlled_partial` | Classical.choice, Quot.sound, propext |
| C49 | `Props.Node.C49_violated` | Classical.choice, Quot.sound, propext |
| C49 | `Props.Node.C49_unsupervised_partial` | Classical.choice, Quot.sound, propext |
| C49 | `Props.Node.C49_supervised_partial` | Classical.choice, Quot.sound, propext |
| C49 | `Props.Node.C49_raising_partial` | Classical.choice, Quot.sound, propext |
| C50 | `Props.Node.C50_routing` | Classical.choice, Quot.sound, propext |
| C51 | `Props.Node.C51_batching` | propext |
| C52 | `Props.Node.C52_violated` | Quot.sound, propext |
| C52 | `Props.Node.C52_not_reentered_partial` | Quot.sound, propext |
| C53 | `Props.App.C53_orderly` | Classical.choice, Quot.sound, propext |
| C53 | `Props.App.C53_nodes` | Classical.choice, Quot.sound, propext |
| C53 | `Props.App.C53_ids` | Classical.choice, Quot.sound, propext |
| C53 | `Props.App.C53_kept` | Classical.choice, Quot.sound, propext |
| C53 | `Props.App.C53_succeeds` | Classical.choice, Quot.sound, propext |
| C54 | `Props.App.C54_told` | Classical.choice, Quot.sound, propext |
| C54 | `Props.App.C54_removed` | Classical.choice, Quot.sound, propext |
| C54 | `Props.App.C54_added` | Classical.choice, Quot.sound, propext |
| C55 | `Props.App.C55_unambiguous` | Classical.choice, Quot.sound, propext |
| C55 | `Props.App.C55_handed` | Quot.sound, propext |
| C55 | `Props.App.C55_only` | Classical.choice, Quot.sound, propext |
| C55 | `Props.App.C55_unknown` | Classical.choice, Quot.sound, propext |
| C56 | `Props.App.C56_ignored` | propext |
| C56 | `Props.App.C56_add` | propext |
| C56 | `Props.App.C56_remove` | propext |
| C56 | `Props.App.C56_removed_only` | Quot.sound, propext |
| C56 | `Props.App.C56_other` | propext |
| C57 | `Props.App.C57_violated` | Quot.sound, propext |
| C57 | `Props.App.C57_violated_stale` | Quot.sound, propext |
| C57 | `Props.App.C57_violated_twice` | Quot.sound, propext |
| C57 | `Props.App.C57_table_partial` | Quot.sound, propext |
| C57 | `Props.App.C57_told_partial` | Quot.sound, propext |
| C58 | `Props.Interview.C58_violated` | propext |
| C58 | `Props.Interview.C58_marked_partial` | Quot.sound, propext |
| C58 | `Props.Interview.C58_during_partial` | Quot.sound, propext |
| C59 | `Props.Configuration.C59_violated` | propext |
| C59 | `Props.Configuration.C59_handled` | propext |
| C59 | `Props.Configuration.C59_cached_partial` | Quot.sound, propext |
| C59 | `Props.Configuration.C59_uncached_partial` | propext |
| C59 | `Props.Configuration.C59_wire` | Classical.choice, Quot.sound, propext |
| C60 | `Props.Sensor.C60_filter` | Classical.choice, Quot.sound, propext |
| C60 | `Props.Sensor.C60_truncated` | Quot.sound, propext |
| C61 | `Props.Association.C61_groups` | Classical.choice, Quot.sound, propext |
| C61 | `Props.Association.C61_content` | Classical.choice, Quot.sound, propext |
| C62 | `Props.Association.C62_lifeline` | Quot.sound, propext |
| C63 | `Props.GroupInfo.C63_groups` | Quot.sound, propext |
| C63 | `Props.GroupInfo.C63_unknown` | propext |
| C63 | `Props.GroupInfo.C63_information` | Quot.sound, propext |
| C64 | `Props.Storage.C64_restored` | Classical.choice, Quot.sound, propext |
| C64 | `Props.Storage.C64_others` | Classical.choice, Quot.sound, propext |
| C64 | `Props.Storage.C64_never_saved` | Classical.choice, Quot.sound, propext |
| C65 | `Props.Storage.C65_always` | Classical.choice, Quot.sound, propext |
| C65 | `Props.Storage.C65_violated` | Classical.choice, Quot.sound, propext |
| C65 | `Props.Storage.C65_partial` | Classical.choice, Quot.sound, propext |
| C66 | `Props.Storage.C66_partial` | Classical.choice, Quot.sound, propext |
| C66 | `Props.Storage.C66_violated` | Classical.choice, Quot.sound, propext |
| C67 | `Props.Storage.C67_lost` | Classical.choice, Quot.sound, propext |
| C67 | `Props.Storage.C67_violated` | Classical.choice, Quot.sound, propext |
| C67 | `Props.Storage.C67_partial` | Classical.choice, Quot.sound, propext |
| C68 | `Props.Node.C68_effects` | propext |
| C68 | `Props.Node.C68_results` | Quot.sound, propext |
| C68 | `Props.Node.C68_calls` | Quot.sound, propext |
| C68 | `Props.Node.C68_ask_once` | Quot.sound, propext |
| C68 | `Props.Node.C68_isolation` | Quot.sound, propext |
| C69 | `Props.Mailbox.C69_conserved` | Quot.sound, propext |
| C69 | `Props.Mailbox.C69_handed` | Quot.sound, propext |
| C70 | `Props.Mailbox.C70_unique` | Quot.sound, propext |
| C70 | `Props.Mailbox.C70_available` | Quot.sound, propext |
| C71 | `Props.Mailbox.C71_violated` | propext |
| C71 | `Props.Mailbox.C71_refused_partial` | Quot.sound, propext |
| C72 | `Props.Mailbox.C72_violated` | Quot.sound, propext |
| C72 | `Props.Mailbox.C72_latest_partial` | Quot.sound, propext |
| C72 | `Props.Mailbox.C72_single_partial` | Quot.sound, propext |
| C73 | `Props.Mailbox.C73_wire` | Classical.choice, Quot.sound, propext |
| C73 | `Props.Mailbox.C73_last` | Quot.sound, propext |
| C74 | `Props.Mailbox.C74_violated` | propext |
| C74 | `Props.Mailbox.C74_kept_partial` | Quot.sound, propext |
| C75 | `Props.Mailbox.C75_violated` | propext |
| C75 | `Props.Mailbox.C75_sequence_partial` | Quot.sound, propext |
| C75 | `Props.Mailbox.C75_only_partial` | Quot.sound, propext |
| C75 | `Props.Mailbox.C75_running_partial` | Quot.sound, propext |
| C75 | `Props.Mailbox.C75_stops_partial` | Quot.sound, propext |
| C76 | `Props.Mailbox.C76_violated` | propext |
| C76 | `Props.Mailbox.C76_announced_partial` | Quot.sound, propext |
| C76 | `Props.Mailbox.C76_stored_partial` | Quot.sound, propext |
| C76 | `Props.Mailbox.C76_neighbours_partial` | Classical.choice, Quot.sound, propext |
| C76 | `Props.Mailbox.C76_byte_partial` | Classical.choice, Quot.sound, propext |
| C77 | `Props.C77_violated` | Quot.sound, propext |
| C77 | `Props.C77_length_zero_partial` | Classical.choice, Quot.sound, propext |
| C78 | `Props.C78_maintenance_report` | Classical.choice, Quot.sound, propext |
| C79 | `Props.C79_text` | Classical.choice, Quot.sound, propext |
| C79 | `Props.C79_rejected` | Classical.choice, Quot.sound, propext |
| C79 | `Props.C79_group_name` | Classical.choice, Quot.sound, propext |
| C79 | `Props.C79_group_name_rejected` | Classical.choice, Quot.sound, propext |
| C80 | `Props.C80_contains` | propext |
| C81 | `Props.C81_violated` | Quot.sound, propext |
| C81 | `Props.C81_outcomes_partial` | Classical.choice, Quot.sound, propext |
| C82 | `Props.GatewayCalls.C82_violated` | Quot.sound, propext |
| C82 | `Props.GatewayCalls.C82_newest_partial` | Classical.choice, Quot.sound, propext |
| C82 | `Props.GatewayCalls.C82_wins_partial` | Classical.choice, Quot.sound, propext |
| C83 | `Props.GatewayCalls.C83_violated` | Quot.sound, propext |
| C83 | `Props.GatewayCalls.C83_answered_partial` | Classical.choice, Quot.sound, propext |
| C84 | `Props.GatewayCalls.C84_violated` | Quot.sound, propext |
| C84 | `Props.GatewayCalls.C84_not_overlapping_partial` | Classical.choice, Quot.sound, propext |
| C85 | `Props.GatewayCalls.C85_violated` | Quot.sound, propext |
| C85 | `Props.GatewayCalls.C85_result_partial` | Quot.sound, propext |
| C86 | `Props.GatewayCalls.C86_asks` | Classical.choice, Quot.sound, propext |
| C86 | `Props.GatewayCalls.C86_sets_if_different` | Classical.choice, Quot.sound, propext |
| C86 | `Props.GatewayCalls.C86_no_report` | Quot.sound, propext |
| C86 | `Props.GatewayCalls.C86_report` | Classical.choice, Quot.sound, propext |
| C86 | `Props.GatewayMode.C86_result` | Classical.choice, Quot.sound, propext |
| C87 | `Props.GatewayCalls.C87_result` | Classical.choice, Quot.sound, propext |
| C87 | `Props.GatewayCalls.C87_cached` | Quot.sound, propext |
| C87 | `Props.GatewayCalls.C87_list` | Classical.choice, Quot.sound, propext |
| C87 | `Props.GatewayCalls.C87_stored` | Classical.choice, Quot.sound, propext |
| C87 | `Props.GatewayCalls.C87_end_points` | Classical.choice, Quot.sound, propext |
| C87 | `Props.GatewayCalls.C87_status` | Classical.choice, Quot.sound, propext |
| C88 | `Props.GatewayCalls.C88_violated` | Quot.sound, propext |
| C88 | `Props.GatewayCalls.C88_undisturbed_partial` | Classical.choice, Quot.sound, propext |
| C89 | `Props.C89_fresh` | Quot.sound, propext |
| C90 | `Props.Interview.C90_violated` | Quot.sound, propext |
| C90 | `Props.Interview.C90_mark_partial` | Quot.sound, propext |
| C90 | `Props.Interview.C90_cleared_partial` | Quot.sound, propext |
| C91 | `Props.Configuration.C91_violated` | propext |
| C91 | `Props.Configuration.C91_value_partial` | Quot.sound, propext |
| C92 | `Props.GroupInfo.C92_copied` | Quot.sound, propext |
| C92 | `Props.GroupInfo.C92_unanswered` | propext |
| C92 | `Props.GroupInfo.C92_truncated` | Quot.sound, propext |
| C92 | `Props.GroupInfo.C92_version` | Classical.choice, Quot.sound, propext |
| C92 | `Props.GroupInfo.C92_manufacturer` | Classical.choice, Quot.sound, propext |
| C92 | `Props.GroupInfo.C92_plus` | Classical.choice, Quot.sound, propext |
| C93 | `Props.Mailbox.C93_violated` | propext |
| C93 | `Props.Mailbox.C93_answered_partial` | Quot.sound, propext |
| C94 | `Props.App.C94_violated` | Quot.sound, propext |
| C94 | `Props.App.C94_announced_partial` | Classical.choice, Quot.sound, propext |
| C95 | `Props.App.C95_started` | Classical.choice, Quot.sound, propext |
| C96 | `Props.Storage.C96_last` | Classical.choice, Quot.sound, propext |
| C97 | `Props.ToNode.C97_connected` | Classical.choice, Quot.sound, propext |
| C97 | `Props.ToNode.C97_opened` | Classical.choice, Quot.sound, propext |
| C97 | `Props.ToNode.C97_unconnected` | Quot.sound, propext |
| C97 | `Props.ToNode.C97_raises` | Quot.sound, propext |
| C97 | `Props.ToNode.C97_only` | Classical.choice, Quot.sound, propext |
| C97 | `Props.ToNode.C97_true` | Classical.choice, Quot.sound, propext |
| C97 | `Props.ToNode.C97_result` | Quot.sound, propext |
| C97 | `Props.ToNode.C97_node` | Quot.sound, propext |
| C98 | `Props.Wire.C98_connection` | Classical.choice, Quot.sound, propext |
| C98 | `Props.Wire.C98_unsolicited` | Classical.choice, Quot.sound, propext |
| C98 | `Props.Wire.C98_only` | Classical.choice, Quot.sound, propext |
| C98 | `Props.Wire.C98_no_endpoint` | propext |
| C99 | `Props.NodeInterview.C99_all` | Classical.choice, Quot.sound, propext |
| C99 | `Props.NodeInterview.C99_raises` | Classical.choice, Quot.sound, propext |
| C99 | `Props.NodeInterview.C99_running` | Classical.choice, Quot.sound, propext |
| C99 | `Props.NodeInterview.C99_begins` | Quot.sound, propext |
| C99 | `Props.NodeInterview.C99_continues` | Quot.sound, propext |
| C99 | `Props.NodeInterview.C99_lock` | Quot.sound, propext |
| C100 | `Props.System.C100_answer` | Classical.choice, Quot.sound, propext |
| C100 | `Props.System.C100_acknowledged` | Classical.choice, Quot.sound, propext |
| C101 | `Props.Ends.C101_waiting` | Quot.sound, propext |
| C101 | `Props.Ends.C101_wait` | Quot.sound, propext |
| C101 | `Props.Ends.C101_sendAndReceive` | Quot.sound, propext |
| C101 | `Props.Ends.Send.C101_send` | Classical.choice, Quot.sound, propext |
| C101 | `Props.Ends.Send.C101_queued` | Classical.choice, Quot.sound, propext |
| C102 | `Props.Socket.C102_handed` | Quot.sound, propext |
| C103 | `Props.Socket.C103_violated` | propext |
| C103 | `Props.Socket.C103_unconnected_partial` | Quot.sound, propext |
| C103 | `Props.Socket.C103_connected_partial` | Quot.sound, propext |
| C103 | `Props.Socket.C103_only_partial` | Quot.sound, propext |
| C103 | `Props.Socket.C103_empty_partial` | Quot.sound, propext |
| C104 | `Props.Socket.C104_violated` | propext |
| C104 | `Props.Socket.C104_ended_partial` | Classical.choice, Quot.sound, propext |
| C104 | `Props.Socket.C104_once_partial` | Classical.choice, Quot.sound, propext |
| C105 | `Props.Meter.C105_report` | Classical.choice, Quot.sound, propext |
| C105 | `Props.Meter.C105_truncated` | Classical.choice, Quot.sound, propext |
| C106 | `Props.Interview.C106_returns_partial` | Quot.sound, propext |
| C106 | `Props.Version.C106_violated` | propext |
| C106 | `Props.Version.C106_answer_partial` | Quot.sound, propext |
| C106 | `Props.Version.C106_question_partial` | Quot.sound, propext |
| C106 | `Props.Version.C106_taken_partial` | Classical.choice, Quot.sound, propext |
| C106 | `Props.Version.C106_stored_partial` | Quot.sound, propext |
| C107 | `Props.Frames.C107_first_partial` | Classical.choice, Quot.sound, propext |
| C107 | `Props.Frames.C107_single_partial` | Classical.choice, Quot.sound, propext |
| C107 | `Props.Frames.C107_violated` | Classical.choice, Quot.sound, propext |
| C108 | `Props.Dsk.C108_violated` | Quot.sound, propext |
| C108 | `Props.Dsk.C108_sent_partial` | Classical.choice, Quot.sound, propext |
| C109 | `Props.Dsk.C109_violated` | Quot.sound, propext |
| C109 | `Props.Dsk.C109_digits_violated` | Quot.sound, propext |
| C109 | `Props.Dsk.C109_pin_text_violated` | Classical.choice, Quot.sound, propext |
| C109 | `Props.Dsk.C109_whole_partial` | Classical.choice, Quot.sound, propext |
| C109 | `Props.Dsk.C109_refused_partial` | Quot.sound, propext |
| C110 | `Props.Dtls.C110_handed` | Quot.sound, propext |
| C110 | `Props.Dtls.C110_all` | Quot.sound, propext |
| C110 | `Props.Dtls.C110_sender` | Quot.sound, propext |
| C110 | `Props.Dtls.C110_errors` | Quot.sound, propext |
| C111 | `Props.Dtls.C111_returns` | Quot.sound, propext |
| C111 | `Props.Dtls.C111_not_before` | Quot.sound, propext |
| C111 | `Props.Dtls.C111_once` | Quot.sound, propext |
| C111 | `Props.Dtls.C111_ends` | Quot.sound, propext |
| C111 | `Props.Dtls.C111_timeout` | Quot.sound, propext |
| C112 | `Props.Dtls.C112_violated` | propext |
| C112 | `Props.Dtls.C112_handshake_violated` | Quot.sound, propext |
| C112 | `Props.Dtls.C112_one_more_partial` | Quot.sound, propext |
| C113 | `Props.Dtls.C113_violated` | Quot.sound, propext |
| C113 | `Props.Dtls.C113_fits_partial` | Classical.choice, Quot.sound, propext |
| C114 | `Props.Equality.C114_violated` | Quot.sound, propext |
| C114 | `Props.Equality.C114_raises_violated` | Quot.sound, propext |
| C114 | `Props.Equality.C114_equal_partial` | Classical.choice, Quot.sound, propext |
| C115 | `Props.Raises.C115_violated` | Quot.sound, propext |
| C115 | `Props.Raises.C115_exact_partial` | Classical.choice, Quot.sound, propext |
| C115 | `Props.Raises.C115_harmless_partial` | Quot.sound, propext |
| C116 | `Props.Removal.C116_violated` | Quot.sound, propext |
| C116 | `Props.Removal.C116_reported_partial` | Classical.choice, Quot.sound, propext |
| C116 | `Props.Removal.C116_not_removed_partial` | Quot.sound, propext |
| C116 | `Props.Removal.C116_raises_partial` | Quot.sound, propext |
| C117 | `Props.Setup.C117_violated` | Quot.sound, propext |
| C117 | `Props.Setup.C117_addresses_partial` | Classical.choice, Quot.sound, propext |
| C117 | `Props.Setup.C117_progress_partial` | Quot.sound, propext |
| C117 | `Props.Setup.C117_unanswered_partial` | Quot.sound, propext |
| C118 | `Props.Persist.C118_violated` | Classical.choice, Quot.sound, propext |
| C118 | `Props.Persist.C118_violated_interview` | Classical.choice, Quot.sound, propext |
| C118 | `Props.Persist.C118_violated_nested` | Classical.choice, Quot.sound, propext |
| C118 | `Props.Persist.C118_when` | Quot.sound, propext |
| C118 | `Props.Persist.C118_written_partial` | Classical.choice, Quot.sound, propext |
| C118 | `Props.Persist.C118_partial` | Classical.choice, Quot.sound, propext |
| C118 | `Props.Persist.C118_interviews` | Quot.sound, propext |
| C118 | `Props.Persist.C118_config` | Classical.choice, Quot.sound, propext |
| C119 | `Props.Persist.C119_partial` | Classical.choice, Quot.sound, propext |
| C119 | `Props.Persist.C119_application` | Classical.choice, Quot.sound, propext |
| C119 | `Props.Persist.C119_violated` | Classical.choice, Quot.sound, propext |
| C120 | `Props.Persist.C120_violated` | Classical.choice, Quot.sound, propext |
| C120 | `Props.Persist.C120_partial` | Classical.choice, Quot.sound, propext |
| C121 | `Props.GatewayTime.C121_not_early` | Classical.choice, Quot.sound, propext |
| C121 | `Props.GatewayTime.C121_ends` | Classical.choice, Quot.sound, propext |
| C122 | `Props.Patience.Wait.C122_wait` | Quot.sound, propext |
| C122 | `Props.Patience.Send.C122_send` | Classical.choice, Quot.sound, propext |
| C123 | `Props.Leftover.C123_violated` | Quot.sound, propext |
| C123 | `Props.Leftover.C123_partial` | Classical.choice, Quot.sound, propext |
| C123 | `Props.Leftover.C123_once` | Quot.sound, propext |
| C124 | `Props.Connect.C124_violated` | Quot.sound, propext |
| C124 | `Props.Connect.C124_order_partial` | Classical.choice, Quot.sound, propext |
| C124 | `Props.Connect.C124_registered_partial` | Classical.choice, Quot.sound, propext |
| C124 | `Props.Connect.C124_mode_partial` | Classical.choice, Quot.sound, propext |
| C124 | `Props.Connect.C124_ignored` | Quot.sound, propext |
| C125 | `Props.Connect.C125_violated` | Quot.sound, propext |
| C125 | `Props.Connect.C125_port_partial` | Classical.choice, Quot.sound, propext |
| C125 | `Props.Connect.C125_not_listening` | Quot.sound, propext |
| C126 | `Props.MailboxInit.C126_transmits` | Classical.choice, Quot.sound, propext |
| C126 | `Props.MailboxInit.C126_true_only_after_ack` | Classical.choice, Quot.sound, propext |
| C126 | `Props.MailboxInit.C126_bad_port` | Classical.choice, Quot.sound, propext |
| C127 | `Props.Debug.C127_digits` | Classical.choice, Quot.sound, propext |
| C127 | `Props.Debug.C127_received` | Classical.choice, Quot.sound, propext |
| C127 | `Props.Debug.C127_constructed` | Classical.choice, Quot.sound, propext |
| C127 | `Props.Debug.C127_shown` | Classical.choice, Quot.sound, propext |
| C127 | `Props.Debug.C127_command` | Classical.choice, Quot.sound, propext |
| C127 | `Props.Debug.C127_numbers` | Classical.choice, Quot.sound, propext |
| C127 | `Props.Debug.C127_enum` | Classical.choice, Quot.sound, propext |
| C127 | `Props.Debug.C127_title` | Classical.choice, Quot.sound, propext |
| C127 | `Props.Debug.C127_class` | Classical.choice, Quot.sound, propext |
| C127 | `Props.Debug.C127_options` | Classical.choice, Quot.sound, propext |
| C127 | `Props.Debug.C127_route` | Classical.choice, Quot.sound, propext |
| C128 | `Props.Dispatch.C128_id` | propext |
| C128 | `Props.Dispatch.C128_object` | Quot.sound, propext |
| C128 | `Props.Dispatch.C128_class_name` | Quot.sound, propext |
| C128 | `Props.Dispatch.C128_name` | Classical.choice, Quot.sound, propext |
| C128 | `Props.Dispatch.C128_handlers` | propext |
| C128 | `Props.Dispatch.C128_method` | Classical.choice, Quot.sound, propext |
| C128 | `Props.Dispatch.C128_distinct` | Classical.choice, Quot.sound, propext |
| C128 | `Props.Dispatch.C128_reserved` | Classical.choice, Quot.sound, propext |
| C128 | `Props.Dispatch.C128_one_type` | Classical.choice, Quot.sound, propext |
| C128 | `Props.Dispatch.C128_called` | Classical.choice, Quot.sound, propext |
| C129 | `Props.Device.C129_parameters` | Classical.choice, Quot.sound, propext |
| C129 | `Props.Device.C129_groups` | Classical.choice, Quot.sound, propext |
| C129 | `Props.Device.C129_stored` | Classical.choice, Quot.sound, propext |
| C130 | `Props.Device.C130_once` | Classical.choice, Quot.sound, propext |
| C130 | `Props.Device.C130_origin` | Classical.choice, Quot.sound, propext |
| C130 | `Props.Device.C130_result` | Classical.choice, Quot.sound, propext |
| C130 | `Props.Device.C130_supervised` | Classical.choice, Quot.sound, propext |
| C130 | `Props.GroupAsk.C130_group_name` | Classical.choice, Quot.sound, propext |
| C130 | `Props.GroupAsk.C130_group_commands` | Classical.choice, Quot.sound, propext |
| C130 | `Props.Device.C130_heard` | Classical.choice, Quot.sound, propext |
| C131 | `Props.Device.C131_name_partial` | Classical.choice, Quot.sound, propext |
| C131 | `Props.Device.C131_violated` | Classical.choice, Quot.sound, propext |
| C132 | `Props.Boot.C132_violated` | Quot.sound, propext |
| C132 | `Props.Boot.C132_origin_partial` | Classical.choice, Quot.sound, propext |
| C132 | `Props.Boot.C132_info` | Classical.choice, Quot.sound, propext |
| C132 | `Props.Boot.C132_info_empty` | Classical.choice, Quot.sound, propext |
| C132 | `Props.Boot.C132_capability` | Classical.choice, Quot.sound, propext |
| C133 | `Props.Boot.C133_violated` | Quot.sound, propext |
| C133 | `Props.Boot.C133_own_node_partial` | Classical.choice, Quot.sound, propext |
| C134 | `Props.Boot.C134_violated` | Quot.sound, propext |
| C134 | `Props.Boot.C134_all_partial` | Classical.choice, Quot.sound, propext |
| C134 | `Props.Boot.C134_cause` | Classical.choice, Quot.sound, propext |
| C135 | `Props.Startup.C135_started_partial` | Classical.choice, Quot.sound, propext |
| C135 | `Props.Startup.C135_plain_partial` | Classical.choice, Quot.sound, propext |
| C135 | `Props.Startup.C135_overflow_partial` | Classical.choice, Quot.sound, propext |
| C135 | `Props.Startup.C135_violated` | Classical.choice, Quot.sound, propext |
| C136 | `Props.GroupAsk.C136_asked` | Classical.choice, Quot.sound, propext |
| C136 | `Props.GroupAsk.C136_own_calls` | Classical.choice, Quot.sound, propext |
| C136 | `Props.GroupAsk.C136_next` | Classical.choice, Quot.sound, propext |
| C136 | `Props.GroupAsk.C136_starts` | Classical.choice, Quot.sound, propext |
| C136 | `Props.GroupAsk.C136_no_groups` | Classical.choice, Quot.sound, propext |
| C137 | `Props.Follow.C137_followed_partial` | Classical.choice, Quot.sound, propext |
| C137 | `Props.Follow.C137_settled` | Classical.choice, Quot.sound, propext |
| C137 | `Props.Follow.C137_overflow_partial` | Classical.choice, Quot.sound, propext |
| C137 | `Props.Follow.C137_violated` | Classical.choice, Quot.sound, propext |
| C138 | `Props.Attributes.C138_read` | Classical.choice, Quot.sound, propext |
| C138 | `Props.Attributes.C138_set` | Classical.choice, Quot.sound, propext |
| C138 | `Props.Attributes.C138_shared` | Classical.choice, Quot.sound, propext |
| C139 | `Props.Attributes.C139_never_partial` | Classical.choice, Quot.sound, propext |
| C139 | `Props.Attributes.C139_violated` | Classical.choice, Quot.sound, propext |
| C140 | `Props.System.C140_heard` | Classical.choice, Quot.sound, propext |
| C141 | `Props.C141_encapsulation` | Classical.choice, Quot.sound, propext |
| C142 | `Props.Float.C142_sensor` | Classical.choice, Quot.sound, propext |
| C142 | `Props.Float.C142_meter` | Classical.choice, Quot.sound, propext |
| C142 | `Props.Float.C142_distinct` | Classical.choice, Quot.sound, propext |
| C142 | `Props.Float.C142_digits` | Classical.choice, Quot.sound, propext |
| C143 | `Props.InTime.C143_safe` | Classical.choice, Quot.sound, propext |
| C143 | `Props.InTime.C143_live` | Classical.choice, Quot.sound, propext |
| C144 | `Props.InTimeUpdate.C144_safe` | Classical.choice, Quot.sound, propext |
| C144 | `Props.InTimeUpdate.C144_live` | Classical.choice, Quot.sound, propext |
| C144 | `Props.InTimeUpdate.C144_started` | Classical.choice, Quot.sound, propext |
| C144 | `Props.InTimeUpdate.C144_between` | Classical.choice, Quot.sound, propext |
| C145 | `Props.Late.C145_state` | propext |
| C145 | `Props.Late.C145_others` | Quot.sound, propext |
| C145 | `Props.Late.C145_once` | Quot.sound, propext |
| C145 | `Props.Late.C145_order` | Quot.sound, propext |
| C145 | `Props.Late.C145_gateway` | Quot.sound, propext |
| C145 | `Props.Late.C145_application` | Quot.sound, propext |
| C145 | `Props.Late.C145_meanwhile` | Classical.choice, Quot.sound, propext |
| C145 | `Props.Late.C145_table` | Classical.choice, Quot.sound, propext |
| C146 | `Props.Truthful.C146_known` | Classical.choice, Quot.sound, propext |
| C146 | `Props.Truthful.C146_returns` | Classical.choice, Quot.sound, propext |
| C146 | `Props.Truthful.C146_finishes` | Classical.choice, Quot.sound, propext |
| C146 | `Props.Truthful.C146_zero` | Classical.choice, Quot.sound, propext |
| C147 | `Props.Ask.C147_order` | Quot.sound, propext |
| C147 | `Props.Ask.C147_numbers` | Quot.sound, propext |
| C147 | `Props.Ask.C147_everyone` | Quot.sound, propext |
| C147 | `Props.Ask.C147_answers` | Quot.sound, propext |
| C147 | `Props.Ask.C147_raises` | Quot.sound, propext |
| C147 | `Props.Ask.C147_waits` | Quot.sound, propext |
| C147 | `Props.Ask.C147_independent` | Quot.sound, propext |
| C147 | `Props.Ask.C147_once` | Quot.sound, propext |
| C148 | `Props.Body.C148_violated` | Quot.sound, propext |
| C148 | `Props.Body.C148_violated_silent` | Quot.sound, propext |
| C148 | `Props.Body.C148_partial` | propext |
| C148 | `Props.Body.C148_asks_partial` | propext |
| C148 | `Props.Body.C148_sensors_partial` | propext |
| C148 | `Props.Body.C148_association_partial` | Quot.sound, propext |
| C148 | `Props.Body.C148_groupInfo_partial` | propext |
| C148 | `Props.Body.C148_wire_partial` | Quot.sound, propext |
| C148 | `Props.Body.C148_awaits_partial` | propext |
| C149 | `Props.ClassRun.C149_marked` | Quot.sound, propext |
| C149 | `Props.ClassRun.C149_answered` | Quot.sound, propext |
| C149 | `Props.ClassRun.C149_report` | Quot.sound, propext |
| C149 | `Props.ClassRun.C149_history` | Quot.sound, propext |
| C149 | `Props.ClassRun.C149_latest` | Quot.sound, propext |
| C149 | `Props.ClassRun.C149_version` | Quot.sound, propext |
| C150 | `Props.ClassNet.C150_network_violated` | Quot.sound, propext |
| C150 | `Props.ClassRun.C150_violated` | Quot.sound, propext |
| C150 | `Props.ClassRun.C150_partial` | Quot.sound, propext |
| C150 | `Props.ClassRun.C150_latest_partial` | Quot.sound, propext |
| C151 | `Props.Innocent.C151_complete_partial` | Classical.choice, Quot.sound, propext |
| C151 | `Props.Innocent.C151_violated` | Quot.sound, propext |
| C151 | `Props.Innocent.C151_partial` | Quot.sound, propext |
| C151 | `Props.Innocent.C151_association_partial` | Quot.sound, propext |
| C151 | `Props.Innocent.C151_same_partial` | Classical.choice, Quot.sound, propext |
| C152 | `Props.ClassNet.C152_answers` | Classical.choice, Quot.sound, propext |
| C152 | `Props.ClassNet.C152_commands` | Classical.choice, Quot.sound, propext |
| C152 | `Props.ClassNet.C152_version` | Classical.choice, Quot.sound, propext |
| C152 | `Props.ClassNet.C152_values` | Classical.choice, Quot.sound, propext |
| C152 | `Props.ClassNet.C152_scales` | Classical.choice, Quot.sound, propext |
| C152 | `Props.ClassNet.C152_groups` | Classical.choice, Quot.sound, propext |
| C153 | `Props.Silence.C153_ends` | Classical.choice, Quot.sound, propext |
| C153 | `Props.Silence.C153_all` | Classical.choice, Quot.sound, propext |
| C154 | `Props.GatewayEnds.C154_ends` | Classical.choice, Quot.sound, propext |
| C154 | `Props.GatewayEnds.C154_all` | Classical.choice, Quot.sound, propext |
| C155 | `Props.BootEnds.C155_ends` | Classical.choice, Quot.sound, propext |
| C155 | `Props.BootEnds.C155_all` | Classical.choice, Quot.sound, propext |
| C156 | `Props.NodeNet.C156_class` | Quot.sound, propext |
| C156 | `Props.NodeNet.C156_answers` | Classical.choice, Quot.sound, propext |
| C156 | `Props.NodeNet.C156_commands` | Classical.choice, Quot.sound, propext |
| C156 | `Props.NodeNet.C156_version` | Classical.choice, Quot.sound, propext |
| C156 | `Props.NodeNet.C156_interviewed` | Classical.choice, Quot.sound, propext |
| C156 | `Props.NodeNet.C156_raises` | Classical.choice, Quot.sound, propext |
| C157 | `Props.NodeNet.C157_ends` | Classical.choice, Quot.sound, propext |
| C157 | `Props.NodeNet.C157_all` | Classical.choice, Quot.sound, propext |
| C158 | `Props.NodeNet.C158_violated` | Quot.sound, propext |
| C158 | `Props.NodeNet.C158_unreachable` | Quot.sound, propext |
| C158 | `Props.NodeNet.C158_left_out_partial` | Classical.choice, Quot.sound, propext |
| C158 | `Props.NodeNet.C158_blame_partial` | Classical.choice, Quot.sound, propext |
| C159 | `Props.Connect.C159_ends` | Classical.choice, Quot.sound, propext |
| C159 | `Props.Connect.C159_all` | Classical.choice, Quot.sound, propext |
| C160 | `Props.MailNet.C160_heartbeats` | Classical.choice, Quot.sound, propext |
| C160 | `Props.MailNet.C160_stored` | Classical.choice, Quot.sound, propext |
| C160 | `Props.MailNet.C160_sent` | Classical.choice, Quot.sound, propext |
| C160 | `Props.MailNet.C160_stopped` | Classical.choice, Quot.sound, propext |
| C161 | `Props.MailNet.C161_violated` | Quot.sound, propext |
| C161 | `Props.MailNet.C161_one_partial` | Classical.choice, Quot.sound, propext |
| C161 | `Props.MailNet.C161_queues_partial` | Classical.choice, Quot.sound, propext |
| C161 | `Props.MailNet.C161_violated_unnamed` | Quot.sound, propext |
| C161 | `Props.MailNet.C161_waiting_partial` | Classical.choice, Quot.sound, propext |
| C162 | `Props.MailEnds.C162_ends` | Classical.choice, Quot.sound, propext |
| C162 | `Props.MailEnds.C162_beat` | Classical.choice, Quot.sound, propext |
| C162 | `Props.MailEnds.C162_all` | Classical.choice, Quot.sound, propext |
| C163 | `Props.Restarts.C163_version` | Classical.choice, Quot.sound, propext |
| C163 | `Props.Restarts.C163_values` | Classical.choice, Quot.sound, propext |
| C163 | `Props.Restarts.C163_scales` | Classical.choice, Quot.sound, propext |
| C164 | `Props.Restarts.C164_violated` | Classical.choice, Quot.sound, propext |
| C164 | `Props.Restarts.C164_partial` | Classical.choice, Quot.sound, propext |
| C165 | `Props.Sleeping.C165_violated` | Classical.choice, Quot.sound, propext |
| C165 | `Props.Sleeping.C165_partial` | Classical.choice, Quot.sound, propext |
| C166 | `Props.Sleeping.C166_violated` | Classical.choice, Quot.sound, propext |
| C166 | `Props.Sleeping.C166_partial` | Classical.choice, Quot.sound, propext |
| C167 | `Props.Sleeping.C167_forever` | Classical.choice, Quot.sound, propext |
| C167 | `Props.Sleeping.C167_violated` | Classical.choice, Quot.sound, propext |
| C167 | `Props.Sleeping.C167_partial` | Classical.choice, Quot.sound, propext |
| C167 | `Props.Sleeping.C167_always` | Classical.choice, Quot.sound, propext |
| C167 | `Props.Sleeping.C167_first` | Classical.choice, Quot.sound, propext |
| C167 | `Props.Sleeping.C167_nodes` | Classical.choice, Quot.sound, propext |
| C168 | `Props.Announced.C168_violated` | Quot.sound, propext |
| C168 | `Props.Announced.C168_violated_late` | Quot.sound, propext |
| C168 | `Props.Announced.C168_partial` | Classical.choice, Quot.sound, propext |
| C168 | `Props.Announced.C168_silent` | Classical.choice, Quot.sound, propext |
