{
 "claims": [
  {
   "property": "C01",
   "status": "proved",
   "theorems": [
    "Props.C01_integer_roundtrip",
    "Props.C01_signed"
   ],
   "note": ""
  },
  {
   "property": "C02",
   "status": "proved",
   "theorems": [
    "Props.C02_array_roundtrip"
   ],
   "note": ""
  },
  {
   "property": "C03",
   "status": "partial",
   "theorems": [
    "Props.C03_string_roundtrip",
    "Props.C03_string_exact",
    "Props.C03_bom_violated"
   ],
   "note": "Exact except that a leading U+FEFF/U+FFFE is consumed by Qt's UTF-16 import (C03_bom_violated)."
  },
  {
   "property": "C04",
   "status": "proved",
   "theorems": [
    "Props.C04_int128_roundtrip",
    "Props.C04_int128_array_roundtrip"
   ],
   "note": ""
  },
  {
   "property": "C05",
   "status": "proved",
   "theorems": [
    "Props.C05_objectinfo_roundtrip"
   ],
   "note": ""
  },
  {
   "property": "C06",
   "status": "proved",
   "theorems": [
    "Props.C06_container_is_header_and_payload",
    "Props.C06_copied_payload"
   ],
   "note": "For containers below 2 GiB (no dataset of the responder comes near)."
  },
  {
   "property": "C07",
   "status": "partial",
   "theorems": [
    "Props.C07_no_overrun_partial",
    "Props.C07_overrun_beyond_2GiB_violated",
    "Props.C07_seek_stays_inside",
    "Props.C07_seek_back_violated"
   ],
   "note": "Proved up to 2 GiB; above, the 32-bit capacity arithmetic wraps and the buffer is overrun (violated); moving the write position back further than was written leaves the buffer (C07_seek_back_violated; no caller does)."
  },
  {
   "property": "C08",
   "status": "partial",
   "theorems": [
    "Props.C08_complete_is_safe_partial",
    "Props.C08_incomplete_reads_outside_violated"
   ],
   "note": "The code does no bounds check: safe iff the dataset is complete; both directions proved."
  },
  {
   "property": "C09",
   "status": "partial",
   "theorems": [
    "Props.C09_reassembly_exact",
    "Props.C09_no_overrun_partial",
    "Props.C09_first_packet_overrun_violated"
   ],
   "note": "Reassembly exact for every packetization; a first packet longer than the length field overruns (violated)."
  },
  {
   "property": "C10",
   "status": "partial",
   "theorems": [
    "Props.C10_params_exact",
    "Props.C10_too_many_params_violated"
   ],
   "note": "Exact for at most five parameters; more than five are stored out of bounds (violated)."
  },
  {
   "property": "C11",
   "status": "proved",
   "theorems": [
    "Props.C11_device_description",
    "Props.C11_object_description"
   ],
   "note": ""
  },
  {
   "property": "C12",
   "status": "partial",
   "theorems": [
    "Props.C12_increment",
    "Props.C12_equality",
    "Props.C12_order_partial",
    "Props.C12_order_signed_violated"
   ],
   "note": "Exact on unsigned-char platforms; on signed-char ones < and > are wrong for bytes >= 128 (violated)."
  },
  {
   "property": "C13",
   "status": "partial",
   "theorems": [
    "Props.C13_handles_unique_partial",
    "Props.C13_wrap_violated"
   ],
   "note": "Holds for the first 2^32-2 handles; the counter wraps to 0 and reuses handles (violated)."
  },
  {
   "property": "C14",
   "status": "partial",
   "theorems": [
    "Props.C14_fresh_partial",
    "Props.C14_signed_char_violated",
    "Props.C14_move_violated",
    "Props.C14_rename_folder_violated",
    "Props.C14_recreate_violated"
   ],
   "note": "Fresh ids while the 128-bit counter does not wrap; comparison of ids relies on unsigned char (violated)."
  },
  {
   "property": "C15",
   "status": "proved",
   "theorems": [
    "Props.C15_cache_is_history",
    "Props.C15_other_objects_untouched"
   ],
   "note": ""
  },
  {
   "property": "C16",
   "status": "proved",
   "theorems": [
    "Props.C16_batched_lookup_partitions",
    "Props.C16_each_code_once"
   ],
   "note": ""
  },
  {
   "property": "C17",
   "status": "partial",
   "theorems": [
    "Props.C17_reads_fresh_partial",
    "Props.C17_quiescent_reads_fresh_partial",
    "Props.C17_pending_announcement_violated",
    "Props.C17_set_not_applied_violated",
    "Props.C17_cross_storage_move_violated",
    "Props.C17_gone_refused"
   ],
   "note": "Not stale under announced changes processed; pending announcements, unapplied sets and cross-storage moves are stale (violated)."
  },
  {
   "property": "C18",
   "status": "partial",
   "theorems": [
    "Props.C18_well_formed_partial",
    "Props.C18_one_operation_partial",
    "Props.C18_slash_in_name_violated",
    "Props.C18_move_rename_violated"
   ],
   "note": "Invariant over all histories, except a host name with '/' and a device move across folders with a rename onto an existing name (both violated)."
  },
  {
   "property": "C19",
   "status": "partial",
   "theorems": [
    "Props.C19_others_unchanged",
    "Props.C19_exactly_subtree",
    "Props.C19_answer_partial",
    "Props.C19_leaf",
    "Props.C19_all",
    "Props.C19_rmdir_refused_violated",
    "Props.C19_vanished_folder_violated",
    "Props.C19_all_answer_violated",
    "Props.C19_format_answer_violated",
    "Props.C19_format_use_after_free_violated"
   ],
   "note": "Exact when no system call is refused; OK although rmdir of the emptied folder failed, ghosts of vanished folders, answers of delete-all and a use after free are violated."
  },
  {
   "property": "C20",
   "status": "partial",
   "theorems": [
    "Props.C20_frame_partial",
    "Props.C20_handle_stable_partial",
    "Props.C20_handle_not_reused",
    "Props.C20_other_object_violated"
   ],
   "note": "Handles never reused: proved for all histories (below 2^32-1 handles). Stability proved for histories satisfying OpOk (see C18); violated by a device move with rename onto an existing name (C20_other_object_violated)."
  },
  {
   "property": "C21",
   "status": "partial",
   "theorems": [
    "Props.C21_move",
    "Props.C21_rename",
    "Props.C21_rename_refused",
    "Props.C21_move_done",
    "Props.C21_move_refused",
    "Props.C21_rename_done",
    "Props.C21_rename_answer_violated"
   ],
   "note": "Effect of move and rename exact; a refused physical rename is answered OK (violated)."
  },
  {
   "property": "C22",
   "status": "partial",
   "theorems": [
    "Props.C22_storage_partial",
    "Props.C22_not_a_folder",
    "Props.C22_reply_one_partial",
    "Props.C22_reply_all_partial",
    "Props.C22_undefined_format_violated",
    "Props.C22_folder_all_storages_violated",
    "Props.C22_format_truncated_violated",
    "Props.C22_unknown_storage",
    "Props.C22_unknown_format"
   ],
   "note": "Exact except format 0x3000 below folders, a folder handle with all storages, and format codes above 16 bits (violated)."
  },
  {
   "property": "C23",
   "status": "proved",
   "theorems": [
    "Props.C23_root_stays",
    "Props.C23_root_refused",
    "Props.C23_history"
   ],
   "note": "For any tree whatsoever; C23_history adds that the root survives all histories satisfying OpOk."
  },
  {
   "property": "C24",
   "status": "partial",
   "theorems": [
    "Props.C24_rename",
    "Props.C24_rename_refused",
    "Props.C24_create_partial",
    "Props.C24_create_outside_violated",
    "Props.C24_empty_name_violated"
   ],
   "note": "Renames exact; names of created objects are not checked and can leave the storage (violated)."
  },
  {
   "property": "C25",
   "status": "proved",
   "theorems": [
    "Props.C25_enumeration",
    "Props.C25_later"
   ],
   "note": ""
  },
  {
   "property": "C26",
   "status": "proved",
   "theorems": [
    "Props.C26_query",
    "Props.C26_set"
   ],
   "note": ""
  },
  {
   "property": "C27",
   "status": "proved",
   "theorems": [
    "Props.C27_read_exact",
    "Props.C27_past_end_refused",
    "Props.C27_read_succeeds"
   ],
   "note": ""
  },
  {
   "property": "C28",
   "status": "partial",
   "theorems": [
    "Props.C28_upload_exact_partial",
    "Props.C28_flush_violated",
    "Props.C28_after_failed_open_violated"
   ],
   "note": "Exact for successful uploads; a failed flush is ignored and an upload after a failed open is reported OK (violated)."
  },
  {
   "property": "C29",
   "status": "proved",
   "theorems": [
    "Props.C29_partial_write",
    "Props.C29_truncate"
   ],
   "note": ""
  },
  {
   "property": "C30",
   "status": "partial",
   "theorems": [
    "Props.C30_copy_exact_partial",
    "Props.C30_cancel_reported",
    "Props.C30_last_write_violated",
    "Props.C30_large_violated"
   ],
   "note": "Exact below 4 GiB; the failure of the last write is masked and objects of 4 GiB and more break (violated)."
  },
  {
   "property": "C31",
   "status": "partial",
   "theorems": [
    "Props.C31_download_exact_partial",
    "Props.C31_broken_never_ok",
    "Props.C31_download_succeeds",
    "Props.C31_large_violated",
    "Props.C31_unsent_violated",
    "Props.C31_wire_bytes",
    "Props.C31_wire_exact"
   ],
   "note": "Exact below 4 GiB-12; larger sizes wrap in the header and an unsent first packet is not noticed (violated)."
  },
  {
   "property": "C32",
   "status": "proved",
   "theorems": [
    "Props.C32_partial_exact",
    "Props.C32_partial64_exact",
    "Props.C32_partial_succeeds",
    "Props.C32_past_end_refused"
   ],
   "note": ""
  },
  {
   "property": "C33",
   "status": "partial",
   "theorems": [
    "Props.C33_ok_complete",
    "Props.C33_complete",
    "Props.C33_incomplete_partial",
    "Props.C33_truncate_violated"
   ],
   "note": "Complete uploads exact, incomplete ones refused and truncated; but closing the file re-extends it (violated)."
  },
  {
   "property": "C34",
   "status": "partial",
   "theorems": [
    "Props.C34_info",
    "Props.C34_list_partial",
    "Props.C34_mixup_violated",
    "Props.C34_refused_violated"
   ],
   "note": "Data goes to the announced object for one announcement; a refused property list stays pending and mixed announcements go to the wrong object (violated)."
  },
  {
   "property": "C35",
   "status": "partial",
   "theorems": [
    "Props.C35_nothing_done",
    "Props.C35_session_not_open_partial",
    "Props.C35_open",
    "Props.C35_close",
    "Props.C35_suspended_violated"
   ],
   "note": "All operations but GetThumb (never answered); commands that arrive while suspended or before storages are ready are covered by violations."
  },
  {
   "property": "C36",
   "status": "partial",
   "theorems": [
    "Props.C36_one_response_partial",
    "Props.C36_thumb_violated",
    "Props.C36_unsupported_data_violated",
    "Props.C36_broken_download_violated",
    "Props.C36_copy_reset_violated"
   ],
   "note": "For hosts that follow the protocol, without GetThumb, and downloads that do not break off; each exception has a violated theorem."
  },
  {
   "property": "C37",
   "status": "partial",
   "theorems": [
    "Props.C37_tid_partial",
    "Props.C37_tid_violated"
   ],
   "note": "Only the low 16 bits of the id are echoed by most operations (violated for ids >= 65536)."
  },
  {
   "property": "C38",
   "status": "partial",
   "theorems": [
    "Props.C38_cancel_partial",
    "Props.C38_next_command",
    "Props.C38_nothing",
    "Props.C38_both_violated"
   ],
   "note": "With one announcement pending; with both kinds pending only one is removed (violated)."
  },
  {
   "property": "C39",
   "status": "partial",
   "theorems": [
    "Props.C39_served_partial",
    "Props.C39_quiet",
    "Props.C39_in_order_partial",
    "Props.C39_at_once",
    "Props.C39_suspend_violated",
    "Props.C39_cancel_violated"
   ],
   "note": "Exact if nothing but the command, its data and the readiness happens; a suspend or cancel in between loses the command or crashes (violated)."
  },
  {
   "property": "C40",
   "status": "partial",
   "theorems": [
    "Props.C40_edit_only",
    "Props.C40_truncate_refused",
    "Props.C40_partial_refused",
    "Props.C40_begin_end",
    "Props.C40_truncate",
    "Props.C40_partial_accepted",
    "Props.C40_second_begin_violated",
    "Props.C40_session_violated"
   ],
   "note": "Exact within one edit session; a second BeginEdit and a session change break it (violated)."
  },
  {
   "property": "C41",
   "status": "partial",
   "theorems": [
    "Props.C41_events_partial",
    "Props.C41_silent",
    "Props.C41_suspend_violated",
    "Props.C41_removed_violated",
    "Props.C41_edit_violated",
    "Props.C41_reset_violated"
   ],
   "note": "Filter and addressing exact for every history outside suspension; removals are never filtered, events are lost in suspension, flags are re-enabled by GetObjectInfo and survive a reset (violated)."
  },
  {
   "property": "C42",
   "status": "partial",
   "theorems": [
    "Props.C42_alternate",
    "Props.C42_cancel_violated"
   ],
   "note": "Strict alternation proved for every history; 'pending' stays on after a cancel or a suspend (violated)."
  },
  {
   "property": "C43",
   "status": "partial",
   "theorems": [
    "Props.C43_continue_partial",
    "Props.C43_idle",
    "Props.C43_resent_partial",
    "Props.C43_copy",
    "Props.C43_copy_violated",
    "Props.C43_twice_violated"
   ],
   "note": "State and container restored; after a resent response the responder hangs in the old state and double suspension sticks (violated)."
  },
  {
   "property": "C44",
   "status": "partial",
   "theorems": [
    "Props.C44_calendar",
    "Props.C44_years",
    "Props.C44_roundtrip_partial",
    "Props.C44_fixed_zone",
    "Props.C44_accepts_only",
    "Props.C44_local",
    "Props.C44_offset_partial",
    "Props.C44_offset_violated",
    "Props.C44_offset_example_violated",
    "Props.C44_ambiguous_violated",
    "Props.C44_seconds_violated",
    "Props.C44_no_such_day_violated",
    "Props.C44_utc_rejected"
   ],
   "note": "Calendar arithmetic, parsing and printing proved for all dates; local-time strings round trip away from repeated/skipped hours; offset suffixes are mis-applied (violated), seconds fraction/no-such-day cases documented as violations."
  },
  {
   "property": "C45",
   "status": "partial",
   "theorems": [
    "Props.C45_conservation",
    "Props.C45_pair_is_a_move_partial",
    "Props.C45_unpaired",
    "Props.C45_interleaved_violated",
    "Props.C45_last_moved_from_violated",
    "Props.C45_move_rename_violated",
    "Props.C45_move_effect_partial"
   ],
   "note": "Conservation proved for all sequences; pairing only when adjacent (C45_interleaved_violated), last moved-from never flushed (violated), move+rename misplaced (violated)."
  },
  {
   "property": "C46",
   "status": "proved",
   "theorems": [
    "Props.C46_ready_iff_all",
    "Props.C46_never_back",
    "Props.C46_announced_once"
   ],
   "note": "Ids given by the factory are distinct; readiness in any order with repetitions."
  },
  {
   "property": "C47",
   "status": "partial",
   "theorems": [
    "Props.C47_throttled_partial",
    "Props.C47_not_stuck_partial",
    "Props.C47_capacity_change_violated",
    "Props.C47_overflow_violated"
   ],
   "note": "Fixed capacity below 2^64/100 bytes; violated when capacity changes or the product overflows."
  },
  {
   "property": "C48",
   "status": "proved",
   "theorems": [
    "Props.C48_lossless_fifo",
    "Props.C48_prefix",
    "Props.C48_reader_disjoint",
    "Props.C48_piece_is_stored",
    "Props.C48_read_accepted",
    "Props.C48_no_deadlock"
   ],
   "note": ""
  },
  {
   "property": "C49",
   "status": "partial",
   "theorems": [
    "Props.C49_framing_partial",
    "Props.C49_cut_in_length_violated",
    "Props.C49_zero_length_violated"
   ],
   "note": "Exact when no read ends inside a length field; a cut there and a zero length field break it (violated)."
  },
  {
   "property": "C50",
   "status": "partial",
   "theorems": [
    "Props.C50_success_iff_all",
    "Props.C50_zero_packet",
    "Props.C50_write_size",
    "Props.C50_zlp_failure_violated"
   ],
   "note": "Everything but: failure of the terminating zero-length packet is reported as success (violated)."
  },
  {
   "property": "C51",
   "status": "proved",
   "theorems": [
    "Props.C51_bounded_fifo",
    "Props.C51_drops_oldest",
    "Props.C51_nothing_lost"
   ],
   "note": ""
  },
  {
   "property": "C52",
   "status": "proved",
   "theorems": [
    "Props.C52_start_conditions",
    "Props.C52_exclusive",
    "Props.C52_gives_up",
    "Props.C52_timeouts_count"
   ],
   "note": ""
  },
  {
   "property": "C53",
   "status": "partial",
   "theorems": [
    "Props.C53_shipped",
    "Props.C53_configured_violated",
    "Props.C53_advertised",
    "Props.C53_other"
   ],
   "note": "Proved for the built-in operations and for the shipped configuration (C53_shipped). Violated: a configuration can name an operation the device refuses, which is then advertised (C53_configured_violated)."
  },
  {
   "property": "C54",
   "status": "proved",
   "theorems": [
    "Props.C54_advertised_iff_described",
    "Props.C54_limits"
   ],
   "note": ""
  },
  {
   "property": "C55",
   "status": "partial",
   "theorems": [
    "Props.C55_order",
    "Props.C55_request_queued",
    "Props.C55_once",
    "Props.C55_not_while_busy",
    "Props.C55_batches",
    "Props.C55_all_sent",
    "Props.C55_reply_partial",
    "Props.C55_hash_violated",
    "Props.C55_unrequested_ignored",
    "Props.C55_failed_not_retried"
   ],
   "note": "Order, once, batches of 128, never while busy, none lost proved for all event sequences; C55_reply_partial assumes the thumbnailer answers for the requested path; hash collisions of two paths lose a request (violated) and a failed thumbnail is never retried (violated)."
  },
  {
   "property": "C56",
   "status": "partial",
   "theorems": [
    "Props.C56_roundtrip_partial",
    "Props.C56_cut_partial",
    "Props.C56_cut_between",
    "Props.C56_no_overread",
    "Props.C56_non_ascii_violated",
    "Props.C56_cut_violated",
    "Props.C56_restart_partial",
    "Props.C56_run_partial"
   ],
   "note": "Round trip and truncation proved for tables with ASCII paths; non-ASCII paths are truncated (violated), and a file cut inside an entry can give an entry that was not written (violated)."
  },
  {
   "property": "C57",
   "status": "partial",
   "theorems": [
    "Props.C57_restart_partial",
    "Props.C57_folder_violated",
    "Props.C57_playlist_violated",
    "Props.C57_shared_file_violated"
   ],
   "note": "Proved for files of one storage found again at ASCII paths; violated for folders (ids never entered in the read-back table), playlists (not written) and several storages sharing the reference file (C57_*_violated)."
  },
  {
   "property": "C58",
   "status": "partial",
   "theorems": [
    "Props.C58_distinct_partial",
    "Props.C58_slash_violated"
   ],
   "note": "No two exported storages share a path string, label or id, for all configurations; the same directory written with and without a trailing slash is exported twice (C58_slash_violated)."
  },
  {
   "property": "C59",
   "status": "partial",
   "theorems": [
    "Props.C59_handle_routed",
    "Props.C59_unknown_handle_refused",
    "Props.C59_owner_executes",
    "Props.C59_storage_routed",
    "Props.C59_deleted_object_violated",
    "Props.C59_root_ambiguous_violated"
   ],
   "note": "Routing exact for known handles; a deleted or root handle is routed ambiguously (violated)."
  },
  {
   "property": "C60",
   "status": "partial",
   "theorems": [
    "Props.C60_elements_partial",
    "Props.C60_no_elements",
    "Props.C60_mixed_violated",
    "Props.C60_all_objects_violated"
   ],
   "note": "Proved end to end (table lookup, cached property reads, serialisation, count patch, host parser) for objects that all support the property; a mixed folder or the standard's all-objects form is refused (violations)."
  },
  {
   "property": "C61",
   "status": "partial",
   "theorems": [
    "Props.C61_candidates",
    "Props.C61_exported_partial",
    "Props.C61_label_partial",
    "Props.C61_kept",
    "Props.C61_seventh_violated",
    "Props.C61_percent_violated"
   ],
   "note": "Every directory asked for is exported exactly once when labels have no percent sign and no label is another one followed by a number; otherwise a directory can be dropped (C61_seventh_violated) or its label corrupted (C61_percent_violated)."
  },
  {
   "property": "C62",
   "status": "partial",
   "theorems": [
    "Props.C62_common_partial",
    "Props.C62_sample_rate_violated",
    "Props.C62_width_violated"
   ],
   "note": "Holds for the common properties on every device; violated for sample rates and for image widths with a minimum."
  },
  {
   "property": "C63",
   "status": "partial",
   "theorems": [
    "Props.C63_set_then_get_partial",
    "Props.C63_refused",
    "Props.C63_bad_name",
    "Props.C63_file_name_lasts",
    "Props.C63_lost_violated",
    "Props.C63_not_renamed_violated",
    "Props.C63_root_violated"
   ],
   "note": "Wire-level round trip proved; file names last through any reads. Values of properties without storage (display name, artist...) are forgotten when a neighbour is read (C63_lost_violated), a refused rename is answered OK (C63_not_renamed_violated), renaming a storage root dereferences null (C63_root_violated)."
  },
  {
   "property": "C64",
   "status": "partial",
   "theorems": [
    "Props.C64_set_list_partial",
    "Props.C64_type_violated"
   ],
   "note": "Proved for lists whose values have the types of the standard; the type sent by the host is not checked (C64_type_violated)."
  },
  {
   "property": "C65",
   "status": "partial",
   "theorems": [
    "Props.C65_announcement_partial",
    "Props.C65_request",
    "Props.C65_values_kept",
    "Props.C65_form_violated"
   ],
   "note": "Proved for file names of string type; a missing file name is refused without parameters and read-only properties are taken (C65_form_violated)."
  },
  {
   "property": "C66",
   "status": "partial",
   "theorems": [
    "Props.C66_described",
    "Props.C66_value",
    "Props.C66_unknown_refused",
    "Props.C66_set_then_get",
    "Props.C66_value_lasts",
    "Props.C66_battery_events",
    "Props.C66_read_only_violated",
    "Props.C66_advertised_violated",
    "Props.C66_battery_range_violated"
   ],
   "note": "Reads, sets, persistence in memory and refusals of unknown codes proved for all states and histories; sets of read-only properties are answered OK (C66_read_only_violated), the copyright property is listed but refused (C66_advertised_violated), the battery level leaves its described range (C66_battery_range_violated)."
  },
  {
   "property": "C67",
   "status": "partial",
   "theorems": [
    "Props.C67_name_survives_restart",
    "Props.C67_history",
    "Props.C67_blank_violated"
   ],
   "note": "Proved for names that are not blank, the XML library being trusted to give back the text written; a blank name reverts to the default (C67_blank_violated)."
  },
  {
   "property": "C68",
   "status": "partial",
   "theorems": [
    "Props.C68_device_info",
    "Props.C68_operations",
    "Props.C68_builtin",
    "Props.C68_host_is_told",
    "Props.C68_bad_number_violated"
   ],
   "note": "Full dataset, built-in operations and formats proved for every configuration. Violated: a configured operation code that is no number is advertised as operation 0 (C68_bad_number_violated)."
  },
  {
   "property": "C69",
   "status": "partial",
   "theorems": [
    "Props.C69_storage_ids",
    "Props.C69_storage_info_partial",
    "Props.C69_fragment_size_violated"
   ],
   "note": "Proved for file systems whose fragment size is the block size. Violated otherwise: the code multiplies block counts, which POSIX gives in fragments, by the block size (C69_fragment_size_violated)."
  },
  {
   "property": "C70",
   "status": "partial",
   "theorems": [
    "Props.C70_handles_partial",
    "Props.C70_handles_refused",
    "Props.C70_references",
    "Props.C70_references_refused",
    "Props.C70_object_info_partial",
    "Props.C70_object_info_refused",
    "Props.C70_large_object_violated"
   ],
   "note": "Handles with the exclusions of C22. Violated: GetObjectInfo tells the size of an object of 4 GiB or more modulo 2^32 (C70_large_object_violated)."
  },
  {
   "property": "C71",
   "status": "partial",
   "theorems": [
    "Props.C71_copy_partial",
    "Props.C71_completes_partial",
    "Props.C71_nothing_lost_partial",
    "Props.C71_into_itself_violated",
    "Props.C71_folder_collision_refused",
    "Props.C71_overwrites_violated",
    "Props.C71_empty_not_copied_violated",
    "Props.C71_cancel_deletes_original_violated"
   ],
   "note": "Proved for free destinations that are not inside the copied folder, and for storages where only folders contain objects. Violations proved: a folder copied into itself recurses without end; a file copied onto a same-named file overwrites it (or, when empty, is not copied) and answers OK; cancelling a copy into the own folder deletes the original."
  },
  {
   "property": "C72",
   "status": "partial",
   "theorems": [
    "Props.C72_move_across_partial",
    "Props.C72_handle_lost_violated",
    "Props.C72_half_moved_violated"
   ],
   "note": "Proved for OK answers at free destinations. Violations proved: an empty folder moved onto a same-named folder loses its handle although answered OK; a failure half way leaves handles in both storages."
  },
  {
   "property": "C73",
   "status": "partial",
   "theorems": [
    "Props.C73_watched_partial",
    "Props.C73_unwatched_violated"
   ],
   "note": "Proved for OK answers at free destinations. Violation proved: a copy failing half way leaves the destination folder unwatched."
  },
  {
   "property": "C74",
   "status": "partial",
   "theorems": [
    "Props.C74_created",
    "Props.C74_created_one",
    "Props.C74_removed_partial",
    "Props.C74_removed_one",
    "Props.C74_moved_partial",
    "Props.C74_own_silent",
    "Props.C74_mirror_step_partial",
    "Props.C74_mirror_partial",
    "Props.C74_violated"
   ],
   "note": "Full statement violated: a folder with known contents that disappears is removed without an event (C74_violated). Proved: creation, removal of anything without known contents, moves to free places, silence of host operations, and the mirror over histories without such folders."
  },
  {
   "property": "C75",
   "status": "partial",
   "theorems": [
    "Props.C75_created",
    "Props.C75_no_parent",
    "Props.C75_excluded",
    "Props.C75_existing_partial",
    "Props.C75_existing_violated"
   ],
   "note": "Full statement violated: if the name is taken by an object of another kind, the answer is OK with the handle of that object (C75_existing_violated)."
  },
  {
   "property": "C76",
   "status": "partial",
   "theorems": [
    "Props.C76_size_once_settled_partial",
    "Props.C76_dates_once_settled_partial",
    "Props.C76_wrong_only_meanwhile_partial",
    "Props.C76_host_is_told",
    "Props.C76_saved_by_renaming_violated",
    "Props.C76_renamed_meanwhile_violated",
    "Props.C76_truncated_date_violated",
    "Props.C76_changed_by_name_violated"
   ],
   "note": "Proved for all histories without the excluded steps; the event statement for all histories. Violations proved: saving by renaming over a file leaves size and date stale for good; a host rename before the change notification is handled does too; TruncateObject leaves the date stale; changes by name (truncate(2), utimes(2)) are never noticed."
  },
  {
   "property": "C77",
   "status": "partial",
   "theorems": [
    "Props.C77_by_extension",
    "Props.C77_case_does_not_matter",
    "Props.C77_once_settled_partial",
    "Props.C77_renamed_by_host_violated",
    "Props.C77_text_called_jpg_violated"
   ],
   "note": "The function of the name is proved in full. Over histories: proved except for a rename by the host to a name with another extension, which keeps the old format (violation proved)."
  },
  {
   "property": "C78",
   "status": "partial",
   "theorems": [
    "Props.C78_at_first",
    "Props.C78_forgotten_violated",
    "Props.C78_song_violated"
   ],
   "note": "Holds at first (proved); violated as soon as the notification of the closed file is handled: the format is computed from the name."
  },
  {
   "property": "C79",
   "status": "partial",
   "theorems": [
    "Props.C79_shipped",
    "Props.C79_any_configuration_partial",
    "Props.C79_unreadable_violated"
   ],
   "note": "Proved for the shipped configuration, and for any configuration except for OGG. Violation proved: with an unreadable configuration OGG is said but not advertised."
  },
  {
   "property": "C80",
   "status": "partial",
   "theorems": [
    "Props.C80_lower_case_partial",
    "Props.C80_upper_case_violated"
   ],
   "note": "Proved for lower-case extensions; violated for upper-case ones, whose format is recognised but whose thumbnail fields are not."
  },
  {
   "property": "C81",
   "status": "partial",
   "theorems": [
    "Props.C81_objects_are_files",
    "Props.C81_files_are_objects_partial",
    "Props.C81_deleted_meanwhile_violated",
    "Props.C81_renamed_meanwhile_violated",
    "Props.C81_uploaded_meanwhile_violated"
   ],
   "note": "First part proved for every history; second part for histories without three races. Violations proved: a host delete before the rename notification loses the renamed file; a host rename onto a just freed name is forgotten; an object uploaded to a just freed name vanishes and comes back under another handle."
  },
  {
   "property": "C82",
   "status": "partial",
   "theorems": [
    "Props.C82_upload_download",
    "Props.C82_others_kept",
    "Props.C82_overwrite_violated"
   ],
   "note": "Proved end to end for the responder with one file-system storage behind it, for new objects of less than 4 GB and an operating system that does not fail; false for overwriting an existing object (C82_overwrite_violated)."
  },
  {
   "property": "C83",
   "status": "partial",
   "theorems": [
    "Props.C83_info_told_partial",
    "Props.C83_date_told",
    "Props.C83_capture_date_violated",
    "Props.C83_announced"
   ],
   "note": "Conditions as in C82; the size is told modulo 2^32 (the dataset has no more). The date of modification is told as announced if utimes succeeds and C44 holds for the date (C83_date_told); the announced date of creation is replaced by it (C83_capture_date_violated)."
  },
  {
   "property": "C84",
   "status": "proved",
   "theorems": [
    "Props.C84_listed"
   ],
   "note": "Conditions as in C82; at most 2^26 handles given out."
  },
  {
   "property": "C85",
   "status": "proved",
   "theorems": [
    "Props.C85_deleted",
    "Props.C85_unknown",
    "Props.C85_delete_unknown"
   ],
   "note": "For a file system that refuses, C19 and C23."
  },
  {
   "property": "C86",
   "status": "proved",
   "theorems": [
    "Props.C86_contents_kept"
   ],
   "note": "For the responder with one file-system storage behind it (operations modelled in Verif.Model.Server)."
  },
  {
   "property": "C87",
   "status": "proved",
   "theorems": [
    "Props.C87_disk_and_objects_agree"
   ],
   "note": "While handles are left, and nobody else changes the disk (for that C74, C81)."
  },
  {
   "property": "C88",
   "status": "partial",
   "theorems": [
    "Props.C88_survives",
    "Props.C88_upload_survives",
    "Props.C88_cancelled_announcement_violated"
   ],
   "note": "Proved, with cancellations allowed only when no announced object contains the object: without that it is false, cancelling an announcement deletes a folder announced earlier with all that was moved into it (C88_cancelled_announcement_violated)."
  },
  {
   "property": "C89",
   "status": "proved",
   "theorems": [
    "Props.C89_parts",
    "Props.C89_parts_refused",
    "Props.C89_upload_parts"
   ],
   "note": "For files below 2^63 bytes, the operating system not failing."
  },
  {
   "property": "C90",
   "status": "partial",
   "theorems": [
    "Props.C90_count",
    "Props.C90_count_is_length"
   ],
   "note": "Storage given (not 0xFFFFFFFF), and not the undefined format together with a folder (see C22); equality of number and list for any format."
  },
  {
   "property": "C91",
   "status": "proved",
   "theorems": [
    "Props.C91_move",
    "Props.C91_move_reasons",
    "Props.C91_listed_where_moved",
    "Props.C91_rename",
    "Props.C91_rename_unknown",
    "Props.C91_rename_all_or_nothing"
   ],
   "note": "One storage; the file system refuses the impossible (rename(2)). A rename the file system refuses is answered OK by the code; that is why the statement about renames is about their effect."
  },
  {
   "property": "C92",
   "status": "proved",
   "theorems": [
    "Props.C92_begin_end",
    "Props.C92_truncate",
    "Props.C92_send_partial",
    "Props.C92_begin_unknown",
    "Props.C92_edit",
    "Props.C92_date_kept"
   ],
   "note": "Positions and data below 2^63 bytes; the operating system may fail (then other objects are as before), but does not lose what it took. The date is kept if utimes succeeds and C44 holds for it."
  },
  {
   "property": "C93",
   "status": "proved",
   "theorems": [
    "Props.C93_consistent",
    "Props.C93_objects",
    "Props.C93_download",
    "Props.C93_info",
    "Props.C93_listing",
    "Props.C93_folder",
    "Props.C93_session"
   ],
   "note": "One storage; downloads below 4 GiB, the operating system not failing; the disk is read at one moment (changes meanwhile: C81). What a symbolic link leads to is treated as a file of its own."
  },
  {
   "property": "C94",
   "status": "partial",
   "theorems": [
    "Props.C94_undisturbed",
    "Props.C94_interrupted_partial",
    "Props.C94_storage_untouched",
    "Props.C94_completed",
    "Props.C94_keeps_sending_violated",
    "Props.C94_crash_violated",
    "Props.C94_stuck_violated",
    "Props.C94_partial_object_violated"
   ],
   "note": "Violated: the rest of a cancelled download is sent all the same; answers whose response has a parameter (GetPartialObject) dereference the forgotten request; a write that fails while nobody gives up leaves the responder waiting, and the next command is lost. Suspend/resume during writes and storage changes meanwhile are left out."
  },
  {
   "property": "C95",
   "status": "partial",
   "theorems": [
    "Props.C95_stream",
    "Props.C95_taken",
    "Props.C95_upload_download",
    "Props.C95_large",
    "Props.C95_large_violated",
    "Props.C95_data_obeyed_violated",
    "Props.C95_cancel_violated",
    "Props.C95_trojan_violated"
   ],
   "note": "Violated: when an upload is answered before its data has come (e.g. storage full) the rest of the file is parsed as containers, so commands in the file are executed; after a cancel in the middle of data the next command is swallowed as the rest of it. Containers of 4 GB and more (marker length) have their own theorem: their end is seen when the object was announced by SendObjectPropList, not when by SendObjectInfo (violated)."
  },
  {
   "property": "C96",
   "status": "partial",
   "theorems": [
    "Props.C96_answers",
    "Props.C96_busy_while_talking",
    "Props.C96_ok_means_ready",
    "Props.C96_busy_iff_pending",
    "Props.C96_unplugged_violated",
    "Props.C96_unanswered_violated",
    "Props.C96_resume_violated",
    "Props.C96_cancel_any_violated"
   ],
   "note": "Violated: unplugging during a transaction leaves the status busy for the next host; an unanswered GetThumb leaves it busy while commands are thrown away; suspending and resuming in the middle of a transaction makes it OK; a cancel request cancels whatever is pending, since the transaction named in it is not read. The theorems about histories leave out suspending."
  },
  {
   "property": "C97",
   "status": "partial",
   "theorems": [
    "Props.C97_upload_download",
    "Props.C97_info_told",
    "Props.C97_announcement",
    "Props.C97_mixup_violated"
   ],
   "note": "Violated: after a SendObjectInfo whose data never came, the data goes to that older object instead (C97_mixup_violated); the theorems assume no such announcement is waiting. Setting the other listed properties is a no-op in this model (see C64, C65 for them)."
  },
  {
   "property": "C98",
   "status": "partial",
   "theorems": [
    "Props.C98_cancelled",
    "Props.C98_cancelled_list",
    "Props.C98_not_answered_before",
    "Props.C98_unplugged_violated",
    "Props.C98_folder_lost_violated"
   ],
   "note": "Proved for cancel requests. Violated when the host is unplugged instead (the half-written file stays, C98_unplugged_violated) and when the announcement itself is cancelled after a folder was made (the folder and what is in it are deleted, C98_folder_lost_violated)."
  },
  {
   "property": "C99",
   "status": "partial",
   "theorems": [
    "Props.C99_made_partial",
    "Props.C99_listed",
    "Props.C99_filled",
    "Props.C99_file_there_violated"
   ],
   "note": "Proved except for the dates: those announced for a folder are not told. Violated when a file has the name already (the host is told OK with the handle of the file, C99_file_there_violated)."
  },
  {
   "property": "C100",
   "status": "partial",
   "theorems": [
    "Props.C100_told_partial",
    "Props.C100_new",
    "Props.C100_edited",
    "Props.C100_identifier",
    "Props.C100_edit_violated",
    "Props.C100_failed_violated",
    "Props.C100_listed_violated"
   ],
   "note": "Proved for histories without the operations that may spoil the property (uploads announced with a list; for size and dates: uploads, edits and copies; for the name: setting properties). Violated for these: stale size during an edit, the announced size of a failed upload, values sent for read-only properties with SendObjectPropList."
  },
  {
   "property": "C101",
   "status": "partial",
   "theorems": [
    "Props.C101_full",
    "Props.C101_no_room",
    "Props.C101_copied",
    "Props.C101_downloaded",
    "Props.C101_dated",
    "Props.C101_listed",
    "Props.C101_refused",
    "Props.C101_overwritten_violated",
    "Props.C101_cancelled_violated"
   ],
   "note": "Files below 4 GB (copyData counts with 32 bits, C72), storage at rest otherwise, one storage. Violated: copying a file onto a file of its name overwrites that, and cancelling such a copy deletes it."
  },
  {
   "property": "C102",
   "status": "partial",
   "theorems": [
    "Props.C102_consistent",
    "Props.C102_survives",
    "Props.C102_upload_survives",
    "Props.C102_appeared",
    "Props.C102_vanished_partial",
    "Props.C102_written",
    "Props.C102_moved_partial",
    "Props.C102_replaced_partial",
    "Props.C102_replaced_violated",
    "Props.C102_moved_violated"
   ],
   "note": "A notification is handled before the next change (C74, C76 for the other case); folders are watched. Violated: a file replaced by renaming another one onto it is still told with its old size and downloads are cut off there; a file that gets another name while moved to another folder is lost for the host; a folder that disappears with contents is announced without them (C74)."
  },
  {
   "property": "C103",
   "status": "partial",
   "theorems": [
    "Props.C103_alone_partial",
    "Props.C103_others",
    "Props.C103_consistent",
    "Props.C103_download",
    "Props.C103_upload_download",
    "Props.C103_start",
    "Props.C103_delete_all_violated",
    "Props.C103_list_all_violated"
   ],
   "note": "Proved by a simulation between the responder with several storages and the responder with one. Requests that name several storages are excluded: copying between storages is C105 (and C73), moving between storages is C72; violated for deleting in all storages and for listing a folder in all storages. Also excluded: data sent although its announcement by SendObjectPropList was refused (it goes to handle 0, which every storage has)."
  },
  {
   "property": "C104",
   "status": "partial",
   "theorems": [
    "Props.C104_plain_partial",
    "Props.C104_asking",
    "Props.C104_survives",
    "Props.C104_upload_download"
   ],
   "note": "C104_plain_partial: histories with requests before the storage is ready, or data after a refused SendObjectPropList announcement, are not covered by the equality; C104_survives and C104_upload_download cover the latter."
  },
  {
   "property": "C105",
   "status": "partial",
   "theorems": [
    "Props.C105_copied",
    "Props.C105_downloaded",
    "Props.C105_dated",
    "Props.C105_listed",
    "Props.C105_others",
    "Props.C105_full",
    "Props.C105_no_room",
    "Props.C105_no_folder",
    "Props.C105_taken",
    "Props.C105_overwritten_violated"
   ],
   "note": "Files below 4 GB (copyData counts with 32 bits). C105_full: the file system grants deletions, no file is left open on the destination. Violated: a file copied onto a file of its name overwrites it."
  },
  {
   "property": "C106",
   "status": "partial",
   "theorems": [
    "Props.C106_otherwise_same",
    "Props.C106_moved",
    "Props.C106_downloaded",
    "Props.C106_nothing_lost",
    "Props.C106_no_folder",
    "Props.C106_full_violated",
    "Props.C106_half_moved_violated",
    "Props.C106_vanished_violated"
   ],
   "note": "Files below 4 GB (copyData counts with 32 bits); the host does not cancel during the move. Violated: when the last piece of a file cannot be written (destination full) the move is answered OK and the original deleted, its bytes lost; after a move that failed half-way two storages have the same handle, and deleting the half-moved folder deletes the original; an empty folder moved onto a folder of its name vanishes."
  },
  {
   "property": "C107",
   "status": "partial",
   "theorems": [
    "Props.C107_set_list",
    "Props.C107_set_value",
    "Props.C107_rest",
    "Props.C107_told",
    "Props.C107_empty_name_violated"
   ],
   "note": "Not a name for the storage root (the code dereferences a null pointer, C63_root_violated); values of the standard's types (C64_type_violated). Violated: a name the system does not carry out (for example an empty one) is answered OK and told as the file name, while the file keeps its name."
  },
  {
   "property": "C108",
   "status": "partial",
   "theorems": [
    "Props.C108_one_partial",
    "Props.C108_all_partial",
    "Props.C108_refused",
    "Props.C108_depth_violated"
   ],
   "note": "Not after operations that spoil the properties asked for (C100 violations); at most 2^20 objects (2^16 for all properties); not for objects of undefined format in one folder (C22). Violated: a request for everything below a folder (depth 0xFFFFFFFF) lists only the objects directly in it."
  },
  {
   "property": "C109",
   "status": "proved",
   "theorems": [
    "Props.C109_references",
    "Props.C109_unset",
    "Props.C109_set_refused",
    "Props.C109_query_refused"
   ],
   "note": "The references are those of the running device (what is stored and read back at a restart is C33)."
  },
  {
   "property": "C110",
   "status": "partial",
   "theorems": [
    "Props.C110_text",
    "Props.C110_unset",
    "Props.C110_described",
    "Props.C110_battery",
    "Props.C110_default",
    "Props.C110_refused",
    "Props.C110_read_only_violated"
   ],
   "note": "Proved as stated. Violated: setting one of the three properties described as read-only is answered OK without effect (C110_read_only_violated)."
  },
  {
   "property": "C111",
   "status": "partial",
   "theorems": [
    "Props.C111_device_info",
    "Props.C111_storage_ids",
    "Props.C111_storage_info_partial",
    "Props.C111_no_session"
   ],
   "note": "Numbers of a file system whose fragment and block sizes differ are excluded: they are wrong (C69_fragment_size_violated)."
  },
  {
   "property": "C112",
   "status": "proved",
   "theorems": [
    "Props.C112_object_properties"
   ],
   "note": "In a session with the storages read. Defaults outside their own form: C62."
  },
  {
   "property": "C113",
   "status": "partial",
   "theorems": [
    "Props.C113_distinct_partial",
    "Props.C113_identifier_partial",
    "Props.C113_again_partial"
   ],
   "note": "Proved for devices with one storage, paths in plain ASCII, and histories without MoveObject, SetObjectPropList and renaming of folders: moving gives up the identifier (C14_move_violated), and ids above 2^127 are compared as on machines whose char is unsigned (C14_signed_char_violated). SendObjectPropList is left out before the identifiers are told: it may set what is told for the object sent. Ends by a crash (files not written) are not covered."
  },
  {
   "property": "C114",
   "status": "partial",
   "theorems": [
    "Props.C114_found",
    "Props.C114_references_partial"
   ],
   "note": "Proved for devices with one storage, ASCII paths, histories as in C113. References of folders and of playlists, and references to folders, are lost over a restart (C57_folder_violated, C57_playlist_violated); several storages overwrite each other's file (C57_shared_file_violated)."
  },
  {
   "property": "C115",
   "status": "partial",
   "theorems": [
    "Props.C115_stored_partial",
    "Props.C115_survives",
    "Props.C115_upload_download"
   ],
   "note": "C115_upload_download and C115_survives are complete for a device with one storage. C115_stored_partial (the device answers as its storage alone) excludes the operations listed in ownOps, as these involve the cache, references and device state. GetThumb is not in the device model."
  },
  {
   "property": "C116",
   "status": "proved",
   "theorems": [
    "Props.C116_found",
    "Props.C116_upload_download"
   ],
   "note": "One storage. What the file system keeps between the end and the start is a hypothesis (HoldsStill)."
  },
  {
   "property": "C117",
   "status": "proved",
   "theorems": [
    "Props.C117_same",
    "Props.C117_listed"
   ],
   "note": "One storage; up to 2^26 handles for the listing. That the directory still holds what it held is a hypothesis (SameThere). Identifiers and references: C113, C114."
  },
  {
   "property": "C118",
   "status": "proved",
   "theorems": [
    "Props.C118_answers",
    "Props.C118_announces",
    "Props.C118_deleted",
    "Props.C118_moved",
    "Props.C118_copied",
    "Props.C118_parts",
    "Props.C118_listed",
    "Props.C118_made",
    "Props.C118_edited",
    "Props.C118_unknown"
   ],
   "note": "One storage; the conditions of C85, C89, C90, C91, C92, C99, C101. Requests in ownOps (properties, references, device information) have their own properties: C100, C107-C112."
  }
 ]
}