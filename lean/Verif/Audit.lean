import Verif.Props.Asked
import Verif.Props.Atomic
import Verif.Props.Calm
import Verif.Props.Chain
import Verif.Props.Client
import Verif.Props.Cluster
import Verif.Props.Configure
import Verif.Props.Dated
import Verif.Props.Decision
import Verif.Props.Delay
import Verif.Props.Empty
import Verif.Props.Fallback
import Verif.Props.Fetch
import Verif.Props.Fetched
import Verif.Props.Files
import Verif.Props.Forget
import Verif.Props.Gates
import Verif.Props.History
import Verif.Props.Hourly
import Verif.Props.Issues
import Verif.Props.Json
import Verif.Props.Ledger
import Verif.Props.Line
import Verif.Props.Lock
import Verif.Props.Mirror
import Verif.Props.Moves
import Verif.Props.Names
import Verif.Props.Network
import Verif.Props.Once
import Verif.Props.Options
import Verif.Props.Order
import Verif.Props.Party
import Verif.Props.Polling
import Verif.Props.Prefix
import Verif.Props.Program
import Verif.Props.Recovery
import Verif.Props.Requests
import Verif.Props.Restart
import Verif.Props.Rsync
import Verif.Props.RsyncClient
import Verif.Props.RsyncExact
import Verif.Props.RsyncHistory
import Verif.Props.RsyncLedger
import Verif.Props.RsyncMoves
import Verif.Props.RsyncOrder
import Verif.Props.RsyncParty
import Verif.Props.Shared
import Verif.Props.Staging
import Verif.Props.Tags
import Verif.Props.Timeline
import Verif.Props.Unavailable
import Verif.Props.UpToDate
import Verif.Props.Update
import Verif.Props.Upstream
import Verif.Props.Validation
import Verif.Props.Validators
import Verif.Props.Visits
import Verif.Props.Withhold
import Verif.Props.WithholdRun

/-! The axioms every property theorem depends on, printed when this file is built. -/

#print axioms KSync.C01_files_in_place_partial
#print axioms KSync.C01_refuted_for_copies_after_crash
#print axioms KSync.C02_notification_atomic
#print axioms KSync.C03_published_version
#print axioms KSync.C03_update_complete
#print axioms KSync.C03_files_published_partial
#print axioms KSync.C03_refuted_for_reused_path
#print axioms KSync.C04_staged_has_hash
#print axioms KSync.C05_fetch_verifies
#print axioms KSync.C05_fetch_crash
#print axioms KSync.C05_mismatch_stores_nothing
#print axioms KSync.C06_leftovers
#print axioms KSync.C06_target_has_hash_partial
#print axioms KSync.C06_refuted_for_304
#print axioms KSync.C07_unchanged_no_effect
#print axioms KSync.C07_unchanged_succeeds
#print axioms KSync.C07_not_modified
#print axioms KSync.C08_lower_serial_refused
#print axioms KSync.C09_bad_deltas_refused
#print axioms KSync.C09_gap_unusable
#print axioms KSync.C09_duplicate_unusable
#print axioms KSync.C10_descending
#print axioms KSync.C10_unbroken
#print axioms KSync.C11_max_deltas
#print axioms KSync.C12_session_change_deltas
#print axioms KSync.C12_session_change_schedules
#print axioms KSync.C13_uris_below_base
#print axioms KSync.C13_outside_refused
#print axioms KSync.C14_removed_only_when_due
#print axioms KSync.C15_cleanup
#print axioms KSync.C16_referenced_files_stay_partial
#print axioms KSync.C16_refuted_for_slow_run
#print axioms KSync.C03_refuted_for_reused_path
#print axioms KSync.C17_nothing_invalid_published
#print axioms KSync.C18_first_validation
#print axioms KSync.C18_validates_what_is_published_partial
#print axioms KSync.C18_hourly_partial
#print axioms KSync.C18_refuted_for_recent_data
#print axioms KSync.C18_refuted_for_short_deltas
#print axioms KSync.C19_scripts_before_publication
#print axioms KSync.C19_failing_scripts_do_not_stop
#print axioms KSync.C19_exit_status_ignored
#print axioms KSync.C20_state_follows_notification
#print axioms KSync.C20_staging_touches_nothing_else
#print axioms KSync.C20_unavailable_snapshot
#print axioms KSync.C20_unavailable_delta
#print axioms KSync.C21_restart
#print axioms KSync.C21_state_describes_published
#print axioms KSync.C22_rrdp_state
#print axioms KSync.C22_rsync_state
#print axioms KSync.C23_restart_partial
#print axioms KSync.C23_restart_without_tals_partial
#print axioms KSync.C23_restart_with_tals_partial
#print axioms KSync.C23_refuted_for_moves
#print axioms KSync.C24_served_is_snapshot
#print axioms KSync.C24_nothing_else
#print axioms KSync.C24_exact_over_histories
#print axioms KSync.C24_exact_after_any_run
#print axioms KSync.C25_link_switched_atomically
#print axioms KSync.C26_always_whole
#print axioms KSync.C27_kept_until_due
#print axioms KSync.C27_after_success
#print axioms KSync.C28_current_survives_partial
#print axioms KSync.C28_current_kept_partial
#print axioms KSync.C28_content_kept_partial
#print axioms KSync.C28_current_kept_with_moves
#print axioms KSync.C28_published_with_moves
#print axioms KSync.C28_refuted_for_repeated_publication
#print axioms KSync.C29_with_host
#print axioms KSync.C29_without_host
#print axioms KSync.C29_same_file_iff_same_path
#print axioms KSync.C29_refuted_across_modules
#print axioms KSync.C30_own_time_partial
#print axioms KSync.C30_same_time_partial
#print axioms KSync.C30_over_histories_partial
#print axioms KSync.C30_refuted_for_undecodable_object
#print axioms KSync.C31_revision_directories
#print axioms KSync.C32_move_mode
#print axioms KSync.C33_mutual_exclusion
#print axioms KSync.C33_harmless_without_lock
#print axioms KSync.C33_serial
#print axioms KSync.C33_lock_file_stays
#print axioms KSync.C33_runs_one_after_another
#print axioms KSync.C34_staging_requests
#print axioms KSync.C34_run_requests
#print axioms KSync.C34_directory_no_requests
#print axioms KSync.C34_source_base
#print axioms KSync.C35_staging_requests
#print axioms KSync.C35_insecure_only_on_request
#print axioms KSync.C36_only_configured_directories
#print axioms KSync.C36_directories
#print axioms KSync.C37_counts
#print axioms KSync.C37_merge_order
#print axioms KSync.C38_deltas_give_snapshot
#print axioms KSync.C38_delta_applies
#print axioms KSync.C38_success_is_version
#print axioms KSync.C38_at_last_serial
#print axioms KSync.C39_never_half_applied
#print axioms KSync.C39_failed_deltas
#print axioms KSync.C39_cache_genuine
#print axioms KSync.C40_revoked
#print axioms KSync.C40_refuted_for_router_certificates
#print axioms KSync.C41_accepted_listed
#print axioms KSync.C41_one_finding_each
#print axioms KSync.C42_terminates_partial
#print axioms KSync.C42_refuted_by_cycle
#print axioms KSync.C43_reused_only_if_same
#print axioms KSync.C43_prevalidate
#print axioms KSync.C43_recorded
#print axioms KSync.C44_defaults_follow
#print axioms KSync.C44_explicit_unchanged
#print axioms KSync.C45_tag_of_version_held_partial
#print axioms KSync.C45_not_modified_is_current_partial
#print axioms KSync.C45_refuted_for_server_going_back
#print axioms KSync.C46_malformed_snapshot
#print axioms KSync.C47_version_never_back
#print axioms KSync.C48_only_empty_directories
#print axioms KSync.C48_file_and_empty_directories_gone
#print axioms KSync.C49_offline
#print axioms KSync.C49_prevalidate
#print axioms KSync.C50_base64
#print axioms KSync.C50_uuid
#print axioms KSync.C51_same_directory_partial
#print axioms KSync.C51_refuted_when_rrdp_dir_changed
#print axioms KSync.C52_trust_anchor
#print axioms KSync.C52_parse
#print axioms KSync.C53_tree
#print axioms KSync.C53_exact
#print axioms KSync.C54_stuck_for_good
#print axioms KSync.C54_completes_only_unchanged
#print axioms KSync.C55_all_requests
#print axioms KSync.C55_insecure_only_for_validation
#print axioms KSync.C55_validation_insecure
#print axioms KSync.C56_move_never_loses
#print axioms KSync.C56_move_moves
#print axioms KSync.C56_staged_files_survive
#print axioms KSync.C57_announced_after_delay
#print axioms KSync.C57_no_delay
#print axioms KSync.C57_files_there_during_delay
#print axioms KSync.C58_issues_name_cause
#print axioms KSync.C58_payload
#print axioms KSync.C59_no_panic
#print axioms KSync.C60_order_partial
#print axioms KSync.C60_verdict_partial
#print axioms KSync.C60_refuted_by_kept_data
#print axioms KSync.C61_once_partial
#print axioms KSync.C61_fresh
#print axioms KSync.C61_at_worst
#print axioms KSync.C61_refuted_when_down
#print axioms KSync.C62_nothing_forgotten_partial
#print axioms KSync.C62_refuted_after_crash
#print axioms KSync.C63_swept_partial
#print axioms KSync.C63_strays_stay
#print axioms KSync.C63_directories_stay
#print axioms KSync.C63_refuted_leftovers
#print axioms KSync.C64_no_empty_dirs_partial
#print axioms KSync.C64_refuted_after_crash
#print axioms KSync.C65_nothing_forgotten_partial
#print axioms KSync.C65_refuted_after_crash
#print axioms KSync.C66_exact
#print axioms KSync.C66_servers_agree
#print axioms KSync.C66_refuted_when_listed_again
#print axioms KSync.C67_same_tree
#print axioms KSync.C67_same_times
#print axioms KSync.C68_validation_partial
#print axioms KSync.C68_data_of_announced_version_partial
#print axioms KSync.C68_refuted_for_server_going_back
#print axioms KSync.C68_refuted_for_short_deltas
#print axioms KSync.C69_round_trip
#print axioms KSync.C69_rsync_round_trip
#print axioms KSync.C69_torn
#print axioms KSync.C69_rsync_torn
#print axioms KSync.C69_trailing
#print axioms KSync.C69_members
#print axioms KSync.C69_refused
#print axioms KSync.C69_assumptions
#print axioms KSync.C70_each_file_once
#print axioms KSync.C70_staged_files_spared
#print axioms KSync.C70_runs
#print axioms KSync.C70_runs_spare_staged_files
#print axioms KSync.C70_nothing_new
#print axioms KSync.C71_accepted_iff
#print axioms KSync.C71_no_effect
#print axioms KSync.C71_options_kept
#print axioms KSync.C71_default_layout
#print axioms KSync.C71_fresh_start
#print axioms KSync.C72_refused_with_cause
#print axioms KSync.C72_goes_on
#print axioms KSync.C72_without_reject
#print axioms KSync.C73_round_trip_partial
#print axioms KSync.C73_refuted_for_mapped
#print axioms KSync.C73_distinct
#print axioms KSync.C73_no_other
#print axioms KSync.C74_listed_files_stay_partial
#print axioms KSync.C74_refuted_from_last_served
#print axioms KSync.C75_revision_stays_partial
#print axioms KSync.C75_refuted_after_repeated_publication
#print axioms KSync.C76_always_complete_partial
#print axioms KSync.C76_serves_partial
#print axioms KSync.C76_success_means_served_partial
#print axioms KSync.C76_options_refused
#print axioms KSync.C76_lock_taken
#print axioms KSync.C76_no_panic
#print axioms KSync.C77_recorded_times
#print axioms KSync.C77_rrdp_two_versions
#print axioms KSync.C77_rsync_two_revisions
#print axioms KSync.C78_not_older_with_links
#print axioms KSync.C78_not_older_with_moves
#print axioms KSync.C78_files_with_links
#print axioms KSync.C79_files_in_place
#print axioms KSync.C79_version_never_back
#print axioms KSync.C79_current_kept_with_links
#print axioms KSync.C79_not_older_with_links
#print axioms KSync.C79_not_older_with_moves
#print axioms KSync.C79_cure
#print axioms KSync.C79_stuck_with_moves
#print axioms KSync.C80_files_in_place
#print axioms KSync.C80_version_never_back
#print axioms KSync.C80_current_kept_with_links
#print axioms KSync.C80_not_older_with_links
#print axioms KSync.C80_stuck_from_links_to_moves
#print axioms KSync.C80_stuck_from_moves_to_links
#print axioms KSync.C81_left_alone
#print axioms KSync.C81_each_on_its_own
#print axioms KSync.C81_files_in_place
#print axioms KSync.C82_exact
#print axioms KSync.C82_never_ahead
#print axioms KSync.C82_catches_up
#print axioms KSync.C83_right_content
#print axioms KSync.C83_snapshot_can_be_had
#print axioms KSync.C83_deltas_suffice
#print axioms KSync.C84_files_at_other_servers
#print axioms KSync.C84_relying_party
#print axioms KSync.C84_refuted_for_stricter_limit
#print axioms KSync.C84_refuted_for_version_left_out
#print axioms KSync.C85_right_content
#print axioms KSync.C85_same_as_by_rrdp
#print axioms KSync.C85_refuted_across_modules
#print axioms KSync.C86_in_order
#print axioms KSync.C86_never_back
#print axioms KSync.C86_up_to_date
#print axioms KSync.C86_refuted_between_servers
#print axioms KSync.C87_never_back_with_links
#print axioms KSync.C87_never_back_with_moves
#print axioms KSync.C87_refuted_from_rsync_to_rrdp
#print axioms KSync.C88_notification_never_back
#print axioms KSync.C88_rsync_never_back
#print axioms KSync.C88_from_rrdp_to_rsync
#print axioms KSync.C88_from_rrdp_to_rsync_with_moves
#print axioms KSync.C88_notification_comes_last
#print axioms KSync.C88_listed_files_stay
#print axioms KSync.C89_exact
#print axioms KSync.C89_never_back
#print axioms KSync.C89_never_ahead
#print axioms KSync.C89_catches_up
#print axioms KSync.C89_refuted_when_reads_go_back
#print axioms KSync.C90_in_order
#print axioms KSync.C90_never_back
#print axioms KSync.C90_refuted_when_turning_down
#print axioms KSync.C91_supplies
#print axioms KSync.C91_gets_there
#print axioms KSync.C91_refuted_when_slow
#print axioms KSync.C92_handed_down
#print axioms KSync.C92_runs_succeed
