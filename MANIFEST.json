{
 "claims": [
  {
   "property": "C01",
   "status": "partial",
   "theorems": [
    "KSync.C01_files_in_place_partial",
    "KSync.C01_refuted_for_copies_after_crash"
   ],
   "note": "Proved for every history of runs, failures and crashes over a source that uses each path for one file, when no run takes longer than the cleanup time, the source does not answer 304 to unconditional requests, and no run is limited to 0 deltas when there are some (other limits may change from run to run, see C80). If files cannot be renamed but must be copied, the run has to start with notification and state in step: otherwise the claim is false (refuted with a concrete history)."
  },
  {
   "property": "C02",
   "status": "proved",
   "theorems": [
    "KSync.C02_notification_atomic"
   ],
   "note": ""
  },
  {
   "property": "C03",
   "status": "partial",
   "theorems": [
    "KSync.C03_published_version",
    "KSync.C03_update_complete",
    "KSync.C03_files_published_partial",
    "KSync.C03_refuted_for_reused_path"
   ],
   "note": "files: holds when newly announced files have paths that are neither in use nor scheduled for removal; refuted otherwise"
  },
  {
   "property": "C04",
   "status": "proved",
   "theorems": [
    "KSync.C04_staged_has_hash"
   ],
   "note": ""
  },
  {
   "property": "C05",
   "status": "proved",
   "theorems": [
    "KSync.C05_fetch_verifies",
    "KSync.C05_fetch_crash",
    "KSync.C05_mismatch_stores_nothing"
   ],
   "note": ""
  },
  {
   "property": "C06",
   "status": "partial",
   "theorems": [
    "KSync.C06_leftovers",
    "KSync.C06_target_has_hash_partial",
    "KSync.C06_refuted_for_304"
   ],
   "note": "needs that no server answers 304 to an unconditional GET; refuted otherwise"
  },
  {
   "property": "C07",
   "status": "proved",
   "theorems": [
    "KSync.C07_unchanged_no_effect",
    "KSync.C07_unchanged_succeeds",
    "KSync.C07_not_modified"
   ],
   "note": ""
  },
  {
   "property": "C08",
   "status": "proved",
   "theorems": [
    "KSync.C08_lower_serial_refused"
   ],
   "note": ""
  },
  {
   "property": "C09",
   "status": "proved",
   "theorems": [
    "KSync.C09_bad_deltas_refused",
    "KSync.C09_gap_unusable",
    "KSync.C09_duplicate_unusable"
   ],
   "note": ""
  },
  {
   "property": "C10",
   "status": "proved",
   "theorems": [
    "KSync.C10_descending",
    "KSync.C10_unbroken"
   ],
   "note": ""
  },
  {
   "property": "C11",
   "status": "proved",
   "theorems": [
    "KSync.C11_max_deltas"
   ],
   "note": ""
  },
  {
   "property": "C12",
   "status": "proved",
   "theorems": [
    "KSync.C12_session_change_deltas",
    "KSync.C12_session_change_schedules"
   ],
   "note": ""
  },
  {
   "property": "C13",
   "status": "proved",
   "theorems": [
    "KSync.C13_uris_below_base",
    "KSync.C13_outside_refused"
   ],
   "note": ""
  },
  {
   "property": "C14",
   "status": "proved",
   "theorems": [
    "KSync.C14_removed_only_when_due"
   ],
   "note": ""
  },
  {
   "property": "C15",
   "status": "proved",
   "theorems": [
    "KSync.C15_cleanup"
   ],
   "note": ""
  },
  {
   "property": "C16",
   "status": "partial",
   "theorems": [
    "KSync.C16_referenced_files_stay_partial",
    "KSync.C16_refuted_for_slow_run",
    "KSync.C03_refuted_for_reused_path"
   ],
   "note": "Proved for every history under the conditions of C01; false for a run that takes longer than the cleanup time (refuted with a concrete run)."
  },
  {
   "property": "C17",
   "status": "proved",
   "theorems": [
    "KSync.C17_nothing_invalid_published"
   ],
   "note": ""
  },
  {
   "property": "C18",
   "status": "partial",
   "theorems": [
    "KSync.C18_first_validation",
    "KSync.C18_validates_what_is_published_partial",
    "KSync.C18_hourly_partial",
    "KSync.C18_refuted_for_recent_data",
    "KSync.C18_refuted_for_short_deltas"
   ],
   "note": "False of the code for data fetched by the validator less than an hour ago: the data kept from the previous run are then validated instead of what was staged (refuted with a concrete run). False too, at any time, if the source lists deltas that do not go up to its serial: the validator then takes the data it has to be up to date (refuted with a concrete run in which content with issues is published). Proved for a first validation, and whenever the data kept are genuine, of an earlier version and at least an hour old; and, over all histories of runs (complete or cut off) that are at least an hour apart, for any truthful source that does not go back and lists its deltas up to its serial."
  },
  {
   "property": "C19",
   "status": "proved",
   "theorems": [
    "KSync.C19_scripts_before_publication",
    "KSync.C19_failing_scripts_do_not_stop",
    "KSync.C19_exit_status_ignored"
   ],
   "note": ""
  },
  {
   "property": "C20",
   "status": "proved",
   "theorems": [
    "KSync.C20_state_follows_notification",
    "KSync.C20_staging_touches_nothing_else",
    "KSync.C20_unavailable_snapshot",
    "KSync.C20_unavailable_delta"
   ],
   "note": ""
  },
  {
   "property": "C21",
   "status": "proved",
   "theorems": [
    "KSync.C21_restart",
    "KSync.C21_state_describes_published"
   ],
   "note": ""
  },
  {
   "property": "C22",
   "status": "proved",
   "theorems": [
    "KSync.C22_rrdp_state",
    "KSync.C22_rsync_state"
   ],
   "note": "Both state files. The encoding is abstract: a proper prefix of an encoded state does not decode (law of the interface, met by the instance)."
  },
  {
   "property": "C23",
   "status": "partial",
   "theorems": [
    "KSync.C23_restart_partial",
    "KSync.C23_restart_without_tals_partial",
    "KSync.C23_restart_with_tals_partial",
    "KSync.C23_refuted_for_moves"
   ],
   "note": "Proved for every instant in every history when the rsync directory is disabled or uses links, over a source whose names fit on one file system and under the conditions of C01. C23_restart_with_tals_partial says it without reference to the checks: with pre-validation the run publishes unless one of the reasons of C72 is there. With --rsync-dir-force-moves it is false: a run cut off after moving the new directory to current leaves a directory that no later run can replace (refuted with a concrete history)."
  },
  {
   "property": "C24",
   "status": "proved",
   "theorems": [
    "KSync.C24_served_is_snapshot",
    "KSync.C24_nothing_else",
    "KSync.C24_exact_over_histories",
    "KSync.C24_exact_after_any_run"
   ],
   "note": "Over histories: the source has one snapshot for each version (OneSnapshot), and for completeness runs are in time (TimelyLifetime, see C28)."
  },
  {
   "property": "C25",
   "status": "proved",
   "theorems": [
    "KSync.C25_link_switched_atomically"
   ],
   "note": ""
  },
  {
   "property": "C26",
   "status": "proved",
   "theorems": [
    "KSync.C26_always_whole"
   ],
   "note": ""
  },
  {
   "property": "C27",
   "status": "proved",
   "theorems": [
    "KSync.C27_kept_until_due",
    "KSync.C27_after_success"
   ],
   "note": ""
  },
  {
   "property": "C28",
   "status": "partial",
   "theorems": [
    "KSync.C28_current_survives_partial",
    "KSync.C28_current_kept_partial",
    "KSync.C28_content_kept_partial",
    "KSync.C28_current_kept_with_moves",
    "KSync.C28_published_with_moves",
    "KSync.C28_refuted_for_repeated_publication"
   ],
   "note": "False of the code when publication fails after the rsync part in several runs: the revision is then scheduled for removal while it is current (refuted with a concrete history). Proved for a run whose version is not mentioned in the rsync state. Proved with links over all histories (failures, cuts, repeated publication) whose runs start before the current revision, if listed as old too, is due for removal: current always leads to a directory with all files of the snapshot of a revision, with the right content unless the revision is being published again. Proved without condition on time over all histories with moves (--rsync-dir-force-moves): at every instant there are no files in current, or all objects of an announced snapshot."
  },
  {
   "property": "C29",
   "status": "proved",
   "theorems": [
    "KSync.C29_with_host",
    "KSync.C29_without_host",
    "KSync.C29_same_file_iff_same_path",
    "KSync.C29_refuted_across_modules"
   ],
   "note": "Without --rsync-include-host, objects of different modules with the same path get the same file (refutation); not claimed."
  },
  {
   "property": "C30",
   "status": "partial",
   "theorems": [
    "KSync.C30_own_time_partial",
    "KSync.C30_same_time_partial",
    "KSync.C30_over_histories_partial",
    "KSync.C30_refuted_for_undecodable_object"
   ],
   "note": "an object whose time cannot be decoded keeps the time at which it was written, so two servers differ; proved for all other objects"
  },
  {
   "property": "C31",
   "status": "proved",
   "theorems": [
    "KSync.C31_revision_directories"
   ],
   "note": ""
  },
  {
   "property": "C32",
   "status": "proved",
   "theorems": [
    "KSync.C32_move_mode"
   ],
   "note": ""
  },
  {
   "property": "C33",
   "status": "proved",
   "theorems": [
    "KSync.C33_mutual_exclusion",
    "KSync.C33_harmless_without_lock",
    "KSync.C33_serial",
    "KSync.C33_lock_file_stays",
    "KSync.C33_runs_one_after_another"
   ],
   "note": "The lock itself (crate fslock, flock) is modelled as a lock with at most one holder, released when its holder ends."
  },
  {
   "property": "C34",
   "status": "proved",
   "theorems": [
    "KSync.C34_staging_requests",
    "KSync.C34_run_requests",
    "KSync.C34_directory_no_requests",
    "KSync.C34_source_base"
   ],
   "note": "whole runs: without TALs (with TALs see C55); the search for updates and the downloads: always"
  },
  {
   "property": "C35",
   "status": "proved",
   "theorems": [
    "KSync.C35_staging_requests",
    "KSync.C35_insecure_only_on_request"
   ],
   "note": "whole runs: without TALs (with TALs see C55); the search for updates and the downloads: always"
  },
  {
   "property": "C36",
   "status": "proved",
   "theorems": [
    "KSync.C36_only_configured_directories",
    "KSync.C36_directories"
   ],
   "note": ""
  },
  {
   "property": "C37",
   "status": "proved",
   "theorems": [
    "KSync.C37_counts",
    "KSync.C37_merge_order"
   ],
   "note": ""
  },
  {
   "property": "C38",
   "status": "proved",
   "theorems": [
    "KSync.C38_deltas_give_snapshot",
    "KSync.C38_delta_applies",
    "KSync.C38_success_is_version",
    "KSync.C38_at_last_serial"
   ],
   "note": "Serials have 64 bits and the serial after the last one is 0, as in a release build."
  },
  {
   "property": "C39",
   "status": "proved",
   "theorems": [
    "KSync.C39_never_half_applied",
    "KSync.C39_failed_deltas",
    "KSync.C39_cache_genuine"
   ],
   "note": ""
  },
  {
   "property": "C40",
   "status": "proved",
   "theorems": [
    "KSync.C40_revoked",
    "KSync.C40_refuted_for_router_certificates"
   ],
   "note": "router certificates are not checked against the CRL by the code (refutation) and not claimed"
  },
  {
   "property": "C41",
   "status": "proved",
   "theorems": [
    "KSync.C41_accepted_listed",
    "KSync.C41_one_finding_each"
   ],
   "note": ""
  },
  {
   "property": "C42",
   "status": "partial",
   "theorems": [
    "KSync.C42_terminates_partial",
    "KSync.C42_refuted_by_cycle"
   ],
   "note": "terminates when a rank decreases along certification; a CA that certifies itself makes the recursion unbounded"
  },
  {
   "property": "C43",
   "status": "proved",
   "theorems": [
    "KSync.C43_reused_only_if_same",
    "KSync.C43_prevalidate",
    "KSync.C43_recorded"
   ],
   "note": ""
  },
  {
   "property": "C44",
   "status": "proved",
   "theorems": [
    "KSync.C44_defaults_follow",
    "KSync.C44_explicit_unchanged"
   ],
   "note": ""
  },
  {
   "property": "C45",
   "status": "partial",
   "theorems": [
    "KSync.C45_tag_of_version_held_partial",
    "KSync.C45_not_modified_is_current_partial",
    "KSync.C45_refuted_for_server_going_back"
   ],
   "note": "Proved for every history over servers that list deltas up to their serial and do not go back within a session; false for a server that goes back (refuted with a concrete history). The synchronisation itself never makes a conditional request."
  },
  {
   "property": "C46",
   "status": "proved",
   "theorems": [
    "KSync.C46_malformed_snapshot"
   ],
   "note": ""
  },
  {
   "property": "C47",
   "status": "proved",
   "theorems": [
    "KSync.C47_version_never_back"
   ],
   "note": ""
  },
  {
   "property": "C48",
   "status": "proved",
   "theorems": [
    "KSync.C48_only_empty_directories",
    "KSync.C48_file_and_empty_directories_gone"
   ],
   "note": ""
  },
  {
   "property": "C49",
   "status": "proved",
   "theorems": [
    "KSync.C49_offline",
    "KSync.C49_prevalidate"
   ],
   "note": ""
  },
  {
   "property": "C50",
   "status": "proved",
   "theorems": [
    "KSync.C50_base64",
    "KSync.C50_uuid"
   ],
   "note": ""
  },
  {
   "property": "C51",
   "status": "partial",
   "theorems": [
    "KSync.C51_same_directory_partial",
    "KSync.C51_refuted_when_rrdp_dir_changed"
   ],
   "note": "needs that the recorded state was made with the same --rrdp-dir; refuted otherwise"
  },
  {
   "property": "C52",
   "status": "proved",
   "theorems": [
    "KSync.C52_trust_anchor",
    "KSync.C52_parse"
   ],
   "note": ""
  },
  {
   "property": "C53",
   "status": "proved",
   "theorems": [
    "KSync.C53_tree",
    "KSync.C53_exact"
   ],
   "note": ""
  },
  {
   "property": "C54",
   "status": "proved",
   "theorems": [
    "KSync.C54_stuck_for_good",
    "KSync.C54_completes_only_unchanged"
   ],
   "note": ""
  },
  {
   "property": "C55",
   "status": "proved",
   "theorems": [
    "KSync.C55_all_requests",
    "KSync.C55_insecure_only_for_validation",
    "KSync.C55_validation_insecure"
   ],
   "note": ""
  },
  {
   "property": "C56",
   "status": "proved",
   "theorems": [
    "KSync.C56_move_never_loses",
    "KSync.C56_move_moves",
    "KSync.C56_staged_files_survive"
   ],
   "note": "A failing operation has no effect in the model, except that a write may stop part way."
  },
  {
   "property": "C57",
   "status": "proved",
   "theorems": [
    "KSync.C57_announced_after_delay",
    "KSync.C57_no_delay",
    "KSync.C57_files_there_during_delay"
   ],
   "note": "A wait is recorded with all file systems up to then; C57_files_there_during_delay is under the conditions of C01."
  },
  {
   "property": "C58",
   "status": "proved",
   "theorems": [
    "KSync.C58_issues_name_cause",
    "KSync.C58_payload"
   ],
   "note": ""
  },
  {
   "property": "C59",
   "status": "proved",
   "theorems": [
    "KSync.C59_no_panic"
   ],
   "note": "Panics inside external crates are not modelled, except the one for a limit of zero deltas; the model is that of a release build: in a build with overflow checks serial + 1 in the validator panics at the largest u64 (in a release build it is 0, which is modelled); running out of stack is C42. Log messages are not modelled: src/util.rs:34 panics when a time out of the range of chrono is shown, see the statement; by C77 the times in state files written by the program are readings of its clock."
  },
  {
   "property": "C60",
   "status": "partial",
   "theorems": [
    "KSync.C60_order_partial",
    "KSync.C60_verdict_partial",
    "KSync.C60_refuted_by_kept_data"
   ],
   "note": "False in general (C60_refuted_by_kept_data): when the notification file of a repository with kept data cannot be fetched, the first CA that asks is reported as without data and the later ones are validated with the kept data (validator.rs:572-581), so what is found depends on the order. Proved when this cannot happen: every repository with kept data is already checked, or need not be checked, or its files can be had."
  },
  {
   "property": "C61",
   "status": "partial",
   "theorems": [
    "KSync.C61_once_partial",
    "KSync.C61_fresh",
    "KSync.C61_at_worst",
    "KSync.C61_refuted_when_down"
   ],
   "note": "The first sentence is proved for repositories whose server answers, in the absence of local failures, and for fresh data without conditions. It is false for a repository without kept data whose server does not answer (C61_refuted_when_down): get_latest keeps nothing of the failure (validator.rs:537-553), so every further CA in it leads to another request; C61_at_worst bounds their number."
  },
  {
   "property": "C62",
   "status": "partial",
   "theorems": [
    "KSync.C62_nothing_forgotten_partial",
    "KSync.C62_refuted_after_crash"
   ],
   "note": "Proved for every history; for runs that fail or are cut off while publishing the files that may stay behind are named. Without this exception it is false (refuted with a concrete history): a run cut off before the state is written, after which the source moves on, leaves its snapshot behind for good."
  },
  {
   "property": "C63",
   "status": "partial",
   "theorems": [
    "KSync.C63_swept_partial",
    "KSync.C63_strays_stay",
    "KSync.C63_directories_stay",
    "KSync.C63_refuted_leftovers"
   ],
   "note": "Proved for every history; for runs that fail or are cut off the files that may stay in the staging area are named. Without this exception it is false (refuted with a concrete history): no code ever clears the staging area, so what a failed run has fetched stays there for good once the source has moved on; directories in it are never removed."
  },
  {
   "property": "C64",
   "status": "partial",
   "theorems": [
    "KSync.C64_no_empty_dirs_partial",
    "KSync.C64_refuted_after_crash"
   ],
   "note": "Proved for every history; for runs that fail, are cut off or in which a file operation fails the directories that may be left empty are named. Without this exception it is false (refuted with a concrete history): a run cut off between removing an old file and removing its directory leaves the directory empty for good, because the next run only looks for the file."
  },
  {
   "property": "C65",
   "status": "partial",
   "theorems": [
    "KSync.C65_nothing_forgotten_partial",
    "KSync.C65_refuted_after_crash"
   ],
   "note": "Proved for every history; for runs that fail or are cut off the files that may be left are named. Without this exception it is false (refuted with a concrete history): a run cut off after writing the directory of a revision, before the rsync state is written, leaves the directory for good if the source moves on."
  },
  {
   "property": "C66",
   "status": "proved",
   "theorems": [
    "KSync.C66_exact",
    "KSync.C66_servers_agree",
    "KSync.C66_refuted_when_listed_again"
   ],
   "note": "The source lists one delta per serial, up to its serial, and within a session neither goes back nor changes a delta nor lists one again that it had dropped (FollowsRfc). C66_refuted_when_listed_again shows that the last condition is needed."
  },
  {
   "property": "C67",
   "status": "proved",
   "theorems": [
    "KSync.C67_same_tree",
    "KSync.C67_same_times"
   ],
   "note": "Runs are in time (TimelyLifetime, see C28); the source has one snapshot for each version (OneSnapshot)."
  },
  {
   "property": "C68",
   "status": "partial",
   "theorems": [
    "KSync.C68_validation_partial",
    "KSync.C68_data_of_announced_version_partial",
    "KSync.C68_refuted_for_server_going_back",
    "KSync.C68_refuted_for_short_deltas"
   ],
   "note": "False of the code (refuted with concrete runs) for a server that goes back to an earlier serial within a session, and for one whose deltas do not go up to its serial: all deltas are skipped, and this counts as success. Proved over all histories for servers that do neither (Servers)."
  },
  {
   "property": "C69",
   "status": "proved",
   "theorems": [
    "KSync.C69_round_trip",
    "KSync.C69_rsync_round_trip",
    "KSync.C69_torn",
    "KSync.C69_rsync_torn",
    "KSync.C69_trailing",
    "KSync.C69_members",
    "KSync.C69_refused",
    "KSync.C69_assumptions"
   ],
   "note": "UTF-8, the JSON syntax (serde_json, pretty printing and reading) and the derived (de)serialisation of all types in the two state files are modelled in Model/Json.lean; simplifications are listed at its top. C69_assumptions turns this into parameters that satisfy all laws assumed in the model of a run, with the state files as they are."
  },
  {
   "property": "C70",
   "status": "proved",
   "theorems": [
    "KSync.C70_each_file_once",
    "KSync.C70_staged_files_spared",
    "KSync.C70_runs",
    "KSync.C70_runs_spare_staged_files",
    "KSync.C70_nothing_new"
   ],
   "note": "The requests of a run, in their order and with their number, are described by RunRequests (Spec/Requests.lean). That the recorded deltas are in descending order is an assumption here and proved of all runs in C10/C21. Requests of pre-validation come after these; for them see C61. Staged files are spared if the announced URIs end in names: a file whose path ends in a slash cannot be staged at all."
  },
  {
   "property": "C71",
   "status": "proved",
   "theorems": [
    "KSync.C71_accepted_iff",
    "KSync.C71_no_effect",
    "KSync.C71_options_kept",
    "KSync.C71_default_layout",
    "KSync.C71_fresh_start"
   ],
   "note": "What clap/structopt make of the command line (types, conflicts, defaults of single options) is not modelled; the model starts with its result. A relative directory is taken as absolute."
  },
  {
   "property": "C72",
   "status": "proved",
   "theorems": [
    "KSync.C72_refused_with_cause",
    "KSync.C72_goes_on",
    "KSync.C72_without_reject"
   ],
   "note": "Conditions as for C46 (no 304 to a plain request, one hash per path, no links in the staging area), no failing system calls, and the fetchers of a kept validator are stored under their own URIs (shown for the life of an installation, TidyLifetime.keyed). A server whose answers vary counts as a reason."
  },
  {
   "property": "C73",
   "status": "partial",
   "theorems": [
    "KSync.C73_round_trip_partial",
    "KSync.C73_refuted_for_mapped",
    "KSync.C73_distinct",
    "KSync.C73_no_other"
   ],
   "note": "False of the code as it is for prefixes in ::ffff:0:0/96 (C73_refuted_for_mapped), and for those in ::/96 if the standard library shows these with an IPv4 address, as older versions do; the round trip is shown for all others. The functions of the standard library that are called (Display and FromStr of addresses, u8::from_str) are modelled; Prefix::from_v4_str and from_v6_str of the crate rpki are taken to split at the slash and to check the length only."
  },
  {
   "property": "C74",
   "status": "partial",
   "theorems": [
    "KSync.C74_listed_files_stay_partial",
    "KSync.C74_refuted_from_last_served"
   ],
   "note": "Proved for every history and every continuation under the conditions of C01; files may be copied instead of renamed if state and notification were in step when the client read the notification, which is so unless a crash came in between the writing of the two; the time counts from the start of the run that replaces the notification. That it counts from the time the notification was last served is false (refuted with a concrete history): process.rs and rrdp.rs schedule the files before they wait and write the notification."
  },
  {
   "property": "C75",
   "status": "partial",
   "theorems": [
    "KSync.C75_revision_stays_partial",
    "KSync.C75_refuted_after_repeated_publication"
   ],
   "note": "Proved for every history and every continuation, under the conditions of C01 on the source, for a revision that the rsync state does not have among the old ones when the client enters it. Without this it is false (refuted with a concrete history): update_current schedules the recorded current revision even if it is the one being published again."
  },
  {
   "property": "C76",
   "status": "partial",
   "theorems": [
    "KSync.C76_always_complete_partial",
    "KSync.C76_serves_partial",
    "KSync.C76_success_means_served_partial",
    "KSync.C76_options_refused",
    "KSync.C76_lock_taken",
    "KSync.C76_no_panic"
   ],
   "note": "Model/Program.lean models main from the parsed options to the exit status. The refusals and the absence of panics hold for all options and disks. What is said about installations has the conditions of C01 and C23: rsync is disabled or uses links (with moves C23 is refuted), the source uses a path for one content only, and serving after a start without failures is shown for starts that find no half-written state file."
  },
  {
   "property": "C77",
   "status": "proved",
   "theorems": [
    "KSync.C77_recorded_times",
    "KSync.C77_rrdp_two_versions",
    "KSync.C77_rsync_two_revisions"
   ],
   "note": "What runs leave that were cut off or failed while publishing is excepted, as the statement says: that it may stay for good is proved under C62 and C65."
  },
  {
   "property": "C78",
   "status": "proved",
   "theorems": [
    "KSync.C78_not_older_with_links",
    "KSync.C78_not_older_with_moves",
    "KSync.C78_files_with_links"
   ],
   "note": "C78_files_with_links has the conditions of C28 (runs are in time), without which C28 is refuted."
  },
  {
   "property": "C79",
   "status": "proved",
   "theorems": [
    "KSync.C79_files_in_place",
    "KSync.C79_version_never_back",
    "KSync.C79_current_kept_with_links",
    "KSync.C79_not_older_with_links",
    "KSync.C79_not_older_with_moves",
    "KSync.C79_cure",
    "KSync.C79_stuck_with_moves"
   ],
   "note": "Conditions on source and runs as for C01, C47, C28, C78 and C23, among them that a run after a loss does not have to copy files (GoodRun.moves)."
  },
  {
   "property": "C80",
   "status": "proved",
   "theorems": [
    "KSync.C80_files_in_place",
    "KSync.C80_version_never_back",
    "KSync.C80_current_kept_with_links",
    "KSync.C80_not_older_with_links",
    "KSync.C80_stuck_from_links_to_moves",
    "KSync.C80_stuck_from_moves_to_links"
   ],
   "note": "Conditions on source and runs as for C01, C47, C28 and C78, with the options of the run. A run may be limited to 0 deltas only if no deltas are recorded (GoodRun.limit). After a switch from links to moves: as long as the source does not go back to the revision that was current."
  },
  {
   "property": "C81",
   "status": "proved",
   "theorems": [
    "KSync.C81_left_alone",
    "KSync.C81_each_on_its_own",
    "KSync.C81_files_in_place"
   ],
   "note": "One run at a time, as in the rest of the model; runs of different installations at the same moment are not modelled. Conditions on sources and runs as for C80."
  },
  {
   "property": "C82",
   "status": "proved",
   "theorems": [
    "KSync.C82_exact",
    "KSync.C82_never_ahead",
    "KSync.C82_catches_up"
   ],
   "note": "One run at a time, all installations on one disk."
  },
  {
   "property": "C83",
   "status": "proved",
   "theorems": [
    "KSync.C83_right_content",
    "KSync.C83_snapshot_can_be_had",
    "KSync.C83_deltas_suffice"
   ],
   "note": "That files can be had is under the conditions of C01 and C74; the time counts as in C74: from the start of the run that replaces the notification, not from the time it was last served. That snapshots and deltas can be parsed is a condition (Readable)."
  },
  {
   "property": "C84",
   "status": "proved",
   "theorems": [
    "KSync.C84_files_at_other_servers",
    "KSync.C84_relying_party",
    "KSync.C84_refuted_for_stricter_limit",
    "KSync.C84_refuted_for_version_left_out"
   ],
   "note": "Conditions on source and runs as for C66 and C74. The two refutations show that the conditions on limit and version are needed."
  },
  {
   "property": "C85",
   "status": "proved",
   "theorems": [
    "KSync.C85_right_content",
    "KSync.C85_same_as_by_rrdp",
    "KSync.C85_refuted_across_modules"
   ],
   "note": "Conditions on source and runs as for C24 over histories (runs in time) and C75. With --rsync-include-host all clean URIs are covered, without it those of one module; the refutation shows that this is needed."
  },
  {
   "property": "C86",
   "status": "proved",
   "theorems": [
    "KSync.C86_in_order",
    "KSync.C86_never_back",
    "KSync.C86_up_to_date",
    "KSync.C86_refuted_between_servers"
   ],
   "note": "Conditions on the source as for C66 and on the content as for C83. A poll counts as of the time when the notification is read; what is received for the files is arbitrary. The refutation shows that this holds of one installation, not of several servers that relying parties use in turn."
  },
  {
   "property": "C87",
   "status": "proved",
   "theorems": [
    "KSync.C87_never_back_with_links",
    "KSync.C87_never_back_with_moves",
    "KSync.C87_refuted_from_rsync_to_rrdp"
   ],
   "note": "Conditions on source and runs as for C78. That the directory of the version has its files is C28, C75 and C85. The refutation shows that rsync clients that turn to RRDP can go back (the other way round is C78)."
  },
  {
   "property": "C88",
   "status": "proved",
   "theorems": [
    "KSync.C88_notification_never_back",
    "KSync.C88_rsync_never_back",
    "KSync.C88_from_rrdp_to_rsync",
    "KSync.C88_from_rrdp_to_rsync_with_moves",
    "KSync.C88_notification_comes_last",
    "KSync.C88_listed_files_stay"
   ],
   "note": "Conditions on source and runs as for C78, and as for C74 for the last one. The order of the contents of current with --rsync-dir-force-moves is shown for further runs only (C87). That the cleanup time counts from the start of the run, not from when a notification was last served, is C74_refuted_from_last_served."
  },
  {
   "property": "C89",
   "status": "proved",
   "theorems": [
    "KSync.C89_exact",
    "KSync.C89_never_back",
    "KSync.C89_never_ahead",
    "KSync.C89_catches_up",
    "KSync.C89_refuted_when_reads_go_back"
   ],
   "note": "Conditions on the source as for C82, which is about installations on one disk. Each installation has a disk of its own here; what one with a parent is offered is what was in place at the parent at some instant, in the middle of runs too, and not before the one that was read last. The refutation shows that this last condition is needed."
  },
  {
   "property": "C90",
   "status": "proved",
   "theorems": [
    "KSync.C90_in_order",
    "KSync.C90_never_back",
    "KSync.C90_refuted_when_turning_down"
   ],
   "note": "Conditions as for C89, and on the content as for C83. What is received for the files is arbitrary. The refutation shows that relying parties must not turn from an installation to one that gets its files from it (for servers next to each other see C86)."
  },
  {
   "property": "C91",
   "status": "proved",
   "theorems": [
    "KSync.C91_supplies",
    "KSync.C91_gets_there",
    "KSync.C91_refuted_when_slow"
   ],
   "note": "The other installation is as in C83 (Mirroring); what holds of its files over time is C74, and the conditions on the run of the mirror are those of C23, apart from the one that the source supplies what it offers, which is proved here. The refutation shows that a run that asks for files after the cleanup time fails."
  },
  {
   "property": "C92",
   "status": "proved",
   "theorems": [
    "KSync.C92_handed_down",
    "KSync.C92_runs_succeed"
   ],
   "note": "Conditions on each step as in C91. The example is a line of three installations, where the first one goes on running while the second one fetches."
  }
 ]
}