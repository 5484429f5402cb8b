{"id": "C01", "title": "Published notification never points at missing or wrong files", "statement": "Whatever happens - a run completes, a run fails with an error, or the machine crashes at any instant - the notification file that RRDP clients can download refers only to snapshot and delta files that exist in the published directory and whose SHA-256 equals the hash given in the notification. This holds after any number of runs over a source that publishes a well-formed sequence of versions.", "quantifier": "for every history of runs and crashes, every sequence of source versions, every I/O failure, network response and clock reading", "why_tests_cant": "A test sees a few crash points of a few histories; the claim is about every crash point of every run in every history.", "anchors": ["src/process.rs: process", "src/rrdp.rs: apply_staged_changed, clean, write_notification, persist", "src/file_ops.rs: move_file, write_buf"]}
{"id": "C02", "title": "The notification file is replaced atomically", "statement": "At every instant of a run the published notification file is either byte for byte what it was before the run or the complete new notification; it is never absent (if it existed), truncated or a mix.", "quantifier": "for every run, every state before it, every failure and every crash point", "why_tests_cant": "Requires looking at every intermediate file system, including every partial write.", "anchors": ["src/rrdp.rs: RrdpState::write_notification", "src/file_ops.rs: write_buf", "src/process.rs: process"]}
{"id": "C03", "title": "A successful update publishes exactly the version announced by the source", "statement": "When a run ends successfully after seeing a new version, the published notification parses to the session, serial, snapshot URI and snapshot hash announced by the source, its deltas are the source's (limited) deltas that are new plus previously published ones not older than the source's lowest delta, and all newly announced files are in the published directory with the announced hash.", "quantifier": "for every prior state, source answer, configuration and clock", "why_tests_cant": "Depends on arbitrary prior states, delta lists and hashes.", "anchors": ["src/rrdp.rs: update_staged, apply_staged_changed, make_notification_file, write_notification"]}
{"id": "C04", "title": "Everything staged has the announced hash", "statement": "When staging succeeds, the staging directory contains, for the announced snapshot and for every delta that was not held already, a file whose SHA-256 is the announced one, no matter what the staging directory contained before, provided no server answers 'not modified' to an unconditional request and distinct files have distinct paths.", "quantifier": "for every notification, every prior content of the staging directory, every network answer and failure", "why_tests_cant": "All byte contents, leftovers and answers must be covered.", "anchors": ["src/rrdp.rs: update_staged, snapshot_stage, deltas_stage", "src/fetch.rs: retrieve_file, fetch"]}
{"id": "C05", "title": "Downloads that do not match their hash are never handed out or stored", "statement": "Fetching with an expected hash either returns data with that SHA-256, or stores data with that SHA-256 in the target file, or reports 'not modified', or fails; a body with another hash is never returned, and no crash point during the fetch shows a file differing from both the old file and a prefix of a body with the right hash.", "quantifier": "for every source, hash, target, response body, failure and crash point", "why_tests_cant": "Every response body and every partial write has to be considered.", "anchors": ["src/fetch.rs: FetchSource::fetch"]}
{"id": "C06", "title": "Leftovers in the staging directory are never trusted", "statement": "A file left in the staging directory by an earlier, interrupted run is used without download only if its SHA-256 equals the announced hash; otherwise it is downloaded again or the run fails.", "quantifier": "for every leftover content (including every truncation), hash and network answer", "why_tests_cant": "The leftovers are arbitrary byte strings.", "anchors": ["src/fetch.rs: Fetcher::retrieve_file"]}
{"id": "C07", "title": "Unchanged source means no effect", "statement": "If the source still announces the session and serial that were published last, or answers 'not modified', the run succeeds without changing the file system, without running scripts and without any request but the one for the notification file.", "quantifier": "for every state, configuration, file system and clock", "why_tests_cant": "Needs all states and all file systems, and absence of any effect.", "anchors": ["src/process.rs: process", "src/rrdp.rs: update_staged"]}
{"id": "C08", "title": "Serial going backwards is refused", "statement": "If the source announces the current session with a serial lower than the one published last, the run fails and the file system is unchanged.", "quantifier": "for every state, every lower serial and every environment", "why_tests_cant": "All serial pairs and states; absence of any change.", "anchors": ["src/rrdp.rs: update_staged"]}
{"id": "C09", "title": "Notification with gaps in its deltas is refused", "statement": "If the (limited) delta list of the source is not a contiguous range of serials, or contains a serial twice, the run fails and the file system is unchanged, in any order in which the deltas are listed.", "quantifier": "for every delta list, order, limit and prior state", "why_tests_cant": "All permutations and gap positions.", "anchors": ["src/rrdp.rs: update_staged (sort_and_verify_deltas)"]}
{"id": "C10", "title": "Published deltas are a strictly descending sequence without duplicates", "statement": "In every state reachable by any sequence of successful updates, the deltas in the state and in the notification written from it are strictly descending by serial; if every source notification lists deltas ending at its own serial and serials grow within a session then the sequence is also contiguous and ends at the published serial.", "quantifier": "for every sequence of source notifications, session changes and limits", "why_tests_cant": "Invariant over unbounded histories.", "anchors": ["src/rrdp.rs: deltas_stage, deltas_deprecate_before, deltas_deprecate_all, apply_staged_changed"]}
{"id": "C11", "title": "The configured maximum number of deltas is respected", "statement": "With a positive --rrdp-max-deltas N, after every successful update the published notification lists at most N deltas, provided the source's delta list is contiguous and ends at its serial.", "quantifier": "for every sequence of source notifications and every N > 0", "why_tests_cant": "Interaction of limiting, cut-off and previously held deltas over histories.", "anchors": ["src/rrdp.rs: update_staged (cutoff), deltas_deprecate_before", "src/config.rs: rrdp_max_deltas"]}
{"id": "C12", "title": "After a session change no delta of the old session is published", "statement": "When the source changes its session, the deltas published afterwards are exactly the deltas of the new notification, and every delta and the snapshot of the old session are scheduled for removal.", "quantifier": "for every prior state and every notification with another session", "why_tests_cant": "All states and delta lists.", "anchors": ["src/rrdp.rs: update_staged, deltas_deprecate_all, apply_staged_changed"]}
{"id": "C13", "title": "Published URIs are the source's URIs under the base of the notification URI", "statement": "Each URI in a published notification starts with the directory part of the configured notification URI and equals the URI announced by the source; a notification naming a URI outside that base is refused.", "quantifier": "for every URI string and every notification", "why_tests_cant": "String manipulation on arbitrary URIs.", "anchors": ["src/rrdp.rs: SourceMappings::relative, uri, make_notification_file"]}
{"id": "C14", "title": "Replaced files stay available for at least the configured time", "statement": "A file is only removed from the published RRDP directory by the cleanup if it was scheduled for removal, and the time between scheduling and removal, by the local clock, is at least --cleanup-after seconds.", "quantifier": "for every state, every clock (even running backwards) and every cleanup time", "why_tests_cant": "All clocks and schedules.", "anchors": ["src/rrdp.rs: clean, DeprecatedFile", "src/util.rs: Time::seconds_ago"]}
{"id": "C15", "title": "Replaced files do eventually go away", "statement": "When an update succeeds, every file whose removal was due is gone from disk and no longer scheduled, every scheduled file not yet due is still scheduled, and every file that stopped being referenced is scheduled.", "quantifier": "for every state and clock", "why_tests_cant": "All schedules; absence of leaks.", "anchors": ["src/rrdp.rs: clean, apply_staged_changed"]}
{"id": "C16", "title": "Cleanup never removes a file that is still referenced", "statement": "If the source never announces again a path it stopped announcing, then the cleanup never removes a file that the new or the previous notification refers to.", "quantifier": "for every history of source versions with that property, every cleanup time > 0 and clock", "why_tests_cant": "Invariant relating the removal schedule and the referenced files over whole histories.", "anchors": ["src/rrdp.rs: clean, deltas_deprecate_before, apply_staged_changed"]}
{"id": "C17", "title": "With --tal-reject-invalid nothing invalid is published", "statement": "If TALs and --tal-reject-invalid are configured, a run only changes the published directories when validation completed, saw the repository and reported no issue for it; otherwise the run fails and RRDP directory, rsync directory and state files are unchanged.", "quantifier": "for every validation outcome, state, environment and crash point", "why_tests_cant": "All reports; absence of change at all crash points.", "anchors": ["src/rrdp.rs: pre_validate", "src/process.rs: process"]}
{"id": "C18", "title": "Pre-validation examines the content that is about to be published", "statement": "When pre-validation of a repository runs, the objects it validates for that repository are those of the staged snapshot.", "quantifier": "for every prior validator state, staged content and clock", "why_tests_cant": "Depends on cached data of earlier runs and on the clock.", "anchors": ["src/rrdp.rs: create_validator, reconfigure_validator", "src/validation/validator.rs: initialise_staging_data, get_latest"]}
{"id": "C19", "title": "A failing pre-validation script blocks publication when rejection is on", "statement": "All configured scripts are run in order; if one exits with failure and --tal-reject-invalid is set, or one cannot be started, the run fails and nothing is published; without the flag failing scripts do not stop the update.", "quantifier": "for every list of scripts and every combination of outcomes", "why_tests_cant": "All lists and outcomes.", "anchors": ["src/process.rs: process (67-99)"]}
{"id": "C20", "title": "A failed run does not forget or change the published version", "statement": "If a run fails before it starts to replace the notification file, the notification file and the RRDP state file are byte for byte what they were before; staging errors moreover leave the RRDP and rsync directories untouched.", "quantifier": "for every failure at every point", "why_tests_cant": "All failure points.", "anchors": ["src/process.rs: process"]}
{"id": "C21", "title": "State survives a restart", "statement": "After a successful update, loading the state in a new process gives back the state held at the end of the update, except that validator data is marked as not yet fetched.", "quantifier": "for every state", "why_tests_cant": "Arbitrary nested state contents.", "anchors": ["src/rrdp.rs: persist, recover", "src/rsync.rs: persist, recover"]}
{"id": "C22", "title": "A truncated state file is never mistaken for a state", "statement": "If the machine crashes while the state file is being written, the next run either sees the complete new state or refuses to run; it never continues from a partial state.", "quantifier": "for every state and every crash point in the write", "why_tests_cant": "All truncation points of all state files.", "anchors": ["src/rrdp.rs: persist, recover", "src/rsync.rs: persist, recover"]}
{"id": "C23", "title": "The next run recovers from a crash", "statement": "After a crash at any point outside the writing of the state files, a following run that meets no failure completes and publishes the source's current version.", "quantifier": "for every crash point and every failure-free environment of the next run", "why_tests_cant": "Liveness over all crash points.", "anchors": ["src/process.rs: process", "src/rrdp.rs", "src/rsync.rs"]}
{"id": "C24", "title": "The rsync tree contains exactly the snapshot's objects", "statement": "After a successful update with rsync enabled, starting from no directory for that revision, the directory served as 'current' contains for each object of the published snapshot a file with exactly its bytes (the last one if a path occurs twice), and no other file. With links this also holds over histories: whatever runs failed or were cut off, nothing but objects of its own snapshot is ever in the directory 'current' points to; and if revisions are not removed while being published again, the files are exactly those of the snapshot whenever the RRDP state and 'current' are of the same version, in particular after every run that published something.", "quantifier": "for every snapshot content and configuration, and every history of runs, failures and crashes", "why_tests_cant": "All snapshots; absence of extra files.", "anchors": ["src/rsync.rs: update_from_rrdp_state, RsyncFromSnapshotWriter"]}
{"id": "C25", "title": "The 'current' link is switched atomically", "statement": "In symlink mode, at every instant of a run 'current' is either the link it was before or the link to the new revision; it is never missing once it existed.", "quantifier": "for every state and crash point", "why_tests_cant": "All crash points.", "anchors": ["src/rsync.rs: symlink_current_to_new_revision_dir"]}
{"id": "C26", "title": "rsync clients never see a partially written revision", "statement": "In symlink mode, when the new revision differs from every revision that is on disk, then at every instant the directory 'current' points to is unchanged if it is the old one and complete if it is the new one.", "quantifier": "for every snapshot, state and crash point", "why_tests_cant": "All interleavings of writes with a crash.", "anchors": ["src/rsync.rs: update_from_rrdp_state"]}
{"id": "C27", "title": "Old rsync revisions are kept for the configured time and then removed", "statement": "The rsync cleanup removes only directories of revisions scheduled at least --cleanup-after seconds ago; after success every due revision is gone and forgotten, and the replaced revision is scheduled.", "quantifier": "for every state, clock and cleanup time", "why_tests_cant": "All schedules and clocks.", "anchors": ["src/rsync.rs: clean_old, update_current"]}
{"id": "C28", "title": "Cleanup never removes the current rsync revision", "statement": "If no revision is announced again after having been replaced, the rsync cleanup never touches the directory 'current' points to.", "quantifier": "for every history of revisions", "why_tests_cant": "Invariant over histories.", "anchors": ["src/rsync.rs: clean_old, update_current"]}
{"id": "C29", "title": "Different objects get different files", "statement": "With --rsync-include-host, objects with different URIs (clean authority, module and path) are written to different paths; without it, objects of the same module are.", "quantifier": "for all pairs of rsync URIs", "why_tests_cant": "All pairs of strings.", "anchors": ["src/rsync.rs: publish"]}
{"id": "C30", "title": "Modification times depend only on the object", "statement": "After an object is written without I/O failure its modification time is determined by the object's bytes and name (certificate validity start, CRL issue time or signing time), so unchanged objects keep their time across revisions and servers.", "quantifier": "for every object, path, clock and environment", "why_tests_cant": "All objects and clocks.", "anchors": ["src/rsync.rs: fix_since"]}
{"id": "C31", "title": "Revision directory names are unique", "statement": "Two different (session, serial) pairs never share a directory name, and no revision directory is called 'current' or 'current.tmp'.", "quantifier": "for all sessions and serials", "why_tests_cant": "All pairs.", "anchors": ["src/rsync.rs: RsyncRevision::dir_name"]}
{"id": "C32", "title": "Move mode keeps the old content and publishes the new", "statement": "With --rsync-dir-force-moves a successful update leaves the new content in 'current' and the previous content of 'current' under the previous revision's name; at every instant each file of the previous revision exists under one of the two names.", "quantifier": "for every state, content and crash point", "why_tests_cant": "All crash points.", "anchors": ["src/rsync.rs: rename_new_revision_dir_to_current"]}
{"id": "C33", "title": "Only one process at a time works on a state directory", "statement": "Of any number of processes started with the same state directory at most one is past the lock at any time, so every interleaving of their file system accesses is equivalent to running them one after the other; a process that does not get the lock changes nothing but the state directory and lock file.", "quantifier": "for every number of processes, every schedule and every crash", "why_tests_cant": "All interleavings.", "anchors": ["src/main.rs: lock, try_main"]}
{"id": "C34", "title": "All downloads for synchronisation go to the configured source", "statement": "Each request of the synchronisation is for the notification URI or a URI in the source's notification; with a source base each is the source base followed by the part after the notification URI's directory, and with a directory as source base there are no requests at all.", "quantifier": "for every notification and configuration", "why_tests_cant": "All URIs.", "anchors": ["src/fetch.rs: FetchMap::source, Fetcher::resolve_source", "src/config.rs: post_configure"]}
{"id": "C35", "title": "Certificate checks are on unless --insecure is given", "statement": "Without --insecure every HTTPS request of the synchronisation is made with certificate and host name checks; with --insecure they are all made without.", "quantifier": "for every configuration, notification and state", "why_tests_cant": "All requests in all runs.", "anchors": ["src/fetch.rs: FetchSource::fetch", "src/config.rs: fetcher, post_configure"]}
{"id": "C36", "title": "Only the configured directories are written", "statement": "A run never changes anything outside the state directory, the RRDP directory and the rsync directory (apart from creating missing parent directories, and from removing parent directories of the RRDP directory that the cleanup finds empty, which cannot happen while a notification is published), provided no announced path is absolute or contains '..'.", "quantifier": "for every run, source and crash point", "why_tests_cant": "All paths and runs.", "anchors": ["src/process.rs: process", "src/file_ops.rs", "src/rrdp.rs: SourceMappings::path"]}
{"id": "C37", "title": "Validation counts add up", "statement": "For each repository, the report's numbers of certificates, ROAs, VRPs, ASPAs and router certificates are the sums over the validated CAs that name this repository, and its issues are all issues of these CAs; the order in which sub-reports are merged does not matter for the numbers.", "quantifier": "for every tree of CAs", "why_tests_cant": "Unbounded trees.", "anchors": ["src/validation/report.rs: add_cert, add_other, process_cert"]}
{"id": "C38", "title": "Applying deltas gives the content of the snapshot", "statement": "If cached data equals the objects of a version and the deltas up to a later version describe the changes correctly, then applying them gives exactly the objects of the later version. Serials have 64 bits: after the last one no delta is used, unless one is announced with serial 0.", "quantifier": "for every object set, every delta sequence", "why_tests_cant": "All delta sequences.", "anchors": ["src/validation/validator.rs: update_repository_data_from_deltas"]}
{"id": "C39", "title": "Half-applied deltas are never validated", "statement": "If applying deltas fails part way, the data used for validation is that of the snapshot of the new version, or there is none for that repository.", "quantifier": "for every delta and point of failure", "why_tests_cant": "All failure points.", "anchors": ["src/validation/validator.rs: get_latest"]}
{"id": "C40", "title": "Revoked objects are not accepted", "statement": "A ROA, ASPA or CA certificate whose (EE) certificate serial is on the CRL of the issuing CA is never counted as valid or descended into, but leads to an issue; nothing of a CA whose manifest's EE certificate is revoked is accepted.", "quantifier": "for every CRL, object and CA", "why_tests_cant": "All objects and CRLs.", "anchors": ["src/validation/validator.rs: validate_tree_at"]}
{"id": "C41", "title": "Only objects listed on a valid manifest with matching hash are accepted", "statement": "Each ROA, ASPA, router and CA certificate in the report is listed on the CA's validated manifest, is present in the repository data and matches the manifest hash; and every manifest entry other than the CRL leads to exactly one of: accepted object, ignored object, issue.", "quantifier": "for every manifest, repository content and order of visiting the entries", "why_tests_cant": "All contents and orders.", "anchors": ["src/validation/validator.rs: validate_tree_at"]}
{"id": "C42", "title": "Validation terminates", "statement": "Validation visits each CA a finite number of times and ends.", "quantifier": "for every certificate tree", "why_tests_cant": "Cyclic and unbounded certificate graphs.", "anchors": ["src/validation/validator.rs: validate_tree_at"]}
{"id": "C43", "title": "Cached validator is reused only for the same TALs and source", "statement": "The validator data of an earlier run is used only if the TALs parsed now are equal to the TALs it was made with and it has the fetcher for the current notification URI and staging directory; without TALs nothing is validated and cached data is dropped. The state recorded by a run that publishes has a validator with the TALs configured, or none if there are none.", "quantifier": "for every stored validator and configuration", "why_tests_cant": "All stored states.", "anchors": ["src/rrdp.rs: reconfigure_validator, create_validator, new_validator_needed", "src/validation/validator.rs: equivalent"]}
{"id": "C44", "title": "Default directories follow the state directory", "statement": "If --state-dir is given and --rrdp-dir / --rsync-dir are left at their default, they become state-dir/rrdp and state-dir/rsync; explicitly given directories are used unchanged.", "quantifier": "for every directory string", "why_tests_cant": "All path strings.", "anchors": ["src/config.rs: post_configure"]}
{"id": "C45", "title": "Entity tags are only used for the version they belong to", "statement": "A conditional request is only sent with the entity tag received together with the version that is currently held, so that 'not modified' always means that nothing was missed.", "quantifier": "for every history of runs and responses", "why_tests_cant": "Histories.", "anchors": ["src/rrdp.rs: NotificationSource", "src/fetch.rs: read_notification_file", "src/validation/validator.rs: get_latest"]}
{"id": "C46", "title": "A snapshot that cannot be parsed is not published when rsync is enabled", "statement": "If the snapshot file announced by the source is not well-formed then, with rsync enabled, the run fails and the published notification and 'current' are unchanged.", "quantifier": "for every malformed content", "why_tests_cant": "All byte strings.", "anchors": ["src/rsync.rs: for_snapshot_path", "src/process.rs: process"]}
{"id": "C47", "title": "The published serial never goes back within a session", "statement": "Over any history of runs, failures and crashes, as long as the source's versions move forward, the published notification's version never goes back.", "quantifier": "for every history", "why_tests_cant": "Histories with crashes.", "anchors": ["src/process.rs: process", "src/rrdp.rs: update_staged"]}
{"id": "C48", "title": "Removing a file removes nothing but the file and directories that become empty", "statement": "Removing a file together with its empty parent directories leaves every other file and every non-empty directory in place.", "quantifier": "for every file system and path, every failure and crash point", "why_tests_cant": "All file systems.", "anchors": ["src/file_ops.rs: remove_file_and_empty_parent_dirs"]}
{"id": "C49", "title": "Offline validation makes no requests except for the trust anchors", "statement": "With --offline-validation the only HTTP requests made during validation are for the trust anchor certificates named in the TALs.", "quantifier": "for every tree of CAs and cached data", "why_tests_cant": "All trees.", "anchors": ["src/validation/validator.rs: get_latest, validate_tree_at", "src/rrdp.rs: create_validator"]}
{"id": "C50", "title": "Binary data and identifiers survive the state file's text encoding", "statement": "Base64 encoding of object bytes and the textual form of UUIDs decode to the original value, and different values have different texts.", "quantifier": "for all byte strings and all UUIDs", "why_tests_cant": "All byte strings.", "anchors": ["src/util.rs: ser_bytes, de_bytes, ser_uuid, de_uuid", "src/validation/validator.rs: de_bytes, ser_bytes"]}
{"id": "C51", "title": "Files and notification go to the same directory", "statement": "In a run the snapshot and delta files are put in the directory in which the notification file is written, so that references resolve.", "quantifier": "for every stored state and configuration, including a changed --rrdp-dir", "why_tests_cant": "Combination of stored state and configuration.", "anchors": ["src/rrdp.rs: apply_staged_changed, SourceMappings"]}
{"id": "C52", "title": "Only the trust anchor key given in the TAL is accepted", "statement": "Validation of a TAL succeeds only with a certificate whose public key is the key in the TAL, fetched from the first https URI of the TAL.", "quantifier": "for every TAL, response and time", "why_tests_cant": "All responses.", "anchors": ["src/validation/tal.rs: parse, validate_at"]}
{"id": "C53", "title": "The report covers exactly the CAs reached from the trust anchors", "statement": "Each CA in the validation report is connected by a chain of valid CA certificates, found in the repository data that was validated, to the trust anchor of a TAL; each child CA accepted has its own result in the report, exactly once per acceptance, and each TAL's trust anchor has one.", "quantifier": "for every set of TALs and every tree of CAs", "why_tests_cant": "Unbounded trees.", "anchors": ["src/validation/validator.rs: validate, validate_ta, validate_tree_at"]}
{"id": "C54", "title": "A blocked current directory keeps everything published as it is", "statement": "With --rsync-dir-force-moves, if `current` has content that cannot be moved to where the rsync state says (no revision is recorded as current, or its directory has content), then no later run changes the published notification, the content of `current` or the state files, as long as the source does not offer the recorded revision again; a run that completes has changed nothing at all. So an interrupted move never leads to a mixture of versions, but it takes manual intervention to go on.", "quantifier": "for every history of runs, failures and crashes from any such state", "why_tests_cant": "The state comes about by a crash between two system calls, and the claim is about all later histories.", "anchors": ["src/rsync.rs: update_from_rrdp_state, symlink_current_to_new_revision_dir, rename_new_revision_dir_to_current", "src/process.rs: process"]}
{"id": "C55", "title": "With pre-validation, too, every request has a reason", "statement": "Each request of a run is one of the synchronisation (as in C34), or for the trust anchor certificate at the first https URI of a configured TAL, or, unless validation is offline, for the notification file of a repository named by a certificate below a trust anchor (never the repository being synchronised, which is looked at in the staging area), or for a snapshot or delta named in such a notification file. Certificate and host name checks are skipped without --insecure only in requests of the validation.", "quantifier": "for every run in every history of runs, failures and crashes, every set of TALs and every tree of CAs", "why_tests_cant": "Unbounded trees and histories; the validator is kept between runs.", "anchors": ["src/validation/validator.rs: get_latest, get_fetcher, validate_tree_at", "src/validation/tal.rs: validate_at", "src/rrdp.rs: pre_validate, create_validator"]}
{"id": "C56", "title": "Moving a file never loses it", "statement": "While a file is moved from the staging directory to the RRDP directory, by renaming or by copying and removing the original, the whole file is at every instant at the place it comes from or at the place it goes to, whatever fails and wherever the process stops, and no other file or link changes. A move that reports success has moved the file. The same holds for every file of an update while they are moved one after the other.", "quantifier": "for every file system, every content, every set of files of an update, every pattern of failures and every instant", "why_tests_cant": "The fallback is only taken if a rename fails (directories on different file systems), and the claim is about every instant within it.", "anchors": ["src/file_ops.rs: move_file", "src/rrdp.rs: apply_staged_changed"]}
{"id": "C57", "title": "A new notification appears only after the configured delay", "statement": "With --rrdp-notify-delay set, a run that replaces the notification file first waits exactly once, for the configured number of seconds. While it waits the old notification is in place and everything else the run does is done: all RRDP files of the new version and the rsync directory are in place, with the right hashes. After the delay nothing is written but the notification file and the RRDP state. A run that does not get that far does not touch the notification, and without a delay configured no run waits.", "quantifier": "for every configuration, file system, source, failure pattern and every instant of a run", "why_tests_cant": "Tests would have to watch the files for the length of the delay, in runs that fail or stop anywhere.", "anchors": ["src/rrdp.rs: write_notification", "src/process.rs: process"]}
{"id": "C58", "title": "The report states the true causes and the true payload", "statement": "Each issue in the validation report names its cause: the CA's certificate names no RRDP repository, the repository's data could not be had, the manifest or CRL is missing, wrong or stale in just the way the message says, or the object at the issue's URI is listed on the manifest but is missing, has another hash, cannot be parsed, is invalid, is revoked, or has an unknown extension, as the message says. Each ROA and ASPA in the report states the AS, prefixes, maximum lengths, customer and providers of the object at its URI, listed on a valid manifest with this hash, valid for the CA's certificate and not revoked.", "quantifier": "for every set of TALs, tree of CAs, content of the repositories and time", "why_tests_cant": "There are some 25 causes, at every level of an unbounded tree, in every combination.", "anchors": ["src/validation/validator.rs: validate_ca, ValidatedCa::add_issue", "src/validation/report.rs: ValidatedRoa, ValidatedAspa"]}
{"id": "C59", "title": "A run does not panic", "statement": "Neither reading the configuration nor a run ends with a panic, whatever the server answers, whatever is on the disk (damaged state files included), whatever fails, whatever the clock says and however it is configured: it ends with success or with a reported error. The one exception is --rrdp-max-deltas 0 with a notification file that lists deltas, if the library function that applies the limit panics then. (Log messages aside: with -v, showing a time beyond the range of chrono, such as only a damaged state file can contain, would panic.)", "quantifier": "for every configuration, file system, server, failure pattern and clock", "why_tests_cant": "The places that would panic (an unreachable!, an unwrap) are argued to be unreachable in comments; a test can only fail to reach them.", "anchors": ["src/fetch.rs:300: read_notification_file", "src/rrdp.rs:607: NotificationSource::build", "src/process.rs: process", "src/config.rs: post_configure"]}
{"id": "C60", "title": "The outcome of validation does not depend on the order in which objects are looked at", "statement": "The files on a manifest are visited in the order of a hash map, which differs from process to process. Two validations from the same state, at the same time, with the same files and the same answers to all requests either fail with the same error, or report the same CAs with the same certificates, ROAs, ASPAs, router certificates and issues, and the same numbers per repository, but for the order; hence a publication is accepted in one if and only if it is accepted in the other.", "quantifier": "for every tree of CAs, content of the repositories, kept data, answers of the servers, and every two orders", "why_tests_cant": "The order is chosen at random by the standard library; a test sees one of factorially many, and a dependence shows up as a rare unexplained difference.", "anchors": ["src/validation/validator.rs: validate_ca, VisitedRepositories::get_latest", "src/rrdp.rs: pre_validate"]}
{"id": "C61", "title": "A repository is not asked for again and again in one validation", "statement": "However many CAs publish in a repository, a validation asks for its notification file at most once, and not at all if the data kept for it were brought up to date less than an hour ago. At worst, whatever the servers do and whatever fails, it is asked for once for each CA in the report that names it.", "quantifier": "for every tree of CAs, content of the repositories, kept data, answers of the servers and failure pattern; for every repository whose notification file shares its address with nothing else", "why_tests_cant": "Trees are unbounded, and what counts is the number of requests over all paths through the cache of visited repositories.", "anchors": ["src/validation/validator.rs: VisitedRepositories::get_latest, validate_tree_at"]}
{"id": "C62", "title": "No published file is forgotten", "statement": "Every file in the RRDP directory is the notification file, or belongs to the recorded version, or is scheduled for removal in the recorded state. So nothing stays there for good, and the space taken is that of the current version and of what was replaced less than the cleanup time ago (or since the last update). This holds after any number of runs; files that are not known stem from runs that were cut off or failed while publishing, and are files of the version such a run was to publish or the temporary notification file.", "quantifier": "for every history of runs, failures and crashes over a source that names its files sensibly", "why_tests_cant": "A leak shows only over long histories, in the combination of what was moved, what was recorded and what was cleaned up.", "anchors": ["src/rrdp.rs: apply_staged_changed, clean", "src/process.rs: process"]}
{"id": "C63", "title": "Nothing piles up in the staging directory", "statement": "Between runs that end well the staging directory contains no file but the staged copy of the notification: all that a run fetches it also publishes. After any number of runs, every other file there was fetched by a run that failed or was cut off. A run writes, moves or removes only files in the staging directory that the notification on offer names, and removes none of its directories.", "quantifier": "for every history of runs, failures and crashes over a source that names its files sensibly, and every instant of a run", "why_tests_cant": "What is left behind shows only over long histories with failures at any point; each single run looks right.", "anchors": ["src/rrdp.rs: update_staged, apply_staged_changed", "src/file_ops.rs: move_file", "src/process.rs: process"]}
{"id": "C64", "title": "No empty directories pile up in the RRDP directory", "statement": "Between runs every directory in the RRDP directory has something in it: when an old file is removed, the directories which are empty then are removed as well, and no directory is made that does not get a file. After any number of runs, every empty directory there is on the way to a file that was to be published or removed by a run that was cut off or in which a file operation failed.", "quantifier": "for every history of runs, failures and crashes over a source that names its files sensibly, with directories of any depth", "why_tests_cant": "Sources make new directories with each version (random names, one per serial); that all of them go away again shows only over long histories, and depends on which other files share a directory.", "anchors": ["src/rrdp.rs: clean, apply_staged_changed", "src/file_ops.rs: remove_file_and_empty_parent_dirs"]}
{"id": "C65", "title": "No directory of an rsync revision is forgotten", "statement": "Every file or link in the rsync directory is in 'current' or in the directory of a revision that the rsync state has as current or as old, so that old revisions are all removed in the end. This holds after any number of runs, with links and with moves; what is not known stems from runs that were cut off or failed, and is in the directory of the revision such a run was to publish, or the temporary link.", "quantifier": "for every history of runs, failures and crashes over a source that names its files sensibly", "why_tests_cant": "A leak shows only over long histories: the directory switched to, the state and the cleanup have to agree after every combination of repeated publication, failure and removal.", "anchors": ["src/rsync.rs: update_from_rrdp_state, update_current, clean_old, rename_new_revision_dir_to_current"]}
{"id": "C66", "title": "The published notification is exactly the source's, and servers behind one source agree", "statement": "At a server that follows a source which behaves as RFC 8182 has it (within a session the serial does not go down, old deltas may be dropped, but none is changed or listed again), the notification file is at any time absent or, byte for byte, a notification the source has had, with the deltas from the latest down and as many as --rrdp-max-deltas allows - although it is put together from what was recorded before and what is new. Two servers with the same setting that follow one source and publish the same version therefore publish the same bytes, whatever each of them has missed or gone through.", "quantifier": "for every sequence of notifications of such a source, every history of runs, failures and crashes, and every pair of servers", "why_tests_cant": "The list of deltas is merged from the recorded ones and the new ones; that it comes out the same on every path through the versions, with skipped versions, limits and failures, is a statement over all pairs of histories.", "anchors": ["src/rrdp.rs: update_staged, apply_staged_changed, make_notification_file", "src/process.rs: process"]}
{"id": "C67", "title": "Servers behind one source serve the same rsync tree", "statement": "Two servers with links that follow the same source and have both reached the same version (in the RRDP state and in 'current') serve the same tree over rsync: at each path below 'current' both have a file with the same content, or neither has anything; and where no system call fails, files whose content has a time of its own have the same modification time. This holds whatever each of them has gone through - runs cut off, failed, repeated, versions missed - and wherever its directories are.", "quantifier": "for every source with one snapshot for each version, every pair of histories of runs, failures and crashes, every pair of configurations with the same setting for host names in paths", "why_tests_cant": "A left-over of an interrupted run in one server's directory makes the two differ; one has to compare all pairs of histories.", "anchors": ["src/rsync.rs: update_from_rrdp_state, RsyncFromSnapshotWriter, clean_old", "src/process.rs: process"]}
{"id": "C68", "title": "Data the validator records as up to date are of a version that was announced", "statement": "The data the validator keeps for a repository, from run to run, are exactly the objects of a version which the server of that repository announced at the time recorded with the data as that of the last fetch. (This time decides whether the repository is looked at again.)", "quantifier": "for every history of runs, failures and crashes, every tree of CAs and all servers", "why_tests_cant": "The data are patched with deltas over many runs; a version that is skipped or a server that goes back shows up in later runs only.", "anchors": ["src/validation/validator.rs: get_latest, update_repository_data_from_deltas, repository_data_from_snapshot"]}
{"id": "C69", "title": "The state files hold the whole state, and half of one is never taken for a state", "statement": "Whatever state a run stores, with any names, tags, serials of 64 bits, times, file lists and data of the validator, the next run reads exactly this state from the JSON text, but for the flag that a repository was fetched, which is not stored. A file of which only a beginning was written, even if it lacks a single byte, is refused, and so is one with anything after the text. Members that are not known and the order of members do not matter; a file that lacks a member without default, or has one twice, is refused. So what is assumed of the state files in the model of a run holds of the texts the program writes.", "quantifier": "for every state with 64-bit serials and times (torn files: for every state), every proper beginning of the text, every set of members", "why_tests_cant": "Escapes, multi-byte characters at the point where a write stops, empty lists, numbers at the limits and optional members combine without end; tests try a few files.", "anchors": ["src/rrdp.rs: RrdpState (serde), recover, persist", "src/rsync.rs: RsyncDirState (serde), recover, persist", "src/util.rs: ser_bytes, de_bytes, ser_uuid, de_uuid", "src/validation/validator.rs: RepositoryData (serde)"]}
{"id": "C70", "title": "Each file is fetched once at most per run, and nothing that is there is fetched again", "statement": "A run asks the source for the notification file once at most. Unless that announces a version which is not held, it asks for nothing else (apart from pre-validation). For a new version it asks for the snapshot once at most and for each announced delta once at most, from the lowest serial up; it asks for no delta whose serial is not above all serials held for that session and for none beyond --rrdp-max-deltas. Files that an interrupted run left in the staging directory with the announced content are not asked for again.", "quantifier": "for every configuration, state, source and file system, every outcome of every request, every failure of the file system (staged files: no failures)", "why_tests_cant": "The requests depend on what is recorded, what is announced and what earlier runs left behind in which directory; tests with one server and a clean directory never see a second request.", "anchors": ["src/rrdp.rs: update_staged, snapshot_stage, deltas_stage", "src/fetch.rs: Fetcher::retrieve_file, Fetcher::read_notification_file, FetchSource::fetch"]}
{"id": "C71", "title": "Options are checked before anything is done, and the default directories never overlap", "statement": "The options are accepted just if the notification URI names something in a directory of the server and the source base, if given, is a URI ending in a slash or an existing directory; nothing is written or requested meanwhile. All options that do not say where things are take effect as given. Whatever state directory is given, with the other directories left at their defaults the RRDP, rsync and staging directories and the state files are separate, and a state directory that is empty but for the lock file is a proper start for all properties of histories.", "quantifier": "for all option values, file systems and environments", "why_tests_cant": "The directories are derived by replacing text in default values, so whether they overlap depends on all values the state directory can have.", "anchors": ["src/config.rs: post_configure, Replace for PathBuf", "src/fetch.rs: FetchSource::is_dir", "src/main.rs: lock"]}
{"id": "C72", "title": "Pre-validation withholds nothing without a reason", "statement": "When a new version has been staged and no system call fails, the pre-validation refuses it only if a TAL file cannot be read or parsed, what is announced as snapshot is none, a trust anchor's certificate cannot be relied upon to be had and valid, the certificates go deeper than the stack permits or, with --tal-reject-invalid only, no CA names the repository or one that names it has an issue. Otherwise, and if the scripts agree (or, without the option, can be started), publication begins with the files as staged.", "quantifier": "for all configurations, disks, sources, kept validators and trees of certificates", "why_tests_cant": "Tests see that bad data are refused, but not that among all combinations of cached data, trees and options none is refused needlessly.", "anchors": ["src/rrdp.rs: pre_validate, reconfigure_validator, create_validator", "src/validation/validator.rs: validate_at, validate_tree_at, initialise_staging_data", "src/process.rs: process"]}
{"id": "C73", "title": "The text of a prefix in a report reads back as this prefix", "statement": "The text a report shows for a prefix, an address, a slash and a length, is read back as exactly this prefix; it is never read as another one, and two different prefixes never have the same text. (False of the code as it is for IPv6 prefixes whose addresses are shown with an IPv4 address in them, such as ::ffff:1.2.3.0/120: since there is a dot in the text it is read as an IPv4 prefix, and refused.)", "quantifier": "for all IPv4 addresses and lengths up to 32, all IPv6 addresses and lengths up to 128", "why_tests_cant": "There are 2^128 addresses with different positions of zeros to be left out; tests try the usual few.", "anchors": ["src/validation/report.rs: TypedPrefix (FromStr, Display, Serialize, Deserialize), Ipv4Prefix, Ipv6Prefix"]}
{"id": "C74", "title": "A client that has read the notification can still get all its files for the configured time", "statement": "A client that has read the published notification finds every file it lists, with the hash it gives, for as long as --cleanup-after says, whatever runs go on, fail or are interrupted meanwhile, and to whatever later versions and sessions the source moves. (False of the code as it is if this is to count from the time at which the notification was last served: files are scheduled for removal before the new notification is written, so the delay --rrdp-notify-delay and the time for writing the rsync tree are lost. It counts from the start of the run that replaces the notification.)", "quantifier": "for every history of an installation, every continuation of it by runs, failures and crashes, every notification served and every file in it", "why_tests_cant": "A file can be endangered by any later run through scheduling, cleaning, replacing and writing the state, in any combination with failures; tests do one update and look at the files.", "anchors": ["src/rrdp.rs: apply_staged_changed, clean, write_notification", "src/process.rs: process"]}
{"id": "C75", "title": "An rsync client that has entered a revision finds it unchanged for the configured time", "statement": "With links, a client that has followed 'current' to the directory of a revision finds all its files there, unchanged in content and time, for as long as --cleanup-after says, whatever runs go on, fail or are interrupted meanwhile, and to whatever later versions and sessions the source moves. (False of the code as it is for a revision that was published twice, because the first of these runs was cut off or failed in its last steps: it is scheduled for removal while it is the current one.)", "quantifier": "for every history of an installation, every continuation of it by runs, failures and crashes, every revision served and every path in it", "why_tests_cant": "It takes a client that reads slowly while several runs, some of them failing, replace and clean revisions.", "anchors": ["src/rsync.rs: update_from_rrdp_state, RsyncDirState::update_current, clean_old", "src/process.rs: process"]}
{"id": "C76", "title": "Exit status 0 means that the source's current version is served, and a start without failures gets there", "statement": "Let the program be started with any options, on any disk. If the options are not acceptable or another process holds the lock, the exit status is 1 and nothing has changed, except that in the latter case the state directory and the lock file may have been created. Installed on a new disk without naming directories for RRDP and rsync, and started any number of times, where starts may fail, be killed or find the lock taken: at every instant the published notification, if there is one, is whole and every file it lists is there; a start with exit status 0 leaves the version supplied by the source published with all its files; and a start in which no system call fails, over a source that supplies what it announces, and with no reason to withhold it (C72), has exit status 0. Without --rrdp-max-deltas 0 no start ends with a panic.", "quantifier": "for all options with default directories, all sequences of starts with failures and kills at any instant, all sources as in C01 and C23", "why_tests_cant": "It takes all parts of the program together, from the command line to the exit status, over many starts that go wrong at arbitrary points.", "anchors": ["src/main.rs: main, configure_and_try_main, try_main, lock", "src/config.rs: configure, post_configure", "src/process.rs: process"]}
{"id": "C77", "title": "Replaced files are gone with the first update after the cleanup time", "statement": "The times that the state files record for replaced files and revisions are readings of the clock of the runs. If the latest run so far took place at time t, then a run at t plus --cleanup-after or later that publishes a new version leaves in the RRDP directory only the notification file and the files of the new version and of the one it replaces, and in the rsync directory only 'current' and the directories of these two revisions, apart from what interrupted runs have left behind (C62, C65). So the space taken is bounded by two versions.", "quantifier": "for every configuration with separate directories, every history of runs, failures and crashes, all clock readings, all sources as in C62", "why_tests_cant": "What is scheduled when, by which of many runs, and what survives in the state file across failures decides about the space taken after months; tests look at one update.", "anchors": ["src/rrdp.rs: apply_staged_changed, clean", "src/rsync.rs: RsyncDirState::update_current, clean_old", "src/util.rs: Time"]}
{"id": "C78", "title": "A client that turns from RRDP to rsync does not go back in time", "statement": "If a client has seen a notification file, then what the rsync directory serves at that instant and at any later one is of a version that is not older than the one in the notification: with links, 'current' leads to the directory of such a version; with --rsync-dir-force-moves, 'current' has no files (for the time of the moves, or after a crash between them, see C23) or all objects of the snapshot of such a version. If the runs are in time (C28), then with links too there is a file for each object of that snapshot.", "quantifier": "for every configuration with separate directories and rsync enabled, every source whose versions do not go backwards, every history of runs, failures and crashes, every instant", "why_tests_cant": "Relying parties fall back from RRDP to rsync at arbitrary moments; older data looks like a replay to them. It depends on the order of the two publications within a run at every crash point and on what later runs make of a half done run.", "anchors": ["src/process.rs: process", "src/rsync.rs: update_from_rrdp_state, symlink_current_to_new_revision_dir, rename_new_revision_dir_to_current", "src/rrdp.rs: write_notification"]}
{"id": "C79", "title": "Losing the state files does no harm to clients, and removing them is a cure", "statement": "Someone may remove the RRDP state file, the rsync state file and anything in the staging area between runs, as often as they like, and anything may change on the disk outside of the directories and state files of the installation, for instance a local source. Still, at every instant all files of the published notification are in place (C01), the published version does not go back (C47), with links 'current' leads to a complete revision (C28) and what rsync serves is not older than what was announced (C78). And whatever run was cut off where, even while it wrote a state file (after which every run fails, C22): with both state files removed, a run without failures completes and publishes the current version of the source; this is for rsync disabled or with links. With --rsync-dir-force-moves the rsync state must not be lost: if it is removed while there are files in 'current', then no later run publishes anything.", "quantifier": "for every configuration with separate directories, every history of runs, failures, crashes, removals and changes elsewhere, under the conditions on source and runs of the properties named", "why_tests_cant": "Tests start with the state that a run has left; they do not combine published directories with missing state at all crash points.", "anchors": ["src/process.rs: process", "src/rrdp.rs: RrdpState::create, recover", "src/rsync.rs: RsyncDirState::recover, rename_new_revision_dir_to_current"]}
{"id": "C80", "title": "Which options can be changed from run to run", "statement": "The options may differ from run to run, as long as the notification URI and the three directories stay the same: the limit for the number of deltas, the cleanup time, the delays, the source of the files, the insecure option, pre-validation, the script, the format, even whether and how the rsync directory is written. Still, at every instant all files of the published notification are in place (C01) and the published version does not go back (C47); and as long as the rsync directory is written with links and with the host in the paths or without in all runs, 'current' leads to a complete revision (C28) that is not older than what was announced (C78). Only a limit of 0 deltas must not be set once deltas have been published. Whereas --rsync-dir-force-moves must not be switched on or off once a revision has been published: then every later run that has something to publish fails, and the published notification, 'current' and the state files stay what they are.", "quantifier": "for every configuration with separate directories, every sequence of configurations, every history of runs, failures, crashes and lost state files, under the conditions on source and runs of the properties named", "why_tests_cant": "Tests use one configuration; what one configuration has recorded and scheduled for removal is interpreted by runs with another one only in production.", "anchors": ["src/config.rs: Config", "src/rrdp.rs: update_staged, deltas_stage, deltas_deprecate_before, apply_staged_changed, clean", "src/rsync.rs: symlink_current_to_new_revision_dir, rename_new_revision_dir_to_current"]}
{"id": "C81", "title": "Installations on one disk do not get in each other's way", "statement": "Any number of installations of the program, each with its own state, RRDP and rsync directories, can share a disk, and one may use the RRDP directory of another as its source. At every instant of a run, whatever fails, all that belongs to another installation is what it was. So in whatever order the runs of the installations come and wherever they are interrupted, the disk is for each of the installations one that it could have come to with its own runs alone, and what is claimed of one installation holds of each; in particular, at every instant all files of the notification published by each of them are in place (C01).", "quantifier": "for every number of installations in separate directories, every sequence of runs of them with whatever options, all failures and crashes, under the conditions on sources and runs of the properties carried over", "why_tests_cant": "Tests run one installation on a disk of its own.", "anchors": ["src/main.rs: main", "src/process.rs: process", "src/config.rs: Config", "src/file_ops.rs"]}
{"id": "C82", "title": "A mirror of a mirror is a mirror", "statement": "Installations may get their files from the RRDP directories of other installations (--source-uri-base with a directory), and so on, up to one that follows a source which behaves as RFC 8182 has it. At every instant, however the runs are interleaved and wherever they were cut off, each of them has published nothing yet or, byte for byte, a notification that the source has had, with the deltas from the latest down, as many as the strictest maximum on the way to the source allows. None of them publishes a later version than the one it gets its files from. And a run which completes and has changed anything has published just what the other had published, but for the limit.", "quantifier": "for every tree of installations in separate directories on one disk with maxima other than 0, every source as in C66 with gapless deltas and sensible paths, every interleaving of runs, all failures and crashes", "why_tests_cant": "Tests use one stage, fed with notifications written for the test; that the output of one stage is always an input that the next one follows, also over restarts and skipped versions, needs an argument over all histories of both.", "anchors": ["src/config.rs: fetch_map", "src/fetch.rs: FetchSource::fetch, resolve", "src/rrdp.rs: update_staged, deltas_stage, deltas_deprecate_before, write_notification"]}
{"id": "C83", "title": "A relying party of the mirror gets what the source has", "statement": "Let an installation follow a source that behaves as RFC 8182 has it, whose snapshots hold the objects of their version and whose deltas the changes from one version to the next. A relying party that reads the published notification at any instant, has nothing or a genuine version of the repository, and processes the notification, be it by the snapshot or by deltas, and whatever it receives for the files it asks for, then has exactly the objects of a version the source has had, the one that is named in the notification. It can do so by the snapshot if it asks for it in time, that is while only runs go on that read the clock less than --cleanup-after after it read the notification (C74). If it has a version of the same session and is no more versions behind than there are deltas in the notification, then the deltas suffice, again if it asks for them in time.", "quantifier": "for every configuration with separate directories, every source as in C66 and C01, every history of runs, failures and crashes, every instant, every relying party, all sequences of deltas", "why_tests_cant": "It takes what is published, when files are removed, and what is in the files together, over all histories; tests compare single files.", "anchors": ["src/process.rs: process", "src/rrdp.rs: update_staged, deltas_stage, apply_staged_changed, clean, write_notification"]}
{"id": "C84", "title": "Servers that mirror the same source can stand in for each other", "statement": "Let several servers, each with its own disk and whatever directories and other options, follow the same source, which never changes the notification of a version. A file listed in the notification that one of them publishes is also to be found, with the hash given, at every other one that has the version: from the time it waits (--rrdp-notify-delay) before it announces it, and after that while only runs go on that read the clock less than --cleanup-after later; provided that its limit for the number of deltas is not stricter. So a relying party that reads the notification at one server and gets each file from any of them that has the version can process the notification, by the snapshot or, if it has a version that is not too old, by deltas alone, and then has exactly the objects of the source. (A server with a stricter limit, or one that has never had the version, need not have the files.)", "quantifier": "for all numbers of servers, configurations with separate directories, sources as in C66 and C01, histories of runs, failures and crashes of each server, all choices of a server per file", "why_tests_cant": "Behind a load balancer notification and files come from different machines whose runs were at different times and failed in different ways; tests look at one machine.", "anchors": ["src/process.rs: process", "src/rrdp.rs: update_staged, deltas_stage, apply_staged_changed, clean, write_notification", "src/config.rs: rrdp_notify_delay, rrdp_max_deltas"]}
{"id": "C85", "title": "A relying party that uses rsync gets what the source has", "statement": "A client that follows 'current' at a time when the RRDP state is of the same version, and that version is not scheduled for removal, and then reads the files of that revision, each less than --cleanup-after later, gets all objects of that version of the source, each where its rsync URI says and with the right content, and nothing else, whatever runs are completed, fail or are interrupted meanwhile; and that is the same as what a relying party gets over RRDP if it is of the same version. Objects all belong to one module if host names are not part of the paths. (Otherwise objects of different modules with the same path get in each other's way.)", "quantifier": "for all configurations with separate directories and links, sources as in C01 that tell the truth, histories of runs in time and their continuations, all URIs and all paths in the revision", "why_tests_cant": "What a client gets depends on parsing, naming, writing and replacing files and on everything that is written or removed while it reads; tests compare one tree after one run.", "anchors": ["src/rsync.rs: RsyncFromSnapshotWriter::publish, RsyncDirState::clean_old, symlink_current_to_new_revision_dir, update_from_rrdp_state", "src/process.rs: process"]}
{"id": "C86", "title": "A relying party that comes back never goes back", "statement": "A relying party that processes the notification published by an installation again and again, before, between and in the middle of runs, goes through versions of the source in the order in which the source has had them, and always has exactly the objects of its version; so within a session its serial never goes down. If it asks after a completed run that has changed anything, during which the source stayed at one version, then it has that version. (With several servers of the same source that are asked in turn it can go back.)", "quantifier": "for all configurations with separate directories, sources as in C66 that tell the truth, histories of completed, failed and interrupted runs, any number of polls at any time, by snapshot or by deltas, whatever is received for the files", "why_tests_cant": "Going back depends on how a sequence of runs, crashes and polls interleaves; a test polls a few times after runs that succeed.", "anchors": ["src/rrdp.rs: RrdpState::update, RrdpState::write_notification", "src/process.rs: process"]}
{"id": "C87", "title": "A client that uses rsync again and again never goes back", "statement": "Whatever 'current' leads to at some time, at any later time it leads to a version that the source has announced and that is not older; with --rsync-dir-force-moves, 'current' may have no files for a while in between. (A client that turns from rsync to RRDP can go back, as the rsync directory is updated first.)", "quantifier": "for all configurations with separate directories and sensible object names, sources whose versions move forward, histories of completed, failed and interrupted runs and their continuations, with links and with moves", "why_tests_cant": "Needs two instants of an arbitrary history, with crashes at any step in between; tests look at the link after one successful run.", "anchors": ["src/rsync.rs: update_from_rrdp_state, RsyncDirState::update_current, symlink_current_to_new_revision_dir, rename_new_revision_dir_to_current", "src/process.rs: process"]}
{"id": "C88", "title": "Nothing goes back while a run goes on", "statement": "Take any two instants in the life of an installation, of the same run or of different runs, where runs may be cut off at any step. Whatever notification is in place at the first is followed at the second by one that is not older. Whatever version 'current' leads to at the first, at the second it leads to one that is not older, nor older than the notification of the first. Once a run has put another notification in place it changes nothing but that file, its temporary file and the state. And what is listed in the notification read at the first is there at the second and after further runs, for --cleanup-after from the start of the run in which it was read.", "quantifier": "for all configurations with separate directories and sensible object names, sources whose versions move forward (for the files: as in C01), sequences of completed, failed and interrupted runs, and all pairs of instants in them", "why_tests_cant": "Needs all pairs of intermediate states of a run that goes on, and of arbitrary sequences of runs; tests look at the disk when a run has ended.", "anchors": ["src/process.rs: process", "src/rrdp.rs: apply_staged_changed, clean, write_notification, persist", "src/rsync.rs: update_from_rrdp_state, symlink_current_to_new_revision_dir"]}
{"id": "C89", "title": "Mirrors that get their files from each other over the network follow the source in order", "statement": "Installations on different machines, of which some get their files from the source and others from one of the installations, at any time and also while that one is in the middle of a run: at every instant, the notification file of each of them is absent or is byte for byte a notification that the source has had, with the deltas from the latest down, as many as all those on the way to the source allow. In the life of an installation these never go back, and once there is one it stays. No installation has ever had a later version than the one in place at the installation it gets its files from, and a completed run that changed anything publishes what was in place there at the instant that it read.", "quantifier": "for all networks without cycles of installations with separate directories, maxima other than 0, sources that follow RFC 8182, interleavings of completed, failed and interrupted runs, and delays up to which the earlier notifications are read, as long as no installation reads what was in place before what it read last", "why_tests_cant": "Needs arbitrary networks and interleavings of interrupted runs, reads in the middle of runs of others, and induction along the way to the source; tests run one installation against one source.", "anchors": ["src/process.rs: process", "src/rrdp.rs: RrdpState, apply_staged_changed, write_notification", "src/config.rs: Config, rrdp_max_deltas", "src/fetch.rs: Fetcher"]}
{"id": "C90", "title": "A relying party of any mirror in a network has what the source has, in order", "statement": "A relying party asks one of the installations of a network (C89) again and again, at any instants, also in the middle of runs, and may turn at any time from an installation to the one that this gets its files from. Whatever it receives for the files, all it ever has is versions of the source, each with exactly the objects of the source, and it has them in the order in which the source has had them; within a session its serial never goes down.", "quantifier": "for all networks as in C89, sources whose snapshots and deltas say what their versions contain, sequences of requests and of turns towards the source, interleaved with completed, failed and interrupted runs", "why_tests_cant": "Needs arbitrary networks, interleavings of runs and requests, and induction along the way to the source; tests ask one installation after a run.", "anchors": ["src/process.rs: process", "src/rrdp.rs: RrdpState, apply_staged_changed, write_notification"]}
{"id": "C91", "title": "A mirror that uses another one gets there, even if that one goes on running", "statement": "An installation that has a notification in place supplies all that a run elsewhere needs to publish it: the files listed, with the content that goes with their hashes, and deltas without a gap. It does so even if it goes on running, completed or interrupted, and replaces the notification, while the files are fetched, as long as these runs and requests are within its cleanup time. So a run that gets its files from the web server of another installation succeeds and publishes what was in place there when the notification was asked for, with all that belongs to it.", "quantifier": "for all sources that follow the RFC, installations in any state their runs can leave, runs of the other installation between the requests, configurations of both, and states of the mirror as in C23", "why_tests_cant": "Needs the disk of one installation at every instant of an arbitrary sequence of runs while another run reads from it; tests use a fixed set of files as the source.", "anchors": ["src/process.rs: process", "src/rrdp.rs: RrdpState, apply_staged_changed, write_notification, clean", "src/fetch.rs: Fetcher"]}
{"id": "C92", "title": "A version gets to the end of a line of mirrors with one run of each", "statement": "In a line of installations each of which gets its files from the web server of the one before, one run of each, one after the other, is enough to bring a version from the first to the last, however long the line is: all these runs succeed, and the last installation then has a notification of the same session and serial in place, together with all files it refers to, even if installations further up have gone on running and have newer versions by then.", "quantifier": "for all lines of installations of any length, with configurations of their own (also with different limits on deltas), in any state their runs can leave; conditions on each step as in C91", "why_tests_cant": "Needs induction over the length of the line and the states of all installations in between; tests run one installation.", "anchors": ["src/process.rs: process", "src/rrdp.rs: RrdpState, apply_staged_changed, write_notification, clean", "src/fetch.rs: Fetcher"]}
