# krill-sync: formal model and proofs

The model and proofs are a Lake project in `lean/` (Lean 4.33.0, Mathlib only where a
module says so).  `properties.jsonl` lists the properties, `MANIFEST.json` maps each one
to the theorems that establish it, `seeded/LOG.jsonl` records mutation tests.

## Method

* `Verif/Model/*` follows /repo/src function by function; each definition cites the file
  and lines it models and says where it simplifies.
* `Verif/Spec/*` states what the properties mean, in terms of file systems, bytes,
  requests and parsed notifications, without using the program's helper functions.
* `Verif/Lemmas/*` is the proof machinery.
* `Verif/Props/*` holds the property theorems, each with an `example` showing that its
  hypotheses can be met by a concrete non-trivial case, and, where the code does not have
  the property in full, a theorem `.._refuted` with a concrete witness next to the
  `.._partial` theorem.

### The run-time model

A run of krill-sync is a function `Env → World → Except Err α × World`.  `Env` contains
arbitrary functions of a tick counter: which system calls fail, how much of a failing
write reached the disk, the clock, the HTTP responses, the outcome of scripts, the order
of directory traversal and of hash map iteration.  `World` has the current file system
and *all* file systems the run has passed through (`past`), so "at every crash point" is a
quantifier over `World.crashPoints`.  Every prefix of every write is a crash point.  A
theorem `∀ env w` therefore speaks about all inputs, failures, clocks and crash points.

Histories are inductive: each step is a complete run, a failed run, or a run cut off at
any crash point, each with its own environment.

Further parts of the model:

* `Verif/Model/Program.lean`: one start of the program (src/main.rs, `configure`), with its exit status.
* `Verif/Model/Main.lean` and `Verif/Spec/Lock.lean`: several processes with their steps interleaved in
  any way, and the lock file.  The lock (crate fslock) is a lock with at most one holder that is released
  when its holder ends, also by a crash.
* `Verif/Model/Encoding.lean`: the text of base64, UUIDs, names of directories, as lists of characters.
* `Verif/Model/Json.lean`: the text of the two state files: UTF-8, JSON as serde_json writes and reads it, and
  the derived (de)serialisation of every type in them.
* `Verif/Model/Prefix.lean`: the text of prefixes in reports (report.rs:229-352), with `Display` and `FromStr` of
  the addresses of the standard library.
* `Verif/Model/Config.lean`: how the command line options determine the directories and the fetch map.
* `Verif/Model/Validator.lean`, `Report.lean`: the validation of a tree of certificates, with the
  cryptography as parameters.
* Removing a directory tree (`remove_dir_all`) removes its entries one at a time; the order is given by
  an arbitrary priority in `Env` (highest first), so that a crash can leave any part of the tree.

The main proof techniques, in `Verif/Lemmas`:

* effects (`Within`): a bound on what a piece of code can write, request, run; gives frame conditions at
  all crash points;
* step relations (`Steps`, `Does`, `Keeps`): every change of the file system is of a certain kind, so that
  an invariant of one step is one of all crash points;
* post-conditions of successful phases (`Post`, `Success`);
* invariants over histories (`StateHistory`, `Lifetime`, `LifetimeRun`, `Steady`);
* progress (`Progress`, `Restart`): a phase that meets no failure goes through.  This needs to know that
  whatever is on disk is in no other phase's way: `Tidy` gives each path its kind (directory, file, link)
  for the whole life of the installation.

### External code

Functions of other crates are parameters (class `Ext`): SHA-256, XML parsing and writing,
serde_json, X.509/CMS decoding and signature checks.  The laws assumed are the proof
fields of `Ext` (writer/parser agree on notifications; the state codec round-trips; a
proper prefix of an encoded state does not decode).  Nothing is assumed about SHA-256, not
even collision freedom.  `Verif/Model/Instance.lean` exhibits functions satisfying the
laws, so no theorem is vacuous because of `Ext`.  The laws about the state files are proved of a model of
their JSON text (C69); `C69_assumptions` gives parameters that satisfy all laws with these texts.  `sort_and_verify_deltas` is written out
in the model with two switches for behaviour /repo does not determine.

## Trusted base

* Lean's kernel; axioms `propext`, `Classical.choice`, `Quot.sound` at most (checked with
  `#print axioms` in `Verif/Audit.lean`).  No own axioms, no `sorry`, no `native_decide`.
* The model's faithfulness to /repo (by reading; code was not executed).
* Operating system: system calls behave as in `Verif/Model/World.lean`; changes reach the
  disk in program order; `rename` is atomic; no other program
  changes the directories, apart from removing state files (C79); elsewhere on the disk anything may change
  between runs, but not during a run (C79 to C82).
* `Ext` laws above; `Https::parent` keeps the trailing slash, `Https::join` appends.
* Serials are natural numbers; the one place that computes with them (`data.serial + 1` in the
  validator) is modelled with 64 bits and wraps as in a release build. Times are unbounded integers
  (no i64 overflow).
* Paths are lists of names.  Where a path ends in `/` the operating system refuses to read or create a file;
  this is modelled where files are fetched into the staging area and where objects are written
  (`endsInName`).  Elsewhere it makes no difference: the notification file has a plain name, and files are
  moved, read by the validator or removed only after they have been staged.  A path that ends in `..` is
  resolved lexically.
* URIs are compared as texts.  The type `uri::Https` of the rpki crate ignores the letter case of the host
  name; this matters only where one installation meets the same host name in different spellings (the
  lookup of a fetcher, validator.rs:808-812, and the comparison of validators, validator.rs:52-66).

## Not modelled

Logging; the text of error messages; permissions and hard links; symlinked directory
components; timeouts; HTTP redirects; TLS itself; reading of the command line by
structopt; the tests.  A sleep is modelled as one step, logged with its length, in which
nothing else happens; how the clock moves meanwhile is left open.

## Per property

| id | modelled | how proved |
|----|----------|-----------|
| C01 | full run, histories of runs and crashes | invariant over all crash points and histories; partial: needs well-formed source, rename not falling back to copy, no 304 to an unconditional GET, positive cleanup time, no change to a limit of 0 deltas; refutations for each |
| C02 | `process`, all crash points | frame reasoning: only the final rename touches the file |
| C03 | `process` | Hoare-style post-condition of a successful run |
| C04 | staging | post-condition with induction over the delta list |
| C05 | `fetch` | case analysis plus crash-point lemma of `write_buf` |
| C06 | `retrieve_file` | post-condition |
| C07 | `process` | direct evaluation of the run |
| C08 | `process` | direct evaluation |
| C09 | `process` + sort/verify | sorting lemma, permutation invariance |
| C10 | state transition of an update | invariant by induction over histories |
| C11 | same | arithmetic on contiguous ranges |
| C12 | same | post-condition |
| C13 | URI functions | strip_prefix/join inverse lemmas |
| C14 | `clean` | post-condition on removed paths |
| C15 | `clean`, `apply` | post-condition |
| C16 | histories | invariant; refuted for re-announced paths and for slow runs |
| C17 | `process` with validator | success analysis + frame lemmas |
| C18 | validator cache | partial: fresh or expired cache, all histories of runs an hour apart; refuted for recent cache, and for deltas that do not go up to the serial |
| C19 | scripts | induction over the list |
| C20 | `process` | frame lemmas |
| C21 | persist/recover | round trip |
| C22 | persist crash points | round trip + torn law |
| C23 | histories | progress of each phase from an invariant of all crash points; partial: links or no rsync; refuted for moves |
| C24 | rsync writer, histories | induction over snapshot elements; an invariant over histories (`OnlyIn`): below the directory of a revision there are only paths of objects of its snapshot |
| C25 | symlink switch | crash-point lemma |
| C26 | rsync update | frame + completeness |
| C27 | `clean_old` | post-condition |
| C28 | histories | invariant over runs with any number of repeated publications, as long as each starts before the current revision is due for removal (`Spec/RsyncHistory`); refuted without that; with moves an invariant over all runs, in time or not |
| C29 | `publish` paths | injectivity of path construction; refuted without include-host across modules |
| C30 | `fix_since`, histories | post-condition; over histories as part of the invariant of C28 |
| C31 | `dir_name` | injectivity of hex and decimal printing |
| C32 | move mode | post-condition and crash points |
| C33 | lock, interleaving of arbitrary step machines | invariant + serialisation |
| C34 | fetcher | trace invariant on requests |
| C35 | fetcher, config | trace invariant |
| C36 | `process` | frame invariant at all crash points |
| C37 | report | induction over the tree |
| C38 | delta application | induction |
| C39 | `get_latest` | case analysis |
| C40 | validator | induction over entries; refuted for router certificates |
| C41 | validator | induction over entries, order independent |
| C42 | validator | refuted for cyclic certificates; partial: bounded by certificate depth |
| C43 | validator reuse | case analysis |
| C44 | config | string lemma |
| C45 | etag, histories | invariant on the tag and the version held; refuted for a server that goes back |
| C46 | rsync + process | success analysis |
| C47 | histories | invariant |
| C48 | remove | induction over parents |
| C49 | validator | trace invariant |
| C50 | base64, uuid text | round-trip by induction |
| C51 | apply/write | equality of directories; refuted for a changed --rrdp-dir |
| C52 | tal | case analysis |
| C53 | validator tree | induction over the tree |
| C54 | histories in move mode | invariant: what `current` and the state files hold does not change |
| C55 | `process` with validator, histories | trace invariant on requests; the fetchers kept are an invariant of histories |
| C56 | `moveFile`, `moveStaged` | invariant of every step: one of the two ends has the whole file |
| C57 | `process` with `notifyDelay` | invariants before and after the wait, split at the wait |
| C58 | `validateTree`, `checkCa`, `checkEntry`, `openCa` | case analysis per object and induction over the tree |
| C59 | `process`, `postConfigure` | `Calm`: compositional over every function; the two `panic` branches by facts about results and prefixes |
| C60 | `Validator.validate` | `Det`: every function has one result for a given file system, time and server; a reference result computed in one order, and each run agrees with it up to `Reordered` (induction over the recursion depth) |
| C61 | `Validator.validate` | requests for the address plus a potential (0 once the data are marked as fetched, else 1) never grow; `Leaves`/`Pays` carry such invariants through the recursion, also when the validation fails |
| C62 | `process`, histories | an invariant over histories (`Booked`): each step of a publication adds only files that were staged, the notification and its temporary file; the state written last refers to what was staged and schedules what it drops |
| C63 | `process`, histories | an invariant over histories (`Workspace`): what is fetched on the way to a publication is exactly what the publication moves, and the later phases leave the staging area alone; each refetch keeps directories |
| C64 | `process`, histories | an invariant over histories (`Tended`): directories away from the files a run handles are as before; those on the way to published files contain something; the cleanup removes upwards until a directory is not empty |
| C65 | `process`, histories | an invariant over histories (`RsyncLedger`): what the state mentions stays mentioned until its directory is gone; with moves, `current` goes to the directory of the revision recorded as current |
| C66 | `process`, histories | the source is a sequence of notifications (`FollowsRfc`); an invariant over histories: the recorded deltas are the limited list of one of them; old and new part merge to the limited list of a later one |
| C67 | histories | from C24 over histories, for both servers |
| C68 | validator, histories | an invariant of the walk over the CAs (`DataInv`) and one over histories; refuted for servers that go back, and for deltas that do not go up to the serial |
| C69 | state files | round trip by induction on JSON values; a reader's result does not change when text is added, so no proper prefix is read |
| C70 | requests of a run | induction over the deltas staged, with the log of requests and the files known to be staged as invariant |
| C71 | command line | case analysis of `post_configure`; the default directories are siblings below the state directory |
| C72 | what is not withheld | each stage of the pre-validation fails only for a stated reason; the staged repository can always be loaded |
| C73 | text of prefixes | numbers, octets and segments are read back one by one; the span of zeros that is left out is a span of zeros; dots occur just in texts with an IPv4 part |
| C74 | histories and their continuations | an invariant of the continuation (`Relied`): the files are in place, entries for them in the state are not older than the continuation, and the state knows them, if it did at first, so that nothing staged takes their place; each phase of a publication keeps it |
| C75 | histories and their continuations | the same for the directory of a revision (`Reading`); the RRDP state is never older than the revision (`FromNotif`), so the revision is not announced again |
| C76 | starts of the whole program, from the options to the exit status | what goes before the lock only sets up (`SetUp`), and nothing once the lock file is there, so the starts of an installation make a history of runs (`Installation.history`); then C01, C23, C71, C59 |
| C77 | histories of runs and crashes, with the readings of the clock | invariant: times in the state files satisfy what all clock readings satisfy; with the accounts of C62 and C65 and the post-conditions C15 and C27 |
| C78 | pairs of instants in histories of runs and crashes, over a source whose versions do not go back | the rsync update comes first (`run_rsync_before_notif`), so the version that `current` leads to is between that of the notification and that of the source; with C47 |
| C79 | histories of runs, crashes, removals of state files and changes elsewhere (`Managed`, `BetweenRuns`) | the invariants of C01, C23, C28, C47 and C78 speak of recorded state only if there is any, so they survive its removal; the moves case with C54 |
| C80 | histories of runs with a configuration each (`Reconfigured`) | the invariants of C01, C28, C47 and C78 depend on the URI and the directories (with links: also on the host option) only; a delta that a limit has dropped is not downloaded again, as there is a later one in the state (`GivenUp`); switching between links and moves with `run_blocked` as in C69 |
| C81 | histories of runs of several installations (`Shared`) | by C36 a run of one is, for another, something that happens elsewhere (`run_meanwhile`), so each has a history as in C80 |
| C82 | the same, with sources that are RRDP directories of others (`MirrorTree`) | what a mirror has published, in order, is again a source as RFC 8182 has it (`FollowsRfc.mirrored`); limits compose (`IsLimit.trans`); invariant: each has got as far as its parent at most, and the parent shows what is not before that |
| C83 | as C66 and C74 together (`Mirroring`); a relying party as in RFC 8182, section 3.4 (`Party`, `ByDeltas`) | C66 (what is published mirrors a notification of the source) and C74 (the files stay); a limited truthful notification is truthful; a patch from the right objects gives the right objects; `IsLimit.ends` for coverage |
| C84 | several histories as in C83, each over its own disk, of the same source (`HasVersion`, `FromServers`) | C66 for each server; equal versions have equal notifications; under a stricter limit nothing more is listed (`IsLimit.below`); C57 for a server that waits, C74 after that |
| C85 | as C24 over histories and C75 together (`Enters`, `ReadInTime`) | C24 (what is served is exactly the snapshot) and C75 (it stays while it is read); looking objects up by path is looking them up by URI where URIs have files of their own; C83 for the comparison with RRDP |
| C86 | histories as in C66 with polls at any time in between (`Polling`) | invariant: what is published is a version of the source not before the last one of the relying party (`following_run`); content as in C83 |
| C87 | pairs of instants as in C78 | in a run `current` stays or comes to lead to a version announced in that run (`run_current`, `run_moveServed`); these are not before the one the source had got to |
| C88 | all instants of a sequence of runs, those of a run that goes on included (`Timeline`, `AnyTwo`) | a run has two phases: up to the notification, which stays as it is while `current` is switched at most once (`UpToNotif`), and from there on (`FromNotif`), where nothing else changes but the state; pairs within a run from that (`run_anyTwo`), pairs of different runs by transitivity (`Timeline.anyTwo`) |
| C89 | all instants of a network of installations with disks of their own (`Network`, `MirrorNet`) | invariant (`NetInv`): the instants of each can be numbered with versions of the source, in order; nobody has got further than the number of any instant at its parent that it may still read; the instants of one run get at most two numbers (`run_tags`, from `run_anyTwo` of C88); the sequence of what a parent shows is a source as RFC 8182 has it (`FollowsRfc.mirrored` of C82) |
| C90 | relying parties that ask the installations of a network (`Visiting`) | the numbers of C89: whoever gets what is published at an instant gets the version with its number (`Tagged.gets`), from that instant on no number is less (`From`), and runs do not change that (`From.grow`); at the parent no number is less from the instant on that has been read |
| C91 | a run that gets its files from another installation (`ServedBy`), which goes on running | what is published is a notification of the source, cut to the limit (C45), so its deltas have no gaps (`Mirrors.gapless`) and its files are not named like the notification (`Mirrors.good`); the files stay by C74; then C23 |
| C92 | a line of installations, with one run of each (`Line`) | induction over the line, with C91 in each step |
