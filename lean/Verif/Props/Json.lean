import Verif.Lemmas.JsonState
import Verif.Model.Instance

/-!
# The state files (C69)
-/

namespace KSync

/-- **C69.** What a run stores as its state is what the next run reads: all of the state, but for the flag
`fetched` of the validator's repositories, which is read as unset. -/
theorem C69_round_trip (s : RrdpState) (h : s.Storable) : readState (stateText s) = some s.persisted :=
  readState_text h

/-- **C69.** The same for the state of the rsync directories. -/
theorem C69_rsync_round_trip (s : RsyncDirState) (h : s.Storable) : readRsync (rsyncText s) = some s :=
  readRsync_text h

/-- **C69.** A state file of which only a beginning was written, even if it lacks just one byte, is refused:
it is never taken for some other state.  This is so for any state whatsoever. -/
theorem C69_torn (s : RrdpState) (b : Bytes) (h : b <+: stateText s) (hne : b ≠ stateText s) :
    readState b = none := by
  obtain ⟨t, ht⟩ := h
  have hk : b.length < (stateText s).length := by
    rw [← ht, List.length_append]
    have : t ≠ [] := by rintro rfl; rw [List.append_nil] at ht; exact hne ht
    have := List.length_pos_iff.2 this
    omega
  have hb : b = (stateText s).take b.length := by rw [← ht, List.take_left]
  rw [hb]; exact readState_torn s hk

/-- **C69.** The same for the state of the rsync directories. -/
theorem C69_rsync_torn (s : RsyncDirState) (b : Bytes) (h : b <+: rsyncText s) (hne : b ≠ rsyncText s) :
    readRsync b = none := by
  obtain ⟨t, ht⟩ := h
  have hk : b.length < (rsyncText s).length := by
    rw [← ht, List.length_append]
    have : t ≠ [] := by rintro rfl; rw [List.append_nil] at ht; exact hne ht
    have := List.length_pos_iff.2 this
    omega
  have hb : b = (rsyncText s).take b.length := by rw [← ht, List.take_left]
  rw [hb]; exact readRsync_torn s hk

/-- **C69.** A state file with anything but white space after the text is refused, so no part of an earlier,
longer file can go unnoticed. -/
theorem C69_trailing (s : RrdpState) (t : Str) (h : ∃ c ∈ t, c ∉ [' ', '\n', '\t', '\r']) :
    readState (stateText s ++ utf8Bytes t) = none := by
  obtain ⟨c, hc, hw⟩ := h
  have hw : isWs c = false := by simpa [isWs, and_assoc] using hw
  rw [readState, stateText, Json.ofState, Json.ofBytes_trailing _ ⟨c, hc, hw⟩]; rfl

/-- **C69.** Of the members of the document only those count that have one of the six names, and not their
order: a file with other members besides, as a later version may write it, is read alike. -/
theorem C69_members (l l' : Members)
    (h : ∀ k ∈ ["notification_source", "mappings", "snapshot", "deltas", "deprecated_files", "validator"],
      l.all k.toList = l'.all k.toList) :
    readState (Json.obj l).bytes = readState (Json.obj l').bytes := by
  simp only [readState, Json.ofBytes_bytes, Option.bind_some, Json.state, Json.struct, Members.field,
    Members.optional]
  simp only [List.forall_mem_cons] at h
  obtain ⟨h1, h2, h3, h4, h5, h6, _⟩ := h
  rw [h1, h2, h3, h4, h5, h6]

/-- **C69.** A file without one of the four members that have no default, or with one of the six twice, is
refused. -/
theorem C69_refused (l : Members)
    (h : (∃ k ∈ ["notification_source", "mappings", "deltas", "deprecated_files"], l.all k.toList = []) ∨
      ∃ k ∈ ["notification_source", "mappings", "snapshot", "deltas", "deprecated_files", "validator"],
        2 ≤ (l.all k.toList).length) :
    readState (Json.obj l).bytes = none := by
  have none_of : ∀ {α : Type} (k : String) (rd : Json → Option α), l.all k.toList = [] → l.field k rd = none := by
    intro α k rd hk; simp [Members.field, hk]
  have twice : ∀ {α : Type} (k : String) (rd : Json → Option α), 2 ≤ (l.all k.toList).length →
      l.field k rd = none ∧ l.optional k rd = none := by
    intro α k rd hk
    match hx : l.all k.toList, hk with
    | [], hk => simp at hk
    | [_], hk => simp at hk
    | _ :: _ :: _, _ => simp [Members.field, Members.optional, hx]
  simp only [readState, Json.ofBytes_bytes, Option.bind_some, Json.state, Json.struct]
  rcases h with ⟨k, hk, hx⟩ | ⟨k, hk, hx⟩
  · simp only [List.mem_cons, List.not_mem_nil, or_false] at hk
    rcases hk with rfl | rfl | rfl | rfl
    all_goals rw [none_of _ _ hx]
    all_goals first | rfl | (repeat' split) <;> simp_all
  · simp only [List.mem_cons, List.not_mem_nil, or_false] at hk
    rcases hk with rfl | rfl | rfl | rfl | rfl | rfl
    all_goals first | rw [(twice _ _ hx).1] | rw [(twice _ _ hx).2]
    all_goals first | rfl | (repeat' split) <;> simp_all

/-- **C69.** What is assumed of the state files in the model of a run holds of the texts that the program
writes.  Whatever the other parameters are, there are parameters that agree with them and for which all states
that the program can have are stored as these texts, and texts are read as modelled here: so every theorem
about runs holds with the state files as they are.  (No text that is UTF-8 begins with the byte `0xFF`.) -/
theorem C69_assumptions (e : Ext) : ∃ e' : Ext,
    (∀ s : RrdpState, s.Storable → e'.encState s = stateText s) ∧
    (∀ s : RsyncDirState, s.Storable → e'.encRsync s = rsyncText s) ∧
    (∀ b : Bytes, b.head? ≠ some 0xFF → e'.decState b = readState b ∧ e'.decRsync b = readRsync b) ∧
    e'.sha = e.sha ∧ e'.parseNotif = e.parseNotif ∧ e'.writeNotif = e.writeNotif ∧
    e'.streamSnapshot = e.streamSnapshot ∧ e'.parseSnapshot = e.parseSnapshot ∧
    e'.parseDelta = e.parseDelta ∧ e'.validateTa = e.validateTa ∧ e'.validateCa = e.validateCa := by
  refine ⟨e.withJson, fun s h => ?_, fun s h => ?_, fun b h => ⟨?_, ?_⟩, rfl, rfl, rfl, rfl, rfl, rfl, rfl, rfl⟩
  · exact if_pos h
  · exact if_pos h
  · exact if_neg h
  · exact if_neg h

/-! ## Examples -/

namespace Demo

/-- A state with a validator, names that are not ASCII, and characters that need escapes. -/
def stored : RrdpState :=
  { source := ⟨"https://h/rrdp/n.xml".toList, "nötify \"1\"\n".toList, some "W/\"x\\y\"".toList⟩
    mappings := ⟨"https://h/rrdp/".toList, ["var".toList, "data 日本".toList]⟩
    snapshot := some ⟨5#128, 18446744073709551615, [0, 255, 16], "5/7/snap\u0007.xml".toList, -1⟩
    deltas := [⟨1731000000, 6, [], "5/6/d.xml".toList⟩, ⟨0, 7, [1], "5/7/d.xml".toList⟩]
    deprecated := [⟨9223372036854775807, ["var".toList, "..".toList, "x".toList]⟩]
    validator := some
      { tals := [⟨"t".toList, .file ["a".toList], [1, 2, 3, 4]⟩, ⟨"u".toList, .uri "https://u/".toList true, []⟩]
        repos :=
          { fetchers := [("k".toList, ⟨"https://h/".toList, some ⟨"b".toList, .uri "c".toList false⟩, false⟩),
              ("l".toList, ⟨"https://l/".toList, none, true⟩)]
            data := [("d".toList, ⟨none, 3, true, 9#128, 12, [("o".toList, [255]), ("p".toList, [])]⟩)] } } }

theorem storable : stored.Storable where
  rrdpDir := by unfold PathOfNames; decide
  snapshot := by intro x hx; injection hx with hx; subst hx; unfold SerialFits TimeFits; decide
  deltas := by unfold SerialFits TimeFits; decide
  deprecated := by unfold PathOfNames TimeFits; decide
  validator := by
    intro v hv
    injection hv with hv; subst hv
    constructor
    · intro t ht
      simp only [List.mem_cons, List.not_mem_nil, or_false] at ht
      rcases ht with rfl | rfl
      · unfold FetchSource.Storable PathOfNames; decide
      · trivial
    · intro e he
      simp only [List.mem_cons, List.not_mem_nil, or_false] at he
      rcases he with rfl | rfl
      · intro m hm; injection hm with hm; subst hm; trivial
      · intro m hm; exact absurd hm (by simp)
    · unfold KeysDistinct; decide
    · intro e he
      simp only [List.mem_cons, List.not_mem_nil, or_false] at he
      subst he
      unfold RepoData.Storable TimeFits SerialFits KeysDistinct; decide
    · unfold KeysDistinct; decide

def storedRsync : RsyncDirState := ⟨some ⟨0xABC#128, 7⟩, [⟨-5, ⟨1#128, 18446744073709551615⟩⟩]⟩

theorem storableRsync : storedRsync.Storable where
  current := by intro r hr; injection hr with hr; subst hr; unfold SerialFits; decide
  old := by unfold SerialFits TimeFits; decide

end Demo

section
open Demo
set_option maxRecDepth 100000

/-- The state of the example is stored and read back, and changed only in the flag. -/
example : readState (stateText stored) = some stored.persisted ∧
    (stored.persisted.validator.map (fun v => v.repos.data.map (fun e => e.2.fetched))) = some [false] ∧
    (stored.validator.map (fun v => v.repos.data.map (fun e => e.2.fetched))) = some [true] :=
  ⟨C69_round_trip _ storable, by decide, by decide⟩

example : readRsync (rsyncText storedRsync) = some storedRsync := C69_rsync_round_trip _ storableRsync

/-- The text, as `serde_json` writes it. -/
example : rsyncText storedRsync = utf8Bytes
    ("{\n  \"current\": {\n    \"session_id\": \"00000000-0000-0000-0000-000000000abc\",\n" ++
    "    \"serial\": 7\n  },\n  \"old\": [\n    {\n      \"since\": -5,\n      \"revision\": {\n" ++
    "        \"session_id\": \"00000000-0000-0000-0000-000000000001\",\n" ++
    "        \"serial\": 18446744073709551615\n      }\n    }\n  ]\n}").toList := by decide +kernel

example : rsyncText ⟨none, []⟩ = utf8Bytes "{\n  \"current\": null,\n  \"old\": []\n}".toList := by decide +kernel

/-- Without its last byte it is refused. -/
example : readRsync (rsyncText storedRsync).dropLast = none :=
  C69_rsync_torn storedRsync _ (List.dropLast_prefix _) (by decide +kernel)

example : readState (stateText stored).dropLast = none :=
  C69_torn stored _ (List.dropLast_prefix _) (by decide +kernel)

example : readState (stateText stored ++ utf8Bytes " }".toList) = none :=
  C69_trailing stored _ (by decide)

/-- Other spacing, another order, `null` left out, and members that are not known. -/
example : readRsync (utf8Bytes "{\"x\":[1.5e3,-0,\"\\u00E9\",{}],\"old\": [ ] }\n".toList) = some ⟨none, []⟩ := by
  decide +kernel

/-- Serials of more than 64 bits, members that are missing or there twice, and more than one document. -/
example : readRsync (utf8Bytes ("{\"current\":{\"session_id\":\"00000000-0000-0000-0000-000000000abc\"," ++
    "\"serial\":18446744073709551616},\"old\":[]}").toList) = none ∧
    readRsync (utf8Bytes "{\"current\":null}".toList) = none ∧
    readRsync (utf8Bytes "{\"old\":[],\"old\":[]}".toList) = none ∧
    readRsync (utf8Bytes "{\"old\":[]}{}".toList) = none := by decide +kernel

/-- One member more. -/
example (j : Json) (l : Members) : readState (Json.obj (.cons "version".toList j l)).bytes =
    readState (Json.obj l).bytes :=
  C69_members _ _ (by simp [Members.all])

example : readState (Json.obj (members [("mappings", .ofMappings stored.mappings)])).bytes = none :=
  C69_refused _ (.inl ⟨"deltas", by decide, by decide⟩)

/-- There are parameters to start from. -/
example : ∃ e' : Ext, e'.encState stored = stateText stored ∧
    e'.decState (stateText stored) = some stored.persisted := by
  obtain ⟨e', h1, _, h3, _⟩ := C69_assumptions Inst.ext
  refine ⟨e', h1 _ storable, ?_⟩
  rw [(h3 _ (by decide +kernel)).1]
  exact C69_round_trip _ storable

end

end KSync
