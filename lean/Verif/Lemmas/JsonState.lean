import Verif.Lemmas.Json
import Verif.Lemmas.Paths
import Verif.Spec.Json

/-!
# Reading back the fields of the states
-/

namespace KSync

theorem hexRead_hexBytes : ∀ h : Bytes, hexRead (hexBytes h) = some h
  | [] => rfl
  | x :: h => by
    have hx := x.toNat_lt
    have h1 := hexVal_hexDigit (n := x.toNat / 16) (by omega)
    have h2 := hexVal_hexDigit (n := x.toNat % 16) (by omega)
    have e : hexBytes (x :: h) = hexDigit (x.toNat / 16) :: hexDigit (x.toNat % 16) :: hexBytes h := rfl
    have e2 : UInt8.ofNat (x.toNat / 16 * 16 + x.toNat % 16) = x := uint8_of (by omega)
    simp only [e, hexRead, h1, h2, hexRead_hexBytes h, e2]

theorem comps_pathText (s : Str) (p : Path) (h : PathOfNames p) : comps (s ++ pathText p) = comps s ++ p := by
  induction p generalizing s with
  | nil => simp [pathText]
  | cons n p ih =>
    have e : s ++ pathText (n :: p) = (s ++ '/' :: n) ++ pathText p := by simp [pathText]
    have hn := h n List.mem_cons_self
    rw [e, ih _ (fun m hm => h m (List.mem_cons_of_mem _ hm)), comps_append, comps_plain hn.2.1 hn.1 hn.2.2]
    simp

theorem Json.path_of {p : Path} (h : PathOfNames p) : (Json.ofPath p).path = some p := by
  have := comps_pathText [] p h
  simp only [List.nil_append] at this
  simp only [Json.ofPath, Json.path, Json.string, Option.map_some, this]
  rfl

theorem Json.u64_of {n : Nat} (h : SerialFits n) : (Json.ofNat n).u64 = some n := by
  have : n < 2 ^ 64 := h
  simp [Json.ofNat, Json.u64, this]

theorem Json.i64_of {t : Time} (h : TimeFits t) : (Json.num t).i64 = some t := by
  have : -(2 : Int) ^ 63 ≤ t ∧ t < (2 : Int) ^ 63 := h
  simp only [Json.i64, this, and_self, if_true]

theorem Json.uuid_of (u : Uuid) : (Json.ofUuid u).uuid = some u := u.parse_toStr

theorem Json.base64_of (b : Bytes) : (Json.ofBase64 b).base64 = some b := b64Decode_encode b

theorem Json.hash_of (h : Hash) : (Json.ofHash h).hash = some h := hexRead_hexBytes h

theorem Json.mode_of (b : Bool) : (Json.ofMode b).mode = some b := by cases b <;> rfl

theorem Json.string_of (s : Str) : (Json.str s).string = some s := rfl

theorem Jsons.readAll_of {α : Type} {w : α → Json} {rd : Json → Option α} : ∀ l : List α,
    (∀ a ∈ l, rd (w a) = some a) → (jsons (l.map w)).readAll rd = some l
  | [], _ => rfl
  | a :: l, h => by
    simp only [List.map_cons, jsons, Jsons.readAll, h a List.mem_cons_self,
      Jsons.readAll_of l (fun b hb => h b (List.mem_cons_of_mem _ hb))]

theorem Json.list_of {α : Type} {w : α → Json} {rd : Json → Option α} {l : List α}
    (h : ∀ a ∈ l, rd (w a) = some a) : (Json.ofList w l).list rd = some l :=
  Jsons.readAll_of l h

theorem Members.readMap_of {α : Type} {w : α → Json} {rd : Json → Option α} {g : α → α} :
    ∀ m : List (Str × α), (∀ e ∈ m, rd (w e.2) = some (g e.2)) → KeysDistinct m →
    (m.foldr (fun e l => Members.cons e.1 (w e.2) l) .nil).readMap rd = some (m.map (fun e => (e.1, g e.2)))
  | [], _, _ => rfl
  | e :: m, h, hk => by
    obtain ⟨hk1, hk2⟩ := List.nodup_cons.1 (show (e.1 :: m.map (·.1)).Nodup from hk)
    have ih := Members.readMap_of m (fun x hx => h x (List.mem_cons_of_mem _ hx)) hk2
    have hm : e.1 ∉ (m.map (fun e => (e.1, g e.2))).map (·.1) := by
      rw [List.map_map]; exact hk1
    simp only [List.foldr_cons, Members.readMap, h e List.mem_cons_self, ih, hm, if_false, List.map_cons]

theorem Json.map_of {α : Type} {w : α → Json} {rd : Json → Option α} {g : α → α} {m : List (Str × α)}
    (h : ∀ e ∈ m, rd (w e.2) = some (g e.2)) (hk : KeysDistinct m) :
    (Json.ofMap w m).map rd = some (m.map (fun e => (e.1, g e.2))) :=
  Members.readMap_of m h hk

theorem map_same {α : Type} (m : List (Str × α)) : m.map (fun e => (e.1, id e.2)) = m := by
  induction m with
  | nil => rfl
  | cons e m ih => rw [List.map_cons, ih]; rfl

theorem Json.source_of {s : FetchSource} (h : s.Storable) : (Json.ofSource s).source = some s := by
  cases s with
  | file p => simp [Json.ofSource, members, Json.source, Json.path_of h]
  | uri u m => simp [Json.ofSource, members, jsons, Json.source, Json.string, Json.mode_of]

/-- The option in the member, when the member is there once. -/
theorem optional_of {α : Type} {w : α → Json} {rd : Json → Option α} {o : Option α} {l : Members} {k : String}
    (hl : l.all k.toList = [Json.ofOption w o]) (hn : ∀ a, w a ≠ .null) (h : ∀ a, o = some a → rd (w a) = some a) :
    l.optional k rd = some o := by
  cases o with
  | none => simp [Members.optional, hl, Json.ofOption]
  | some a =>
    simp only [Json.ofOption] at hl
    have hx := hn a
    simp only [Members.optional, hl]
    rw [h a rfl]; rfl

theorem Json.fetchMap_of {m : FetchMap} (h : m.baseFetch.Storable) : (Json.ofFetchMap m).fetchMap = some m := by
  simp [Json.ofFetchMap, Json.fetchMap, Json.struct, members, Members.field, Members.all, Json.string_of,
    Json.source_of h]

theorem Json.fetcher_of {f : Fetcher} (h : f.Storable) : (Json.ofFetcher f).fetcher = some f := by
  have ho := optional_of (l := members [("notification_uri", .str f.notificationUri),
    ("fetch_map", .ofOption .ofFetchMap f.fetchMap), ("mode", .ofMode f.insecure)]) (k := "fetch_map")
    (o := f.fetchMap) (w := Json.ofFetchMap) (rd := Json.fetchMap)
    (by simp [members, Members.all]) (by intro a; simp [Json.ofFetchMap]) (fun m hm => Json.fetchMap_of (h m hm))
  simp only [Json.ofFetcher, Json.fetcher, Json.struct, ho]
  simp [members, Members.field, Members.all, Json.string_of, Json.mode_of]

theorem Json.tal_of {t : Tal} (h : t.source.Storable) : (Json.ofTal t).tal = some t := by
  simp [Json.ofTal, Json.tal, Json.struct, members, Members.field, Members.all, Json.string_of,
    Json.source_of h, Json.base64_of]

theorem Json.object_of (b : Bytes) : (Json.ofObject b).object = some b := by
  simp [Json.ofObject, Json.object, Json.struct, members, Members.field, Members.all, Json.base64_of]

theorem str_ne_null (s : Str) : Json.str s ≠ .null := by simp

theorem Json.repoData_of {d : RepoData} (h : d.Storable) : (Json.ofRepoData d).repoData = some d.persisted := by
  obtain ⟨h1, h2, h3⟩ := h
  have ho := optional_of (l := members [("etag", .ofOption .str d.etag), ("last_fetch", .num d.lastFetch),
    ("session_id", .ofUuid d.session), ("serial", .ofNat d.serial), ("objects", .ofMap .ofObject d.objects)])
    (k := "etag") (o := d.etag) (w := Json.str) (rd := Json.string)
    (by simp [members, Members.all]) str_ne_null (fun m _ => rfl)
  have hm := Json.map_of (w := Json.ofObject) (rd := Json.object) (g := id) (m := d.objects)
    (fun e _ => Json.object_of e.2) h3
  rw [map_same] at hm
  simp only [Json.ofRepoData, Json.repoData, Json.struct, ho]
  simp [members, Members.field, Members.orDefault, Members.all, Json.i64_of h1, Json.u64_of h2, Json.uuid_of, hm,
    RepoData.persisted]

theorem Json.validator_of {v : Validator} (h : v.Storable) :
    (Json.ofValidator v).validator = some { v with repos := { v.repos with
      data := v.repos.data.map (fun e => (e.1, e.2.persisted)) } } := by
  have h1 := Json.list_of (w := Json.ofTal) (rd := Json.tal) (fun t ht => Json.tal_of (h.tals t ht))
  have h2 := Json.map_of (w := Json.ofFetcher) (rd := Json.fetcher) (g := id)
    (fun e he => Json.fetcher_of (h.fetchers e he)) h.fetcherKeys
  rw [map_same] at h2
  have h3 := Json.map_of (w := Json.ofRepoData) (rd := Json.repoData) (g := RepoData.persisted)
    (fun e he => Json.repoData_of (h.data e he)) h.dataKeys
  have h4 : (Json.ofVisited v.repos).visited =
      some { v.repos with data := v.repos.data.map (fun e => (e.1, e.2.persisted)) } := by
    simp [Json.ofVisited, Json.visited, Json.struct, members, Members.field, Members.all, h2, h3]
  simp [Json.ofValidator, Json.validator, Json.struct, members, Members.field, Members.all, h1, h4]

theorem Json.notificationSource_of (s : NotificationSource) :
    (Json.ofNotificationSource s).notificationSource = some s := by
  have ho := optional_of (l := members [("uri", .str s.uri), ("name", .str s.name),
    ("etag", .ofOption .str s.etag)]) (k := "etag") (o := s.etag) (w := Json.str) (rd := Json.string)
    (by simp [members, Members.all]) str_ne_null (fun m _ => rfl)
  simp only [Json.ofNotificationSource, Json.notificationSource, Json.struct, ho]
  simp [members, Members.field, Members.all, Json.string_of]

theorem Json.mappings_of {m : SourceMappings} (h : PathOfNames m.rrdpDir) :
    (Json.ofMappings m).mappings = some m := by
  simp [Json.ofMappings, Json.mappings, Json.struct, members, Members.field, Members.all, Json.string_of,
    Json.path_of h]

theorem Json.snapshotState_of {s : SnapshotState} (h : SerialFits s.serial ∧ TimeFits s.since) :
    (Json.ofSnapshotState s).snapshotState = some s := by
  simp [Json.ofSnapshotState, Json.snapshotState, Json.struct, members, Members.field, Members.all,
    Json.string_of, Json.uuid_of, Json.hash_of, Json.u64_of h.1, Json.i64_of h.2]

theorem Json.deltaState_of {s : DeltaState} (h : SerialFits s.serial ∧ TimeFits s.since) :
    (Json.ofDeltaState s).deltaState = some s := by
  simp [Json.ofDeltaState, Json.deltaState, Json.struct, members, Members.field, Members.all,
    Json.string_of, Json.hash_of, Json.u64_of h.1, Json.i64_of h.2]

theorem Json.deprecated_of {d : DeprecatedFile} (h : PathOfNames d.path ∧ TimeFits d.since) :
    (Json.ofDeprecated d).deprecated = some d := by
  simp [Json.ofDeprecated, Json.deprecated, Json.struct, members, Members.field, Members.all,
    Json.path_of h.1, Json.i64_of h.2]

theorem Json.state_of {s : RrdpState} (h : s.Storable) : (Json.ofState s).state = some s.persisted := by
  have h1 := Json.list_of (w := Json.ofDeltaState) (rd := Json.deltaState)
    (fun d hd => Json.deltaState_of (h.deltas d hd))
  have h2 := Json.list_of (w := Json.ofDeprecated) (rd := Json.deprecated)
    (fun d hd => Json.deprecated_of (h.deprecated d hd))
  have h3 := Json.mappings_of h.rrdpDir
  have h4 := Json.notificationSource_of s.source
  have hs : ∀ l : Members, l.all "snapshot".toList = [Json.ofOption Json.ofSnapshotState s.snapshot] →
      l.optional "snapshot" Json.snapshotState = some s.snapshot := fun l hl =>
    optional_of hl (by intro a; simp [Json.ofSnapshotState]) (fun x hx => Json.snapshotState_of (h.snapshot x hx))
  cases hv : s.validator with
  | none =>
    simp only [Json.ofState, Json.state, Json.struct, hv]
    rw [hs _ (by simp [members, Members.all])]
    simp [members, Members.field, Members.optional, Members.all, h1, h2, h3, h4, RrdpState.persisted, hv]
  | some v =>
    have h5 := Json.validator_of (h.validator v hv)
    have hn : Json.ofValidator v ≠ .null := by simp [Json.ofValidator]
    simp only [Json.ofState, Json.state, Json.struct, hv]
    rw [hs _ (by simp [members, Members.all])]
    have ho := optional_of (w := fun _ => Json.ofValidator v) (rd := Json.validator)
      (o := some { v with repos := { v.repos with data := v.repos.data.map (fun e => (e.1, e.2.persisted)) } })
      (l := members ([("notification_source", .ofNotificationSource s.source),
        ("mappings", .ofMappings s.mappings), ("snapshot", .ofOption .ofSnapshotState s.snapshot),
        ("deltas", .ofList .ofDeltaState s.deltas), ("deprecated_files", .ofList .ofDeprecated s.deprecated)] ++
        (some v).toList.map (fun v => ("validator", .ofValidator v)))) (k := "validator")
      (by simp [members, Members.all, Json.ofOption]) (fun _ => hn) (fun a ha => by rw [h5]; exact ha)
    rw [ho]
    simp [members, Members.field, Members.all, h1, h2, h3, h4, RrdpState.persisted, hv]

theorem Json.revision_of {r : RsyncRevision} (h : SerialFits r.serial) :
    (Json.ofRevision r).revision = some r := by
  simp [Json.ofRevision, Json.revision, Json.struct, members, Members.field, Members.all,
    Json.uuid_of, Json.u64_of h]

theorem Json.deprecatedRevision_of {d : DeprecatedRevision} (h : SerialFits d.revision.serial ∧ TimeFits d.since) :
    (Json.ofDeprecatedRevision d).deprecatedRevision = some d := by
  simp [Json.ofDeprecatedRevision, Json.deprecatedRevision, Json.struct, members, Members.field, Members.all,
    Json.revision_of h.1, Json.i64_of h.2]

theorem Json.rsyncState_of {s : RsyncDirState} (h : s.Storable) : (Json.ofRsyncState s).rsyncState = some s := by
  have h1 := Json.list_of (w := Json.ofDeprecatedRevision) (rd := Json.deprecatedRevision)
    (fun d hd => Json.deprecatedRevision_of (h.old d hd))
  have ho := optional_of (l := members [("current", .ofOption .ofRevision s.current),
    ("old", .ofList .ofDeprecatedRevision s.old)]) (k := "current") (o := s.current) (w := Json.ofRevision)
    (rd := Json.revision) (by simp [members, Members.all]) (by intro a; simp [Json.ofRevision])
    (fun r hr => Json.revision_of (h.current r hr))
  simp only [Json.ofRsyncState, Json.rsyncState, Json.struct, ho]
  simp [members, Members.field, Members.all, h1]

/-! ## The files -/

theorem readState_text {s : RrdpState} (h : s.Storable) : readState (stateText s) = some s.persisted := by
  rw [readState, stateText, Json.ofBytes_bytes]
  exact Json.state_of h

theorem readRsync_text {s : RsyncDirState} (h : s.Storable) : readRsync (rsyncText s) = some s := by
  rw [readRsync, rsyncText, Json.ofBytes_bytes]
  exact Json.rsyncState_of h

theorem readState_torn (s : RrdpState) {k : Nat} (hk : k < (stateText s).length) :
    readState ((stateText s).take k) = none := by
  rw [readState, stateText, Json.ofState, Json.ofBytes_torn _ hk]; rfl

theorem readRsync_torn (s : RsyncDirState) {k : Nat} (hk : k < (rsyncText s).length) :
    readRsync ((rsyncText s).take k) = none := by
  rw [readRsync, rsyncText, Json.ofRsyncState, Json.ofBytes_torn _ hk]; rfl

theorem Json.ofBytes_trailing (l : Members) {t : Str} (h : ∃ c ∈ t, isWs c = false) :
    Json.ofBytes ((Json.obj l).bytes ++ utf8Bytes t) = none := by
  have hb : (Json.obj l).bytes ++ utf8Bytes t = utf8Bytes ((Json.obj l).text 0 ++ t) := by
    simp [Json.bytes, utf8Bytes]
  have hr := readJson_text 0 (.obj l) (2 * ((Json.obj l).text 0).length + 2) []
    (by have := (Json.obj l).need_le 0; omega) (by simp [NumEnds])
  rw [List.append_nil] at hr
  have hm := readJson_more t (f' := 2 * ((Json.obj l).text 0 ++ t).length + 2)
    (by rw [List.length_append]; omega) hr (.inr rfl)
  rw [hb, Json.ofBytes, utf8Str_bytes]
  dsimp only
  rw [hm]
  dsimp only
  rw [List.nil_append, if_neg]
  intro hs
  obtain ⟨c, hc, hw⟩ := h
  clear hb hr hm
  induction t with
  | nil => exact absurd hc (by simp)
  | cons a t ih =>
    by_cases ha : isWs a = true
    · have h1 : skipWs (a :: t) = skipWs t := by simp [skipWs, ha]
      rcases List.mem_cons.1 hc with rfl | hc
      · rw [ha] at hw; exact absurd hw (by simp)
      · exact ih (h1 ▸ hs) hc
    · rw [skipWs_cons _ (by simpa using ha)] at hs
      exact absurd hs (by simp)

theorem Json.bytes_head (l : Members) : ∃ t, (Json.obj l).bytes = 0x7B :: t := by
  have h : ∃ t, (Json.obj l).text 0 = '{' :: t := by
    cases l with
    | nil => exact ⟨_, rfl⟩
    | cons k j l => exact ⟨_, by rw [Json.text]; simp⟩
  obtain ⟨t, h⟩ := h
  rw [Json.bytes, h]
  exact ⟨utf8Bytes t, rfl⟩

theorem stateText_head (s : RrdpState) (k : Nat) : ((stateText s).take k).head? ≠ some 0xFF := by
  obtain ⟨t, h⟩ := Json.bytes_head (members ([("notification_source", .ofNotificationSource s.source),
    ("mappings", .ofMappings s.mappings), ("snapshot", .ofOption .ofSnapshotState s.snapshot),
    ("deltas", .ofList .ofDeltaState s.deltas), ("deprecated_files", .ofList .ofDeprecated s.deprecated)] ++
    s.validator.toList.map (fun v => ("validator", .ofValidator v))))
  rw [stateText, Json.ofState, h]
  cases k <;> simp

theorem rsyncText_head (s : RsyncDirState) (k : Nat) : ((rsyncText s).take k).head? ≠ some 0xFF := by
  obtain ⟨t, h⟩ := Json.bytes_head (members [("current", .ofOption .ofRevision s.current),
    ("old", .ofList .ofDeprecatedRevision s.old)])
  rw [rsyncText, Json.ofRsyncState, h]
  cases k <;> simp

theorem head_text {b : Bytes} (h : ∀ k, (b.take k).head? ≠ some 0xFF) : b.head? ≠ some 0xFF := by
  have := h b.length
  rwa [List.take_length] at this

theorem readState_nil : readState [] = none := rfl

theorem readRsync_nil : readRsync [] = none := rfl

open Classical in
/-- The two state files as JSON texts, in place of those of `e`; states that no run of the program can have
are stored in some other way. -/
@[instance_reducible]
noncomputable def Ext.withJson (e : Ext) : Ext :=
  { e with
    encState := fun s => if s.Storable then stateText s else 0xFF :: e.encState s
    decState := fun b => if b.head? = some 0xFF then e.decState b.tail else readState b
    encRsync := fun s => if s.Storable then rsyncText s else 0xFF :: e.encRsync s
    decRsync := fun b => if b.head? = some 0xFF then e.decRsync b.tail else readRsync b
    dec_enc := by
      intro s
      by_cases h : s.Storable
      · simp only [h, if_true, head_text (stateText_head s), if_false]
        exact readState_text h
      · simp only [h, if_false, List.head?_cons, if_true, List.tail_cons]
        exact e.dec_enc s
    dec_enc_rsync := by
      intro s
      by_cases h : s.Storable
      · simp only [h, if_true, head_text (rsyncText_head s), if_false]
        exact readRsync_text h
      · simp only [h, if_false, List.head?_cons, if_true, List.tail_cons]
        exact e.dec_enc_rsync s
    dec_torn := by
      intro s k hk
      by_cases h : s.Storable
      · simp only [h, if_true] at hk ⊢
        rw [if_neg (stateText_head s k)]
        exact readState_torn s hk
      · simp only [h, if_false, List.length_cons] at hk ⊢
        cases k with
        | zero => exact readState_nil
        | succ k =>
          simp only [List.take_succ_cons, List.head?_cons, if_true, List.tail_cons]
          exact e.dec_torn s k (by omega)
    dec_rsync_torn := by
      intro s k hk
      by_cases h : s.Storable
      · simp only [h, if_true] at hk ⊢
        rw [if_neg (rsyncText_head s k)]
        exact readRsync_torn s hk
      · simp only [h, if_false, List.length_cons] at hk ⊢
        cases k with
        | zero => exact readRsync_nil
        | succ k =>
          simp only [List.take_succ_cons, List.head?_cons, if_true, List.tail_cons]
          exact e.dec_rsync_torn s k (by omega) }

end KSync
