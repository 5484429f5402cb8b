import Verif.Lemmas.Requests
import Verif.Examples.Conds

/-!
# Where requests go (properties C34, C35)
-/

set_option linter.unusedVariables false

namespace KSync

/-- The request is for the notification file or for a file the source's notification
refers to, at the place where the configuration says it is to be found. -/
def ForSource [Ext] (c : Config) (env : Env) (fs : FS) (r : Req) : Prop :=
  ∃ uri, c.Locates uri (.uri r.uri r.insecure) ∧
    (uri = c.notificationUri ∨
      (r.etag = none ∧ ∃ etag n h, Offers c env fs etag n ∧ (uri, h) ∈ n.refs))

theorem asks_locates [Ext] {c : Config} {uri : Str} {etag : Option Str} {r : Req}
    (h : c.fetcher.Asks uri etag r) : c.Locates uri (.uri r.uri r.insecure) ∧ r.etag = etag := by
  obtain ⟨src, h1, h2⟩ := h
  cases src with
  | file p => exact h2.elim
  | uri u m =>
    have h2 : r = ⟨u, m, etag⟩ := h2
    subst h2
    exact ⟨resolve_locates.1 h1, rfl⟩

/-- **C34.** Each request of the search for updates and of the downloads is for the
notification file or a file named in the source's notification. -/
theorem C34_staging_requests [Ext] (c : Config) (env : Env) (fs : FS) (s : RrdpState) :
    ∀ r ∈ (s.updateStaged c env (World.start fs)).2.reqs, ForSource c env fs r := by
  refine (updateStaged_reqs (P := ForSource c env fs) (w := World.start fs) ?_ ?_).reqs_start
  · intro r hr
    exact ⟨_, (asks_locates hr).1, Or.inl rfl⟩
  · intro n hn x hx r hr
    exact ⟨_, (asks_locates hr).1, Or.inr ⟨(asks_locates hr).2, _, n, x.2, hn, hx⟩⟩

/-- **C34, whole runs.** Without pre-validation these are all requests of a run. -/
theorem C34_run_requests [Ext] (depth : Nat) (c : Config) (env : Env) (fs : FS)
    (hw : fs.WF) (ht : c.talFiles = []) :
    ∀ r ∈ (process depth c env (World.start fs)).2.reqs, ForSource c env fs r := by
  refine (process_reqs (P := ForSource c env fs) (w := World.start fs) hw ht ?_ ?_).reqs_start
  · intro etag r hr
    exact ⟨_, (asks_locates hr).1, Or.inl rfl⟩
  · intro etag n hn x hx r hr
    exact ⟨_, (asks_locates hr).1, Or.inr ⟨(asks_locates hr).2, _, n, x.2, hn, hx⟩⟩

/-- **C34, directory.** With a local directory as source there are no requests at all. -/
theorem C34_directory_no_requests [Ext] (depth : Nat) (c : Config) (env : Env) (fs : FS)
    (hw : fs.WF) (ht : c.talFiles = []) (b : Str) (p : Path)
    (hm : c.fetchMap = some ⟨b, .file p⟩) :
    (process depth c env (World.start fs)).2.reqs = [] := by
  rw [List.eq_nil_iff_forall_not_mem]
  intro r hr
  obtain ⟨uri, h1, _⟩ := C34_run_requests depth c env fs hw ht r hr
  have h2 := resolve_locates.2 h1
  unfold Fetcher.resolve Config.fetcher FetchMap.source FetchSource.join at h2
  rw [hm] at h2
  dsimp only at h2
  split at h2 <;> cases h2

/-- What `post_configure` makes of the command line, as far as the source is concerned. -/
theorem postConfigure_source [Ext] {raw : RawConfig} {c : Config} {env : Env} {w w' : World}
    (hraw : raw.rest.fetchMap = none)
    (h : postConfigure raw env w = (.ok c, w')) :
    c.notificationUri = raw.rest.notificationUri ∧ c.insecure = raw.rest.insecure ∧
    ((raw.rest.sourceUriBase = none ∧ c.fetchMap = none) ∨
     ∃ base src, httpsParent c.notificationUri = some base ∧
      raw.rest.sourceUriBase = some src ∧ c.fetchMap = some ⟨base, match src with
        | .uri u m => .uri u (m || raw.rest.insecure)
        | .file p => .file p⟩ ∧ (∀ u m, src = .uri u m → u.getLast? = some '/')) := by
  unfold postConfigure at h
  obtain ⟨base, w1, h1, h2⟩ := M.bind_ok.1 h
  rw [M.orThrow_ok_iff] at h1
  obtain ⟨h1, rfl⟩ := h1
  rw [getFs_bind] at h2
  match hs : raw.rest.sourceUriBase with
  | none =>
    rw [hs] at h2
    simp only [effectiveSource] at h2
    obtain ⟨fm, w2, h3, h4⟩ := M.bind_ok.1 h2
    rw [M.pure_ok] at h3 h4
    obtain ⟨rfl, rfl⟩ := h3
    obtain ⟨rfl, _⟩ := h4
    exact ⟨rfl, rfl, Or.inl ⟨rfl, hraw⟩⟩
  | some src =>
    rw [hs] at h2
    obtain ⟨fm, w2, h3, h4⟩ := M.bind_ok.1 h2
    rw [M.pure_ok] at h4
    obtain ⟨rfl, _⟩ := h4
    refine ⟨rfl, rfl, Or.inr ⟨base, src, h1, rfl, ?_, ?_⟩⟩
    · cases src with
      | file p =>
        simp only [effectiveSource] at h3
        split at h3
        · rw [M.pure_ok] at h3; exact h3.1.symm
        · cases h3
      | uri u m =>
        simp only [effectiveSource] at h3
        split at h3
        · rw [M.pure_ok] at h3; exact h3.1.symm
        · cases h3
    · rintro u m rfl
      simp only [effectiveSource] at h3
      split at h3
      · rename_i hd
        simpa [FetchSource.isDir] using hd
      · cases h3

/-- **C34, source base.** With `--source-uri-base U` (a URI) each request is for `U`
followed by what the wanted URI has after the directory of the notification URI. -/
theorem C34_source_base [Ext] (depth : Nat) (raw : RawConfig) (c : Config) (env env0 : Env)
    (fs : FS) (w0 w0' : World) (hw : fs.WF) (ht : c.talFiles = []) (text : Str)
    (hraw : raw.rest.fetchMap = none)
    (hbase : raw.rest.sourceUriBase = some (FetchSource.fromStr text)) (hhttps : isHttps text = true)
    (hconf : postConfigure raw env0 w0 = (.ok c, w0')) :
    ∃ base, httpsParent c.notificationUri = some base ∧
    ∀ r ∈ (process depth c env (World.start fs)).2.reqs, ∃ rel, r.uri = text ++ rel ∧
      (base ++ rel = c.notificationUri ∨
        ∃ etag n h, Offers c env fs etag n ∧ (base ++ rel, h) ∈ n.refs) := by
  obtain ⟨_, _, h⟩ := postConfigure_source hraw hconf
  rcases h with ⟨h1, _⟩ | ⟨base, src, h1, h2, h3, h4⟩
  · rw [hbase] at h1; cases h1
  · refine ⟨base, h1, fun r hr => ?_⟩
    rw [hbase] at h2
    cases h2
    have hf : FetchSource.fromStr text = .uri text false := by
      unfold FetchSource.fromStr; rw [if_pos hhttps]
    rw [hf] at h3
    dsimp only at h3
    obtain ⟨uri, h5, h6⟩ := C34_run_requests depth c env fs hw ht r hr
    have h7 := resolve_locates.2 h5
    unfold Fetcher.resolve Config.fetcher FetchMap.source FetchSource.join at h7
    rw [h3] at h7
    dsimp only at h7
    match hp : stripPrefix base uri with
    | none => rw [hp] at h7; cases h7
    | some rel =>
      rw [hp] at h7
      dsimp only at h7
      have hu : r.uri = httpsJoin text rel := by injection h7 with h7; injection h7 with h8 h9; exact h8.symm
      rw [stripPrefix_some] at hp
      refine ⟨rel, ?_, ?_⟩
      · rw [hu]
        unfold httpsJoin
        rw [if_pos (Or.inl (h4 text false hf))]
      · rw [← hp]
        exact h6.imp id (fun h => h.2)

theorem forSource_insecure [Ext] {raw : RawConfig} {c : Config} {env env0 : Env} {fs : FS}
    {w0 w0' : World} (hraw : raw.rest.fetchMap = none)
    (hbase : raw.rest.sourceUriBase = none ∨
      ∃ text, raw.rest.sourceUriBase = some (FetchSource.fromStr text))
    (hconf : postConfigure raw env0 w0 = (.ok c, w0')) {r : Req} (hr : ForSource c env fs r) :
    r.insecure = raw.rest.insecure := by
  obtain ⟨_, hi, h⟩ := postConfigure_source hraw hconf
  obtain ⟨uri, h5, _⟩ := hr
  have h7 := resolve_locates.2 h5
  unfold Fetcher.resolve Config.fetcher FetchMap.source FetchSource.join at h7
  rcases h with ⟨h1, h2⟩ | ⟨base, src, h1, h2, h3, h4⟩
  · rw [h2] at h7
    dsimp only at h7
    rw [← hi]
    injection h7 with h7; injection h7 with h8 h9; exact h9.symm
  · rw [h3] at h7
    dsimp only at h7
    rcases hbase with hb | ⟨text, hb⟩
    · rw [hb] at h2; cases h2
    · rw [hb] at h2
      cases h2
      match hp : stripPrefix base uri with
      | none => rw [hp] at h7; cases h7
      | some rel =>
        rw [hp] at h7
        by_cases ht : isHttps text = true
        · have hf : FetchSource.fromStr text = .uri text false := by
            unfold FetchSource.fromStr; rw [if_pos ht]
          rw [hf] at h7
          injection h7 with h7; injection h7 with h8 h9
          rw [← h9]; rfl
        · have hf : FetchSource.fromStr text = .file (joinPath [] text) := by
            unfold FetchSource.fromStr; rw [if_neg ht]
          rw [hf] at h7
          injection h7 with h7; cases h7

/-- **C35.** For a configuration made from the command line, every request of the search
for updates and of the downloads skips the certificate checks exactly if `--insecure` was
given, whether or not there is pre-validation. -/
theorem C35_staging_requests [Ext] (raw : RawConfig) (c : Config)
    (env env0 : Env) (fs : FS) (w0 w0' : World) (s : RrdpState)
    (hraw : raw.rest.fetchMap = none)
    (hbase : raw.rest.sourceUriBase = none ∨
      ∃ text, raw.rest.sourceUriBase = some (FetchSource.fromStr text))
    (hconf : postConfigure raw env0 w0 = (.ok c, w0')) :
    ∀ r ∈ (s.updateStaged c env (World.start fs)).2.reqs, r.insecure = raw.rest.insecure :=
  fun r hr => forSource_insecure hraw hbase hconf (C34_staging_requests c env fs s r hr)

/-- **C35, whole runs.** Without pre-validation these are all requests of a run. -/
theorem C35_insecure_only_on_request [Ext] (depth : Nat) (raw : RawConfig) (c : Config)
    (env env0 : Env) (fs : FS) (w0 w0' : World) (hw : fs.WF) (ht : c.talFiles = [])
    (hraw : raw.rest.fetchMap = none)
    (hbase : raw.rest.sourceUriBase = none ∨
      ∃ text, raw.rest.sourceUriBase = some (FetchSource.fromStr text))
    (hconf : postConfigure raw env0 w0 = (.ok c, w0')) :
    ∀ r ∈ (process depth c env (World.start fs)).2.reqs, r.insecure = raw.rest.insecure :=
  fun r hr => forSource_insecure hraw hbase hconf (C34_run_requests depth c env fs hw ht r hr)

/-! ## The hypotheses can be met -/

section
open Demo
set_option maxRecDepth 100000

/-- An update with two downloads: three requests. -/
example : (process 5 conf (envAt 1 notif2) (World.start fs1)).2.reqs.map (·.uri) =
    [uri "d2", uri "s2", uri "n"] := by decide +kernel

example : ∀ r ∈ (process 5 conf (envAt 1 notif2) (World.start fs1)).2.reqs,
    ForSource conf (envAt 1 notif2) fs1 r :=
  C34_run_requests 5 conf (envAt 1 notif2) fs1 (runConds1 1).wf rfl

example : ∀ r ∈ (state1.updateStaged conf (envAt 1 notif2) (World.start fs1)).2.reqs,
    ForSource conf (envAt 1 notif2) fs1 r :=
  C34_staging_requests conf (envAt 1 notif2) fs1 state1

/-- A local directory as source. -/
def Demo.confDir : Config := { conf with fetchMap := some ⟨base, .file ["src".toList]⟩ }

example : (process 5 confDir (envAt 1 notif2) (World.start fs1)).2.reqs = [] :=
  C34_directory_no_requests 5 confDir (envAt 1 notif2) fs1 (runConds1 1).wf rfl base ["src".toList] rfl

/-- `--source-uri-base https://mirror/x/ --insecure`. -/
def Demo.rawMirror : RawConfig :=
  ⟨"/s".toList, "/r".toList, "/y".toList, { conf with
    sourceUriBase := some (FetchSource.fromStr "https://mirror/x/".toList), insecure := true }⟩

def Demo.confMirror : Config := { conf with
  sourceUriBase := some (.uri "https://mirror/x/".toList true), insecure := true,
  fetchMap := some ⟨base, .uri "https://mirror/x/".toList true⟩ }

theorem Demo.mirror_conf : postConfigure rawMirror (envAt 0 notif1) (World.start fs0) =
    (.ok confMirror, World.start fs0) := by
  rfl

def Demo.envMirror : Env := { envAt 0 notif1 with
  http := fun _ r => if r.uri = "https://mirror/x/n".toList then .ok .absent (some (Inst.toBytes notif1))
    else if r.uri = "https://mirror/x/s1".toList then .ok .absent (some (snap 1)) else .other 404 }

/-- The run asks the mirror twice. -/
example : (process 5 confMirror envMirror (World.start fs0)).2.reqs.map (fun r => (r.uri, r.insecure)) =
    [("https://mirror/x/s1".toList, true), ("https://mirror/x/n".toList, true)] ∧
    (process 5 confMirror envMirror (World.start fs0)).1 = .ok () := by decide +kernel

example : ∀ r ∈ (process 5 confMirror envMirror (World.start fs0)).2.reqs,
    r.insecure = true :=
  C35_insecure_only_on_request 5 rawMirror confMirror envMirror (envAt 0 notif1) fs0 _ _
    (runConds0 0).wf rfl rfl (Or.inr ⟨_, rfl⟩) mirror_conf

example : ∀ r ∈ ((freshState confMirror base name).updateStaged confMirror envMirror (World.start fs0)).2.reqs,
    r.insecure = true :=
  C35_staging_requests rawMirror confMirror envMirror (envAt 0 notif1) fs0 _ _ _
    rfl (Or.inr ⟨_, rfl⟩) mirror_conf

example : ∃ base, httpsParent confMirror.notificationUri = some base ∧
    ∀ r ∈ (process 5 confMirror envMirror (World.start fs0)).2.reqs, ∃ rel,
      r.uri = "https://mirror/x/".toList ++ rel ∧
      (base ++ rel = confMirror.notificationUri ∨
        ∃ etag n h, Offers confMirror envMirror fs0 etag n ∧ (base ++ rel, h) ∈ n.refs) :=
  C34_source_base 5 rawMirror confMirror envMirror (envAt 0 notif1) fs0 _ _
    (runConds0 0).wf rfl _ rfl rfl (by decide) mirror_conf

end

end KSync
