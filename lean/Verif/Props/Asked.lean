import Verif.Lemmas.RunAsked
import Verif.Props.Requests
import Verif.Props.Tags

/-! # The requests of runs with validation (property C55) -/

namespace KSync

/-- **C55.** In the course of any history of runs, failures and crashes, each request of a run,
however it ends, is one of the synchronisation; or it is for the certificate of a trust anchor named
in a configured TAL; or, unless the validation is offline, for the notification file of a repository,
other than the one being synchronised, named by a certificate below a trust anchor, or for a file
named in such a notification file. -/
theorem C55_all_requests [Ext] (depth : Nat) (c : Config) (env : Env) (fs : FS) (base name : Str)
    (hl : Layout c base name) (ho : c.rsyncEnabled = true → CleanObjects c.rsyncIncludeHost)
    (h : Updates c base name fs) (hg : GoodSource c base name env fs) :
    ∀ r ∈ (process depth c env (World.start fs)).2.reqs, ForSource c env fs r ∨
      ∃ g v, RunValidator c base env fs g v ∧
        (ForAnchor v r ∨ c.offlineValidation = false ∧ ForRepository c env g v r) := by
  have hi := History.invariant hl ho (oneFetcher_invariant hl) h
  intro r hr
  have h1 := (process_asked (depth := depth) (w := World.start fs) (hi.conds hl ho hg) (by
    rintro s (h | ⟨_, rfl⟩)
    · exact (hi.state s h).2
    · exact fun v hv => (by cases hv))).reqs_start r hr
  rcases h1 with (⟨etag, h1⟩ | ⟨etag, n, h1, x, h2, h3⟩) | h1
  · exact .inl ⟨_, (asks_locates h1).1, .inl rfl⟩
  · exact .inl ⟨_, (asks_locates h3).1, .inr ⟨(asks_locates h3).2, _, n, x.2, h1, h2⟩⟩
  · exact .inr h1

/-- **C55.** So with TALs, too, a request that is made without the checks of `--insecure` though that
was not given is one of the validation. -/
theorem C55_insecure_only_for_validation [Ext] (depth : Nat) (raw : RawConfig) (c : Config)
    (env env0 : Env) (fs : FS) (w0 w0' : World) (base name : Str)
    (hl : Layout c base name) (ho : c.rsyncEnabled = true → CleanObjects c.rsyncIncludeHost)
    (h : Updates c base name fs) (hg : GoodSource c base name env fs)
    (hraw : raw.rest.fetchMap = none)
    (hbase : raw.rest.sourceUriBase = none ∨
      ∃ text, raw.rest.sourceUriBase = some (FetchSource.fromStr text))
    (hconf : postConfigure raw env0 w0 = (.ok c, w0')) :
    ∀ r ∈ (process depth c env (World.start fs)).2.reqs, r.insecure = raw.rest.insecure ∨
      ∃ g v, RunValidator c base env fs g v ∧
        (ForAnchor v r ∨ c.offlineValidation = false ∧ ForRepository c env g v r) :=
  fun r hr => (C55_all_requests depth c env fs base name hl ho h hg r hr).imp
    (forSource_insecure hraw hbase hconf) id

theorem anchor_insecure [Ext] {g : FS} {files : List Str} {tals : List Tal} (h : TalsOf g files tals) :
    ∀ t ∈ tals, ∃ f ∈ files, ∃ b uris u, g.read (joinPath [] f) = some b ∧
      Ext.parseTal b = some (uris, t.key) ∧ FirstHttps uris u ∧ t.source = .uri u true := by
  induction h with
  | nil => exact fun t ht => by cases ht
  | cons f b t files ts h1 h2 _ ih =>
    intro t' ht'
    rcases List.mem_cons.1 ht' with rfl | ht'
    · obtain ⟨uris, u, k1, k2, _, k3⟩ := h2
      exact ⟨f, List.mem_cons_self .., b, uris, u, h1, k1, k2, k3⟩
    · obtain ⟨f', k1, k2⟩ := ih t' ht'
      exact ⟨f', List.mem_cons_of_mem _ k1, k2⟩

/-- **C55.** The requests of the validation are all made without these checks, whether or not
`--insecure` was given; the URI of a trust anchor is the first https URI in a configured TAL. -/
theorem C55_validation_insecure [Ext] (c : Config) (env : Env) (fs g : FS) (base : Str) (v : Validator)
    (h : RunValidator c base env fs g v) (r : Req) :
    (ForAnchor v r → r.insecure = true ∧ ∃ f ∈ c.talFiles, ∃ b uris key,
      g.read (joinPath [] f) = some b ∧ Ext.parseTal b = some (uris, key) ∧ FirstHttps uris r.uri) ∧
    (ForRepository c env g v r → r.insecure = true) := by
  refine ⟨?_, fun ⟨_, _, _, _, _, _, _, _, h, _⟩ => h⟩
  rintro ⟨t, h1, h2, _⟩
  obtain ⟨f, k1, b, uris, u, k2, k3, k4, k5⟩ := anchor_insecure h.tals t h1
  rw [h2] at k5
  injection k5 with k6 k7
  exact ⟨k7, f, k1, b, uris, _, k2, k3, k6 ▸ k4⟩

/-! ## The hypotheses can be met -/

section
open Demo
set_option maxRecDepth 100000

theorem Demo.updatesZ1 : Updates confZ base nameT fsZ1 :=
  .run (i := ()) (depth := 5) (env := twoServers 50 1 (otherAt "a" 5)) (f := fsT)
    (.start ⟨FS.wf_of_check (by decide +kernel), by decide, by decide, FS.noLinks_of_check (by decide)⟩)
    (goodSourceZ (by decide)) (List.mem_cons_self ..)

/-- A second run with all kinds of requests. -/
example : (process 5 confZ (twoServers 4000 2 (otherAt "b" 6)) (World.start fsZ1)).2.reqs =
    [⟨uri "zd", true, none⟩, ⟨uri "z", true, some "a".toList⟩, ⟨uri "ta", true, none⟩,
      ⟨uri "qs2", false, none⟩, ⟨uri "q", false, none⟩] := by decide +kernel

example : ∀ r ∈ (process 5 confZ (twoServers 4000 2 (otherAt "b" 6)) (World.start fsZ1)).2.reqs,
    ForSource confZ (twoServers 4000 2 (otherAt "b" 6)) fsZ1 r ∨
      ∃ g v, RunValidator confZ base (twoServers 4000 2 (otherAt "b" 6)) fsZ1 g v ∧
        (ForAnchor v r ∨ confZ.offlineValidation = false ∧
          ForRepository confZ (twoServers 4000 2 (otherAt "b" 6)) g v r) :=
  C55_all_requests 5 confZ _ fsZ1 base nameT layoutZ (fun _ => cleanObjects _) updatesZ1
    (goodSourceZ (by decide))

/-- The request for the trust anchor is one of the validation: so there is a validator as described. -/
example : ∃ g v, RunValidator confZ base (twoServers 4000 2 (otherAt "b" 6)) fsZ1 g v := by
  rcases C55_all_requests 5 confZ (twoServers 4000 2 (otherAt "b" 6)) fsZ1 base nameT layoutZ
    (fun _ => cleanObjects _) updatesZ1 (goodSourceZ (by decide)) ⟨uri "ta", true, none⟩
    (by decide +kernel) with h | ⟨g, v, h, _⟩
  · obtain ⟨u, h1, _⟩ := h
    have := resolve_locates.2 h1
    injection this with h2
    injection h2 with _ h3
    cases h3
  · exact ⟨g, v, h⟩

/-- The command line of this configuration, without `--insecure`. -/
def Demo.rawZ : RawConfig := ⟨"/s".toList, "/r".toList, "/y".toList, confZ⟩

theorem Demo.conf_rawZ : postConfigure rawZ treeEnv (World.start fsT) = (.ok confZ, World.start fsT) := by
  rfl

example : rawZ.rest.insecure = false ∧ ∀ r ∈
    (process 5 confZ (twoServers 4000 2 (otherAt "b" 6)) (World.start fsZ1)).2.reqs,
    r.insecure = rawZ.rest.insecure ∨
      ∃ g v, RunValidator confZ base (twoServers 4000 2 (otherAt "b" 6)) fsZ1 g v ∧
        (ForAnchor v r ∨ confZ.offlineValidation = false ∧
          ForRepository confZ (twoServers 4000 2 (otherAt "b" 6)) g v r) :=
  ⟨rfl, C55_insecure_only_for_validation 5 rawZ confZ _ _ fsZ1 _ _ base nameT layoutZ
    (fun _ => cleanObjects _) updatesZ1 (goodSourceZ (by decide)) rfl (.inl rfl) conf_rawZ⟩

end

end KSync
