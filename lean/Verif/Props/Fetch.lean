import Verif.Lemmas.Bridge
import Verif.Lemmas.Crash
import Verif.Examples.Setup

/-!
# Downloads (properties C05, C06)

The specification vocabulary (`Body`, `FileHas`, `No304`) is in `Verif/Spec/Basic.lean`.
-/

namespace KSync

/-- **C05.** A fetch with an expected hash that succeeds has returned, or stored in the
target file, bytes the source holds and whose SHA-256 is the expected one - or the server
said 'not modified' and nothing changed. -/
theorem C05_fetch_verifies [Ext] (src : FetchSource) (h : Hash) (etag : Option Str)
    (target : Option Path) (env : Env) (w w' : World) (r : FetchResponse)
    (hr : src.fetch (some h) etag target env w = (.ok r, w')) :
    match r with
    | .data b e => target = none ∧ Ext.sha b = h ∧ src.Body env w.cur etag b e ∧
        w'.cur = w.cur ∧ w'.past = w.past
    | .saved => ∃ t b e, target = some t ∧ w'.cur.file? t = some b ∧ Ext.sha b = h ∧
        src.Body env w.cur etag b e
    | .unmodified => w'.cur = w.cur ∧ w'.past = w.past ∧
        ∃ u m tick, src = .uri u m ∧ env.http tick ⟨u, m, etag⟩ = .notModified := by
  rcases fetch_ok hr with ⟨b, e, hb, hh, hc⟩ | ⟨rfl, hs, hm⟩
  · rcases hc with ⟨ht, rfl, hs⟩ | ⟨t, w1, ht, rfl, hs, hw⟩
    · exact ⟨ht, hh h rfl, hb, hs.1, hs.2⟩
    · exact ⟨t, b, e, ht, writeBuf_file hw, hh h rfl, hb⟩
  · exact ⟨hs.1, hs.2, hm⟩

/-- **C05, crash points.** However the fetch ends and wherever it is interrupted: no file
but the target is touched, and the target is the old one or a prefix of bytes that the
source holds and that have the expected hash. -/
theorem C05_fetch_crash [Ext] (src : FetchSource) (h : Hash) (etag : Option Str)
    (target : Option Path) (env : Env) (fs f : FS)
    (hf : f ∈ (src.fetch (some h) etag target env (World.start fs)).2.crashPoints) :
    (∀ p, target ≠ some p → f.leaf p = fs.leaf p) ∧
    ∀ t, target = some t → f.leaf t = fs.leaf t ∨
      ∃ b e k τ, src.Body env fs etag b e ∧ Ext.sha b = h ∧
        f.leaf t = some (.file (b.take k) τ) := by
  cases target with
  | none =>
    have hs := fetch_same (src := src) (hash := some h) (etag := etag) env (World.start fs)
    have : f = fs := by
      unfold World.crashPoints at hf
      rw [hs.1, hs.2] at hf
      simpa [World.start] using hf
    subst this
    exact ⟨fun _ _ => rfl, by simp⟩
  | some t =>
    have := crashPoints_start (I := fun f => Saving src (some h) etag env fs t fs f)
      (fetch_saving (src := src) (hash := some h) (etag := etag) (t := t) (env := env)
        (w := World.start fs)) ?_ ⟨Frame.refl _, Or.inl rfl⟩ f hf
    · refine ⟨fun p hp => this.1 p (fun he => hp (by rw [he])), ?_⟩
      rintro t' ⟨⟩
      refine this.2.imp id ?_
      rintro ⟨b, e, k, τ, h1, h2, h3⟩
      exact ⟨b, e, k, τ, h1, h2 h rfl, h3⟩
    · rintro g g' ⟨h1, h2⟩ ⟨h3, h4⟩
      refine ⟨h1.trans h3, ?_⟩
      rcases h4 with h4 | h4
      · rw [h4]; exact h2
      · exact Or.inr h4

/-- **C05, the converse.** If nothing the source holds has the expected hash, the fetch
stores nothing and returns no data. -/
theorem C05_mismatch_stores_nothing [Ext] (src : FetchSource) (h : Hash) (etag : Option Str)
    (target : Option Path) (env : Env) (fs : FS)
    (hbad : ∀ b e, src.Body env fs etag b e → Ext.sha b ≠ h) :
    (∀ f ∈ (src.fetch (some h) etag target env (World.start fs)).2.crashPoints,
      ∀ p, f.leaf p = fs.leaf p) ∧
    ∀ r, (src.fetch (some h) etag target env (World.start fs)).1 = .ok r → r = .unmodified := by
  constructor
  · intro f hf p
    obtain ⟨h1, h2⟩ := C05_fetch_crash src h etag target env fs f hf
    by_cases hp : target = some p
    · rcases h2 p hp with h3 | ⟨b, e, _, _, h3, h4, _⟩
      · exact h3
      · exact absurd h4 (hbad b e h3)
    · exact h1 p hp
  · intro r hr
    have := C05_fetch_verifies src h etag target env (World.start fs)
      (src.fetch (some h) etag target env (World.start fs)).2 r (by rw [← hr])
    cases r with
    | data b e => exact absurd this.2.1 (hbad b e this.2.2.1)
    | saved =>
      obtain ⟨t, b, e, _, _, h1, h2⟩ := this
      exact absurd h1 (hbad b e h2)
    | unmodified => rfl

section
open Demo
set_option maxRecDepth 100000

/-- The hypothesis of `C05_fetch_verifies` is met by a download to a file ... -/
example : ((FetchSource.uri (uri "d2") false).fetch (some [2]) none (some ["t".toList])
    (envAt 0 notif1) (World.start fs0)).1 = .ok .saved := by decide +kernel

/-- ... and a server that holds something else makes the fetch fail. -/
example : ((FetchSource.uri (uri "d3") false).fetch (some [2]) none (some ["t".toList])
    (envAt 0 notif1) (World.start fs0)).1 = .error .hashMismatch := by decide +kernel

example : ∀ b e, (FetchSource.uri (uri "d3") false).Body (envAt 0 notif1) fs0 none b e →
    Ext.sha b ≠ [2] := by
  rintro b e ⟨tick, hdr, h, _⟩ hb
  have : (envAt 0 notif1).http tick ⟨uri "d3", false, none⟩ = .ok .absent (some [3]) := by
    show (envAt 0 notif1).http 0 ⟨uri "d3", false, none⟩ = .ok .absent (some [3])
    decide +kernel
  rw [this] at h
  cases h
  revert hb
  decide +kernel

end

/-- **C06.** A successful retrieval used the file found on disk only if its SHA-256 is the
expected one; otherwise the target now is a file holding bytes of the source with that
SHA-256 (or the server answered an unconditional request with 'not modified'). -/
theorem C06_leftovers [Ext] (f : Fetcher) (uri : Str) (h : Hash) (target : Path) (env : Env)
    (w w' : World) (hr : f.retrieve uri h target env w = (.ok (), w')) :
    (∃ b, w.cur.read target = some b ∧ Ext.sha b = h ∧ w'.cur = w.cur ∧ w'.past = w.past ∧
      w'.reqs = w.reqs) ∨
    (∃ b src e, w'.cur.file? target = some b ∧ Ext.sha b = h ∧ f.Locates uri src ∧
      src.Body env w.cur none b e) ∨
    (∃ u m tick, f.Locates uri (.uri u m) ∧
      env.http tick ⟨u, m, none⟩ = .notModified) := by
  unfold Fetcher.retrieve at hr
  by_cases hn : endsInName uri = true
  case neg =>
    rw [if_neg hn] at hr
    obtain ⟨u, m, tick, h1, h2⟩ := retrieveNowhere_ok hr
    exact Or.inr (Or.inr ⟨u, m, tick, Fetcher.locates_iff.1 h1, h2⟩)
  rw [if_pos hn] at hr
  unfold Fetcher.retrieveTo at hr
  rw [attempt_bind] at hr
  have hw := readFile_world (env := env) (w := w) target
  have dl : ∀ w1, w1.cur = w.cur → (M.lift (f.resolve uri) >>= fun src =>
      src.fetch (some h) none (some target) >>= fun _ => pure ()) env w1 = (.ok (), w') →
      (∃ b src e, w'.cur.file? target = some b ∧ Ext.sha b = h ∧ f.Locates uri src ∧
        src.Body env w.cur none b e) ∨
      (∃ u m tick, f.Locates uri (.uri u m) ∧
        env.http tick ⟨u, m, none⟩ = .notModified) := by
    intro w1 hw1 hd
    obtain ⟨src, w2, h1, h2⟩ := M.bind_ok.1 hd
    rw [M.lift_ok_iff] at h1
    obtain ⟨h1, rfl⟩ := h1
    obtain ⟨resp, w3, h3, h4⟩ := M.bind_ok.1 h2
    cases h4
    have h5 := C05_fetch_verifies src h none (some target) env w1 w' resp h3
    cases resp with
    | data b e => simp at h5
    | saved =>
      obtain ⟨t, b, e, ht, h6, h7, h8⟩ := h5
      cases ht
      exact Or.inl ⟨b, src, e, h6, h7, Fetcher.locates_iff.1 h1, hw1 ▸ h8⟩
    | unmodified =>
      obtain ⟨_, _, u, m, tick, rfl, h6⟩ := h5
      exact Or.inr ⟨u, m, tick, Fetcher.locates_iff.1 h1, h6⟩
  match he : readFile target env w with
  | (.ok b, w1) =>
    rw [he] at hr hw
    dsimp only at hr hw
    by_cases hsha : Ext.sha b ≠ h
    · rw [if_pos hsha] at hr
      exact Or.inr (dl w1 (by rw [hw]) hr)
    · rw [if_neg hsha] at hr
      cases hr
      refine Or.inl ⟨b, (readFile_ok he).1, Decidable.not_not.1 hsha, ?_⟩
      rw [hw]; exact ⟨rfl, rfl, rfl⟩
  | (.error e, w1) =>
    rw [he] at hr hw
    dsimp only at hr hw
    exact Or.inr (dl w1 (by rw [hw]) hr)

/-- **C06, the guarantee for the file.** With servers that answer 'not modified' only to
conditional requests, after a successful retrieval the target reads as bytes with the
expected SHA-256, whatever was there before. -/
theorem C06_target_has_hash_partial [Ext] (f : Fetcher) (uri : Str) (h : Hash) (target : Path)
    (env : Env) (w w' : World) (h304 : No304 env)
    (hr : f.retrieve uri h target env w = (.ok (), w')) :
    ∃ b, w'.cur.read target = some b ∧ Ext.sha b = h := by
  rcases C06_leftovers f uri h target env w w' hr with
    ⟨b, h1, h2, h3, _⟩ | ⟨b, src, e, h1, h2, _⟩ | ⟨u, m, tick, _, h1⟩
  · exact ⟨b, h3 ▸ h1, h2⟩
  · exact ⟨b, FS.read_of_file h1, h2⟩
  · exact absurd h1 (h304 tick _ rfl)

section
open Demo
set_option maxRecDepth 100000

/-- A truncated leftover in place of `[2]` at the target. -/
def Demo.leftover : FS := ⟨[(["t".toList], .file [] 0)]⟩

/-- A truncated leftover is downloaded again. -/
example : (Fetcher.retrieve ⟨uri "n", none, false⟩ (uri "d2") [2] ["t".toList] (envAt 0 notif1)
      (World.start leftover)).1 = .ok () ∧
    (Fetcher.retrieve ⟨uri "n", none, false⟩ (uri "d2") [2] ["t".toList] (envAt 0 notif1)
      (World.start leftover)).2.cur.read ["t".toList] = some [2] := by decide +kernel

example : No304 (envAt 0 notif1) := by
  intro t r _; simp only [envAt]; split
  · simp
  · split <;> simp

/-- Without the assumption on 'not modified' the guarantee fails: a server answering 304 to
an unconditional request makes krill-sync accept the leftover with the wrong hash. -/
theorem C06_refuted_for_304 : ∃ (f : Fetcher) (u : Str) (h : Hash) (target : Path) (env : Env)
    (w w' : World) (b : Bytes), f.retrieve u h target env w = (.ok (), w') ∧
    w'.cur.read target = some b ∧ Ext.sha b ≠ h := by
  refine ⟨⟨uri "n", none, false⟩, uri "d2", [2], ["t".toList],
    { envAt 0 notif1 with http := fun _ _ => .notModified }, World.start leftover,
    (Fetcher.retrieve ⟨uri "n", none, false⟩ (uri "d2") [2] ["t".toList]
      { envAt 0 notif1 with http := fun _ _ => .notModified } (World.start leftover)).2, [],
    ?_, ?_, ?_⟩
  · exact Prod.ext (by decide +kernel) rfl
  · decide +kernel
  · decide +kernel

end

end KSync
