import Verif.Model.Types

/-!
# States that can be stored

The model's states have names, serials and times that are unbounded; those of the program are not.
-/

namespace KSync

/-- A path made of names. -/
def PathOfNames (p : Path) : Prop := ∀ n ∈ p, n ≠ [] ∧ '/' ∉ n ∧ n ≠ ['.']

/-- A 64 bit serial number. -/
def SerialFits (n : Nat) : Prop := n < 18446744073709551616

/-- A 64 bit number of seconds. -/
def TimeFits (t : Time) : Prop := (-9223372036854775808 : Int) ≤ t ∧ (t : Int) < 9223372036854775808

/-- What a `HashMap` is: no key twice. -/
def KeysDistinct {α : Type} (m : List (Str × α)) : Prop := (m.map (·.1)).Nodup

def FetchSource.Storable : FetchSource → Prop
  | .file p => PathOfNames p
  | .uri _ _ => True

def Fetcher.Storable (f : Fetcher) : Prop := ∀ m, f.fetchMap = some m → m.baseFetch.Storable

def RepoData.Storable (d : RepoData) : Prop :=
  TimeFits d.lastFetch ∧ SerialFits d.serial ∧ KeysDistinct d.objects

structure Validator.Storable (v : Validator) : Prop where
  tals : ∀ t ∈ v.tals, t.source.Storable
  fetchers : ∀ e ∈ v.repos.fetchers, e.2.Storable
  fetcherKeys : KeysDistinct v.repos.fetchers
  data : ∀ e ∈ v.repos.data, e.2.Storable
  dataKeys : KeysDistinct v.repos.data

/-- A state of the program. -/
structure RrdpState.Storable (s : RrdpState) : Prop where
  rrdpDir : PathOfNames s.mappings.rrdpDir
  snapshot : ∀ x, s.snapshot = some x → SerialFits x.serial ∧ TimeFits x.since
  deltas : ∀ d ∈ s.deltas, SerialFits d.serial ∧ TimeFits d.since
  deprecated : ∀ d ∈ s.deprecated, PathOfNames d.path ∧ TimeFits d.since
  validator : ∀ v, s.validator = some v → v.Storable

structure RsyncDirState.Storable (s : RsyncDirState) : Prop where
  current : ∀ r, s.current = some r → SerialFits r.serial
  old : ∀ d ∈ s.old, SerialFits d.revision.serial ∧ TimeFits d.since

end KSync
