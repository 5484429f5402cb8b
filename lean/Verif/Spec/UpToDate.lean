import Verif.Spec.Validation
import Verif.Spec.History

/-! # Vocabulary for the version of the validator's data -/

namespace KSync

variable [Ext]

/-- The data are those there were, but perhaps for the mark that they were looked at. -/
def RepoData.KeptFrom (d d0 : RepoData) : Prop := d = d0 ∨ d = { d0 with fetched := true }

/-- The data were brought to the version of notification `n` at time `t`. -/
def RepoData.BroughtTo (d : RepoData) (n : Notif) (t : Time) : Prop :=
  d.session = n.session ∧ d.serial = n.serial ∧ d.lastFetch = t

/-- Every notification that the repository at `u` can be found to have lists deltas up to its serial,
and is not of an earlier version than the data kept for the repository, if of the same session. -/
def WellBehaved (env : Env) (fs : FS) (v : Visited) (u : Str) : Prop :=
  ∀ n, (v.fetcherOf u).Finds env fs n → ReachesSerial n ∧ Serials64 n ∧
    ∀ d, mapGet v.data u = some d → d.session = n.session → d.serial ≤ n.serial

/-! ## Over many runs -/

/-- What is known about the servers of the repositories during a run.  They list deltas up to their
serial; within a session they do not go back (`p`, `p'` being the highest serials so far, before and after
the run); what they offer is as in `content`; and `said u s k t` holds if the server at `u` announces
version `k` of session `s` in a run at time `t`. -/
structure Servers (content : Str → Uuid → Nat → Objects) (said : Str → Uuid → Nat → Time → Prop)
    (p p' : Str → Uuid → Nat) (env : Env) : Prop where
  later : ∀ u s, p u s ≤ p' u s
  reaches : ∀ k r hdr b n, env.http k r = .ok hdr (some b) → Ext.parseNotif b = some n →
    ReachesSerial n ∧ Serials64 n
  forward : ∀ k r hdr b n, env.http k r = .ok hdr (some b) → Ext.parseNotif b = some n →
    p r.uri n.session ≤ n.serial ∧ n.serial ≤ p' r.uri n.session
  truthful : ∀ k r hdr b n, env.http k r = .ok hdr (some b) → Ext.parseNotif b = some n →
    Truthful (content r.uri) n
  said : ∀ k r hdr b n, env.http k r = .ok hdr (some b) → Ext.parseNotif b = some n →
    ∀ j, said r.uri n.session n.serial (env.clock j)

/-- Histories with such servers. -/
def ServedUpdates (content : Str → Uuid → Nat → Objects) (said : Str → Uuid → Nat → Time → Prop)
    (c : Config) (base name : Str) : (Str → Uuid → Nat) → FS → Prop :=
  History c (fun _ => Pristine c name)
    (fun p p' _ env fs => GoodSource c base name env fs ∧ Servers content said p p' env)

end KSync
