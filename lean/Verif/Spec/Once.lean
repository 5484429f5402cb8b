import Verif.Spec.Validation

/-!
# How often something is asked for

Used to state C61.
-/

namespace KSync

/-- How many of the requests are for `a`. -/
def asked (a : Str) (l : List Req) : Nat := l.countP (fun r => decide (r.uri = a))

/-- Only the notification file of repository `u` may be looked for at address `a`: no trust
anchor's certificate is there, no other repository is looked for there, and no notification that
can be found has its snapshot or a delta there. -/
structure Address [Ext] (env : Env) (fs : FS) (v : Validator) (u a : Str) : Prop where
  anchors : ∀ t ∈ v.tals, ∀ m, t.source ≠ .uri a m
  repos : ∀ x, x ≠ u → ∀ m,
    ¬ (v.repos.fetcherOf x).Locates (v.repos.fetcherOf x).notificationUri (.uri a m)
  files : ∀ x n, (v.repos.fetcherOf x).Finds env fs n → ∀ y ∈ n.refs, ∀ m,
    ¬ (v.repos.fetcherOf x).Locates y.1 (.uri a m)

/-- There are data for repository `u` that need not be updated: they have been already, or less
than an hour ago. -/
def Validator.Fresh (v : Validator) (env : Env) (u : Str) : Prop :=
  ∃ d, mapGet v.repos.data u = some d ∧
    (d.fetched = true ∨ ∀ k, d.lastFetch > env.clock k - 3600)

end KSync
