import Verif.Spec.Validation

/-!
# Vocabulary for the order of validation

The files of a manifest are kept in a hash map, so the order in which they (and the CAs below) are
looked at is different in each process.
-/

namespace KSync

/-- Nothing fails locally, the clock stands at `t` and each request is answered as `serve` says,
however often and whenever it is made. -/
structure Steadily (t : Time) (serve : Req → HttpResp) (env : Env) : Prop where
  noFault : ∀ n, env.fault n = false
  clock : ∀ n, env.clock n = t
  http : ∀ n r, env.http n r = serve r

/-- The same result for a CA, but for the order of the objects in it. -/
structure SameCa (a b : ValidatedCa) : Prop where
  info : a.info = b.info
  children : a.children.Perm b.children
  routers : a.routers.Perm b.routers
  roas : a.roas.Perm b.roas
  aspas : a.aspas.Perm b.aspas
  ignored : a.ignored.Perm b.ignored
  issues : a.issues.Perm b.issues

/-- The same results, but for the order of the CAs and of the objects of each. -/
inductive Reordered : List ValidatedCa → List ValidatedCa → Prop
  | nil : Reordered [] []
  | cons {a b : ValidatedCa} {l l' : List ValidatedCa} : SameCa a b → Reordered l l' →
      Reordered (a :: l) (b :: l')
  | swap (a b : ValidatedCa) (l : List ValidatedCa) : Reordered (a :: b :: l) (b :: a :: l)
  | trans {l l' l'' : List ValidatedCa} : Reordered l l' → Reordered l' l'' → Reordered l l''

end KSync
