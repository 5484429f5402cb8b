import Verif.Lemmas.Order
import Verif.Props.Validation

/-!
# C60: the order in which objects are looked at

The files of a manifest are taken from a hash map, in an order that is different in each process.
-/

namespace KSync

/-- **C60, as far as it holds.** Two validations by the same validator, over the same files, at the
same time and with the same answers to all requests, look at the objects in different orders.  If
the check of repositories with kept data cannot fail, both fail with the same error, or both end with
the same results but for their order. -/
theorem C60_order_partial [Ext] {v : Validator} {depth : Nat} {offline : Bool} {t : Time}
    {serve : Req → HttpResp} {env env' : Env} {w w' : World} (he : Steadily t serve env)
    (he' : Steadily t serve env') (hw : w'.cur = w.cur)
    (hk : ∀ u d, mapGet v.repos.data u = some d → d.fetched = true ∨ offline = true ∨
      d.lastFetch > t - 3600 ∨ (v.repos.fetcherOf u).Reliable env w.cur) :
    (∀ e, (v.validate depth offline env w).1 = .error e ↔
      (v.validate depth offline env' w').1 = .error e) ∧
    ∀ rep rep' x x', (v.validate depth offline env w).1 = .ok (rep, x) →
      (v.validate depth offline env' w').1 = .ok (rep', x') →
      Reordered rep.certs rep'.certs ∧ ∀ u, (mapGet rep.repos u = none ↔ mapGet rep'.repos u = none) ∧
        ∀ r r', mapGet rep.repos u = some r → mapGet rep'.repos u = some r' → r.SameNumbers r' := by
  have h := validate_order (depth := depth) he he' rfl hw hk
  refine ⟨fun e => ?_, fun rep rep' x x' h1 h2 => ?_⟩
  · match h1 : (v.validate depth offline env w).1, h2 : (v.validate depth offline env' w').1 with
    | .error e1, .error e2 =>
      rw [h1, h2] at h
      have : e1 = e2 := h
      rw [this]
    | .ok _, .ok _ => simp
    | .ok _, .error _ => rw [h1, h2] at h; exact h.elim
    | .error _, .ok _ => rw [h1, h2] at h; exact h.elim
  · rw [h1, h2] at h
    exact ⟨h, Reordered.numbers h (C37_counts (Prod.ext h1 rfl)) (C37_counts (Prod.ext h2 rfl))⟩

/-- **C60, the verdict.** Under the same hypotheses the verdict does not depend on the order. -/
theorem C60_verdict_partial [Ext] {v : Validator} {depth : Nat} {offline : Bool} {t : Time}
    {serve : Req → HttpResp} {env env' : Env} {w w' : World} (he : Steadily t serve env)
    (he' : Steadily t serve env') (hw : w'.cur = w.cur)
    (hk : ∀ u d, mapGet v.repos.data u = some d → d.fetched = true ∨ offline = true ∨
      d.lastFetch > t - 3600 ∨ (v.repos.fetcherOf u).Reliable env w.cur)
    {rep rep' : Report} {x x' : Validator} (h : (v.validate depth offline env w).1 = .ok (rep, x))
    (h' : (v.validate depth offline env' w').1 = .ok (rep', x')) (c : Config) :
    verdict c rep = verdict c rep' :=
  Reordered.verdict ((C60_order_partial he he' hw hk).2 rep rep' x x' h h').1
    (C37_counts (Prod.ext h rfl)) (C37_counts (Prod.ext h' rfl)) c

section
open Demo
set_option maxRecDepth 100000

/-- Another order. -/
def Demo.treeEnv' : Env := { treeEnv with 
  prio := fun _ p => if p = [(rs "k/x.roa").toStr] then 0 else 1 }

def Demo.treeServe : Req → HttpResp := treeEnv.http 0

/-- The hypotheses can be met: two orders for the tree of `Verif/Examples/Tree.lean`, with a
validator that has no data yet. -/
example : Steadily 50 treeServe treeEnv ∧ Steadily 50 treeServe treeEnv' ∧
    ∀ u d, mapGet validator.repos.data u = some d → d.fetched = true ∨ false = true ∨
      d.lastFetch > 50 - 3600 ∨ (validator.repos.fetcherOf u).Reliable treeEnv fs0 :=
  ⟨⟨fun _ => rfl, fun _ => rfl, fun _ _ => rfl⟩, ⟨fun _ => rfl, fun _ => rfl, fun _ _ => rfl⟩,
    fun u d h => by cases h⟩

/-- The order does make a difference to the lists in the report. -/
example : (match validator.validate 5 false treeEnv (World.start fs0),
      validator.validate 5 false treeEnv' (World.start fs0) with
    | (.ok a, _), (.ok b, _) => decide (a.1.certs ≠ b.1.certs)
    | _, _ => false) = true := by decide +kernel

/-! A trust anchor in repository `q` with two CAs `a` and `b` in repository `p`; `a` has a CA `c` in
`q`, one of whose files is missing.  The data of `p` are those of an earlier validation. -/

def Demo.aCert : ResCert := ⟨some (rs "a/a.mft"), some (rs "a/"), some (uri "p"), [8], []⟩
def Demo.bCert : ResCert := ⟨some (rs "b/b.mft"), some (rs "b/"), some (uri "p"), [10], []⟩
def Demo.cCert : ResCert := ⟨some (rs "c/c.mft"), some (rs "c/"), some (uri "q"), [11], []⟩
def Demo.aCrl : Bytes := Inst.toBytes (⟨9000, [], [8]⟩ : CrlObj)
def Demo.bCrl : Bytes := Inst.toBytes (⟨9000, [], [10]⟩ : CrlObj)
def Demo.cCrl : Bytes := Inst.toBytes (⟨9000, [], [11]⟩ : CrlObj)
def Demo.aCer : Bytes := Inst.toBytes (⟨true, 1, Inst.toBytes (([7], aCert) : Bytes × ResCert)⟩ : CertObj)
def Demo.bCer : Bytes := Inst.toBytes (⟨true, 2, Inst.toBytes (([7], bCert) : Bytes × ResCert)⟩ : CertObj)
def Demo.cCer : Bytes := Inst.toBytes (⟨true, 1, Inst.toBytes (([8], cCert) : Bytes × ResCert)⟩ : CertObj)
def Demo.tMft : Bytes := Inst.toBytes (⟨some (rs "t/t.crl"), 5, [("t.crl".toList, taCrl),
  ("a.cer".toList, aCer), ("b.cer".toList, bCer)]⟩ : MftContent)
def Demo.aMft : Bytes := Inst.toBytes (⟨some (rs "a/a.crl"), 5, [("a.crl".toList, aCrl),
  ("c.cer".toList, cCer)]⟩ : MftContent)
def Demo.bMft : Bytes := Inst.toBytes (⟨some (rs "b/b.crl"), 5, [("b.crl".toList, bCrl)]⟩ : MftContent)
def Demo.cMft : Bytes := Inst.toBytes (⟨some (rs "c/c.crl"), 5, [("c.crl".toList, cCrl),
  ("lost.roa".toList, [])]⟩ : MftContent)
def Demo.qSnap : Bytes := Inst.toBytes ([(rs "t/t.mft", tMft), (rs "t/t.crl", taCrl),
  (rs "t/a.cer", aCer), (rs "t/b.cer", bCer), (rs "c/c.mft", cMft), (rs "c/c.crl", cCrl)] :
    List (RsyncUri × Bytes))
def Demo.pKept : RepoData := ⟨none, 0, false, 5, 1,
  [((rs "a/a.mft").toStr, aMft), ((rs "a/a.crl").toStr, aCrl), ((rs "a/c.cer").toStr, cCer),
   ((rs "b/b.mft").toStr, bMft), ((rs "b/b.crl").toStr, bCrl)]⟩
def Demo.keptV : Validator := { validator with repos := { validator.repos with
  data := [(uri "p", pKept)] } }
/-- `p` does not answer. -/
def Demo.downServe (r : Req) : HttpResp :=
  if r.uri = uri "q" then
    .ok .absent (some (Inst.toBytes (⟨5, 1, uri "qs", qSnap, []⟩ : Notif)))
  else if r.uri = uri "qs" then .ok .absent (some qSnap)
  else if r.uri = uri "ta" then .ok .absent (some (Inst.toBytes taCert))
  else .other 503
/-- `first` is looked at before the other files. -/
def Demo.downEnv (first : String) : Env := { treeEnv with
  clock := fun _ => 5000
  http := fun _ => downServe
  prio := fun _ p => if p = [(rs first).toStr] then 0 else 1 }
def Demo.downRep (first : String) : Report :=
  match keptV.validate 5 false (downEnv first) (World.start fs0) with
  | (.ok x, _) => x.1
  | _ => Report.zero
def Demo.downV (first : String) : Validator :=
  match keptV.validate 5 false (downEnv first) (World.start fs0) with
  | (.ok x, _) => x.2
  | _ => keptV

/-- **C60, refuted.** In general the order matters.  When a repository with kept data does not
answer, the CA that is looked at first is reported as having no data, but the next CA in the same
repository is validated with the kept data, since the repository is marked as fetched.  If `a` is
first, nothing below it is looked at and the publication is accepted; if `b` is first, the damage in
the CA below `a` is found and the publication is refused. -/
theorem C60_refuted_by_kept_data : ∃ (v : Validator) (t : Time) (serve : Req → HttpResp)
    (env env' : Env) (fs : FS) (rep rep' : Report) (x x' : Validator) (c : Config),
    Steadily t serve env ∧ Steadily t serve env' ∧
    (v.validate 5 false env (World.start fs)).1 = .ok (rep, x) ∧
    (v.validate 5 false env' (World.start fs)).1 = .ok (rep', x') ∧
    verdict c rep = .ok () ∧ verdict c rep' = .error .invalid :=
  ⟨keptV, 5000, downServe, downEnv "t/a.cer", downEnv "t/b.cer", fs0, downRep "t/a.cer",
    downRep "t/b.cer", downV "t/a.cer", downV "t/b.cer", confT,
    ⟨fun _ => rfl, fun _ => rfl, fun _ _ => rfl⟩, ⟨fun _ => rfl, fun _ => rfl, fun _ _ => rfl⟩,
    by decide +kernel, by decide +kernel, by decide +kernel, by decide +kernel⟩

end

end KSync
