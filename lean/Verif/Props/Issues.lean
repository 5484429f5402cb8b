import Verif.Props.Validation

/-!
# What the report says (property C58)

The issues and the payload in the report of a validation.
-/

namespace KSync

/-- **C58.** Each issue in the report names its cause: the CA's certificate names no RRDP
repository; there are no data for the repository; the manifest or the CRL of the CA is not in order,
in just the way the message says; or the object at the URI of the issue, listed on the manifest, is
missing, has another hash, cannot be decoded, is not valid, is revoked or is of an unknown kind, as
the message says. -/
theorem C58_issues_name_cause [Ext] {v v' : Validator} {depth : Nat} {offline : Bool} {env : Env}
    {w w' : World} {rep : Report} (h : v.validate depth offline env w = (.ok (rep, v'), w'))
    {ca : ValidatedCa} (hca : ca ∈ rep.certs) : ∃ issuer,
      Trusted env w.cur (env.clock w.tick) v issuer ∧ ∀ i ∈ ca.issues,
        i.Caused env (Usable env w.cur v.repos) (Unavailable env w.cur v.repos offline) issuer
          ca.info (env.clock w.tick) := by
  obtain ⟨issuer, kids, h1, h2, _⟩ := (validate_chain h).1 ca hca
  exact ⟨issuer, h1, fun i hi => h2.issues hi⟩

section
open Demo
set_option maxRecDepth 100000

/-- Issues in the example. -/
example : treeRep.certs.map (fun ca => ca.issues) =
    [[⟨some (rs "t/o.cer").toStr, .certRevoked⟩],
      [⟨some (rs "k/g.roa").toStr, .notFound⟩, ⟨some (rs "k/x.roa").toStr, .roaInvalid⟩]] := by
  decide +kernel

end

/-- **C58, payload.** Each ROA and ASPA in the report states the payload of the object at its URI,
in the data of the repository of its CA: it is listed on a valid manifest with a matching hash, it
is valid for the CA's certificate, and its EE certificate is not revoked. -/
theorem C58_payload [Ext] {v v' : Validator} {depth : Nat} {offline : Bool} {env : Env}
    {w w' : World} {rep : Report} (h : v.validate depth offline env w = (.ok (rep, v'), w'))
    {ca : ValidatedCa} (hca : ca ∈ rep.certs) : ∃ issuer,
      Trusted env w.cur (env.clock w.tick) v issuer ∧
      (∀ r ∈ ca.roas, ∃ u objs content crlUri crl hash obj x t ee p, ca.Names u ∧
        Usable env w.cur v.repos u objs ∧
        InOrder objs issuer ca.info (env.clock w.tick) content crlUri crl ∧
        Listed ca.info content r.uri hash ∧ mapGet objs r.uri = some obj ∧
        Ext.mftHashOk hash obj = true ∧ Ext.decodeRoa obj = some x ∧
        Ext.processRoa x issuer (env.clock t) = some (ee, p) ∧ ee ∉ crl.revoked ∧
        r.States r.uri p) ∧
      ∀ a ∈ ca.aspas, ∃ u objs content crlUri crl hash obj x t ee p, ca.Names u ∧
        Usable env w.cur v.repos u objs ∧
        InOrder objs issuer ca.info (env.clock w.tick) content crlUri crl ∧
        Listed ca.info content a.uri hash ∧ mapGet objs a.uri = some obj ∧
        Ext.mftHashOk hash obj = true ∧ Ext.decodeAspa obj = some x ∧
        Ext.processAspa x issuer (env.clock t) = some (ee, p) ∧ ee ∉ crl.revoked ∧
        a.States a.uri p := by
  obtain ⟨issuer, kids, h1, h2, _⟩ := (validate_chain h).1 ca hca
  exact ⟨issuer, h1, fun r hr => h2.roas hr, fun r hr => h2.aspas hr⟩

section
open Demo
set_option maxRecDepth 100000

/-- The ROA in the example. -/
example : treeRep.certs.map (fun ca => ca.roas.map (fun r => (r.uri, r.vrps))) =
    [[], [((rs "k/r.roa").toStr, [⟨65000, false, 10, 8, none⟩])]] := by
  decide +kernel

end

end KSync
