import Verif.Examples.Setup

/-!
# A concrete tree of CAs

A trust anchor and one CA below it, in one repository.
-/

namespace KSync.Demo

open KSync.Inst

def rs (p : String) : RsyncUri := ⟨"h".toList, "m".toList, p.toList⟩

def taCert : ResCert := ⟨some (rs "t/t.mft"), some (rs "t/"), some (uri "q"), [7], []⟩
def kidCert : ResCert := ⟨some (rs "k/k.mft"), some (rs "k/"), some (uri "q"), [8], []⟩

def taCrl : Bytes := toBytes (⟨9000, [9], [7]⟩ : CrlObj)
def kidCrl : Bytes := toBytes (⟨9000, [4], [8]⟩ : CrlObj)
def kidCer : Bytes := toBytes (⟨true, 1, toBytes (([7], kidCert) : Bytes × ResCert)⟩ : CertObj)
/-- a revoked certificate -/
def oldCer : Bytes := toBytes (⟨true, 9, [1]⟩ : CertObj)
def roa1 : Bytes := toBytes ((3, ⟨65000, [(10, 8, none)], []⟩) : Nat × RoaPayload)
/-- a revoked ROA -/
def roa2 : Bytes := toBytes ((4, ⟨65000, [], []⟩) : Nat × RoaPayload)

def taContent : MftContent :=
  ⟨some (rs "t/t.crl"), 2, [("t.crl".toList, taCrl), ("k.cer".toList, kidCer), ("o.cer".toList, oldCer)]⟩
def kidContent : MftContent :=
  ⟨some (rs "k/k.crl"), 3, [("k.crl".toList, kidCrl), ("r.roa".toList, roa1), ("x.roa".toList, roa2),
    ("g.roa".toList, [])]⟩
def taMft : Bytes := toBytes taContent
def kidMft : Bytes := toBytes kidContent

def treeObjects : List (RsyncUri × Bytes) :=
  [(rs "t/t.mft", taMft), (rs "t/t.crl", taCrl), (rs "t/k.cer", kidCer), (rs "t/o.cer", oldCer),
   (rs "k/k.mft", kidMft), (rs "k/k.crl", kidCrl), (rs "k/r.roa", roa1), (rs "k/x.roa", roa2)]

def treeSnap : Bytes := toBytes treeObjects
def treeNotif : Notif := ⟨5, 1, uri "qs", treeSnap, []⟩

/-- A failure-free environment with the tree's repository and trust anchor. -/
def treeEnv : Env where
  fault := fun _ => false
  torn := fun _ => 0
  clock := fun _ => 50
  prio := fun _ p => p.length
  http := fun _ r =>
    if r.uri = uri "q" then .ok .absent (some (toBytes treeNotif))
    else if r.uri = uri "qs" then .ok .absent (some treeSnap)
    else if r.uri = uri "ta" then .ok .absent (some (toBytes taCert))
    else .other 404
  script := fun _ _ => some true

def tal : Tal := ⟨"t".toList, .uri (uri "ta") true, [7]⟩
def validator : Validator := .new [tal] []

/-- The result of validating the tree. -/
def treeRun : Except Err (Report × Validator) × World :=
  validator.validate 5 false treeEnv (World.start fs0)

/-! A tree without issues, as the source of a run. -/

def goodContent : MftContent :=
  ⟨some (rs "t/t.crl"), 2, [("t.crl".toList, taCrl), ("r.roa".toList, roa1)]⟩
def goodObjects : List (RsyncUri × Bytes) :=
  [(rs "t/t.mft", toBytes goodContent), (rs "t/t.crl", taCrl), (rs "t/r.roa", roa1)]
def goodSnap : Bytes := toBytes goodObjects
def goodNotif : Notif := ⟨5, 1, uri "qs", goodSnap, []⟩

def goodEnv : Env := { treeEnv with
  http := fun _ r =>
    if r.uri = uri "q" then .ok .absent (some (toBytes goodNotif))
    else if r.uri = uri "qs" then .ok .absent (some goodSnap)
    else if r.uri = uri "ta" then .ok .absent (some (toBytes taCert))
    else .other 404 }

/-- A TAL with an rsync and an https URI. -/
def talBytes : Bytes := toBytes (([(false, uri "x"), (true, uri "ta")], [7]) : List (Bool × Str) × Bytes)
/-- A disk with the TAL only. -/
def fsT : FS := ⟨[(["tal".toList], .file talBytes 0)]⟩
/-- Validation is on and issues make the run fail. -/
def confT : Config :=
  { conf with notificationUri := uri "q", talFiles := ["tal".toList], talRejectInvalid := true }

end KSync.Demo
