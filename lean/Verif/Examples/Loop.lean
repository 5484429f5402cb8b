import Verif.Examples.Tree
import Verif.Lemmas.Bounds

/-!
# A CA that is its own child

The trust anchor lists on its manifest a certificate for itself.
-/

namespace KSync.Demo

open KSync.Inst

def selfCer : Bytes := toBytes (⟨true, 1, toBytes (([7], taCert) : Bytes × ResCert)⟩ : CertObj)
def loopContent : MftContent :=
  ⟨some (rs "t/t.crl"), 2, [("t.crl".toList, taCrl), ("l.cer".toList, selfCer)]⟩
def loopObjects : List (Str × Bytes) :=
  [((rs "t/t.mft").toStr, toBytes loopContent), ((rs "t/t.crl").toStr, taCrl),
   ((rs "t/l.cer").toStr, selfCer)]
def loopData : RepoData := ⟨none, 0, true, 5, 1, loopObjects⟩
def loopVisited : Visited := ⟨[], [(uri "q", loopData)]⟩
def loopValidator : Validator := ⟨[tal], loopVisited⟩
def taInfo : CaInfo := ⟨rs "t/t.mft", rs "t/", some (uri "q"), []⟩

theorem loop_checkCa (offline : Bool) (w : World) :
    ∃ ca w', checkCa loopVisited taCert taInfo offline 50 treeEnv w =
      (.ok (ca, [(taCert, taInfo)], loopVisited), w') :=
  checkCa_only_child (u := uri "q") (uri := (rs "t/l.cer").toStr) (d := loopData)
    (crl := ⟨9000, [9], [7]⟩) (h := selfCer) (obj := selfCer) (cert := ⟨true, 1, toBytes (([7], taCert) : Bytes × ResCert)⟩)
    rfl (by decide +kernel) rfl (by decide +kernel) (by decide +kernel) (by decide +kernel)
    (by decide +kernel) (by decide +kernel) rfl (by decide +kernel) (by decide +kernel)
    (caInfo_of.1 (by decide +kernel)) w

end KSync.Demo
