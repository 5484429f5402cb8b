import Verif.Props.Atomic
import Verif.Props.Update
import Verif.Examples.Life

/-!
# A delta that cannot be had (property C20)

`MissingDelta` is defined in `Verif/Spec/Missing.lean`.
-/

set_option linter.unusedVariables false

namespace KSync

/-- **C20, no delta.** The same if the announced version is new and a delta of it that is not published
yet cannot be had. -/
theorem C20_unavailable_delta [Ext] (depth : Nat) (c : Config) (env : Env) (fs : FS)
    (base name : Str) (hc : RunConds c base name env fs) (ho : OrderedState c base fs)
    (h0 : No304 env) (hlinks : NoLinks fs c.stagingDir)
    (hun : ∀ s n n1, InUse c base name fs s → Offers c env fs s.source.etag n → Limited c n n1 →
      NewVersion s n1 → MissingDelta c env fs base s n1) :
    (∀ f ∈ (process depth c env (World.start fs)).2.crashPoints, ∀ q,
      ¬ c.stagingDir <+: q → f.leaf q = fs.leaf q) ∧
    ((process depth c env (World.start fs)).1 = .ok () →
      (process depth c env (World.start fs)).2.crashPoints = [fs]) := by
  rcases run_withheld (depth := depth) hc with h | ⟨s, st, w1, n, h1, h2⟩
  · exact h
  · obtain ⟨s0, n0, n1, a1, a2, a3, a4, _, a5⟩ := prepare_obtained h1.prep hc h0 hlinks
    exact absurd (hun s0 n0 n1 a1 a2 a3 a4) (a5 ho)

/-! ## The hypotheses can be met -/

section
open Demo
set_option maxRecDepth 100000

/-- A source that announces version 2 but serves another delta. -/
def Demo.envDelta : Env := { envAt 1 notif2 with
  http := fun k r => if r.uri = uri "d2" then .ok .absent (some [7]) else (envAt 1 notif2).http k r }

theorem Demo.offersDelta {n : Notif} {fs : FS} {etag : Option Str}
    (h : Offers conf envDelta fs etag n) : n = notif2 :=
  offers_only rfl (fun k r hr => by
    show (if r.uri = uri "d2" then _ else (envAt 1 notif2).http k r) = _
    rw [if_neg (by rw [show r.uri = uri "n" from hr]; decide)]
    show (if r.uri = uri "n" then _ else _) = _
    rw [if_pos (show r.uri = uri "n" from hr)]) h

theorem Demo.missing2 : MissingDelta conf envDelta fs1 base state1 notif2 := by
  refine ⟨⟨2, uri "d2", [2]⟩, List.mem_singleton.2 rfl, Or.inr (by decide),
    ⟨fun src h => ?_, fun rel h hh hf => ?_⟩, fun r hr rel rel' h h' he => ?_⟩
  · cases h with
    | direct h => exact ⟨_, _, rfl, fun tick hdr b hb => by
        have : HttpResp.ok .absent (some ([7] : Bytes)) = .ok hdr (some b) := hb
        cases this
        decide⟩
    | mappedUri b u m r h => cases h
    | mappedDir b p r h => cases h
  · rw [rel_eq h] at hf
    obtain ⟨b, hb, _⟩ := hf
    have : fs1.file? (conf.stagingDir ++ comps "d2".toList) = none := by decide +kernel
    rw [this] at hb; cases hb
  · have h2 : notif2.refs = [(uri "s2", snap 2), (uri "d2", [2])] := by decide
    rw [h2] at hr
    simp only [List.mem_cons, List.not_mem_nil, or_false] at hr
    rcases hr with rfl | rfl
    · rw [rel_eq h, rel_eq h'] at he; exact absurd he (by decide)
    · rfl

example : (∀ f ∈ (process 5 conf envDelta (World.start fs1)).2.crashPoints, ∀ q,
      ¬ conf.stagingDir <+: q → f.leaf q = fs1.leaf q) ∧
    (process 5 conf envDelta (World.start fs1)).1 ≠ .ok () :=
  ⟨(C20_unavailable_delta 5 conf envDelta fs1 base name
    ⟨notifUri, (runConds1 1).wf, saneState1, fun etag n hn => by
      rw [offersDelta hn]; exact goodNotif_of_check (by decide), fun _ => cleanObjects _⟩ orderedState1
    (fun tick r hr => by
      show (if r.uri = uri "d2" then _ else (envAt 1 notif2).http tick r) ≠ _
      split
      · simp
      · exact no304 1 notif2 tick r hr)
    noLinks1 (fun s n n1 h1 h2 h3 h4 => by
      have := inUse1 h1
      subst this
      have e := offersDelta h2
      subst e
      have hp := limited_all h3
      obtain ⟨ds, _, rfl⟩ := h3
      have hd : ds = notif2.deltas := List.perm_singleton.1 hp
      subst hd
      exact missing2)).1, by decide +kernel⟩

end

end KSync
