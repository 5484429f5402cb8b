import Verif.Lemmas.Staged

/-! # Requests of a run -/

set_option linter.unusedSectionVars false
set_option linter.unusedSimpArgs false
set_option linter.unusedVariables false

namespace KSync

variable [Ext]

/-- Anything but requests outside `P`. -/
def reqEff (P : Req → Prop) : Eff :=
  ⟨fun _ => True, P, fun _ => True, fun _ => True, fun _ => True, fun _ => True⟩

theorem publish_reqs {P : Req → Prop} {c : Config} {s : RrdpState} {st : StagedChanges} {env : Env}
    {w : World} (hw : w.cur.WF) : Within (reqEff P) w (publish c s st env w).2 := by
  have hm : Within (reqEff P) w (moveStaged c st env w).2 :=
    moveStaged_in (fun _ _ => ⟨fun _ _ => trivial, trivial⟩) env w
  refine publish_tr (T := Within (reqEff P)) hm (fun w1 _ => absorb_in s st env w1) ?_ ?_ ?_ ?_
  · intro w1 s1 w2 e1 e2
    have hw1 : w1.cur.WF := by have := hm.wf hw; rw [e1] at this; exact this
    have hw2 : w2.cur.WF := by
      have := (absorb_in (E := reqEff P) s st env w1).wf hw1; rw [e2] at this; exact this
    exact clean_in (fun _ _ => trivial) (fun _ _ _ _ => trivial) env w2 hw2
  · intro _ _ _ s2 w3 _ _ _
    unfold rsyncPart
    by_cases h : c.rsyncEnabled = true
    · rw [if_pos h]
      exact updateRsync_in (fun _ _ => trivial) trivial (fun _ _ _ _ _ => trivial) env w3
    · rw [if_neg h]; exact Tr.refl _
  · intro _ _ _ s2 _ w4 _ _ _ _
    exact writeNotification_in (fun _ => trivial) (fun _ _ => trivial) (fun _ _ => trivial) env w4
  · intro _ _ _ s2 _ _ w5 _ _ _ _ _
    exact persist_in (E := reqEff P) trivial s2 env w5

theorem updateStaged_reqs {P : Req → Prop} {c : Config} {s : RrdpState} {env : Env} {w : World}
    (h1 : ∀ r, c.fetcher.Asks c.notificationUri s.source.etag r → P r)
    (h2 : ∀ n, Offers c env w.cur s.source.etag n → ∀ x ∈ n.refs, ∀ r,
      c.fetcher.Asks x.1 none r → P r) :
    Within (reqEff P) w (s.updateStaged c env w).2 := by
  have le : (askNotif c s.source.etag).Le (reqEff P) :=
    ⟨fun _ _ => trivial, h1, fun _ _ => trivial, fun _ _ => trivial, fun _ _ => trivial,
      fun _ _ => trivial⟩
  rcases updateStaged_cases s c env w with ⟨e, w1, k1, k2, k3⟩ | ⟨w1, k1, k2, k3, _⟩ |
    ⟨n, etag, ds, reset, w1, k1, k2, k3, k4, k5, k6⟩
  · rw [k1]; exact k3.mono le
  · rw [k1]; exact k3.mono le
  · rw [k6]
    refine Tr.trans (k5.mono le) (stage_in ⟨trivial, fun r hr => ?_, fun _ _ => trivial,
      fun d hd r hr => ?_, fun _ _ _ _ => trivial⟩ env w1)
    · exact h2 n k1 (n.snapUri, n.snapHash) (by simp [Notif.refs]) r hr
    · exact h2 n k1 (d.uri, d.hash) (List.mem_cons_of_mem _
        (List.mem_map.2 ⟨d, limit_refs k2 d hd, rfl⟩)) r hr

theorem preValidate_noTals {E : Eff} {c : Config} (h : c.talFiles = []) (depth : Nat) (s : RrdpState) :
    Rel (Within E) (s.preValidate depth c) := by
  have : s.preValidate depth c = pure { s with validator := none } := by
    unfold RrdpState.preValidate reconfigureValidator chooseValidator
    rw [if_pos h]
    rfl
  rw [this]
  exact Rel.pure _

theorem process_reqs {P : Req → Prop} {depth : Nat} {c : Config} {env : Env} {w : World}
    (hw : w.cur.WF) (ht : c.talFiles = [])
    (h1 : ∀ etag r, c.fetcher.Asks c.notificationUri etag r → P r)
    (h2 : ∀ etag n, Offers c env w.cur etag n → ∀ x ∈ n.refs, ∀ r,
      c.fetcher.Asks x.1 none r → P r) :
    Within (reqEff P) w (process depth c env w).2 := by
  have hp : Within (reqEff P) w (prepare depth c env w).2 := by
    unfold prepare
    refine Within.bindAt (loadState_in c env w) (fun s w1 e1 => ?_)
    have hc : w1.cur = w.cur := (loadState_ok e1).1.1
    refine Within.bindAt (updateStaged_reqs (h1 _) (by rw [hc]; exact h2 _)) (fun st w2 e2 => ?_)
    cases st with
    | none => exact Tr.refl _
    | some st =>
      dsimp only
      refine Within.bindAt (preValidate_noTals ht depth s env w2) (fun s' w3 h3 => ?_)
      exact Within.bindAt (scriptGate_in (E := reqEff P) (fun p hp => trivial) env w3)
        (fun _ w4 _ => Tr.refl _)
  refine process_tr (T := Within (reqEff P)) hp (fun s st w1 e => publish_reqs ?_)
  have := hp.wf hw
  rw [e] at this; exact this

theorem Within.reqs_start {E : Eff} {fs : FS} {w' : World} (h : Within E (World.start fs) w') :
    ∀ r ∈ w'.reqs, E.reqs r := by
  obtain ⟨d, h1, h2⟩ := h.logs.reqs
  intro r hr
  rw [h1] at hr
  simp only [World.start, List.append_nil] at hr
  exact h2 r hr

end KSync
