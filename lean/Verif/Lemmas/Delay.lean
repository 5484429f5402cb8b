import Verif.Spec.Delay
import Verif.Lemmas.Whole

/-! # The delay before a new notification -/

set_option linter.unusedSectionVars false
set_option linter.unusedVariables false

namespace KSync

variable [Ext]

theorem bind_end {α β : Type} {P : World → Prop} {m : M α} {f : α → M β} {env : Env} {w : World}
    (h1 : P (m env w).2) (h2 : ∀ a w1, m env w = (.ok a, w1) → P (f a env w1).2) :
    P ((m >>= f) env w).2 := by
  match hm : m env w with
  | (.error e, w1) => rw [M.bind_of_error hm]; rw [hm] at h1; exact h1
  | (.ok a, w1) => rw [M.bind_of_ok hm]; exact h2 a w1 hm

theorem Logs.slept_same {E : Eff} {w w' : World} (h : Logs E w w') (hE : ∀ x, ¬ E.slept x) :
    w'.slept = w.slept := by
  obtain ⟨d, h1, h2⟩ := h.slept
  cases d with
  | nil => exact h1
  | cons x d => exact absurd (h2 x List.mem_cons_self) (hE x)

/-- Not yet waited. -/
structure Before (c : Config) (name : Str) (fs : FS) (w : World) : Prop where
  slept : w.slept = []
  wf : w.cur.WF
  notif : ∀ f ∈ w.crashPoints, f.leaf (c.notifPath name) = fs.leaf (c.notifPath name)

theorem Before.step {c : Config} {name : Str} {fs : FS} {w w' : World} {E : Eff}
    (h : Before c name fs w) (hw : Within E w w') (h1 : ∀ x, ¬ E.slept x)
    (h2 : ¬ E.files (c.notifPath name)) : Before c name fs w' := by
  refine ⟨(hw.logs.slept_same h1).trans h.slept, hw.wf h.wf, ?_⟩
  have hk := Keeps.of_within (P := fun f => f.WF ∧ f.leaf (c.notifPath name) = fs.leaf (c.notifPath name))
    hw (fun f f' hf hc => ⟨(hc hf.1).1, by rw [(hc hf.1).2 _ h2]; exact hf.2⟩)
    ⟨h.wf, h.notif _ List.mem_cons_self⟩
  intro f hf
  rcases List.mem_cons.1 hf with rfl | hf
  · exact hk.1.2
  · rcases hk.2 f hf with hf | hf
    · exact h.notif f (List.mem_cons_of_mem _ hf)
    · exact hf.2

/-- After the wait. -/
structure After (c : Config) (name : Str) (d : Nat) (fs g : FS) (w : World) : Prop where
  waited : Waited c name d fs w g
  wf : w.cur.WF
  same : ∀ q, ¬ AfterDelay c name q → w.cur.leaf q = g.leaf q

theorem After.step {c : Config} {name : Str} {d : Nat} {fs g : FS} {w w' : World} {E : Eff}
    (h : After c name d fs g w) (hw : Within E w w') (h1 : ∀ x, ¬ E.slept x)
    (h2 : ∀ q, E.files q → AfterDelay c name q) : After c name d fs g w' := by
  have hs := hw.logs.slept_same h1
  have key : ∀ {u : World}, Steps (Change E.files) w u → u.cur.WF ∧
      (∀ q, ¬ AfterDelay c name q → u.cur.leaf q = g.leaf q) ∧
      ∃ l, u.crashPoints = l ++ w.crashPoints ∧
        ∀ f ∈ l, ∀ q, ¬ AfterDelay c name q → f.leaf q = g.leaf q := by
    intro u hu
    induction hu with
    | same e1 e2 =>
      unfold World.crashPoints
      rw [e1, e2]
      exact ⟨h.wf, h.same, [], rfl, fun _ hf => absurd hf List.not_mem_nil⟩
    | @push w1 u hst hR hp ih =>
      obtain ⟨i1, i2, l, i3, i4⟩ := ih
      obtain ⟨j1, j2⟩ := hR i1
      have j3 : ∀ q, ¬ AfterDelay c name q → u.cur.leaf q = g.leaf q := fun q hq =>
        (j2 q (fun hE => hq (h2 q hE))).trans (i2 q hq)
      refine ⟨j1, j3, u.cur :: l, ?_, ?_⟩
      · show u.cur :: u.past = _
        rw [hp, List.cons_append, ← i3]
        rfl
      · intro f hf
        rcases List.mem_cons.1 hf with rfl | hf
        · exact j3
        · exact i4 f hf
  obtain ⟨k1, k2, l, k3, k4⟩ := key hw.steps
  obtain ⟨b, a, g1, g2, g3, g4⟩ := h.waited
  refine ⟨⟨b, l ++ a, hs.trans g1, by rw [k3, g2, List.append_assoc], g3, ?_⟩, k1, k2⟩
  intro f hf
  rcases List.mem_append.1 hf with hf | hf
  · exact k4 f hf
  · exact g4 f hf

/-- Writing the notification, without the delay. -/
def announce (s : RrdpState) : M Unit := do
  let n ← M.lift s.makeNotif
  writeBuf (s.mappings.path s.source.tmpName) (Ext.writeNotif n)
  rename (s.mappings.path s.source.tmpName) (s.mappings.path s.source.name)

theorem writeNotification_eq (s : RrdpState) (d : Nat) :
    s.writeNotification d = notifyDelay d >>= fun _ => announce s := rfl

theorem announce_in {E : Eff} {s : RrdpState}
    (h1 : ∀ q, s.mappings.path s.source.tmpName <+: q → E.files q)
    (h2 : ∀ q, s.mappings.path s.source.name <+: q → E.files q) :
    Rel (Within E) (announce s) := by
  unfold announce
  have k1 := writeBuf_in (E := E) (h1 _ (List.prefix_refl _))
  have k2 : Rel (Within E) (rename (s.mappings.path s.source.tmpName)
      (s.mappings.path s.source.name)) := rename_in (fun q hq => hq.elim (h1 q) (h2 q))
  rel_auto

/-- What is known after a run, with and without a delay. -/
def DelayEnd (c : Config) (name : Str) (fs : FS) (w : World) : Prop :=
  w.slept = [] ∧ (c.rrdpNotifyDelay = 0 ∨ Before c name fs w) ∨
  0 < c.rrdpNotifyDelay ∧ ∃ g, After c name c.rrdpNotifyDelay fs g w

theorem Before.delayEnd {c : Config} {name : Str} {fs : FS} {w : World}
    (h : Before c name fs w) : DelayEnd c name fs w := Or.inl ⟨h.slept, Or.inr h⟩

theorem publish_delay {c : Config} {base name : Str} {s : RrdpState} {st : StagedChanges}
    {env : Env} {fs : FS} {w : World} (hl : Layout c base name) (hp : PubPre c base name s st)
    (hb : Before c name fs w) : DelayEnd c name fs (publish c s st env w).2 := by
  have nb : c.rrdpDir <+: c.notifPath name := List.prefix_append _ _
  have na : ¬ (applyEff c name).files (c.notifPath name) := by
    rintro (h | h)
    · exact hl.rrdpStaging.not_both nb h
    · exact not_dataPath_single (Or.inl rfl) h
  have nr : ¬ (rsyncEff c).files (c.notifPath name) := by
    rintro ⟨_, h | h⟩
    · exact hl.rrdpRsync.not_both nb h
    · exact hl.rrdpRsyncState.1 (h ▸ nb)
  have ns : ¬ (Eff.only (· = c.rrdpStatePath)).files (c.notifPath name) :=
    fun h => hl.rrdpState.1 (h ▸ nb)
  rw [publish_eq]
  have b1 := hb.step (moveStaged_within (c := c) hp.goodSnap hp.goodDeltas env w) (fun _ => id) na
  refine bind_end b1.delayEnd (fun _ w1 e1 => ?_)
  rw [e1] at b1
  have b2 := b1.step (absorb_in (E := Eff.none) s st env w1) (fun _ => id) id
  refine bind_end b2.delayEnd (fun s1 w2 e2 => ?_)
  rw [e2] at b2
  have hs1 := absorb_sane e2 hp.sane hp.goodSnap hp.goodDeltas
  have b3 := b2.step (clean_dataPath hs1 env w2 b2.wf) (fun _ => id) na
  refine bind_end b3.delayEnd (fun s2 w3 e3 => ?_)
  rw [e3] at b3
  have hs2 := clean_sane e3 hs1
  have b4 := b3.step (rsyncPart_within (s := s2) hp.objects env w3) (fun _ => id) nr
  refine bind_end b4.delayEnd (fun _ w4 e4 => ?_)
  rw [e4] at b4
  have h1 : ∀ q, s2.mappings.path s2.source.tmpName <+: q → AfterDelay c name q := fun q hq => by
    rw [hs2.tmpPath hl.uri] at hq; exact Or.inr (Or.inl hq)
  have h2 : ∀ q, s2.mappings.path s2.source.name <+: q → AfterDelay c name q := fun q hq => by
    rw [hs2.notifPath hl.uri] at hq; exact Or.inl hq
  rw [writeNotification_eq, M.bind_assoc]
  by_cases hd : 0 < c.rrdpNotifyDelay
  · let w5 : World := { w4 with tick := w4.tick + 1,
                                slept := (c.rrdpNotifyDelay, w4.crashPoints) :: w4.slept }
    have e5 : notifyDelay c.rrdpNotifyDelay env w4 = (.ok (), w5) := by
      unfold notifyDelay
      rw [if_pos hd]
      rfl
    have a5 : After c name c.rrdpNotifyDelay fs w4.cur w5 := by
      refine ⟨⟨w4.past, [], ?_, rfl, b4.notif, fun _ hf => absurd hf List.not_mem_nil⟩, b4.wf,
        fun _ _ => rfl⟩
      show (c.rrdpNotifyDelay, w4.crashPoints) :: w4.slept = _
      rw [b4.slept]
      rfl
    rw [M.bind_of_ok e5]
    have a6 := a5.step (announce_in (E := Eff.only (AfterDelay c name)) h1 h2 env w5) (fun _ => id)
      (fun _ => id)
    refine bind_end (P := DelayEnd c name fs) (Or.inr ⟨hd, _, a6⟩) (fun _ w6 e6 => ?_)
    rw [e6] at a6
    exact Or.inr ⟨hd, _, a6.step (persist_in (E := Eff.only (AfterDelay c name)) (Or.inr (Or.inr rfl))
      s2 env w6) (fun _ => id) (fun _ => id)⟩
  · have e5 : notifyDelay c.rrdpNotifyDelay env w4 = (.ok (), w4) := by
      unfold notifyDelay
      rw [if_neg hd]
      rfl
    have hz : c.rrdpNotifyDelay = 0 := Nat.eq_zero_of_not_pos hd
    rw [M.bind_of_ok e5]
    have a6 := (announce_in (E := Eff.only (AfterDelay c name)) h1 h2 env w4).logs.slept_same
      (fun _ => id)
    rw [b4.slept] at a6
    refine bind_end (P := DelayEnd c name fs) (Or.inl ⟨a6, Or.inl hz⟩) (fun _ w6 e6 => ?_)
    rw [e6] at a6
    have a7 := (persist_in (E := Eff.only (AfterDelay c name)) (Or.inr (Or.inr rfl))
      s2 env w6).logs.slept_same (fun _ => id)
    exact Or.inl ⟨a7.trans a6, Or.inl hz⟩

theorem process_delay {depth : Nat} {c : Config} {base name : Str} {env : Env} {fs : FS}
    (hl : Layout c base name) (h : RunConds c base name env fs) :
    DelayEnd c name fs (process depth c env (World.start fs)).2 := by
  have b0 : Before c name fs (World.start fs) := by
    refine ⟨rfl, h.wf, fun f hf => ?_⟩
    rcases List.mem_cons.1 hf with rfl | hf
    · rfl
    · exact absurd hf List.not_mem_nil
  have b1 := b0.step (prepare_within (depth := depth) (w := World.start fs) h.uri h.state h.source)
    (fun _ => id) (fun hs => hl.rrdpStaging.not_both (List.prefix_append _ _) hs)
  rw [process_eq]
  refine bind_end b1.delayEnd (fun r w1 e => ?_)
  rw [e] at b1
  match r with
  | none => exact b1.delayEnd
  | some (s, st) =>
    obtain ⟨n, hn⟩ := atPublish (w := World.start fs) h e
    exact publish_delay hl ⟨hl.uri, hn.sane, hn.goodSnap, hn.goodDeltas, h.objects⟩ b1

end KSync
