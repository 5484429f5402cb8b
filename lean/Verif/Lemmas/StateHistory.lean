import Verif.Lemmas.LifetimeRun

/-! # Invariants of the state and of the notification over histories -/

set_option linter.unusedSectionVars false
set_option linter.unusedVariables false

namespace KSync

variable [Ext]

/-- The files of a run that has got to the point of publishing. -/
structure NewState (depth : Nat) (c : Config) (base name : Str) (env : Env) (fs : FS)
    (s s2 : RrdpState) (st : StagedChanges) (n : Notif) : Prop where
  sane : Sane c base name s2
  describes : Describes base s2 (newNotif s st)
  source : s2.source = s.source
  validator : s2.validator = s.validator
  snapshot : s2.snapshot = some st.snapshot
  deltas : ∀ d ∈ s2.deltas, d ∈ s.deltas ∨ d ∈ st.deltas
  deprecated : ∀ e ∈ s2.deprecated, e ∈ s.deprecated ∨ s.Refers c e.path
  since : ∀ e ∈ s2.deprecated, e ∈ s.deprecated ∨ (s.Refers c e.path ∧ ∃ i, e.since = env.clock i)

theorem clean_less {s1 s2 : RrdpState} {c : Config} {env : Env} {w w' : World}
    (h : s1.clean c env w = (.ok s2, w')) :
    s2.deltas = s1.deltas ∧ ∀ e ∈ s2.deprecated, e ∈ s1.deprecated := by
  obtain ⟨now, w1, _, _, _, rfl, _⟩ := clean_ok h
  exact ⟨rfl, fun e he => (List.mem_filter.1 he).1⟩

theorem Absorbed.deltas_from {env : Env} {w w' : World} {s s1 s2 : RrdpState} {st : StagedChanges}
    {kept gone : List DeltaState} {new : List DeprecatedFile}
    (h : Absorbed env w w' s st s1 kept gone new) (h2 : s2.deltas = s1.deltas) :
    ∀ d ∈ s2.deltas, d ∈ s.deltas ∨ d ∈ st.deltas := by
  intro d hd
  rw [h2, h.deltas] at hd
  unfold mergeDeltas at hd
  rcases List.mem_append.1 (mem_sortBy.1 (List.mem_reverse.1 hd)) with hd | hd
  · rw [h.split]
    exact Or.inl (List.mem_append_left _ hd)
  · exact Or.inr hd

theorem Absorbed.deprecated_from {c : Config} {base name : Str} {env : Env} {w w' : World}
    {s s1 s2 : RrdpState} {st : StagedChanges} {kept gone : List DeltaState}
    {new : List DeprecatedFile} (h : Absorbed env w w' s st s1 kept gone new)
    (hs : Sane c base name s) (h2 : ∀ e ∈ s2.deprecated, e ∈ s1.deprecated) :
    ∀ e ∈ s2.deprecated, e ∈ s.deprecated ∨ s.Refers c e.path := by
  intro e he
  have he := h2 e he
  rw [h.deprecated] at he
  rcases List.mem_append.1 he with he | he
  · exact Or.inl he
  · rcases scheduled_new hs h he with hx | ⟨x, hx, hp⟩
    · exact Or.inr (Or.inl hx)
    · refine Or.inr (Or.inr ⟨x, ?_, hp⟩)
      rw [h.split]
      exact List.mem_append_right _ hx

theorem Absorbed.since_from {c : Config} {base name : Str} {env : Env} {w w' : World}
    {s s1 s2 : RrdpState} {st : StagedChanges} {kept gone : List DeltaState}
    {new : List DeprecatedFile} (h : Absorbed env w w' s st s1 kept gone new)
    (hs : Sane c base name s) (h2 : ∀ e ∈ s2.deprecated, e ∈ s1.deprecated) :
    ∀ e ∈ s2.deprecated, e ∈ s.deprecated ∨ (s.Refers c e.path ∧ ∃ i, e.since = env.clock i) := by
  intro e he
  have he' := h2 e he
  rw [h.deprecated] at he'
  rcases List.mem_append.1 he' with h1 | h1
  · exact Or.inl h1
  · obtain ⟨i, _, _, hi⟩ := h.newSince e h1
    refine (h.deprecated_from hs h2 e he).imp id (fun h3 => ⟨h3, i, hi⟩)

theorem run_records {depth : Nat} {c : Config} {base name : Str} {env : Env} {fs : FS}
    (hl : Layout c base name) (hc : RunConds c base name env fs) :
    ∀ f ∈ (process depth c env (World.start fs)).2.crashPoints, f.WF ∧
      ((f.leaf c.rrdpStatePath = fs.leaf c.rrdpStatePath ∧
        f.leaf (c.notifPath name) = fs.leaf (c.notifPath name)) ∨
      ∃ s st w n t, AtPublish depth c base name env (World.start fs) s st w n ∧
        f.leaf (c.notifPath name) = some (.file (Ext.writeNotif (newNotif s st)) t) ∧
        (f.leaf c.rrdpStatePath = fs.leaf c.rrdpStatePath ∨
          ∃ s2 k t', NewState depth c base name env fs s s2 st n ∧
            f.leaf c.rrdpStatePath = some (.file ((Ext.encState s2).take k) t'))) := by
  have nb : c.rrdpDir <+: c.notifPath name := List.prefix_append _ _
  have notData : ¬ DataPath c name c.rrdpStatePath := fun h => hl.rrdpState.1 h.below
  have nApply1 : ¬ (applyEff c name).files (c.notifPath name) := by
    rintro (h | h)
    · exact hl.rrdpStaging.not_both nb h
    · exact not_dataPath_single (Or.inl rfl) h
  have nApply2 : ¬ (applyEff c name).files c.rrdpStatePath := by
    rintro (h | h)
    · exact rrdpState_not_staging h
    · exact notData h
  rcases run_cases (depth := depth) (w := World.start fs) hc with ⟨h1, _⟩ | ⟨s, st, w1, n, h1, h2⟩
  · intro f hf
    obtain ⟨g1, g2⟩ := h1.crash_frame hc.wf f hf
    exact ⟨g1, Or.inl ⟨g2 _ rrdpState_not_staging, g2 _ (hl.rrdpStaging.not_both nb)⟩⟩
  let A : FS → Prop := fun f => f.leaf c.rrdpStatePath = fs.leaf c.rrdpStatePath
  let B : FS → Prop := fun f => f.leaf (c.notifPath name) = fs.leaf (c.notifPath name)
  let New : FS → Prop := fun f => ∃ t,
    f.leaf (c.notifPath name) = some (.file (Ext.writeNotif (newNotif s st)) t)
  let Rec : FS → Prop := fun f => ∃ s2 k t', NewState depth c base name env fs s s2 st n ∧
    f.leaf c.rrdpStatePath = some (.file ((Ext.encState s2).take k) t')
  let P : FS → Prop := fun f => f.WF ∧ ((A f ∧ B f) ∨ (New f ∧ (A f ∨ Rec f)))
  have frame : ∀ {S : Path → Prop}, ¬ S (c.notifPath name) → ¬ S c.rrdpStatePath →
      ∀ f f' : FS, P f → Change S f f' → P f' := by
    rintro S h1 h2 f f' ⟨h3, h4⟩ h5
    obtain ⟨h6, h7⟩ := h5 h3
    refine ⟨h6, ?_⟩
    dsimp only [A, B, New, Rec]
    rw [h7 _ h1, h7 _ h2]; exact h4
  have hk : Keeps P (World.start fs) (process depth c env (World.start fs)).2 := by
    rw [h2]
    refine Tr.trans (Keeps.of_within h1.within (frame (hl.rrdpStaging.not_both nb)
      rrdpState_not_staging)) ?_
    refine publish_by (T := Keeps P) (h1.pubPre hc) h1.wf ?_ ?_ ?_ ?_ ?_ ?_
    · exact fun h => Keeps.of_within h (frame nApply1 nApply2)
    · exact fun _ _ _ h => Keeps.of_within h (frame id id)
    · exact fun _ _ _ _ _ _ _ h => Keeps.of_within h (frame nApply1 nApply2)
    · intro _ _ _ _ _ _ _ _ _ _ h
      refine Keeps.of_within h (frame ?_ ?_)
      · exact fun h => hl.rrdp_not_rsync nb h.2
      · exact fun h => rrdpState_not_rsync hl h.2
    · intro _ _ _ _ _ _ _ _ _ _ _ _ h h'
      refine Keeps.of_steps (h'.and h.steps) ?_
      rintro f f' ⟨g1, g2⟩ ⟨⟨g3, g4⟩, g5⟩
      have hst : f'.leaf c.rrdpStatePath = f.leaf c.rrdpStatePath := (g5 g1).2 _ (by
          rintro (h | h)
          · exact hl.rrdpState.1 ((List.prefix_append _ _).trans h)
          · exact hl.rrdpState.1 ((List.prefix_append _ _).trans h))
      refine ⟨(g5 g1).1, ?_⟩
      dsimp only [A, B, New, Rec]
      rw [hst]
      rcases g4 with g4 | ⟨t2, g4⟩
      · rw [g4]; exact g2
      · right
        refine ⟨⟨t2, g4⟩, ?_⟩
        rcases g2 with ⟨g2, _⟩ | ⟨_, g2⟩
        · exact Or.inl g2
        · exact g2
    · intro wa s1 wb s2 wc wd we e1 e2 e3 e4 e5 hw5 hs2 hnot hin hwr
      obtain ⟨t, ht⟩ := hnot
      have hd := describes_of hc.uri h1.sane e2 e3
      obtain ⟨_, _, kept, gone, new, hb⟩ := absorb_ok e2
      obtain ⟨l, hl2⟩ := clean_state e3
      have hns : NewState depth c base name env fs s s2 st n :=
        ⟨hs2, hd, by rw [hl2]; exact hb.source, by rw [hl2]; exact hb.validator,
          by rw [hl2]; exact hb.snapshot, hb.deltas_from (clean_less e3).1,
          hb.deprecated_from h1.sane (clean_less e3).2, hb.since_from h1.sane (clean_less e3).2⟩
      intro hP
      refine Keeps.via (Keeps.of_steps (P := fun f => P f ∧ f.leaf (c.notifPath name) =
        some (.file (Ext.writeNotif (newNotif s st)) t)) (hwr.and hin.steps) ?_)
        ⟨hP, by unfold FS.leaf; rw [ht]⟩ (fun _ h => h.1) hP
      rintro f f' ⟨⟨g1, g2⟩, g0⟩ ⟨⟨g3, g4⟩, g5⟩
      have hn : f'.leaf (c.notifPath name) = some (.file (Ext.writeNotif (newNotif s st)) t) :=
        (g3 _ (fun h => hl.rrdpState.1 (h ▸ nb))).trans g0
      refine ⟨⟨(g5 g1).1, Or.inr ⟨⟨t, hn⟩, ?_⟩⟩, hn⟩
      rcases g4 with g4 | ⟨k, t', g4⟩
      · dsimp only [A, Rec]
        rw [g4]
        rcases g2 with ⟨g2, _⟩ | ⟨_, g2⟩
        · exact Or.inl g2
        · exact g2
      · exact Or.inr ⟨s2, k, t', hns, g4⟩
  intro f hf
  obtain ⟨g1, g2⟩ := hk.start ⟨hc.wf, Or.inl ⟨rfl, rfl⟩⟩ f hf
  refine ⟨g1, ?_⟩
  rcases g2 with g2 | ⟨⟨t, g2⟩, g3⟩
  · exact Or.inl g2
  · exact Or.inr ⟨s, st, w1, n, t, h1, g2, g3⟩

/-- What is recorded after a state has been written, in part or completely. -/
theorem recorded_take {c : Config} {f : FS} {s s' : RrdpState} {k : Nat} {t : Time}
    (h : f.leaf c.rrdpStatePath = some (.file ((Ext.encState s).take k) t)) (hr : Recorded c f s') :
    s' = s.persisted := by
  obtain ⟨b, b1, b2⟩ := hr
  unfold FS.read FS.resolve at b1
  rw [file_of_leaf h] at b1
  dsimp only at b1
  injection b1 with b1
  rw [← b1] at b2
  by_cases hk' : k < (Ext.encState s).length
  · rw [Ext.dec_torn s k hk'] at b2; cases b2
  · rw [List.take_of_length_le (by omega), Ext.dec_enc] at b2
    cases b2; rfl

/-- What holds of every state and every notification in a history. -/
structure Invariant {ι : Type} (c : Config) (base name : Str) (Q : ι → RrdpState → Prop)
    (N : ι → Notif → Prop) (i : ι) (f : FS) : Prop where
  wf : f.WF
  noLink : f.link? c.rrdpStatePath = none
  state : ∀ s, Recorded c f s → Sane c base name s ∧ Q i s
  notif : f.leaf (c.notifPath name) = none ∨ ∃ n t,
    f.leaf (c.notifPath name) = some (.file (Ext.writeNotif n) t) ∧ N i n

/-- What has to be shown. -/
structure Inductive {ι : Type} (c : Config) (base name : Str) (ok : ι → ι → Nat → Env → FS → Prop)
    (Q : ι → RrdpState → Prop) (N : ι → Notif → Prop) : Prop where
  source : ∀ i j depth env f, ok i j depth env f → GoodSource c base name env f
  fresh : ∀ i, Q i (freshState c base name)
  persisted : ∀ i s, Q i s → Q i s.persisted
  monoQ : ∀ i j depth env f s, ok i j depth env f → Q i s → Q j s
  monoN : ∀ i j depth env f n, ok i j depth env f → N i n → N j n
  stepN : ∀ i j depth env f s0 s st w n n0, ok i j depth env f → Q i s0 →
    InUse c base name f s0 → (∃ v, s = { s0 with validator := v }) →
    Offers c env f s0.source.etag n0 → Limited c n0 n →
    n.deltas.Pairwise (fun a b => a.serial < b.serial) →
    AtPublish depth c base name env (World.start f) s st w n → N j (newNotif s st)
  stepQ : ∀ i j depth env f s0 s s2 st w n n0, ok i j depth env f → Q i s0 →
    InUse c base name f s0 → (∃ v, s = { s0 with validator := v }) →
    Offers c env f s0.source.etag n0 → Limited c n0 n →
    n.deltas.Pairwise (fun a b => a.serial < b.serial) →
    AtPublish depth c base name env (World.start f) s st w n →
    NewState depth c base name env f s s2 st n → Q j s2

theorem Invariant.start {ι : Type} {c : Config} {base name : Str} {Q : ι → RrdpState → Prop}
    {N : ι → Notif → Prop} {i : ι} {f : FS} (h : Pristine c name f) : Invariant c base name Q N i f := by
  refine ⟨h.wf, ?_, fun s hs => ?_, Or.inl h.noNotification⟩
  · unfold FS.link?
    rw [h.noState]
  · obtain ⟨b, h1, _⟩ := hs
    unfold FS.read FS.resolve at h1
    rw [h.noState] at h1
    cases h1

theorem Invariant.conds {ι : Type} {c : Config} {base name : Str} {Q : ι → RrdpState → Prop}
    {N : ι → Notif → Prop} {i : ι} {f : FS} {env : Env} (h : Invariant c base name Q N i f)
    (hl : Layout c base name) (ho : c.rsyncEnabled = true → CleanObjects c.rsyncIncludeHost)
    (hs : GoodSource c base name env f) : RunConds c base name env f :=
  ⟨hl.uri, h.wf, fun s hs => (h.state s hs).1, hs, ho⟩

theorem Invariant.run {ι : Type} {c : Config} {base name : Str}
    {ok : ι → ι → Nat → Env → FS → Prop} {Q : ι → RrdpState → Prop}
    {N : ι → Notif → Prop} {i j : ι} {depth : Nat} {env : Env} {f0 f : FS}
    (hl : Layout c base name) (ho : c.rsyncEnabled = true → CleanObjects c.rsyncIncludeHost)
    (hi : Inductive c base name ok Q N) (h : Invariant c base name Q N i f0)
    (hok : ok i j depth env f0) (hf : f ∈ (process depth c env (World.start f0)).2.crashPoints) :
    Invariant c base name Q N j f := by
  have hc := h.conds hl ho (hi.source _ _ _ _ _ hok)
  obtain ⟨g1, g2⟩ := run_records hl hc f hf
  have old : f.leaf c.rrdpStatePath = f0.leaf c.rrdpStatePath →
      f.link? c.rrdpStatePath = none ∧ ∀ s, Recorded c f s → Sane c base name s ∧ Q j s := by
    intro he
    refine ⟨by rw [FS.link?_of_leaf he]; exact h.noLink, fun s hs => ?_⟩
    obtain ⟨a1, a2⟩ := h.state s ((Recorded.of_leaf h.noLink he).1 hs)
    exact ⟨a1, hi.monoQ _ _ _ _ _ _ hok a2⟩
  rcases g2 with ⟨g2, g3⟩ | ⟨s, st, w, n, t, k1, k2, k3⟩
  · obtain ⟨a1, a2⟩ := old g2
    refine ⟨g1, a1, a2, ?_⟩
    rw [g3]
    exact h.notif.imp id (fun ⟨n, t, b1, b2⟩ => ⟨n, t, b1, hi.monoN _ _ _ _ _ _ hok b2⟩)
  · obtain ⟨s0, n0, a1, a2, a3, a4, a5⟩ := k1.origin
    have hq : Q i s0 := by
      rcases a1 with a1 | ⟨_, rfl⟩
      · exact (h.state s0 a1).2
      · exact hi.fresh i
    have hN : N j (newNotif s st) := hi.stepN _ _ _ _ _ _ _ _ _ _ _ hok hq a1 a2 a3 a4 a5 k1
    rcases k3 with k3 | ⟨s2, k, t', b1, b2⟩
    · obtain ⟨c1, c2⟩ := old k3
      exact ⟨g1, c1, c2, Or.inr ⟨_, t, k2, hN⟩⟩
    · refine ⟨g1, ?_, fun s' hs' => ?_, Or.inr ⟨_, t, k2, hN⟩⟩
      · unfold FS.link?
        rw [file_of_leaf b2]
      · rw [recorded_take b2 hs']
        exact ⟨b1.sane.persisted, hi.persisted _ _
          (hi.stepQ _ _ _ _ _ _ _ _ _ _ _ _ hok hq a1 a2 a3 a4 a5 k1 b1)⟩

theorem History.invariant {ι : Type} {c : Config} {base name : Str}
    {ok : ι → ι → Nat → Env → FS → Prop} {Q : ι → RrdpState → Prop}
    {N : ι → Notif → Prop} {i : ι} {f : FS} (hl : Layout c base name)
    (ho : c.rsyncEnabled = true → CleanObjects c.rsyncIncludeHost)
    (hi : Inductive c base name ok Q N) (h : History c (fun _ => Pristine c name) ok i f) :
    Invariant c base name Q N i f := by
  induction h with
  | start h => exact Invariant.start h
  | run _ h1 h2 ih => exact Invariant.run hl ho hi ih h1 h2

end KSync
