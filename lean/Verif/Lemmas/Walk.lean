import Verif.Lemmas.Bridge
import Verif.Lemmas.Reports

/-! # The walk over the tree of CAs -/

set_option linter.unusedSectionVars false
set_option linter.unusedVariables false

namespace KSync

variable [Ext]

section
variable {T : ResCert → CaInfo → ValidatedCa → List (ResCert × CaInfo) → Prop}

/-- Every result is one of `T`, and for each child descended into there is a result. -/
def Closed (T : ResCert → CaInfo → ValidatedCa → List (ResCert × CaInfo) → Prop)
    (l : List ValidatedCa) (all : List ValidatedCa) : Prop :=
  ∀ ca ∈ l, ∃ c i kids, T c i ca kids ∧
    ∀ k ∈ kids, ∃ ca' ∈ all, ∃ kids', T k.1 k.2 ca' kids'

theorem Closed.mono {l a b : List ValidatedCa} (h : Closed T l a) (hs : ∀ x ∈ a, x ∈ b) :
    Closed T l b := by
  intro ca hca
  obtain ⟨c, i, kids, h1, h2⟩ := h ca hca
  refine ⟨c, i, kids, h1, fun k hk => ?_⟩
  obtain ⟨ca', h3, h4⟩ := h2 k hk
  exact ⟨ca', hs _ h3, h4⟩

theorem Closed.append {l l' a : List ValidatedCa} (h : Closed T l a) (h' : Closed T l' a) :
    Closed T (l ++ l') a := by
  intro ca hca
  rcases List.mem_append.1 hca with h1 | h1
  · exact h ca h1
  · exact h' ca h1

mutual
theorem Walked.closed {c : ResCert} {i : CaInfo} {l : List ValidatedCa} (h : Walked T c i l) :
    Closed T l l ∧ ∃ ca ∈ l, ∃ kids, T c i ca kids := by
  match h with
  | .node c i ca kids rest ht hr =>
    obtain ⟨h1, h2⟩ := WalkedAll.closed hr
    refine ⟨?_, ca, List.mem_cons_self .., kids, ht⟩
    intro x hx
    rcases List.mem_cons.1 hx with rfl | hx
    · refine ⟨c, i, kids, ht, fun k hk => ?_⟩
      obtain ⟨ca', h3, h4⟩ := h2 k hk
      exact ⟨ca', List.mem_cons_of_mem _ h3, h4⟩
    · exact (h1.mono (fun y hy => List.mem_cons_of_mem _ hy)) x hx
theorem WalkedAll.closed {ks : List (ResCert × CaInfo)} {l : List ValidatedCa}
    (h : WalkedAll T ks l) :
    Closed T l l ∧ ∀ k ∈ ks, ∃ ca ∈ l, ∃ kids, T k.1 k.2 ca kids := by
  match h with
  | .nil => exact ⟨fun _ h => (by cases h), fun _ h => (by cases h)⟩
  | .cons c i l l' ks h1 h2 =>
    obtain ⟨a1, ca, a2, a3⟩ := Walked.closed h1
    obtain ⟨b1, b2⟩ := WalkedAll.closed h2
    refine ⟨(a1.mono (fun y hy => List.mem_append.2 (Or.inl hy))).append
      (b1.mono (fun y hy => List.mem_append.2 (Or.inr hy))), fun k hk => ?_⟩
    rcases List.mem_cons.1 hk with rfl | hk
    · exact ⟨ca, List.mem_append.2 (Or.inl a2), a3⟩
    · obtain ⟨ca', c1, c2⟩ := b2 k hk
      exact ⟨ca', List.mem_append.2 (Or.inr c1), c2⟩
end

mutual
/-- What holds for the CA and is passed on to the children holds for all. -/
theorem Walked.chain {Q : ResCert → CaInfo → Prop}
    (hq : ∀ c i ca kids, Q c i → T c i ca kids → ∀ k ∈ kids, Q k.1 k.2)
    {c : ResCert} {i : CaInfo} {l : List ValidatedCa} (h : Walked T c i l) (hc : Q c i) :
    ∀ ca ∈ l, ∃ c i kids, Q c i ∧ T c i ca kids ∧ ∀ k ∈ kids, ∃ ca' ∈ l, ∃ kids', T k.1 k.2 ca' kids' := by
  match h with
  | .node c i ca kids rest ht hr =>
    have h1 := WalkedAll.chain hq hr (hq c i ca kids hc ht)
    intro x hx
    rcases List.mem_cons.1 hx with rfl | hx
    · refine ⟨c, i, kids, hc, ht, fun k hk => ?_⟩
      obtain ⟨ca', h3, h4⟩ := hr.closed.2 k hk
      exact ⟨ca', List.mem_cons_of_mem _ h3, h4⟩
    · obtain ⟨c', i', kids', a1, a2, a3⟩ := h1 x hx
      refine ⟨c', i', kids', a1, a2, fun k hk => ?_⟩
      obtain ⟨ca', h3, h4⟩ := a3 k hk
      exact ⟨ca', List.mem_cons_of_mem _ h3, h4⟩
theorem WalkedAll.chain {Q : ResCert → CaInfo → Prop}
    (hq : ∀ c i ca kids, Q c i → T c i ca kids → ∀ k ∈ kids, Q k.1 k.2)
    {ks : List (ResCert × CaInfo)} {l : List ValidatedCa} (h : WalkedAll T ks l)
    (hc : ∀ k ∈ ks, Q k.1 k.2) :
    ∀ ca ∈ l, ∃ c i kids, Q c i ∧ T c i ca kids ∧ ∀ k ∈ kids, ∃ ca' ∈ l, ∃ kids', T k.1 k.2 ca' kids' := by
  match h with
  | .nil => exact fun _ h => (by cases h)
  | .cons c i l l' ks h1 h2 =>
    have a1 := Walked.chain hq h1 (hc (c, i) (List.mem_cons_self ..))
    have a2 := WalkedAll.chain hq h2 (fun k hk => hc k (List.mem_cons_of_mem _ hk))
    intro x hx
    rcases List.mem_append.1 hx with hx | hx
    · obtain ⟨c', i', kids', b1, b2, b3⟩ := a1 x hx
      refine ⟨c', i', kids', b1, b2, fun k hk => ?_⟩
      obtain ⟨ca', h3, h4⟩ := b3 k hk
      exact ⟨ca', List.mem_append.2 (Or.inl h3), h4⟩
    · obtain ⟨c', i', kids', b1, b2, b3⟩ := a2 x hx
      refine ⟨c', i', kids', b1, b2, fun k hk => ?_⟩
      obtain ⟨ca', h3, h4⟩ := b3 k hk
      exact ⟨ca', List.mem_append.2 (Or.inr h3), h4⟩
end
end

/-- What a walk needs to know about one step. -/
def StepOk (J : World → Visited → Prop) (offline : Bool) (time : Time) (env : Env)
    (T : ResCert → CaInfo → ValidatedCa → List (ResCert × CaInfo) → Prop) : Prop :=
  ∀ w v c i ca kids v' w', J w v →
    checkCa v c i offline time env w = (.ok (ca, kids, v'), w') → J w' v' ∧ T c i ca kids

theorem validateKids_walked {J : World → Visited → Prop}
    {T : ResCert → CaInfo → ValidatedCa → List (ResCert × CaInfo) → Prop} {env : Env}
    {rec : Visited → ResCert → CaInfo → M (Report × Visited)}
    (hrec : ∀ w v c i rep v' w', J w v → rec v c i env w = (.ok (rep, v'), w') →
      J w' v' ∧ rep.Ok ∧ Walked T c i rep.certs) (ks : List (ResCert × CaInfo)) :
    ∀ (w : World) (v : Visited) (rep0 rep : Report) (v' : Visited) (w' : World), J w v → rep0.Ok →
      validateKids rec v rep0 ks env w = (.ok (rep, v'), w') →
      J w' v' ∧ rep.Ok ∧ ∃ l, rep.certs = rep0.certs ++ l ∧ WalkedAll T ks l := by
  induction ks with
  | nil =>
    intro w v rep0 rep v' w' hj hr h
    unfold validateKids at h
    rw [M.pure_ok] at h
    obtain ⟨h1, rfl⟩ := h
    cases h1
    exact ⟨hj, hr, [], (List.append_nil _).symm, .nil⟩
  | cons k ks ih =>
    obtain ⟨c, i⟩ := k
    intro w v rep0 rep v' w' hj hr h
    unfold validateKids at h
    obtain ⟨⟨r, v1⟩, w1, h1, h2⟩ := M.bind_ok.1 h
    obtain ⟨a1, a2, a3⟩ := hrec w v c i r v1 w1 hj h1
    obtain ⟨b1, b2, l, b3, b4⟩ := ih w1 v1 _ rep v' w' a1 (hr.addOther a2) h2
    refine ⟨b1, b2, r.certs ++ l, ?_, .cons c i _ _ ks a3 b4⟩
    rw [b3]
    show (rep0.certs ++ r.certs) ++ l = _
    rw [List.append_assoc]

theorem validateTree_walked {J : World → Visited → Prop}
    {T : ResCert → CaInfo → ValidatedCa → List (ResCert × CaInfo) → Prop} {env : Env}
    {offline : Bool} {time : Time} (hs : StepOk J offline time env T) (depth : Nat) :
    ∀ (w : World) (v : Visited) (c : ResCert) (i : CaInfo) (rep : Report) (v' : Visited) (w' : World),
      J w v → validateTree offline time depth v c i env w = (.ok (rep, v'), w') →
      J w' v' ∧ rep.Ok ∧ Walked T c i rep.certs := by
  induction depth with
  | zero =>
    intro w v c i rep v' w' _ h
    cases h
  | succ depth ih =>
    intro w v c i rep v' w' hj h
    unfold validateTree at h
    obtain ⟨⟨ca, kids, v1⟩, w1, h1, h2⟩ := M.bind_ok.1 h
    obtain ⟨a1, a2⟩ := hs w v c i ca kids v1 w1 hj h1
    obtain ⟨b1, b2, l, b3, b4⟩ := validateKids_walked ih kids w1 v1 _ rep v' w' a1
      (Report.Ok.zero.addCert ca) h2
    refine ⟨b1, b2, ?_⟩
    rw [b3]
    exact .node c i ca kids l a2 b4

theorem WalkedTals.closed {V : Tal → ResCert → Prop}
    {T : ResCert → CaInfo → ValidatedCa → List (ResCert × CaInfo) → Prop} {ts : List Tal}
    {l : List ValidatedCa} (h : WalkedTals V T ts l) :
    Closed T l l ∧ ∀ t ∈ ts, ∃ c i, V t c ∧ CaInfo.Of i c ∧
      ∃ ca ∈ l, ∃ kids, T c i ca kids := by
  induction h with
  | nil => exact ⟨fun _ h => (by cases h), fun _ h => (by cases h)⟩
  | cons t c i ts l l' hv hi hw _ ih =>
    obtain ⟨a1, ca, a2, a3⟩ := hw.closed
    obtain ⟨b1, b2⟩ := ih
    refine ⟨(a1.mono (fun y hy => List.mem_append.2 (Or.inl hy))).append
      (b1.mono (fun y hy => List.mem_append.2 (Or.inr hy))), fun t' ht => ?_⟩
    rcases List.mem_cons.1 ht with rfl | ht
    · exact ⟨c, i, hv, hi, ca, List.mem_append.2 (Or.inl a2), a3⟩
    · obtain ⟨c', i', c1, c2, ca', c3, c4⟩ := b2 t' ht
      exact ⟨c', i', c1, c2, ca', List.mem_append.2 (Or.inr c3), c4⟩

theorem WalkedTals.chain {V : Tal → ResCert → Prop} {Q : ResCert → CaInfo → Prop}
    {T : ResCert → CaInfo → ValidatedCa → List (ResCert × CaInfo) → Prop} {ts : List Tal}
    {l : List ValidatedCa} (hq : ∀ c i ca kids, Q c i → T c i ca kids → ∀ k ∈ kids, Q k.1 k.2)
    (h : WalkedTals V T ts l) (hv : ∀ t ∈ ts, ∀ c i, V t c → CaInfo.Of i c → Q c i) :
    ∀ ca ∈ l, ∃ c i kids, Q c i ∧ T c i ca kids ∧ ∀ k ∈ kids, ∃ ca' ∈ l, ∃ kids', T k.1 k.2 ca' kids' := by
  induction h with
  | nil => exact fun _ h => (by cases h)
  | cons t c i ts l l' hv' hi hw _ ih =>
    have a1 := hw.chain hq (hv t (List.mem_cons_self ..) c i hv' hi)
    have a2 := ih (fun t ht => hv t (List.mem_cons_of_mem _ ht))
    intro x hx
    rcases List.mem_append.1 hx with hx | hx
    · obtain ⟨c', i', kids', b1, b2, b3⟩ := a1 x hx
      refine ⟨c', i', kids', b1, b2, fun k hk => ?_⟩
      obtain ⟨ca', h3, h4⟩ := b3 k hk
      exact ⟨ca', List.mem_append.2 (Or.inl h3), h4⟩
    · obtain ⟨c', i', kids', b1, b2, b3⟩ := a2 x hx
      refine ⟨c', i', kids', b1, b2, fun k hk => ?_⟩
      obtain ⟨ca', h3, h4⟩ := b3 k hk
      exact ⟨ca', List.mem_append.2 (Or.inr h3), h4⟩

/-- What the loop over the TALs needs to know about fetching a trust anchor. -/
def TaOk (J : World → Visited → Prop) (time : Time) (env : Env) (V : Tal → ResCert → Prop) : Prop :=
  ∀ w v t c w', J w v → Tal.validateAt t time env w = (.ok c, w') → J w' v ∧ V t c

theorem validateTals_walked {J : World → Visited → Prop} {V : Tal → ResCert → Prop}
    {T : ResCert → CaInfo → ValidatedCa → List (ResCert × CaInfo) → Prop} {env : Env}
    {offline : Bool} {time : Time} (hs : StepOk J offline time env T) (hv : TaOk J time env V)
    (depth : Nat) (ts : List Tal) :
    ∀ (w : World) (v : Visited) (rep0 rep : Report) (v' : Visited) (w' : World), J w v → rep0.Ok →
      validateTals depth v rep0 offline time ts env w = (.ok (rep, v'), w') →
      J w' v' ∧ rep.Ok ∧ ∃ l, rep.certs = rep0.certs ++ l ∧ WalkedTals V T ts l := by
  induction ts with
  | nil =>
    intro w v rep0 rep v' w' hj hr h
    unfold validateTals at h
    rw [M.pure_ok] at h
    obtain ⟨h1, rfl⟩ := h
    cases h1
    exact ⟨hj, hr, [], (List.append_nil _).symm, .nil⟩
  | cons t ts ih =>
    intro w v rep0 rep v' w' hj hr h
    unfold validateTals at h
    obtain ⟨⟨r, v1⟩, w1, h1, h2⟩ := M.bind_ok.1 h
    unfold validateTa at h1
    obtain ⟨c, w2, h3, h4⟩ := M.bind_ok.1 h1
    obtain ⟨hj2, hv2⟩ := hv w v t c w2 hj h3
    match hi : CaInfo.ofCert c with
    | none => rw [hi] at h4; cases h4
    | some i =>
      rw [hi] at h4
      obtain ⟨a1, a2, a3⟩ := validateTree_walked hs depth w2 v c i r v1 w1 hj2 h4
      obtain ⟨b1, b2, l, b3, b4⟩ := ih w1 v1 _ rep v' w' a1 (hr.addOther a2) h2
      refine ⟨b1, b2, r.certs ++ l, ?_, .cons t c i ts _ _ hv2 (caInfo_of.1 hi) a3 b4⟩
      rw [b3]
      show (rep0.certs ++ r.certs) ++ l = _
      rw [List.append_assoc]

theorem validate_walked {J : World → Visited → Prop} {V : Tal → ResCert → Prop}
    {T : ResCert → CaInfo → ValidatedCa → List (ResCert × CaInfo) → Prop} {env : Env}
    {offline : Bool} {depth : Nat} {v v' : Validator} {w w' : World} {rep : Report}
    (hs : ∀ time, time = env.clock w.tick → StepOk J offline time env T)
    (hv : ∀ time, time = env.clock w.tick → TaOk J time env V)
    (ht : J { w with tick := w.tick + 1 } v.repos)
    (h : v.validate depth offline env w = (.ok (rep, v'), w')) :
    J w' v'.repos ∧ rep.Ok ∧ WalkedTals V T v.tals rep.certs ∧ v'.tals = v.tals := by
  unfold Validator.validate at h
  rw [now_bind] at h
  obtain ⟨⟨r, repos⟩, w1, h1, h2⟩ := M.bind_ok.1 h
  obtain ⟨a1, a2, l, a3, a4⟩ := validateTals_walked (hs _ rfl) (hv _ rfl) depth v.tals _ _ _ _ _ _ ht
    Report.Ok.zero h1
  rw [M.pure_ok] at h2
  obtain ⟨h3, rfl⟩ := h2
  cases h3
  refine ⟨a1, a2, ?_, rfl⟩
  rw [a3]
  exact a4

end KSync
