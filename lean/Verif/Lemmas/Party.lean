import Verif.Lemmas.Lock
import Verif.Props.Mirror
import Verif.Props.Client
import Verif.Spec.Party

/-! # Relying parties (C83) -/

set_option linter.unusedSectionVars false
set_option linter.unusedVariables false

namespace KSync

variable [Ext]

/-! ## Applying a delta -/

theorem Objects.set_eq (o : Objects) (u : Str) (x : Option Bytes) : (o.set u x) u = x := if_pos rfl

theorem Objects.set_ne (o : Objects) {u v : Str} (x : Option Bytes) (h : v ≠ u) : (o.set u x) v = o v := if_neg h

/-- What a patch does not mention stays. -/
theorem Patch.rest {o o' : Objects} {els : List DeltaElement} (h : Patch o els o') :
    ∀ u, u ∉ els.map (·.about) → o' u = o u := by
  induction h with
  | nil o => exact fun _ _ => rfl
  | publish v x els o o' _ ih =>
    intro u hu
    rw [List.map_cons, List.mem_cons, not_or] at hu
    rw [ih u hu.2]; exact Objects.set_ne _ _ hu.1
  | update v k x els o o' old _ _ _ ih =>
    intro u hu
    rw [List.map_cons, List.mem_cons, not_or] at hu
    rw [ih u hu.2]; exact Objects.set_ne _ _ hu.1
  | withdraw v k els o o' old _ _ _ ih =>
    intro u hu
    rw [List.map_cons, List.mem_cons, not_or] at hu
    rw [ih u hu.2]; exact Objects.set_ne _ _ hu.1

/-- The content a delta element gives its URI. -/
def DeltaElement.gives : DeltaElement → Option Bytes
  | .publish _ x => some x
  | .update _ _ x => some x
  | .withdraw _ _ => none

theorem Patch.gives {o o' : Objects} {els : List DeltaElement} (h : Patch o els o')
    (hn : (els.map (·.about)).Nodup) : ∀ e ∈ els, o' e.about = e.gives := by
  induction h with
  | nil o => intro e he; cases he
  | publish v x els o o' h ih =>
    rw [List.map_cons, List.nodup_cons] at hn
    intro e he
    rcases List.mem_cons.1 he with rfl | he
    · rw [h.rest _ hn.1]; exact Objects.set_eq _ _ _
    · exact ih hn.2 e he
  | update v k x els o o' old _ _ h ih =>
    rw [List.map_cons, List.nodup_cons] at hn
    intro e he
    rcases List.mem_cons.1 he with rfl | he
    · rw [h.rest _ hn.1]; exact Objects.set_eq _ _ _
    · exact ih hn.2 e he
  | withdraw v k els o o' old _ _ h ih =>
    rw [List.map_cons, List.nodup_cons] at hn
    intro e he
    rcases List.mem_cons.1 he with rfl | he
    · rw [h.rest _ hn.1]; exact Objects.set_eq _ _ _
    · exact ih hn.2 e he

theorem ChangeOf.gives {els : List DeltaElement} {a b : Objects} (h : ChangeOf els a b) :
    ∀ e ∈ els, b e.about = e.gives := by
  intro e he
  match e, he with
  | .publish u x, he => exact h.publish u x he
  | .update u k x, he => exact (h.update u k x he).1
  | .withdraw u k, he => exact (h.withdraw u k he).1

/-- A patch that describes a change brings it about. -/
theorem ChangeOf.patched {els : List DeltaElement} {a a' b o : Objects} (h : ChangeOf els a b)
    (ha : ∀ u, a' u = a u) (hp : Patch a' els o) : ∀ u, o u = b u := by
  intro u
  by_cases hu : u ∈ els.map (·.about)
  · obtain ⟨e, he, rfl⟩ := List.mem_map.1 hu
    rw [hp.gives h.once e he, h.gives e he]
  · rw [hp.rest u hu, ha, h.rest u hu]

/-- It can be applied. -/
theorem patch_exists (els : List DeltaElement) : ∀ {o : Objects}, (els.map (·.about)).Nodup →
    (∀ u h x, .update u h x ∈ els → ∃ old, o u.toStr = some old ∧ Ext.sha old = h) →
    (∀ u h, .withdraw u h ∈ els → ∃ old, o u.toStr = some old ∧ Ext.sha old = h) →
    ∃ o', Patch o els o' := by
  induction els with
  | nil => exact fun _ _ _ => ⟨_, .nil _⟩
  | cons e els ih =>
    intro o hn h1 h2
    rw [List.map_cons, List.nodup_cons] at hn
    have key : ∀ x, ∃ o', Patch (o.set e.about x) els o' := by
      intro x
      refine ih hn.2 (fun u k y hm => ?_) (fun u k hm => ?_)
      · rw [Objects.set_ne]
        · exact h1 u k y (List.mem_cons_of_mem _ hm)
        · exact fun he => hn.1 (he ▸ List.mem_map.2 ⟨_, hm, rfl⟩)
      · rw [Objects.set_ne]
        · exact h2 u k (List.mem_cons_of_mem _ hm)
        · exact fun he => hn.1 (he ▸ List.mem_map.2 ⟨_, hm, rfl⟩)
    match e, h1, h2, key with
    | .publish u x, _, _, key =>
      obtain ⟨o', h⟩ := key (some x)
      exact ⟨o', .publish u x els o o' h⟩
    | .update u k x, h1, _, key =>
      obtain ⟨o', h⟩ := key (some x)
      obtain ⟨old, a1, a2⟩ := h1 u k x List.mem_cons_self
      exact ⟨o', .update u k x els o o' old a1 a2 h⟩
    | .withdraw u k, _, h2, key =>
      obtain ⟨o', h⟩ := key none
      obtain ⟨old, a1, a2⟩ := h2 u k List.mem_cons_self
      exact ⟨o', .withdraw u k els o o' old a1 a2 h⟩

theorem ChangeOf.applies {els : List DeltaElement} {a a' b : Objects} (h : ChangeOf els a b)
    (ha : ∀ u, a' u = a u) : ∃ o, Patch a' els o :=
  patch_exists els h.once (fun u k x hx => by rw [ha]; exact (h.update u k x hx).2)
    (fun u k hx => by rw [ha]; exact (h.withdraw u k hx).2)

/-! ## Applying all of them -/

theorem ByDeltas.right {get : Str → Option Bytes} {n : Notif} {content : Uuid → Nat → Objects}
    (ht : Truthful content n) {s t : Nat} {o o' : Objects} (h : ByDeltas get n s o t o')
    (ho : ∀ u, o u = content n.session s u) : ∀ u, o' u = content n.session t u := by
  induction h with
  | done => exact ho
  | step h1 h2 h3 h4 h5 h6 _ ih =>
    exact ih ((ht.deltas _ h1 _ _ h4 h5 _ h2).patched ho h6)

theorem byDeltas_exists {get : Str → Option Bytes} {n : Notif} {content : Uuid → Nat → Objects}
    (ht : Truthful content n) (hr : Readable n) (hget : ∀ d ∈ n.deltas, ∃ b, get d.uri = some b ∧ Ext.sha b = d.hash)
    (k : Nat) : ∀ {s : Nat} {o : Objects}, (∀ u, o u = content n.session s u) →
    (∀ i, s < i → i ≤ s + k → ∃ d ∈ n.deltas, d.serial = i) → ∃ o', ByDeltas get n s o (s + k) o' := by
  induction k with
  | zero => exact fun _ _ => ⟨_, .done⟩
  | succ k ih =>
    intro s o ho hd
    obtain ⟨d, d1, d2⟩ := hd (s + 1) (by omega) (by omega)
    obtain ⟨b, b1, b2⟩ := hget d d1
    obtain ⟨els, e1⟩ := hr.deltas d d1 b b2
    have hc := ht.deltas d d1 b els b2 e1 s d2
    obtain ⟨o1, p1⟩ := hc.applies ho
    obtain ⟨o', h⟩ := ih (s := s + 1) (hc.patched ho p1) (fun i a b => hd i (by omega) (by omega))
    refine ⟨o', .step d1 d2 b1 b2 e1 p1 ?_⟩
    have : s + (k + 1) = s + 1 + k := by omega
    rw [this]
    exact h

/-! ## What is published -/

theorem Mirroring.lifetime {σ : Nat → Notif} {life : SourceLife} {c : Config} {base name : Str}
    {i : Progress × Nat} {f : FS} (h : Mirroring σ life c base name i f) : Lifetime life c base name i.1 f := by
  unfold Mirroring at h
  induction h with
  | start h => exact .start h
  | run _ h1 h2 ih => exact .run ih h1.1 h2

theorem Mirroring.following {σ : Nat → Notif} {life : SourceLife} {c : Config} {base name : Str}
    {i : Progress × Nat} {f : FS} (h : Mirroring σ life c base name i f) : Following σ c base name i.2 f := by
  unfold Mirroring at h
  induction h with
  | start h => exact .start h
  | run _ h1 h2 ih => exact .run ih h1.2 h2

theorem Mirroring.mirrors {σ : Nat → Notif} {life : SourceLife} {c : Config} {base name : Str}
    {i : Progress × Nat} {f : FS} {n : Notif} (hl : Layout c base name)
    (ho : c.rsyncEnabled = true → CleanObjects c.rsyncIncludeHost) (hσ : FollowsRfc σ)
    (h : Mirroring σ life c base name i f) (hn : Published c name f n) : ∃ k ≤ i.2, Mirrors c (σ k) n := by
  obtain ⟨t, hn⟩ := hn
  rcases C66_exact σ c base name i.2 f hl ho hσ h.following with h1 | ⟨k, hk, m, t', h1, h2⟩
  · rw [hn] at h1; cases h1
  · rw [hn] at h2
    injection h2 with h2
    injection h2 with h2 _
    obtain rfl := writeNotif_inj h2
    exact ⟨k, hk, h1⟩

theorem Mirrors.truthful {c : Config} {m n : Notif} {content : Uuid → Nat → Objects} (h : Mirrors c m n)
    (ht : Truthful content m) : Truthful content n := by
  obtain ⟨ds, h1, rfl⟩ := h
  have hs : ∀ d ∈ ds.reverse, d ∈ m.deltas := fun d hd => h1.subset d (List.mem_reverse.1 hd)
  exact ⟨fun d hd => ht.range d (hs d hd), ht.snapshot, fun d hd => ht.deltas d (hs d hd)⟩

theorem Mirrors.readable {c : Config} {m n : Notif} (h : Mirrors c m n) (ht : Readable m) : Readable n := by
  obtain ⟨ds, h1, rfl⟩ := h
  exact ⟨ht.snapshot, fun d hd => ht.deltas d (h1.subset d (List.mem_reverse.1 hd))⟩

/-- A file that is asked for in time. -/
theorem InTime.file {life : SourceLife} {c : Config} {base name : Str} {t0 : Time} {p0 : Progress} {f0 : FS}
    {n : Notif} {get : Str → Option Bytes} (h : InTime life c base name t0 p0 f0 n get) (hl : Layout c base name)
    (ho : c.rsyncEnabled = true → CleanObjects c.rsyncIncludeHost) (h0 : Lifetime life c base name p0 f0)
    (hn : Published c name f0 n) : ∀ r ∈ n.refs, ∃ b, get r.1 = some b ∧ Ext.sha b = r.2 := by
  intro r hr
  obtain ⟨t, hn⟩ := hn
  have key : ∀ p f, Meanwhile life c base name t0 p0 f0 p f →
      ∃ rel, r.1 = base ++ rel ∧ FileHas f (c.pubPath rel) r.2 := fun p f hm =>
    C74_listed_files_stay_partial life c base name p0 p f0 f n t t0 hl ho h0 hn hm r hr
  obtain ⟨rel, hrel, _⟩ := key p0 f0 (.start ⟨rfl, rfl⟩)
  obtain ⟨p, f, h1, h2⟩ := h r hr rel hrel
  obtain ⟨rel', hrel', b, b1, b2⟩ := key p f h1
  obtain rfl : rel' = rel := List.append_cancel_left (hrel'.symm.trans hrel)
  exact ⟨b, h2.trans b1, b2⟩

/-- With the files, the snapshot can be used. -/
theorem Party.by_snapshot {n : Notif} {get : Str → Option Bytes} {p : Option Party} (hrn : Readable n)
    (hg : ∀ r ∈ n.refs, ∃ b, get r.1 = some b ∧ Ext.sha b = r.2) : ∃ q, Party.Gets get n p q := by
  obtain ⟨b, b1, b2⟩ := hg (n.snapUri, n.snapHash) List.mem_cons_self
  obtain ⟨els, he⟩ := hrn.snapshot b b2
  exact ⟨_, .snapshot b1 b2 he (fun u => rfl)⟩

/-- With the files, deltas can be used if there are enough of them. -/
theorem Party.by_deltas {σ : Nat → Notif} {c : Config} {k : Nat} {n : Notif} {get : Str → Option Bytes} {p : Party}
    {content : Uuid → Nat → Objects} (hσ : FollowsRfc σ) (hm : Mirrors c (σ k) n) (htn : Truthful content n)
    (hrn : Readable n) (hg : ∀ r ∈ n.refs, ∃ b, get r.1 = some b ∧ Ext.sha b = r.2) (hp : p.Genuine content)
    (hs : p.session = n.session) (hle : p.serial ≤ n.serial) (hd : n.serial ≤ p.serial + n.deltas.length) :
    ∃ o, ByDeltas get n p.serial p.objects n.serial o ∧ ∀ u, o u = content n.session n.serial u := by
  have hg : ∀ d ∈ n.deltas, ∃ b, get d.uri = some b ∧ Ext.sha b = d.hash := fun d hd =>
    hg (d.uri, d.hash) (List.mem_cons_of_mem _ (List.mem_map.2 ⟨d, hd, rfl⟩))
  have hp' : ∀ u, p.objects u = content n.session p.serial u := fun u => by rw [hp u, hs]
  have key : ∃ o, ByDeltas get n p.serial p.objects (p.serial + (n.serial - p.serial)) o := by
    refine byDeltas_exists htn hrn hg _ hp' (fun j h1 h2 => ?_)
    obtain ⟨ds, hlim, rfl⟩ := hm
    have hne : ds ≠ [] := by
      intro he
      rw [he] at hd
      have : (σ k).serial ≤ p.serial + 0 := hd
      have h2 : j ≤ p.serial + ((σ k).serial - p.serial) := h2
      omega
    obtain ⟨lo, e1, _, e3⟩ := hlim.ends (hσ.reaches k) hne
    have hd : (σ k).serial ≤ p.serial + ds.reverse.length := hd
    rw [List.length_reverse] at hd
    have hle : p.serial ≤ (σ k).serial := hle
    have h2 : j ≤ p.serial + ((σ k).serial - p.serial) := h2
    obtain ⟨d, d1, d2⟩ := e3 j (by omega) (by omega)
    exact ⟨d, List.mem_reverse.2 d1, d2⟩
  rw [Nat.add_sub_cancel' hle] at key
  obtain ⟨o, hb⟩ := key
  exact ⟨o, hb, hb.right htn hp'⟩

end KSync
