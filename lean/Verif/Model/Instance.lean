import Verif.Model.Process

/-!
# Functions satisfying the assumptions on external code

The class `Ext` assumes that some functions exist which satisfy a few laws.  Here such
functions are given, so the assumptions can be met, and so that concrete executions can be
evaluated.  They are stand-ins: files are encoded as sequences of numbers instead of XML
and JSON, and the "hash" of a file is the file itself.
-/

namespace KSync.Inst

/-! ## A self-delimiting encoding -/

/-- Encoding as a list of numbers that can be followed by other things. -/
class Code (α : Type) where
  enc : α → List Nat
  dec : List Nat → Option (α × List Nat)
  dec_enc : ∀ a r, dec (enc a ++ r) = some (a, r)

open Code

instance : Code Nat where
  enc n := [n]
  dec l := match l with
    | [] => none
    | n :: r => some (n, r)
  dec_enc _ _ := rfl

/-- Encode by way of another type. -/
@[reducible] def Code.via [Code β] (f : α → β) (g : β → α) (h : ∀ a, g (f a) = a) : Code α where
  enc a := enc (f a)
  dec l := match (dec l : Option (β × List Nat)) with
    | some (b, r) => some (g b, r)
    | none => none
  dec_enc a r := by rw [dec_enc]; simp [h]

instance : Code Bool := Code.via (fun b => if b then 1 else 0) (fun n => n == 1) (by decide)
instance : Code Char := Code.via Char.toNat Char.ofNat (by intro a; simp)
instance : Code UInt8 := Code.via UInt8.toNat UInt8.ofNat (by intro a; simp)
instance : Code (BitVec n) := Code.via BitVec.toNat (BitVec.ofNat n) (by intro a; simp)

instance [Code α] [Code β] : Code (α × β) where
  enc p := enc p.1 ++ enc p.2
  dec l := match (dec l : Option (α × List Nat)) with
    | none => none
    | some (a, r) => match (dec r : Option (β × List Nat)) with
      | none => none
      | some (b, r') => some ((a, b), r')
  dec_enc p r := by simp [dec_enc]

instance : Code Int := Code.via (fun i => (decide (i < 0), i.natAbs))
  (fun p => if p.1 then -(p.2 : Int) else p.2) (by
    intro a
    by_cases h : a < 0 <;> simp [h] <;> omega)

def decMany [Code α] : Nat → List Nat → Option (List α × List Nat)
  | 0, r => some ([], r)
  | n + 1, r => match (dec r : Option (α × List Nat)) with
    | none => none
    | some (a, r') => match decMany n r' with
      | none => none
      | some (l, r'') => some (a :: l, r'')

theorem decMany_enc [Code α] (l : List α) (r : List Nat) :
    decMany l.length ((l.flatMap enc) ++ r) = some (l, r) := by
  induction l with
  | nil => rfl
  | cons a l ih => simp [decMany, dec_enc, ih]

instance [Code α] : Code (List α) where
  enc l := l.length :: l.flatMap enc
  dec l := match l with
    | [] => none
    | n :: r => decMany n r
  dec_enc l r := decMany_enc l r

instance [Code α] : Code (Option α) := Code.via Option.toList List.head? (by
  intro a; cases a <;> rfl)

instance : Code FetchSource := Code.via
  (fun s => match s with
    | .file p => ((true, p), ([], false))
    | .uri u m => ((false, []), (u, m)))
  (fun x : (Bool × Path) × (Str × Bool) => if x.1.1 then .file x.1.2 else .uri x.2.1 x.2.2)
  (by intro a; cases a <;> rfl)

instance : Code FetchMap := Code.via (fun m => (m.baseUri, m.baseFetch))
  (fun x => ⟨x.1, x.2⟩) (fun _ => rfl)
instance : Code Fetcher := Code.via (fun m => (m.notificationUri, m.fetchMap, m.insecure))
  (fun x => ⟨x.1, x.2.1, x.2.2⟩) (fun _ => rfl)
instance : Code DeltaInfo := Code.via (fun m => (m.serial, m.uri, m.hash))
  (fun x => ⟨x.1, x.2.1, x.2.2⟩) (fun _ => rfl)
instance : Code Notif := Code.via
  (fun m => (m.session, m.serial, m.snapUri, m.snapHash, m.deltas))
  (fun x => ⟨x.1, x.2.1, x.2.2.1, x.2.2.2.1, x.2.2.2.2⟩) (fun _ => rfl)
instance : Code RsyncUri := Code.via (fun m => (m.authority, m.module, m.path))
  (fun x => ⟨x.1, x.2.1, x.2.2⟩) (fun _ => rfl)
instance : Code DeltaElement := Code.via
  (fun e => match e with
    | .publish u b => (0, u, [], b)
    | .update u h b => (1, u, h, b)
    | .withdraw u h => (2, u, h, []))
  (fun x : Nat × RsyncUri × Hash × Bytes =>
    if x.1 = 0 then .publish x.2.1 x.2.2.2
    else if x.1 = 1 then .update x.2.1 x.2.2.1 x.2.2.2
    else .withdraw x.2.1 x.2.2.1)
  (by intro a; cases a <;> rfl)
instance : Code Tal := Code.via (fun m => (m.name, m.source, m.key))
  (fun x => ⟨x.1, x.2.1, x.2.2⟩) (fun _ => rfl)
instance : Code RepoData := Code.via
  (fun m => (m.etag, m.lastFetch, m.session, m.serial, m.objects, m.fetched))
  (fun x => ⟨x.1, x.2.1, x.2.2.2.2.2, x.2.2.1, x.2.2.2.1, x.2.2.2.2.1⟩) (fun _ => rfl)
instance : Code Visited := Code.via (fun m => (m.fetchers, m.data))
  (fun x => ⟨x.1, x.2⟩) (fun _ => rfl)
instance : Code Validator := Code.via (fun m => (m.tals, m.repos))
  (fun x => ⟨x.1, x.2⟩) (fun _ => rfl)
instance : Code NotificationSource := Code.via (fun m => (m.uri, m.name, m.etag))
  (fun x => ⟨x.1, x.2.1, x.2.2⟩) (fun _ => rfl)
instance : Code SourceMappings := Code.via (fun m => (m.baseUri, m.rrdpDir))
  (fun x => ⟨x.1, x.2⟩) (fun _ => rfl)
instance : Code SnapshotState := Code.via
  (fun m => (m.session, m.serial, m.hash, m.relPath, m.since))
  (fun x => ⟨x.1, x.2.1, x.2.2.1, x.2.2.2.1, x.2.2.2.2⟩) (fun _ => rfl)
instance : Code DeltaState := Code.via (fun m => (m.since, m.serial, m.hash, m.relPath))
  (fun x => ⟨x.1, x.2.1, x.2.2.1, x.2.2.2⟩) (fun _ => rfl)
instance : Code DeprecatedFile := Code.via (fun m => (m.since, m.path))
  (fun x => ⟨x.1, x.2⟩) (fun _ => rfl)
instance : Code RrdpState := Code.via
  (fun m => (m.source, m.mappings, m.snapshot, m.deltas, m.deprecated, m.validator))
  (fun x => ⟨x.1, x.2.1, x.2.2.1, x.2.2.2.1, x.2.2.2.2.1, x.2.2.2.2.2⟩) (fun _ => rfl)
instance : Code RsyncRevision := Code.via (fun m => (m.session, m.serial))
  (fun x => ⟨x.1, x.2⟩) (fun _ => rfl)
instance : Code DeprecatedRevision := Code.via (fun m => (m.since, m.revision))
  (fun x => ⟨x.1, x.2⟩) (fun _ => rfl)
instance : Code RsyncDirState := Code.via (fun m => (m.current, m.old))
  (fun x => ⟨x.1, x.2⟩) (fun _ => rfl)
instance : Code ResCert := Code.via (fun m => (m.siaMft, m.siaCa, m.siaRrdp, m.key, m.rest))
  (fun x => ⟨x.1, x.2.1, x.2.2.1, x.2.2.2.1, x.2.2.2.2⟩) (fun _ => rfl)
instance : Code CertObj := Code.via (fun m => (m.isCa, m.serial, m.raw))
  (fun x => ⟨x.1, x.2.1, x.2.2⟩) (fun _ => rfl)
instance : Code MftContent := Code.via (fun m => (m.crlUri, m.eeSerial, m.entries))
  (fun x => ⟨x.1, x.2.1, x.2.2⟩) (fun _ => rfl)
instance : Code CrlObj := Code.via (fun m => (m.nextUpdate, m.revoked, m.raw))
  (fun x => ⟨x.1, x.2.1, x.2.2⟩) (fun _ => rfl)
instance : Code RoaPayload := Code.via (fun m => (m.asn, m.v4, m.v6))
  (fun x => ⟨x.1, x.2.1, x.2.2⟩) (fun _ => rfl)
instance : Code AspaPayload := Code.via (fun m => (m.customer, m.providers))
  (fun x => ⟨x.1, x.2⟩) (fun _ => rfl)

/-! ## Numbers as bytes -/

/-- Base 100, least significant digit first; every digit but the last has 100 added. -/
def natBytesAux : Nat → Nat → Bytes
  | 0, n => [UInt8.ofNat (n % 100)]
  | f + 1, n =>
    if n < 100 then [UInt8.ofNat n] else UInt8.ofNat (100 + n % 100) :: natBytesAux f (n / 100)

def natBytes (n : Nat) : Bytes := natBytesAux n n

/-- Read one number; `k` is the weight of the next digit. -/
def readNat : Nat → Nat → Bytes → Option (Nat × Bytes)
  | _, _, [] => none
  | k, acc, b :: l =>
    if b.toNat < 100 then some (acc + k * b.toNat, l)
    else readNat (k * 100) (acc + k * (b.toNat - 100)) l

theorem readNat_aux (f n k acc : Nat) (r : Bytes) (h : n ≤ f) :
    readNat k acc (natBytesAux f n ++ r) = some (acc + k * n, r) := by
  induction f generalizing n k acc with
  | zero =>
    have : n = 0 := by omega
    subst this
    simp [natBytesAux, readNat]
  | succ f ih =>
    unfold natBytesAux
    split
    · rename_i h1
      have : n % 256 = n := by omega
      simp [readNat, this, h1]
    · rename_i h1
      have h2 : (100 + n % 100) % 256 = 100 + n % 100 := by omega
      simp only [List.cons_append, readNat, UInt8.toNat_ofNat', Nat.reducePow, h2]
      rw [if_neg (by omega), ih (n / 100) _ _ (by omega)]
      have h3 : 100 + n % 100 - 100 = n % 100 := by omega
      rw [h3]
      have h4 : n = n % 100 + 100 * (n / 100) := by omega
      have : acc + k * (n % 100) + k * 100 * (n / 100) = acc + k * n := by
        conv => rhs; rw [h4, Nat.mul_add, ← Nat.mul_assoc, ← Nat.add_assoc]
      rw [this]

/-- All numbers up to the end mark 255; the first argument bounds the number of steps. -/
def readNats : Nat → Bytes → Option (List Nat)
  | 0, _ => none
  | f + 1, b =>
    if b = [255] then some []
    else match readNat 1 0 b with
      | none => none
      | some (n, r) => match readNats f r with
        | none => none
        | some l => some (n :: l)

def natsBytes (l : List Nat) : Bytes := l.flatMap natBytes ++ [255]

theorem natBytesAux_small (f n : Nat) : ∀ b ∈ natBytesAux f n, b ≠ 255 := by
  induction f generalizing n with
  | zero =>
    intro b hb
    simp only [natBytesAux, List.mem_singleton] at hb
    intro h
    have h1 := congrArg UInt8.toNat (hb.symm.trans h)
    simp at h1
    omega
  | succ f ih =>
    intro b hb
    unfold natBytesAux at hb
    split at hb
    · simp only [List.mem_singleton] at hb
      intro h
      have h1 := congrArg UInt8.toNat (hb.symm.trans h)
      simp at h1
      omega
    · rcases List.mem_cons.1 hb with hb | hb
      · intro h
        have h1 := congrArg UInt8.toNat (hb.symm.trans h)
        simp at h1
        omega
      · exact ih _ b hb

theorem natBytesAux_ne (f n : Nat) : natBytesAux f n ≠ [] := by
  cases f with
  | zero => simp [natBytesAux]
  | succ f => unfold natBytesAux; split <;> simp

theorem readNats_natsBytes (l : List Nat) (f : Nat) (hf : l.length < f) :
    readNats f (natsBytes l) = some l := by
  induction l generalizing f with
  | nil =>
    obtain ⟨f, rfl⟩ : ∃ g, f = g + 1 := ⟨f - 1, by simp at hf; omega⟩
    rfl
  | cons n l ih =>
    obtain ⟨f, rfl⟩ : ∃ g, f = g + 1 := ⟨f - 1, by simp at hf; omega⟩
    have h1 : natsBytes (n :: l) = natBytes n ++ natsBytes l := by simp [natsBytes]
    rw [h1]
    unfold readNats
    rw [if_neg]
    · unfold natBytes
      rw [readNat_aux _ _ _ _ _ (Nat.le_refl n)]
      simp only [Nat.zero_add, Nat.one_mul]
      rw [ih f (by simp at hf; omega)]
    · intro h
      have hne := natBytesAux_ne n n
      unfold natBytes at h
      cases hb : natBytesAux n n with
      | nil => exact hne hb
      | cons b bs =>
        rw [hb] at h
        simp at h
        exact natBytesAux_small n n b (by rw [hb]; simp) h.1

/-- No end mark: nothing is read. -/
theorem readNats_none (f : Nat) (b : Bytes) (h : ∀ x ∈ b, x ≠ 255) : readNats f b = none := by
  induction f generalizing b with
  | zero => rfl
  | succ f ih =>
    unfold readNats
    rw [if_neg]
    · cases hr : readNat 1 0 b with
      | none => rfl
      | some p =>
        obtain ⟨n, r⟩ := p
        have sub : ∀ (k acc : Nat) (b : Bytes) (n : Nat) (r : Bytes),
            readNat k acc b = some (n, r) → ∀ x ∈ r, x ∈ b := by
          intro k acc b
          induction b generalizing k acc with
          | nil => intro n r h; simp [readNat] at h
          | cons c b ihb =>
            intro n r h x hx
            unfold readNat at h
            split at h
            · simp at h; rw [h.2]; simp [hx]
            · exact List.mem_cons_of_mem _ (ihb _ _ _ _ h x hx)
        simp only
        rw [ih r (fun x hx => h x (sub _ _ _ _ _ hr x hx))]
    · rintro rfl
      exact h 255 (by simp) rfl

def toBytes [Code α] (a : α) : Bytes := natsBytes (enc a)

def ofBytes [Code α] (b : Bytes) : Option α :=
  match readNats (b.length + 1) b with
  | none => none
  | some l => match (dec l : Option (α × List Nat)) with
    | some (a, []) => some a
    | _ => none

theorem length_natsBytes (l : List Nat) : l.length < (natsBytes l).length + 1 := by
  induction l with
  | nil => simp
  | cons n l ih =>
    have h1 : natsBytes (n :: l) = natBytes n ++ natsBytes l := by simp [natsBytes]
    have h2 : (natBytes n).length ≠ 0 := by
      intro h; exact natBytesAux_ne n n (List.length_eq_zero_iff.1 h)
    rw [h1, List.length_append]
    simp only [List.length_cons]
    omega

theorem ofBytes_toBytes [Code α] (a : α) : ofBytes (toBytes a) = some a := by
  unfold ofBytes toBytes
  rw [readNats_natsBytes _ _ (length_natsBytes _)]
  have := dec_enc a []
  rw [List.append_nil] at this
  simp [this]

theorem ofBytes_torn [Code α] (a : α) (k : Nat) (h : k < (toBytes a).length) :
    (ofBytes ((toBytes a).take k) : Option α) = none := by
  unfold ofBytes
  rw [readNats_none]
  intro x hx
  unfold toBytes natsBytes at h hx
  rw [List.length_append, List.length_singleton] at h
  rw [List.take_append_of_le_length (by omega)] at hx
  have := List.mem_of_mem_take hx
  rw [List.mem_flatMap] at this
  obtain ⟨n, _, hn⟩ := this
  exact natBytesAux_small n n x hn

/-! ## The instance -/

/-- The URI type of the rpki crate admits no dot segments and no empty segments. -/
def cleanUri (u : RsyncUri) : Bool :=
  !decide (u.path.head? = some '/') && !decide (['.', '.'] ∈ comps u.path) &&
  !decide ((u.authority ++ '/' :: u.module ++ '/' :: u.path).head? = some '/') &&
  !decide (['.', '.'] ∈ comps (u.authority ++ '/' :: u.module ++ '/' :: u.path))

/-- Stand-ins for the external functions. -/
@[reducible] def ext : Ext where
  sha b := b
  parseNotif := ofBytes
  writeNotif := toBytes
  zeroLimit := .panic
  verifyFirst := false
  streamSnapshot b := match (ofBytes b : Option (List (RsyncUri × Bytes))) with
    | some l => (l.takeWhile (fun e => cleanUri e.1), l.all (fun e => cleanUri e.1))
    | none => ([], false)
  parseSnapshot := ofBytes
  parseDelta := ofBytes
  encState s := toBytes s.persisted
  decState := ofBytes
  encRsync := toBytes
  decRsync := ofBytes
  cerTime b := some b.length
  crlTime b := some (b.length + 1)
  sigTime b := if b = [] then none else some (b.length + 2)
  parseTal := ofBytes
  validateTa b _ := ofBytes b
  decodeCert := ofBytes
  validateCa c issuer _ := match (ofBytes c.raw : Option (Bytes × ResCert)) with
    | some (key, rc) => if key = issuer.key then some rc else none
    | none => none
  validateRouter c _ _ := decide (c.raw = [])
  decodeMft b := some b
  validateMft b _ _ := ofBytes b
  decodeCrl := ofBytes
  crlSigOk crl key := decide (crl.raw = key)
  mftHashOk h b := decide (b = h)
  decodeRoa b := some b
  processRoa b _ _ := ofBytes b
  decodeAspa b := some b
  processAspa b _ _ := ofBytes b
  parse_write := ofBytes_toBytes
  dec_enc _ := ofBytes_toBytes _
  dec_enc_rsync := ofBytes_toBytes
  dec_torn _ k h := ofBytes_torn _ k h
  dec_rsync_torn := ofBytes_torn

end KSync.Inst
