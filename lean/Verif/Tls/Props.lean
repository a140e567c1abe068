import Verif.Tls.Lemmas

/-!
# The server is checked as the settings ask (C94)
-/

namespace Verif.Tls

/-! ## Specification of the check -/

/-- The servers a device may talk to over an encrypted connection, as its
settings ask.  `host` is the name the connection is made to. -/
def Settings.Trusted {Peer : Type} (signedBy : Cert → Peer → Prop) (s : Settings) (host : Name)
    (p : Peer) : Prop :=
  match s.stored with
  | some c =>
    c.level = some 2 ∨
    (c.level = some 1 ∧ ∃ t, c.customCa = some t ∧ signedBy t p) ∨
    (c.level ≠ some 1 ∧ c.level ≠ some 2 ∧
      ((PublicServer host ∧ ∃ t, s.ca = some t ∧ signedBy t p) ∨
       (¬ PublicServer host ∧ ∃ t, s.ca3 = some t ∧ signedBy t p)))
  | none =>
    (∃ t, s.ca = some t ∧ signedBy t p ∧ (PublicServer host ∨ s.ca3 = none)) ∨
    (∃ t, s.ca3 = some t ∧ signedBy t p ∧ (¬ PublicServer host ∨ s.ca = none))

/-- A relation "signed by" of a TLS library: nothing is signed by the text
`SUPLA`, nor by an empty one. -/
structure Library {Peer : Type} (signedBy : Cert → Peer → Prop) : Prop where
  supla : ∀ p, ¬ signedBy [83, 85, 80, 76, 65] p
  empty : ∀ p, ¬ signedBy [] p

/-- The attempts of a device started with these settings. -/
def Settings.run (s : Settings) (ops : List Op) : List Attempt := attempts (start (fresh s)) ops

/-! ## The started device -/

/-- A library for the examples: a server is signed by the text it carries. -/
def exampleSigned (c : Cert) (p : Cert) : Prop := c = p ∧ c ≠ [] ∧ c ≠ [83, 85, 80, 76, 65]

theorem exampleLibrary : Library exampleSigned := ⟨fun _ h => h.2.2 rfl, fun _ h => h.2.1 rfl⟩

/-- `a.supla.org`, with the certificates 1 and 2, for the examples. -/
def exampleSettings : Settings :=
  { ca := some [1], ca3 := some [2], port := -1, ssl := true, server := 97 :: publicDomain, stored := none }

theorem start_none (s : Settings) (h : s.stored = none) :
    start (fresh s) =
      { fresh s with sel := if (fresh s).usesSsl then chooseWithout (fresh s) else none } := by
  have h2 : (fresh s).stored = none := h
  have hl : loadConfig (fresh s) = fresh s := by
    unfold loadConfig
    split
    · rfl
    · rename_i c hc; rw [h2] at hc; cases hc
  unfold start
  rw [hl]
  unfold onInit
  have h1 : (fresh s).enabled = true := rfl
  rw [h1, Bool.true_and]
  cases hu : (fresh s).usesSsl
  · rfl
  · rw [if_pos rfl]
    split
    · rename_i c hc; rw [h2] at hc; cases hc
    · rw [if_pos rfl]; rfl

/-- The layer after the stored settings are read. -/
def loaded (s : Settings) (c : Stored) : Dev :=
  { fresh s with server := if c.server = [] then setServerName s.server else setServerName c.server, port := storedPort c.port }

theorem onInit_stored (d : Dev) (c : Stored) (h : d.stored = some c) : onInit d = d := by
  unfold onInit
  rw [h]
  dsimp only
  exact ite_self d

theorem start_some (s : Settings) (c : Stored) (h : s.stored = some c) (he : c.enabled = true) :
    start (fresh s) =
      { loaded s c with sel := if (loaded s c).usesSsl then chooseCert (loaded s c) c else none } := by
  have hst : (fresh s).stored = some c := h
  have hl : loadConfig (fresh s) =
      { loaded s c with sel := if (loaded s c).usesSsl then chooseCert (loaded s c) c else none } := by
    unfold loadConfig
    split
    · rename_i hc; rw [hst] at hc; cases hc
    · rename_i c' hc
      rw [hst] at hc
      cases hc
      rw [if_pos he]
      have hd : loadServer (fresh s) c = loaded s c := rfl
      dsimp only
      rw [hd]
      cases hu : (loaded s c).usesSsl
      · rfl
      · rw [if_pos rfl, if_pos rfl]
  unfold start
  rw [hl]
  exact onInit_stored _ c h

theorem start_disabled (s : Settings) (c : Stored) (h : s.stored = some c) (he : c.enabled = false) :
    (start (fresh s)).enabled = false := by
  have hst : (fresh s).stored = some c := h
  unfold start loadConfig
  rw [hst]
  dsimp only
  rw [he]
  rfl

/-- Every attempt is made by a device whose protocol is on. -/
theorem run_enabled (s : Settings) (ops : List Op) (a : Attempt) (ha : a ∈ s.run ops) (c : Stored)
    (h : s.stored = some c) : c.enabled = true := by
  have := (attempts_same (running_start s) ops a ha).2
  cases he : c.enabled with
  | true => rfl
  | false => rw [start_disabled s c h he] at this; exact absurd this (by decide)

/-! ## Where the device connects to -/

theorem host_eq (s : Settings) (ops : List Op) (a : Attempt) (ha : a ∈ s.run ops) :
    a.host = setServerName s.wantedServer := by
  have hs := (attempts_same (running_start s) ops a ha).1
  rw [hs]
  show (start (fresh s)).server = _
  cases h : s.stored with
  | none =>
    rw [start_none s h]
    unfold Settings.wantedServer
    rw [h]
    rfl
  | some c =>
    rw [start_some s c h (run_enabled s ops a ha c h)]
    unfold Settings.wantedServer
    rw [h]
    show (if c.server = [] then setServerName s.server else setServerName c.server) = setServerName (if c.server = [] then s.server else c.server)
    by_cases hc : c.server = []
    · rw [if_pos hc, if_pos hc]
    · rw [if_neg hc, if_neg hc]

/-- The full claim: the device connects to the server the user asked for, only a
misspelled public one is corrected. -/
def HostKept : Prop :=
  ∀ (s : Settings) (ops : List Op) (a : Attempt), a ∈ s.run ops →
    ¬ Misspelled s.wantedServer → a.host = s.wantedServer

/-- Of a name with 65 characters the last is lost. -/
theorem host_kept_violation : ¬ HostKept := by
  intro h
  have := h { exampleSettings with server := List.replicate 65 97 } [.connect] ⟨List.replicate 64 97, 2016, ⟨true, some [2]⟩⟩
    (by
      have : Settings.run { exampleSettings with server := List.replicate 65 97 } [.connect] = [⟨List.replicate 64 97, 2016, ⟨true, some [2]⟩⟩] := by decide +kernel
      rw [this]; exact List.mem_singleton.2 rfl)
    (by
      rintro ⟨hp, _⟩
      have := (isPublic_iff' _).2 hp
      revert this
      decide +kernel)
  have := congrArg List.length this
  revert this
  decide +kernel

/-- A name of at most 64 characters is used as it is. -/
theorem host_kept_partial (s : Settings) (ops : List Op) (a : Attempt) (ha : a ∈ s.run ops)
    (hl : s.wantedServer.length ≤ 64) (hm : ¬ Misspelled s.wantedServer) :
    a.host = s.wantedServer := by
  rw [host_eq s ops a ha, setServerName_other _ hl hm]

/-- In a misspelled name only the second and third letters are changed, to `vr`. -/
theorem host_corrected (s : Settings) (ops : List Op) (a : Attempt) (ha : a ∈ s.run ops)
    (hl : s.wantedServer.length ≤ 64) (hm : Misspelled s.wantedServer) :
    ∃ x y z rest, s.wantedServer = x :: y :: z :: rest ∧ a.host = x :: 118 :: 114 :: rest := by
  rw [host_eq s ops a ha]
  exact setServerName_misspelled _ hl hm

/-- The correction never turns a private server into a public one or the
reverse. -/
theorem host_public (s : Settings) (ops : List Op) (a : Attempt) (ha : a ∈ s.run ops)
    (hl : s.wantedServer.length ≤ 64) : PublicServer a.host ↔ PublicServer s.wantedServer := by
  rw [host_eq s ops a ha, ← isPublic_iff', isPublic_setServerName, List.take_of_length_le hl,
    isPublic_iff']

-- `srv1.supla.org` is corrected, and an attempt is made
example : (({ exampleSettings with server := [115, 114, 118, 49] ++ publicDomain } : Settings).run [.connect]).map (·.host) = [[115, 118, 114, 49] ++ publicDomain] := by decide +kernel

/-! ## The port and the encryption -/

/-- The stored port is not the one number the program takes for a port although
it is none. -/
def Settings.PortSane (s : Settings) : Prop := ∀ c, s.stored = some c → c.port ≠ some 65536

theorem wantedPort_some (s : Settings) (c : Stored) (h : s.stored = some c) (hp : s.PortSane) :
    (loaded s c).port = s.wantedPort.getD (-1) := by
  have hc := hp c h
  show storedPort c.port = _
  unfold Settings.wantedPort storedPort
  rw [h]
  dsimp only
  cases he : c.port with
  | none => rfl
  | some v =>
    dsimp only
    have hv : v ≠ 65536 := fun e => hc (by rw [he, e])
    by_cases h1 : 1 ≤ v ∧ v ≤ 65535
    · rw [if_pos h1, if_neg (by omega)]; rfl
    · rw [if_neg h1, if_pos (by omega)]; rfl

theorem wantedPort_none (s : Settings) (h : s.stored = none) :
    (fresh s).port = s.wantedPort.getD (-1) := by
  unfold Settings.wantedPort
  rw [h]
  show s.port = _
  by_cases h1 : s.port = -1
  · simp [h1]
  · simp [h1]

theorem start_port (s : Settings) (hp : s.PortSane) (he : (start (fresh s)).enabled = true) :
    (start (fresh s)).port = s.wantedPort.getD (-1) ∧ (start (fresh s)).ssl = s.ssl := by
  cases h : s.stored with
  | none => rw [start_none s h]; exact ⟨wantedPort_none s h, rfl⟩
  | some c =>
    have hce : c.enabled = true := by
      cases hc : c.enabled with
      | true => rfl
      | false => rw [start_disabled s c h hc] at he; exact absurd he (by decide)
    rw [start_some s c h hce]
    exact ⟨wantedPort_some s c h hp, rfl⟩

theorem wantedPort_ne (s : Settings) : s.wantedPort ≠ some (-1) := by
  unfold Settings.wantedPort
  split
  · split
    · simp
    · rename_i h; simpa using h
  · split
    · split
      · rename_i h; simp only [ne_eq, Option.some.injEq]; omega
      · simp
    · simp

/-- The full claim: the connection is encrypted exactly when the port asked for
is 2016, or none is asked for and encryption was not switched off. -/
def EncryptedAsAsked : Prop :=
  ∀ (s : Settings) (ops : List Op) (a : Attempt), a ∈ s.run ops →
    (a.client.ssl = true ↔ s.wantedPort = some 2016 ∨ (s.wantedPort = none ∧ s.ssl = true))

/-- A stored port 65536 is taken for a port: the device connects without
encryption, to port 0. -/
theorem encrypted_violation : ¬ EncryptedAsAsked := by
  intro h
  let s : Settings := { exampleSettings with stored := some ⟨true, [], some 65536, none, none, true⟩ }
  have := (h s [.connect] ⟨97 :: publicDomain, 0, ⟨false, none⟩⟩
    (by
      have : s.run [.connect] = [⟨97 :: publicDomain, 0, ⟨false, none⟩⟩] := by decide +kernel
      rw [this]; exact List.mem_singleton.2 rfl)).2 (Or.inr ⟨by decide, rfl⟩)
  exact absurd this (by decide)

theorem encrypted_partial (s : Settings) (hp : s.PortSane) (ops : List Op) (a : Attempt)
    (ha : a ∈ s.run ops) :
    a.client.ssl = true ↔ s.wantedPort = some 2016 ∨ (s.wantedPort = none ∧ s.ssl = true) := by
  obtain ⟨hs, he⟩ := attempts_same (running_start s) ops a ha
  obtain ⟨hport, hssl⟩ := start_port s hp he
  have hne := wantedPort_ne s
  rw [hs]
  show (initClient (start (fresh s)) {}).ssl = true ↔ _
  have hu : (initClient (start (fresh s)) {}).ssl = (start (fresh s)).usesSsl := by
    unfold initClient
    cases (start (fresh s)).usesSsl <;> rfl
  rw [hu]
  unfold Dev.usesSsl
  rw [hport, hssl]
  cases hw : s.wantedPort with
  | none => simp
  | some v =>
    have : v ≠ -1 := fun e => hne (by rw [hw, e])
    simp [this]

/-- The device connects to the port asked for; without one to 2016, or 2015 when
encryption was switched off. -/
theorem port_partial (s : Settings) (hp : s.PortSane) (ops : List Op) (a : Attempt)
    (ha : a ∈ s.run ops) :
    (∀ v, s.wantedPort = some v → 0 ≤ v → v ≤ 65535 → (a.port : Int) = v) ∧
    (s.wantedPort = none → a.port = if s.ssl then 2016 else 2015) := by
  obtain ⟨hs, he⟩ := attempts_same (running_start s) ops a ha
  obtain ⟨hport, hssl⟩ := start_port s hp he
  have hne := wantedPort_ne s
  have hap : a.port = ((start (fresh s)).getPort % 65536).toNat := by rw [hs]
  unfold Dev.getPort at hap
  rw [hport, hssl] at hap
  constructor
  · intro v hv h0 h1
    have hv1 : v ≠ -1 := by omega
    rw [hv] at hap
    simp only [Option.getD_some, if_neg hv1] at hap
    omega
  · intro hw
    rw [hw] at hap
    simp only [Option.getD_none, if_true] at hap
    rw [hap]
    cases s.ssl <;> rfl

-- a stored port 2016 of a device whose encryption is off by default
example : (({ exampleSettings with ssl := false, stored := some ⟨true, [], some 2016, none, none, true⟩ } : Settings).run [.connect, .giveClient, .connect]).map (fun a => (a.port, a.client)) = [(2016, ⟨true, some [1]⟩), (2016, ⟨true, some [1]⟩)] := by decide +kernel

/-! ## The server is checked -/

/-- An encrypted attempt uses the certificate the start has chosen. -/
theorem attempt_ca (s : Settings) (ops : List Op) (a : Attempt) (ha : a ∈ s.run ops)
    (hssl : a.client.ssl = true) :
    a.client.ca = (start (fresh s)).sel ∧ (start (fresh s)).usesSsl = true := by
  have hs := (attempts_same (running_start s) ops a ha).1
  rw [hs] at hssl ⊢
  dsimp only at hssl ⊢
  unfold initClient at hssl ⊢
  cases hu : (start (fresh s)).usesSsl with
  | false => rw [hu] at hssl; rw [if_neg Bool.false_ne_true] at hssl; exact absurd hssl Bool.false_ne_true
  | true => exact ⟨by rw [if_pos rfl], rfl⟩

/-- The certificate of an encrypted attempt of a device with stored settings. -/
theorem ca_stored (s : Settings) (c : Stored) (h : s.stored = some c) (ops : List Op) (a : Attempt)
    (ha : a ∈ s.run ops) (hssl : a.client.ssl = true) :
    a.client.ca = chooseCert (loaded s c) c ∧ (loaded s c).server = a.host := by
  obtain ⟨h1, h2⟩ := attempt_ca s ops a ha hssl
  have he := run_enabled s ops a ha c h
  have hh := (attempts_same (running_start s) ops a ha).1
  rw [start_some s c h he] at h1 h2 hh
  have h2' : (loaded s c).usesSsl = true := h2
  rw [h2'] at h1
  exact ⟨by rw [h1]; rfl, by rw [hh]⟩

/-- The certificate of an encrypted attempt of a device without them. -/
theorem ca_none (s : Settings) (h : s.stored = none) (ops : List Op) (a : Attempt)
    (ha : a ∈ s.run ops) (hssl : a.client.ssl = true) :
    a.client.ca = chooseWithout (fresh s) ∧ (fresh s).server = a.host := by
  obtain ⟨h1, h2⟩ := attempt_ca s ops a ha hssl
  have hh := (attempts_same (running_start s) ops a ha).1
  rw [start_none s h] at h1 h2 hh
  have h2' : (fresh s).usesSsl = true := h2
  rw [h2'] at h1
  exact ⟨by rw [h1]; rfl, by rw [hh]⟩

/-- The full claim: over an encrypted connection a device talks only to servers
its settings trust. -/
def OnlyTrusted : Prop :=
  ∀ (Peer : Type) (signedBy : Cert → Peer → Prop), Library signedBy →
    ∀ (s : Settings) (ops : List Op) (a : Attempt), a ∈ s.run ops → a.client.ssl = true →
      ∀ p, accepts signedBy a.client p → s.Trusted signedBy a.host p

/-- A device that has neither stored settings nor certificates encrypts the
connection but accepts every server. -/
theorem only_trusted_violation : ¬ OnlyTrusted := by
  intro h
  let s : Settings := { exampleSettings with ca := none, ca3 := none }
  have := h Cert exampleSigned exampleLibrary s [.connect] ⟨97 :: publicDomain, 2016, ⟨true, none⟩⟩
    (by
      have : s.run [.connect] = [⟨97 :: publicDomain, 2016, ⟨true, none⟩⟩] := by decide +kernel
      rw [this]; exact List.mem_singleton.2 rfl) rfl [7] (fun _ c hc => by cases hc)
  unfold Settings.Trusted at this
  rcases this with ⟨t, ht, _⟩ | ⟨t, ht, _⟩ <;> cases ht

theorem only_trusted_partial (Peer : Type) (signedBy : Cert → Peer → Prop) (hL : Library signedBy)
    (s : Settings) (hc : s.stored ≠ none ∨ s.ca ≠ none ∨ s.ca3 ≠ none) (ops : List Op) (a : Attempt)
    (ha : a ∈ s.run ops) (hssl : a.client.ssl = true) (p : Peer)
    (hacc : accepts signedBy a.client p) : s.Trusted signedBy a.host p := by
  have hacc' := hacc hssl
  unfold Settings.Trusted
  cases h : s.stored with
  | some c =>
    obtain ⟨hca, hhost⟩ := ca_stored s c h ops a ha hssl
    rw [hca] at hacc'
    have hpub := isPublic_iff' a.host
    rw [← hhost] at hpub ⊢
    dsimp only
    have hcaeq : (loaded s c).ca = s.ca := rfl
    have hca3eq : (loaded s c).ca3 = s.ca3 := rfl
    unfold chooseCert at hacc'
    dsimp only at hacc'
    rw [hcaeq, hca3eq] at hacc'
    by_cases h2 : c.level = some 2
    · exact Or.inl h2
    · by_cases h1 : c.level = some 1
      · right; left
        refine ⟨h1, ?_⟩
        rw [h1] at hacc'
        have := hacc' _ rfl
        unfold customCert at this
        cases hcc : c.customCa with
        | none => rw [hcc] at this; exact absurd this (hL.supla p)
        | some t =>
          rw [hcc] at this
          dsimp only at this
          cases hr : c.readable with
          | true => rw [hr, if_pos rfl] at this; exact ⟨t, rfl, this⟩
          | false => rw [hr] at this; exact absurd this (hL.empty p)
      · right; right
        refine ⟨h1, h2, ?_⟩
        have hlev : storedLevel c.level = 0 := by
          unfold storedLevel
          cases hl : c.level with
          | none => rfl
          | some v =>
            have v1 : v ≠ 1 := fun e => h1 (by rw [hl, e])
            have v2 : v ≠ 2 := fun e => h2 (by rw [hl, e])
            dsimp only
            split <;> omega
        rw [hlev] at hacc'
        by_cases hp : isPublic (loaded s c).server = true
        · left
          refine ⟨hpub.1 hp, ?_⟩
          rw [if_pos hp] at hacc'
          cases hca : s.ca with
          | none => rw [hca] at hacc'; exact absurd (hacc' _ rfl) (hL.supla p)
          | some t => rw [hca] at hacc'; exact ⟨t, rfl, hacc' _ rfl⟩
        · right
          refine ⟨fun hq => hp (hpub.2 hq), ?_⟩
          rw [if_neg hp] at hacc'
          cases hca : s.ca3 with
          | none => rw [hca] at hacc'; exact absurd (hacc' _ rfl) (hL.supla p)
          | some t => rw [hca] at hacc'; exact ⟨t, rfl, hacc' _ rfl⟩
  | none =>
    obtain ⟨hca, hhost⟩ := ca_none s h ops a ha hssl
    rw [hca] at hacc'
    have hpub := isPublic_iff' a.host
    rw [← hhost] at hpub ⊢
    dsimp only
    have hcaeq : (fresh s).ca = s.ca := rfl
    have hca3eq : (fresh s).ca3 = s.ca3 := rfl
    unfold chooseWithout at hacc'
    rw [hcaeq, hca3eq] at hacc'
    cases h1 : s.ca with
    | none =>
      cases h3 : s.ca3 with
      | none =>
        rcases hc with hc | hc | hc
        · exact absurd h hc
        · exact absurd h1 hc
        · exact absurd h3 hc
      | some b =>
        rw [h1, h3] at hacc'
        exact Or.inr ⟨b, rfl, hacc' _ rfl, Or.inr rfl⟩
    | some t =>
      cases h3 : s.ca3 with
      | none =>
        rw [h1, h3] at hacc'
        exact Or.inl ⟨t, rfl, hacc' _ rfl, Or.inr rfl⟩
      | some b =>
        rw [h1, h3] at hacc'
        dsimp only at hacc'
        by_cases hp : isPublic (fresh s).server = true
        · rw [if_pos hp] at hacc'
          exact Or.inl ⟨t, rfl, hacc' _ rfl, Or.inl (hpub.1 hp)⟩
        · rw [if_neg hp] at hacc'
          exact Or.inr ⟨b, rfl, hacc' _ rfl, Or.inl (fun hq => hp (hpub.2 hq))⟩

/-- The other direction: a server the settings trust is accepted, provided the
user's own certificate can be read. -/
theorem trusted_accepted (Peer : Type) (signedBy : Cert → Peer → Prop)
    (s : Settings) (hr : ∀ c, s.stored = some c → c.readable = true) (ops : List Op) (a : Attempt)
    (ha : a ∈ s.run ops) (p : Peer) (ht : s.Trusted signedBy a.host p) :
    accepts signedBy a.client p := by
  intro hssl t hct
  unfold Settings.Trusted at ht
  cases h : s.stored with
  | some c =>
    obtain ⟨hca, hhost⟩ := ca_stored s c h ops a ha hssl
    rw [hct] at hca
    have hpub := isPublic_iff' a.host
    rw [← hhost] at hpub ht
    rw [h] at ht
    dsimp only at ht
    have hcaeq : (loaded s c).ca = s.ca := rfl
    have hca3eq : (loaded s c).ca3 = s.ca3 := rfl
    unfold chooseCert at hca
    dsimp only at hca
    rw [hcaeq, hca3eq] at hca
    rcases ht with h2 | ⟨h1, t', hcc, hs⟩ | ⟨h1, h2, ht⟩
    · rw [h2] at hca; cases hca
    · rw [h1] at hca
      have e := Option.some.inj hca
      unfold customCert at e
      rw [hcc] at e
      dsimp only at e
      rw [hr c h, if_pos rfl] at e
      rw [e]; exact hs
    · have hlev : storedLevel c.level = 0 := by
        unfold storedLevel
        cases hl : c.level with
        | none => rfl
        | some v =>
          have v1 : v ≠ 1 := fun e => h1 (by rw [hl, e])
          have v2 : v ≠ 2 := fun e => h2 (by rw [hl, e])
          dsimp only
          split <;> omega
      rw [hlev] at hca
      rcases ht with ⟨hp, t', h3, hs⟩ | ⟨hp, t', h3, hs⟩
      · rw [if_pos (hpub.2 hp), h3] at hca
        rw [Option.some.inj hca]; exact hs
      · rw [if_neg (fun q => hp (hpub.1 q)), h3] at hca
        rw [Option.some.inj hca]; exact hs
  | none =>
    obtain ⟨hca, hhost⟩ := ca_none s h ops a ha hssl
    rw [hct] at hca
    have hpub := isPublic_iff' a.host
    rw [← hhost] at hpub ht
    rw [h] at ht
    dsimp only at ht
    have hcaeq : (fresh s).ca = s.ca := rfl
    have hca3eq : (fresh s).ca3 = s.ca3 := rfl
    unfold chooseWithout at hca
    rw [hcaeq, hca3eq] at hca
    rcases ht with ⟨t', h1, hs, hor⟩ | ⟨t', h3, hs, hor⟩
    · rw [h1] at hca
      cases h3 : s.ca3 with
      | none => rw [h3] at hca; rw [Option.some.inj hca]; exact hs
      | some b =>
        rw [h3] at hca hor
        rcases hor with hp | hp
        · dsimp only at hca
          rw [if_pos (hpub.2 hp)] at hca
          rw [Option.some.inj hca]; exact hs
        · cases hp
    · rw [h3] at hca
      cases h1 : s.ca with
      | none => rw [h1] at hca; rw [Option.some.inj hca]; exact hs
      | some b =>
        rw [h1] at hca hor
        rcases hor with hp | hp
        · dsimp only at hca
          rw [if_neg (fun q => hp (hpub.1 q))] at hca
          rw [Option.some.inj hca]; exact hs
        · cases hp

-- level 1 with a certificate, level 1 without one, an unknown level, level 2
example : (({ exampleSettings with stored := some ⟨true, [], none, some 1, some [9], true⟩ } : Settings).run [.connect]).map (·.client) = [⟨true, some [9]⟩] := by decide +kernel
example : (({ exampleSettings with stored := some ⟨true, [], none, some 1, none, true⟩ } : Settings).run [.connect]).map (·.client) = [⟨true, some wrongCert⟩] := by decide +kernel
example : (({ exampleSettings with stored := some ⟨true, [97, 98], none, some 7, none, true⟩ } : Settings).run [.connect]).map (·.client) = [⟨true, some [2]⟩] := by decide +kernel
example : (({ exampleSettings with stored := some ⟨true, [], none, some 2, none, true⟩ } : Settings).run [.connect]).map (·.client) = [⟨true, none⟩] := by decide +kernel

/-- An application may also give the layer a client before the device is
started. -/
def Settings.runGivenBefore (s : Settings) (ops : List Op) : List Attempt :=
  attempts (start (step (fresh s) .giveClient).1) ops

/-- The same claim for such an application. -/
def OnlyTrustedGivenBefore : Prop :=
  ∀ (Peer : Type) (signedBy : Cert → Peer → Prop), Library signedBy →
    ∀ (s : Settings), s.ca ≠ none → s.ca3 ≠ none → ∀ (ops : List Op) (a : Attempt),
      a ∈ s.runGivenBefore ops → a.client.ssl = true →
      ∀ p, accepts signedBy a.client p → s.Trusted signedBy a.host p

/-- A client given before the start keeps the certificate chosen until then,
none: every server is accepted whatever is stored. -/
theorem given_before_violation : ¬ OnlyTrustedGivenBefore := by
  intro h
  let s : Settings := { exampleSettings with stored := some ⟨true, [], none, some 0, none, true⟩ }
  have := h Cert exampleSigned exampleLibrary s (by decide) (by decide) [.connect] ⟨97 :: publicDomain, 2016, ⟨true, none⟩⟩
    (by
      have : s.runGivenBefore [.connect] = [⟨97 :: publicDomain, 2016, ⟨true, none⟩⟩] := by decide +kernel
      rw [this]; exact List.mem_singleton.2 rfl) rfl [7] (fun _ c hc => by cases hc)
  unfold Settings.Trusted at this
  rcases this with h2 | ⟨h1, _⟩ | ⟨_, _, ⟨_, t, ht, hs⟩ | ⟨hp, _⟩⟩
  · exact absurd h2 (by decide)
  · exact absurd h1 (by decide)
  · have e : ([1] : Cert) = t := Option.some.inj ht
    have := hs.1
    rw [← e] at this
    exact absurd this (by decide)
  · exact hp ((isPublic_iff' _).1 (by decide +kernel))

end Verif.Tls
