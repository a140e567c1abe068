import Verif.Tls.Model

/-!
# Lemmas: names of servers, and that every attempt uses the same client
-/

namespace Verif.Tls

theorem upper_eq_iff (a b : Nat) : upper a = upper b ↔ SameLetter a b := by
  unfold upper SameLetter
  split <;> split <;> omega

theorem sameFold_iff (a b : Name) : sameFold a b = true ↔ SameText a b := by
  induction a generalizing b with
  | nil => cases b <;> simp [sameFold, SameText]
  | cons x xs ih =>
    cases b with
    | nil => simp [sameFold, SameText]
    | cons y ys => simp [sameFold, SameText, ih, upper_eq_iff]

theorem sameText_length (a b : Name) (h : SameText a b) : a.length = b.length := by
  induction a generalizing b with
  | nil => cases b with
    | nil => rfl
    | cons => exact h.elim
  | cons x xs ih => cases b with
    | nil => exact h.elim
    | cons y ys => simp [ih ys h.2]

theorem isPublic_iff' (n : Name) : isPublic n = true ↔ PublicServer n := by
  unfold isPublic
  constructor
  · intro h
    by_cases hl : 10 < n.length
    · rw [if_pos hl] at h
      refine ⟨n.take (n.length - 10), n.drop (n.length - 10), (List.take_append_drop _ _).symm, ?_, ?_⟩
      · intro e
        have h0 : (n.take (n.length - 10)).length = 0 := by rw [e]; rfl
        rw [List.length_take] at h0
        omega
      · exact (sameFold_iff _ _).1 h
    · rw [if_neg hl] at h; exact absurd h (by decide)
  · rintro ⟨host, dom, rfl, hne, hs⟩
    have hd : dom.length = 10 := sameText_length _ _ hs
    have hh : 0 < host.length := List.length_pos_iff.2 hne
    have hl : (host ++ dom).length - 10 = host.length := by simp [hd]
    rw [if_pos (by simp [hd]; exact hh), hl, List.drop_left]
    exact (sameFold_iff _ _).2 hs

/-- The correction of a misspelled name. -/
theorem setServerName_misspelled (n : Name) (hl : n.length ≤ 64) (h : Misspelled n) :
    ∃ a b c rest, n = a :: b :: c :: rest ∧ setServerName n = a :: 118 :: 114 :: rest := by
  obtain ⟨hp, a, b, c, d, rest, rfl, ha, hb, hc, h1, h2⟩ := h
  refine ⟨a, b, c, d :: rest, rfl, ?_⟩
  unfold setServerName
  rw [List.take_of_length_le hl]
  dsimp only
  rw [if_pos ((isPublic_iff' _).2 hp), if_pos]
  have : sameFold [a, b, c] [115, 114, 118] = true := (sameFold_iff _ _).2 ⟨ha, hb, hc, trivial⟩
  simp [this, h1, h2]

/-- Every other name is kept. -/
theorem setServerName_other (n : Name) (hl : n.length ≤ 64) (h : ¬ Misspelled n) :
    setServerName n = n := by
  unfold setServerName
  rw [List.take_of_length_le hl]
  dsimp only
  split
  · rename_i hp
    split
    · rename_i a b c d rest
      split
      · rename_i hc
        simp only [Bool.and_eq_true, decide_eq_true_eq] at hc
        obtain ⟨hs, h1, h2⟩ := hc
        have := (sameFold_iff _ _).1 hs
        exact absurd ⟨(isPublic_iff' _).1 hp, a, b, c, d, rest, rfl, this.1, this.2.1, this.2.2.1, h1, h2⟩ h
      · rfl
    · rfl
  · rfl

/-- The correction does not make a public name private or the reverse. -/
theorem isPublic_setServerName (n : Name) : isPublic (setServerName n) = isPublic (n.take 64) := by
  unfold setServerName
  generalize n.take 64 = k
  dsimp only
  split
  · rename_i hp
    split
    · rename_i a b c d rest
      split
      · rename_i hc
        simp only [Bool.and_eq_true, decide_eq_true_eq] at hc
        have hs := (sameFold_iff _ _).1 hc.1
        have hb := hs.2.1
        have hcc := hs.2.2.1
        rw [hp]
        unfold isPublic at hp ⊢
        by_cases hl : 10 < (a :: b :: c :: d :: rest).length
        · rw [if_pos hl] at hp
          rw [if_pos (by simpa using hl)]
          have hlen : (a :: 118 :: 114 :: d :: rest).length = (a :: b :: c :: d :: rest).length := rfl
          rw [hlen]
          generalize hk : (a :: b :: c :: d :: rest).length - 10 = k at hp
          have hk1 : 1 ≤ k := by omega
          match k, hk1 with
          | 1, _ =>
            have := ((sameFold_iff _ _).1 hp).1
            unfold SameLetter at this hb
            omega
          | 2, _ =>
            have := ((sameFold_iff _ _).1 hp).1
            unfold SameLetter at this hcc
            omega
          | k + 3, _ => exact hp
        · rw [if_neg hl] at hp; exact absurd hp (by decide)
      · rfl
    · rfl
  · rfl

/-- What stays the same while the device runs. -/
structure Running (d1 d : Dev) : Prop where
  server : d.server = d1.server
  sel : d.sel = d1.sel
  ssl : d.ssl = d1.ssl
  enabled : d.enabled = d1.enabled
  port : d.port = d1.port ∨ d.port = d1.getPort
  client : d.client = none ∨ d.client = some (initClient d1 {})

theorem running_uses {d1 d : Dev} (h : Running d1 d) : d.usesSsl = d1.usesSsl := by
  rcases h.port with e | e
  · simp [Dev.usesSsl, e, h.ssl]
  · unfold Dev.usesSsl
    rw [e, h.ssl]
    unfold Dev.getPort
    by_cases hp : d1.port = -1
    · rw [if_pos hp, hp]
      cases d1.ssl <;> decide
    · rw [if_neg hp]

theorem running_init {d1 d : Dev} (h : Running d1 d) : initClient d {} = initClient d1 {} := by
  unfold initClient
  rw [running_uses h, h.sel]

theorem running_getClient {d1 d : Dev} (h : Running d1 d) : d.getClient = initClient d1 {} := by
  unfold Dev.getClient
  rcases h.client with e | e
  · rw [e]; exact running_init h
  · rw [e]

theorem getPort_getPort (d : Dev) : (if d.getPort = -1 then (if d.ssl then 2016 else 2015) else d.getPort) = d.getPort := by
  unfold Dev.getPort
  by_cases hp : d.port = -1
  · rw [if_pos hp]; cases d.ssl <;> decide
  · rw [if_neg hp, if_neg hp]

theorem running_getPort {d1 d : Dev} (h : Running d1 d) : d.getPort = d1.getPort := by
  rcases h.port with e | e
  · unfold Dev.getPort; rw [e, h.ssl]
  · have : d.getPort = (if d1.getPort = -1 then (if d1.ssl then 2016 else 2015) else d1.getPort) := by
      rw [← h.ssl, ← e]; rfl
    rw [this, getPort_getPort]

theorem running_step {d1 d : Dev} (h : Running d1 d) (o : Op) : Running d1 (step d o).1 := by
  cases o with
  | connect =>
    unfold step
    dsimp only
    split
    · exact ⟨h.server, h.sel, h.ssl, h.enabled, Or.inr (running_getPort h), Or.inr (by rw [← running_getClient h])⟩
    · exact h
  | giveClient =>
    exact ⟨h.server, h.sel, h.ssl, h.enabled, h.port, Or.inr (by rw [← running_init h]; rfl)⟩

/-- Every attempt of a running device is the same. -/
theorem attempts_same {d1 d : Dev} (h : Running d1 d) (ops : List Op) (a : Attempt)
    (ha : a ∈ attempts d ops) :
    a = ⟨d1.server, (d1.getPort % 65536).toNat, initClient d1 {}⟩ ∧ d1.enabled = true := by
  induction ops generalizing d with
  | nil => simp [attempts] at ha
  | cons o os ih =>
    simp only [attempts, List.mem_append] at ha
    rcases ha with ha | ha
    · cases o with
      | connect =>
        unfold step at ha
        dsimp only at ha
        split at ha
        · rename_i he
          simp only [Option.toList_some, List.mem_singleton] at ha
          rw [ha, running_getPort h, running_getClient h, h.server]
          exact ⟨rfl, h.enabled ▸ he⟩
        · simp at ha
      | giveClient => simp [step] at ha
    · exact ih (running_step h o) ha

theorem loadConfig_client (d : Dev) : (loadConfig d).client = d.client := by
  unfold loadConfig
  split
  · rfl
  · dsimp only
    split
    · split <;> rfl
    · rfl

theorem onInit_client (d : Dev) : (onInit d).client = d.client := by
  unfold onInit
  split
  · split <;> rfl
  · rfl

theorem running_start (s : Settings) : Running (start (fresh s)) (start (fresh s)) :=
  ⟨rfl, rfl, rfl, rfl, Or.inl rfl, Or.inl (by unfold start; rw [onInit_client, loadConfig_client]; rfl)⟩

end Verif.Tls
