/-
The version a device speaks: which calls it may put on the wire, that it can register, and what is lost.
-/
import Verif.Versions.Model
import Verif.Versions.Spec

namespace Verif.Versions

/-! ## The table -/

/-- The full claim: the table of the code is that of the header. -/
def TableDocumented : Prop := ∀ id n, Since id n → minVersion id = n

/-- `SUPLA_SC_CALL_CHANNEL_VALUE_UPDATE_B` has no version beside it, the code asks for version 15. -/
theorem table_violation : ¬ TableDocumented := fun h => by
  have := h 171 1 (by unfold Since; decide +kernel)
  revert this; decide +kernel

theorem rows : ∀ p ∈ documented, p.1 ≠ 171 → minVersion p.1 = p.2 := by decide +kernel

/-- Proved for all other calls. -/
theorem table_partial (id n : Nat) (h : Since id n) (hx : id ≠ 171) : minVersion id = n := rows (id, n) h hx

/-- No call has two rows. -/
theorem since_unique (id n k : Nat) (h : Since id n) (h' : Since id k) : n = k := by
  have hall : ∀ p ∈ documented, ∀ q ∈ documented, p.1 = q.1 → p.2 = q.2 := by decide +kernel
  exact hall _ h _ h' rfl

/-- A number the header does not have gets no version a device can have. -/
theorem unknown_refused (id : Nat) (h : ¬ Known id) : minVersion id = 255 := by
  have hall : ∀ p ∈ documented, id ≠ p.1 := fun p hp he => h ⟨p.2, by rw [he]; exact hp⟩
  unfold documented at hall
  simp only [List.forall_mem_cons] at hall
  unfold minVersion
  simp [hall]

/-- The table never asks for less than the header. -/
theorem table_least (id : Nat) (pv : Nat) (hp : pv ≤ 25) (h : minVersion id ≤ pv) : ∃ n, Since id n ∧ n ≤ pv := by
  by_cases hk : Known id
  · obtain ⟨n, hn⟩ := hk
    refine ⟨n, hn, ?_⟩
    by_cases hx : id = 171
    · have h1 : n = 1 := since_unique id n 1 hn (by rw [hx]; unfold Since; decide +kernel)
      have h2 : minVersion id = 15 := by rw [hx]; decide +kernel
      omega
    · have := table_partial id n hn hx
      omega
  · have := unknown_refused id hk
    omega

/-- What the check lets through, for every version a connection can have: the calls the header has for it. -/
theorem allowed_iff (pv id : Nat) (hp : pv ≤ 25) (hx : id ≠ 171) : allowed pv id = true ↔ ∃ n, Since id n ∧ n ≤ pv := by
  have h0 : minVersion id ≠ 0 := by
    intro h
    by_cases hk : Known id
    · obtain ⟨n, hn⟩ := hk
      have h1 := table_partial id n hn hx
      have hall : ∀ p ∈ documented, p.2 ≠ 0 := by decide +kernel
      exact hall _ hn (by omega)
    · have := unknown_refused id hk
      omega
  unfold allowed
  simp only [Bool.or_eq_true, beq_iff_eq, decide_eq_true_eq]
  constructor
  · rintro (h | h)
    · exact absurd h h0
    · exact table_least id pv hp h
  · rintro ⟨n, hn, hle⟩
    exact Or.inr (by rw [table_partial id n hn hx]; exact hle)

example : allowed 24 1260 = false ∧ allowed 25 1260 = true ∧ allowed 25 999 = false := by decide +kernel

/-! ## What is on the wire -/

/-- What a device has once `begin` has returned: its version is 23 or more. -/
structure Good (d : Dev) : Prop where
  ver : d.begun = true → 23 ≤ d.version
  off : d.begun = false → d.link = none
  same : ∀ pv, d.link = some pv → pv = min d.version 25
  wire : ∀ f ∈ d.wire, f.version = min d.version 25 ∧ 23 ≤ d.version ∧ ∃ n, Since f.call n ∧ n ≤ f.version
  none : d.begun = false → d.wire = []

theorem allowed_since {pv id : Nat} (hp : pv ≤ 25) (h : allowed pv id = true) : ∃ n, Since id n ∧ n ≤ pv := by
  unfold allowed at h
  simp only [Bool.or_eq_true, beq_iff_eq, decide_eq_true_eq] at h
  exact table_least id pv hp (by omega)

theorem send_frame (d : Dev) (id : Nat) : (send d id).begun = d.begun ∧ (send d id).version = d.version ∧
    (send d id).link = d.link ∧ (send d id).config = d.config := by
  unfold send
  split
  · exact ⟨rfl, rfl, rfl, rfl⟩
  · split <;> exact ⟨rfl, rfl, rfl, rfl⟩

theorem send_wire (d : Dev) (id : Nat) : (send d id).wire = d.wire ∨
    ∃ pv, d.link = some pv ∧ allowed pv id = true ∧ (send d id).wire = d.wire ++ [⟨id, pv⟩] := by
  unfold send
  split
  · exact Or.inl rfl
  · rename_i pv h
    split
    · rename_i ha
      exact Or.inr ⟨pv, h, ha, rfl⟩
    · exact Or.inl rfl

theorem send_good {d : Dev} (g : Good d) (id : Nat) : Good (send d id) := by
  obtain ⟨e1, e2, e3, _⟩ := send_frame d id
  refine ⟨?_, ?_, ?_, ?_, ?_⟩
  · rw [e1, e2]; exact g.ver
  · rw [e1, e3]; exact g.off
  · rw [e2, e3]; exact g.same
  · rw [e2]
    rcases send_wire d id with h | ⟨pv, hl, ha, h⟩
    · rw [h]; exact g.wire
    · rw [h]
      intro f hf
      rcases List.mem_append.mp hf with hf | hf
      · exact g.wire f hf
      · rw [List.mem_singleton] at hf
        have hs := g.same pv hl
        have hb : d.begun = true := by
          cases hb : d.begun with
          | true => rfl
          | false => have := g.off hb; rw [this] at hl; cases hl
        rw [hf]
        exact ⟨hs, g.ver hb, allowed_since (show pv ≤ 25 by omega) ha⟩
  · rw [e1]
    intro hb
    rcases send_wire d id with h | ⟨pv, hl, _, _⟩
    · rw [h]; exact g.none hb
    · rw [g.off hb] at hl; cases hl

theorem setProto_min {v : Nat} (h : 23 ≤ v) : setProto v = min v 25 := by
  unfold setProto
  split <;> omega

theorem step_good {d : Dev} (g : Good d) (o : Op) : Good (step d o) := by
  cases o with
  | «begin» v =>
    show Good (start d v)
    unfold start
    cases hb : d.begun with
    | true => rw [if_pos rfl]; exact g
    | false =>
      rw [if_neg (by simp)]
      refine ⟨?_, ?_, ?_, ?_, ?_⟩
      · intro _; dsimp only; split <;> omega
      · intro h; cases h
      · intro pv h; dsimp only at h; rw [g.off hb] at h; cases h
      · intro f hf; dsimp only at hf; rw [g.none hb] at hf; cases hf
      · intro h; cases h
  | connect =>
    show Good (connect d)
    unfold connect
    cases hb : d.begun with
    | false => exact g
    | true =>
      rw [if_pos rfl]
      refine send_good ⟨?_, ?_, ?_, ?_, ?_⟩ _
      · exact fun _ => g.ver hb
      · intro h; cases h
      · intro pv h
        injection h with h
        rw [← h]
        exact setProto_min (g.ver hb)
      · exact g.wire
      · intro h; cases h
  | call id => exact send_good g id
  | versionError a b => exact ⟨g.ver, fun _ => rfl, fun pv h => (by cases h), g.wire, g.none⟩

theorem run_good : ∀ (os : List Op) {d : Dev}, Good d → Good (run d os)
  | [], _, g => g
  | o :: os, _, g => run_good os (step_good g o)

theorem fresh_good (v : Nat) : Good (fresh v) :=
  ⟨fun h => (by cases h), fun _ => rfl, fun _ h => (by cases h), fun _ h => (by cases h), fun _ => rfl⟩

/-- Whatever version the layer was made with, whatever version `begin` was given, in every history: each frame has a version
of 23, 24 or 25 in its header, and its call is one the header has for this version. -/
theorem wire_documented (v : Nat) (os : List Op) (f : Frame) (hf : f ∈ (run (fresh v) os).wire) :
    23 ≤ f.version ∧ f.version ≤ 25 ∧ ∃ n, Since f.call n ∧ n ≤ f.version := by
  obtain ⟨h1, h2, h3⟩ := (run_good os (fresh_good v)).wire f hf
  refine ⟨by omega, by omega, h3⟩

/-- All frames of a device have the same version. -/
theorem one_version (v : Nat) (os : List Op) (f g : Frame) (hf : f ∈ (run (fresh v) os).wire) (hg : g ∈ (run (fresh v) os).wire) :
    f.version = g.version := by
  have hw := (run_good os (fresh_good v)).wire
  rw [(hw f hf).1, (hw g hg).1]

example : (run (fresh 7) [.connect, .begin 200, .connect, .call 40, .call 999, .call 1260]).wire =
    [⟨76, 25⟩, ⟨40, 25⟩, ⟨1260, 25⟩] := by decide +kernel

/-! ## A started device -/

/-- The version of a device whose `begin` was given `w` (an `unsigned char`). -/
def spoken (w : Nat) : Nat := if w % 256 < 23 then 23 else if w % 256 = 24 then 24 else if w % 256 = 23 then 23 else 25

structure Started (w : Nat) (d : Dev) : Prop where
  begun : d.begun = true
  version : d.version = if w % 256 < 23 then 23 else w % 256
  link : ∀ pv, d.link = some pv → pv = spoken w
  wire : ∀ f ∈ d.wire, f.version = spoken w ∧ allowed (spoken w) f.call = true

theorem spoken_proto (w : Nat) : setProto (if w % 256 < 23 then 23 else w % 256) = spoken w := by
  unfold setProto spoken
  repeat' split
  all_goals omega

theorem send_started {w : Nat} {d : Dev} (s : Started w d) (id : Nat) : Started w (send d id) := by
  obtain ⟨e1, e2, e3, _⟩ := send_frame d id
  refine ⟨by rw [e1]; exact s.begun, by rw [e2]; exact s.version, by rw [e3]; exact s.link, ?_⟩
  rcases send_wire d id with h | ⟨pv, hl, ha, h⟩
  · rw [h]; exact s.wire
  · rw [h]
    intro f hf
    rcases List.mem_append.mp hf with hf | hf
    · exact s.wire f hf
    · rw [List.mem_singleton] at hf
      have hs := s.link pv hl
      rw [hf]
      exact ⟨hs, by rw [← hs]; exact ha⟩

theorem step_started {w : Nat} {d : Dev} (s : Started w d) (o : Op) : Started w (step d o) := by
  cases o with
  | «begin» v =>
    show Started w (start d v)
    unfold start
    rw [if_pos s.begun]
    exact s
  | connect =>
    show Started w (connect d)
    unfold connect
    rw [if_pos s.begun]
    refine send_started (d := { d with link := some (setProto d.version) }) ⟨s.begun, s.version, ?_, s.wire⟩ _
    intro pv h
    injection h with h
    rw [← h, s.version]
    exact spoken_proto w
  | call id => exact send_started s id
  | versionError a b => exact ⟨s.begun, s.version, fun pv h => (by cases h), s.wire⟩

theorem run_started {w : Nat} : ∀ (os : List Op) {d : Dev}, Started w d → Started w (run d os)
  | [], _, s => s
  | o :: os, _, s => run_started os (step_started s o)

theorem fresh_started (v w : Nat) : Started w (step (fresh v) (.begin w)) :=
  ⟨rfl, rfl, fun _ h => (by cases h), fun _ h => (by cases h)⟩

theorem begun_started (v w : Nat) (os : List Op) : Started w (run (fresh v) (.begin w :: os)) := run_started os (fresh_started v w)

/-- A second `begin` changes nothing. -/
theorem begin_once (v w w' : Nat) (os : List Op) :
    step (run (fresh v) (.begin w :: os)) (.begin w') = run (fresh v) (.begin w :: os) := by
  show start _ w' = _
  unfold start
  rw [if_pos (begun_started v w os).begun]

/-- Each connection begins with a registration the version has: call 75 with version 23 or 24, call 76 with 25. -/
theorem registers (v w : Nat) (os : List Op) : ∃ f : Frame,
    (step (run (fresh v) (.begin w :: os)) .connect).wire = (run (fresh v) (.begin w :: os)).wire ++ [f] ∧
    f.version = spoken w ∧ f.call = (if spoken w = 25 then 76 else 75) := by
  have s := begun_started v w os
  generalize run (fresh v) (.begin w :: os) = d at *
  have hc : registration d.version = if spoken w = 25 then 76 else 75 := by
    rw [s.version]
    unfold registration spoken
    repeat' split
    all_goals omega
  have ha : allowed (spoken w) (if spoken w = 25 then 76 else 75) = true := by
    unfold spoken
    split
    · decide +kernel
    · split
      · decide +kernel
      · split <;> decide +kernel
  refine ⟨⟨if spoken w = 25 then 76 else 75, spoken w⟩, ?_, rfl, rfl⟩
  show (connect d).wire = _
  unfold connect
  rw [if_pos s.begun, hc, s.version, spoken_proto]
  unfold send
  dsimp only
  rw [if_pos ha]

example : (run (fresh 23) [.begin 16, .connect]).wire = [⟨75, 23⟩] ∧ (run (fresh 23) [.begin 25, .connect]).wire = [⟨76, 25⟩] := by
  decide +kernel

/-! ## Calls that are lost -/

/-- A device with a connection. -/
def Connected (d : Dev) : Prop := d.link ≠ none

/-- The full claim: on a connection every call of the device goes out. -/
def CallsSent : Prop := ∀ (v w : Nat) (os : List Op) (id : Nat), id ∈ deviceCalls → Connected (run (fresh v) (.begin w :: os)) →
  ∃ f : Frame, f.call = id ∧ (step (run (fresh v) (.begin w :: os)) (.call id)).wire = (run (fresh v) (.begin w :: os)).wire ++ [f]

theorem call_sent {v w : Nat} {os : List Op} {id : Nat} (hc : Connected (run (fresh v) (.begin w :: os)))
    (ha : allowed (spoken w) id = true) :
    ∃ f : Frame, f.call = id ∧ (step (run (fresh v) (.begin w :: os)) (.call id)).wire = (run (fresh v) (.begin w :: os)).wire ++ [f] := by
  have s := begun_started v w os
  generalize run (fresh v) (.begin w :: os) = d at *
  unfold Connected at hc
  cases hl : d.link with
  | none => exact absurd hl hc
  | some pv =>
    have hp := s.link pv hl
    refine ⟨⟨id, pv⟩, rfl, ?_⟩
    show (send d id).wire = _
    unfold send
    rw [hl]
    dsimp only
    rw [hp, if_pos ha]

/-- Proved for all calls but the details of a subdevice, and for those with version 25. -/
theorem calls_sent_partial (v w : Nat) (os : List Op) (id : Nat) (hid : id ∈ deviceCalls) (hx : id = 1260 → 25 ≤ w % 256)
    (hc : Connected (run (fresh v) (.begin w :: os))) :
    ∃ f : Frame, f.call = id ∧ (step (run (fresh v) (.begin w :: os)) (.call id)).wire = (run (fresh v) (.begin w :: os)).wire ++ [f] := by
  refine call_sent hc ?_
  by_cases h : id = 1260
  · have hw := hx h
    have hs : spoken w = 25 := by unfold spoken; repeat' split
                                  all_goals omega
    rw [hs, h]
    decide +kernel
  · have hall : ∀ i ∈ deviceCalls, i ≠ 1260 → minVersion i ≤ 23 := by decide +kernel
    have hs : 23 ≤ spoken w := by unfold spoken; repeat' split
                                  all_goals omega
    unfold allowed
    simp only [Bool.or_eq_true, beq_iff_eq, decide_eq_true_eq]
    exact Or.inr (Nat.le_trans (hall id hid h) hs)

/-- A device that was not given version 25 or more — the default is 23 — never sends the details of a subdevice, in no
history. -/
theorem details_never_sent (v w : Nat) (hw : w % 256 < 25) (os : List Op) :
    ∀ f ∈ (run (fresh v) (.begin w :: os)).wire, f.call ≠ 1260 := by
  intro f hf he
  obtain ⟨_, h2⟩ := (begun_started v w os).wire f hf
  have hs : spoken w ≤ 24 := by unfold spoken; repeat' split
                                all_goals omega
  have hm : minVersion 1260 = 25 := by decide +kernel
  rw [he] at h2
  unfold allowed at h2
  simp only [Bool.or_eq_true, beq_iff_eq, decide_eq_true_eq] at h2
  omega

theorem calls_sent_violation : ¬ CallsSent := fun h => by
  obtain ⟨f, hf, hw⟩ := h 23 23 [.connect] 1260 (by decide) (by unfold Connected; decide +kernel)
  have hm : f ∈ (run (fresh 23) (.begin 23 :: [.connect, .call 1260])).wire := by
    have he : (run (fresh 23) (.begin 23 :: [.connect, .call 1260])).wire = (step (run (fresh 23) (.begin 23 :: [.connect])) (.call 1260)).wire := rfl
    rw [he, hw]
    simp
  exact details_never_sent 23 23 (by decide) _ f hm hf

/-! ## A version that is too low -/

/-- The full claim: a version below 23 is the same as 23 ("Setting to 23 anyway", SuplaDevice.cpp 161-165). -/
def LowIs23 : Prop := ∀ (v w : Nat) (os : List Op), w < 23 → run (fresh v) (.begin w :: os) = run (fresh v) (.begin 23 :: os)

theorem step_config {d d' : Dev} (h : d'.begun = d.begun ∧ d'.version = d.version ∧ d'.link = d.link ∧ d'.wire = d.wire)
    (hb : d.begun = true) (o : Op) : (step d' o).begun = (step d o).begun ∧ (step d' o).version = (step d o).version ∧
    (step d' o).link = (step d o).link ∧ (step d' o).wire = (step d o).wire ∧ (step d o).begun = true ∧
    (step d o).config = d.config ∧ (step d' o).config = d'.config := by
  obtain ⟨b, ver, l, c, ws⟩ := d
  obtain ⟨b', ver', l', c', ws'⟩ := d'
  obtain ⟨h1, h2, h3, h4⟩ := h
  dsimp only at h1 h2 h3 h4 hb
  rw [hb] at h1
  rw [h1, h2, h3, h4, hb]
  cases o with
  | «begin» v => exact ⟨rfl, rfl, rfl, rfl, rfl, rfl, rfl⟩
  | connect =>
    simp only [step, connect, if_true, send]
    split <;> exact ⟨rfl, rfl, rfl, rfl, rfl, rfl, rfl⟩
  | call id =>
    simp only [step, send]
    cases l with
    | none => exact ⟨rfl, rfl, rfl, rfl, rfl, rfl, rfl⟩
    | some pv => dsimp only; split <;> exact ⟨rfl, rfl, rfl, rfl, rfl, rfl, rfl⟩
  | versionError x y => exact ⟨rfl, rfl, rfl, rfl, rfl, rfl, rfl⟩

theorem run_config : ∀ (os : List Op) {d d' : Dev},
    d'.begun = d.begun ∧ d'.version = d.version ∧ d'.link = d.link ∧ d'.wire = d.wire → d.begun = true →
    (run d' os).wire = (run d os).wire ∧ (run d' os).config = d'.config ∧ (run d os).config = d.config
  | [], _, _, h, _ => ⟨h.2.2.2, rfl, rfl⟩
  | o :: os, d, d', h, hb => by
    obtain ⟨e1, e2, e3, e4, e5, e6, e7⟩ := step_config h hb o
    obtain ⟨f1, f2, f3⟩ := run_config os ⟨e1, e2, e3, e4⟩ e5
    exact ⟨f1, by rw [← e7]; exact f2, by rw [← e6]; exact f3⟩

/-- Proved for what goes over the wire; that the device takes its configuration from the server is announced from 21 on. -/
theorem low_is_23_partial (v w : Nat) (hw : w < 23) (os : List Op) :
    (run (fresh v) (.begin w :: os)).wire = (run (fresh v) (.begin 23 :: os)).wire ∧
    ((run (fresh v) (.begin w :: os)).config = true ↔ 21 ≤ w) ∧ (run (fresh v) (.begin 23 :: os)).config = true := by
  have hm : w % 256 = w := by omega
  have hv : (step (fresh v) (.begin w)).version = 23 := by
    show (if w % 256 < 23 then 23 else w % 256) = 23
    rw [if_pos (by omega)]
  obtain ⟨h1, h2, h3⟩ := run_config os (d := step (fresh v) (.begin 23)) (d' := step (fresh v) (.begin w)) ⟨rfl, hv, rfl, rfl⟩ rfl
  refine ⟨h1, ?_, ?_⟩
  · show (run (step (fresh v) (.begin w)) os).config = true ↔ _
    rw [h2]
    show (false || decide (21 ≤ w % 256)) = true ↔ _
    simp [hm]
  · show (run (step (fresh v) (.begin 23)) os).config = true
    rw [h3]
    rfl

/-- A device given version 20 or less speaks version 23 and yet does not say that it takes its configuration from the server. -/
theorem low_is_23_violation : ¬ LowIs23 := fun h => by
  have := h 23 16 [] (by decide)
  revert this; decide +kernel

/-! ## A server with other versions -/

/-- The full claim: after a server has answered which versions it knows, the device uses one of them. -/
def Settles : Prop := ∀ (v w high low : Nat) (os : List Op), low ≤ 23 → 23 ≤ high →
  ∀ f ∈ (run (step (run (fresh v) (.begin w :: os)) (.versionError high low)) [.connect]).wire.getLast?, f.version ≤ high

/-- The answer is not used: in all histories each frame has the version `begin` was given. -/
theorem never_settles (v w : Nat) (os : List Op) : ∀ f ∈ (run (fresh v) (.begin w :: os)).wire, f.version = spoken w :=
  fun f hf => ((begun_started v w os).wire f hf).1

/-- A device with version 25 at a server whose last version is 24 registers with 25 again and again. -/
theorem settles_violation : ¬ Settles := fun h => by
  have := h 23 25 24 1 [.connect] (by decide) (by decide) ⟨76, 25⟩ (by decide +kernel)
  revert this; decide

/-- Proved where the server knows the version given to `begin`, and the default with a server from 23 on. -/
theorem settles_partial (v w high low : Nat) (os : List Op) (h : spoken w ≤ high) :
    ∀ f ∈ (run (step (run (fresh v) (.begin w :: os)) (.versionError high low)) [.connect]).wire, f.version ≤ high := by
  intro f hf
  have s : Started w (run (step (run (fresh v) (.begin w :: os)) (.versionError high low)) [.connect]) :=
    run_started _ (step_started (begun_started v w os) _)
  rw [(s.wire f hf).1]
  exact h

example : spoken 23 = 23 ∧ spoken 0 = 23 ∧ spoken 24 = 24 ∧ spoken 255 = 25 := by decide

/-! ## A layer of its own -/

/-- The full claim: a layer made with any version sends a registration on each connection. -/
def LayerRegisters : Prop := ∀ v, v < 256 → ∃ f ∈ (run (layer v) [.connect]).wire, f.call = 75 ∨ f.call = 76

structure Mute (v : Nat) (d : Dev) : Prop where
  begun : d.begun = true
  version : d.version = v
  link : ∀ pv, d.link = some pv → pv = v
  wire : ∀ f ∈ d.wire, f.call ≠ 75 ∧ f.call ≠ 76

theorem mute_send {v : Nat} (h : v ≤ 22) {d : Dev} (m : Mute v d) (id : Nat) : Mute v (send d id) := by
  obtain ⟨e1, e2, e3, _⟩ := send_frame d id
  refine ⟨by rw [e1]; exact m.begun, by rw [e2]; exact m.version, by rw [e3]; exact m.link, ?_⟩
  rcases send_wire d id with hw | ⟨pv, hl, ha, hw⟩
  · rw [hw]; exact m.wire
  · rw [hw]
    intro f hf
    rcases List.mem_append.mp hf with hf | hf
    · exact m.wire f hf
    · rw [List.mem_singleton] at hf
      have hp := m.link pv hl
      have h75 : minVersion 75 = 23 := by decide +kernel
      have h76 : minVersion 76 = 25 := by decide +kernel
      unfold allowed at ha
      simp only [Bool.or_eq_true, beq_iff_eq, decide_eq_true_eq] at ha
      rw [hf]
      constructor
      · intro he; dsimp only at he; rw [he] at ha; omega
      · intro he; dsimp only at he; rw [he] at ha; omega

theorem mute_run {v : Nat} (h1 : 1 ≤ v) (h2 : v ≤ 22) : ∀ (os : List Op) {d : Dev}, Mute v d → Mute v (run d os)
  | [], _, m => m
  | o :: os, d, m => by
    refine mute_run h1 h2 os ?_
    cases o with
    | «begin» x =>
      show Mute v (start d x)
      unfold start
      rw [if_pos m.begun]
      exact m
    | connect =>
      show Mute v (connect d)
      unfold connect
      rw [if_pos m.begun]
      refine mute_send h2 (d := { d with link := some (setProto d.version) }) ⟨m.begun, m.version, ?_, m.wire⟩ _
      intro pv hp
      injection hp with hp
      rw [← hp, m.version]
      unfold setProto
      rw [if_pos ⟨h1, by omega⟩]
    | call id => exact mute_send h2 m id
    | versionError a b => exact ⟨m.begun, m.version, fun pv h => (by cases h), m.wire⟩

/-- A layer made with a version from 1 to 22 never registers, in no history. -/
theorem layer_mute (v : Nat) (h1 : 1 ≤ v) (h2 : v ≤ 22) (os : List Op) : ∀ f ∈ (run (layer v) os).wire, f.call ≠ 75 ∧ f.call ≠ 76 := by
  have m : Mute v (layer v) := ⟨rfl, show v % 256 = v by omega, fun _ h => (by cases h), fun _ h => (by cases h)⟩
  exact (mute_run h1 h2 os m).wire

/-- A layer of its own registers exactly with the versions 23 and above, and with 0. -/
theorem layer_registers_partial (v : Nat) (hv : v < 256) :
    (∃ f ∈ (run (layer v) [.connect]).wire, f.call = 75 ∨ f.call = 76) ↔ v = 0 ∨ 23 ≤ v := by
  constructor
  · rintro ⟨f, hf, hc⟩
    by_cases h : v = 0 ∨ 23 ≤ v
    · exact h
    · have := layer_mute v (by omega) (by omega) [.connect] f hf
      omega
  · intro h
    have hall : ∀ w, w < 256 → (w = 0 ∨ 23 ≤ w) → (run (layer w) [.connect]).wire = [⟨if w ≤ 24 then 75 else 76, setProto w⟩] := by
      decide +kernel
    rw [hall v hv h]
    refine ⟨_, List.mem_singleton.mpr rfl, ?_⟩
    dsimp only
    split
    · exact Or.inl rfl
    · exact Or.inr rfl

theorem layer_registers_violation : ¬ LayerRegisters := fun h => by
  have := (layer_registers_partial 16 (by decide)).mp (h 16 (by decide))
  omega

end Verif.Versions
