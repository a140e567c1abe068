import Verif.Mqtt.State
import Mathlib.Data.List.Nodup
import Mathlib.Tactic.Linarith

/-!
# Theorems: the broker's picture of a channel
-/

namespace Verif.Mqtt.State

/-! ## Specification -/

/-- Under topic `t` the word `yes` is kept if `b`, otherwise `no`. -/
def Says (h : Held) (t : String) (b : Bool) (yes no : String) : Prop :=
  (b = true → h t = some (.word yes)) ∧ (b = false → h t = some (.word no))

/-- Under topic `t` a number with `d` digits behind the point is kept, nearest to `x`. -/
def Num (h : Held) (t : String) (x : Rat) (d : Nat) : Prop :=
  ∃ m : Int, h t = some (.num m d) ∧ x * 10 ^ d - 1 / 2 ≤ m ∧ (m : Rat) ≤ x * 10 ^ d + 1 / 2

/-- Under topic `t` the integer `n` is kept. -/
def Whole (h : Held) (t : String) (n : Int) : Prop := h t = some (.num n 0)

/-- A set point: the temperature, nothing if it is not set. -/
def Point (h : Held) (t : String) (x : Int) : Prop := (x = -32768 → h t = none) ∧ (x ≠ -32768 → Num h t (x / 100) 2)

/-- Position of a shutter: nothing if it is not known. -/
def Position (h : Held) (p : Int) : Prop :=
  Says h "is_calibrating" (decide (p = -1)) "true" "false" ∧ (0 ≤ p → Whole h "shut" p) ∧ (p < 0 → h "shut" = none)

/-- A measured value of a meter with its topic, its unit and its digits. -/
def Measured (h : Held) (pre : String) (f : (String × Nat × Nat) × Option Int) : Prop :=
  ∀ v, f.2 = some v → Num h (pre ++ f.1.1) (v / 10 ^ f.1.2.1) f.1.2.2

/-- The totals of a meter: topic, unit as a power of ten (`/repo/src/supla-common/proto.h` lines 1864-1890: 0.00001 kWh), digits shown. -/
def totalUnits : List (String × Nat × Nat) :=
  ["total_forward_active_energy", "total_reverse_active_energy", "total_forward_balanced_active_energy", "total_reverse_balanced_active_energy"].map
    (fun t => (t, 5, 4))

/-- The values of a phase (proto.h lines 1812-1823 and 1864-1890): energies 0.00001 kWh, 0.01 V, 0.001 A, powers 0.00001 W, factor 0.001,
angle 0.1 degree, 0.01 Hz. -/
def phaseUnits : List (String × Nat × Nat) :=
  ["total_forward_active_energy", "total_reverse_active_energy", "total_forward_reactive_energy", "total_reverse_reactive_energy"].map
    (fun t => (t, 5, 4)) ++ ("voltage", 2, 2) :: ("current", 3, 3) :: (["power_active", "power_reactive", "power_apparent"].map
    (fun t => (t, 5, 3)) ++ [("power_factor", 3, 2), ("phase_angle", 1, 1), ("frequency", 2, 2)])

/-- The broker's picture `h` is the reading: words and numbers as in the documentation of the MQTT interface, nothing
for what is not known. -/
def Shows (h : Held) : Reading → Prop
  | .relay on => Says h "on" on "true" "false"
  | .impulse on => Says h "on" on "open" "closed"
  | .shutter p => Position h p
  | .blind p t => Position h p ∧ (0 ≤ t → Whole h "tilt" t) ∧ (t < 0 → h "tilt" = none)
  | .thermometer t => (t ≤ -273 → h "temperature" = none) ∧ (t > -273 → Num h "temperature" t 2)
  | .climate t h' =>
    ((t : Rat) ≤ -273000 → h "temperature" = none) ∧ ((t : Rat) > -273000 → Num h "temperature" (t / 1000) 2) ∧
      (h' < 0 → h "humidity" = none) ∧ (0 ≤ h' → Num h "humidity" (h' / 1000) 2)
  | .dimmer b => Whole h "brightness" b ∧ Says h "on" (decide (b ≠ 0)) "true" "false"
  | .rgb cb r g b => Whole h "color_brightness" cb ∧ Says h "on" (decide (cb ≠ 0)) "true" "false" ∧ h "color" = some (.colour r g b)
  | .rgbw w cb r g b =>
    Whole h "brightness" w ∧ Whole h "color_brightness" cb ∧ Says h "rgb/on" (decide (cb ≠ 0)) "true" "false" ∧
      Says h "dimmer/on" (decide (w ≠ 0)) "true" "false" ∧ h "color" = some (.colour r g b)
  | .hvac hc cs heating cooling weekly mode heat cool =>
    (heating = true → h "action" = some (.word "heating")) ∧
    (heating = false ∧ cooling = true → h "action" = some (.word "cooling")) ∧
    (heating = false ∧ cooling = false → Says h "action" (decide (mode ≤ 1)) "off" "idle") ∧
    (weekly = true → h "mode" = some (.word "auto")) ∧
    (weekly = false → ∀ e ∈ [(0, "off"), (1, "off"), (2, "heat"), (3, "cool"), (4, "heat_cool")], mode = e.1 → h "mode" = some (.word e.2)) ∧
    (hc = true → Point h "temperature_setpoint_heat" heat ∧ Point h "temperature_setpoint_cool" cool ∧ h "temperature_setpoint" = none) ∧
    (hc = false → Point h "temperature_setpoint" (if cs then cool else heat) ∧ h "temperature_setpoint_heat" = none ∧
      h "temperature_setpoint_cool" = none)
  | .opening on => Says h "" on "closed" "open"
  | .binary on => Says h "" on "ON" "OFF"
  | .meter m =>
    (∀ f ∈ totalUnits.zip m.totals, Measured h "" f) ∧
      ∀ k vs, m.phases[k]? = some (true, vs) → ∀ f ∈ phaseUnits.zip vs, Measured h ("phases/" ++ toString (k + 1) ++ "/") f
  | .other => True

/-- The program uses these units. -/
theorem totalFields_units : totalFields = totalUnits := rfl

theorem phaseFields_units : phaseFields = phaseUnits := rfl

/-- Values of which the state messages are a full picture. -/
def Plain : Reading → Prop
  | .impulse _ => False
  | .shutter p => 0 ≤ p
  | .blind p t => 0 ≤ p ∧ 0 ≤ t
  | .thermometer t => t > -273
  | .climate t h => (t : Rat) > -273000 ∧ 0 ≤ h
  | .hvac hc cs _ _ _ _ heat cool => if hc then -32768 ≤ heat ∧ -32768 ≤ cool else (if cs then cool else heat) ≠ -32768
  | .meter _ => False
  | _ => True

/-- Connected, everything announced at connection sent, and nothing of channel `n` waiting. -/
def Settled (s : Sys) (n : Nat) : Prop := s.connected = true ∧ s.enter = false ∧ s.pending n = false ∧ s.changed n = false

instance (s : Sys) (n : Nat) : Decidable (Settled s n) := by unfold Settled; infer_instance

/-- What is left of a message at the broker. -/
def trace (p : Payload) : Option Payload := if p = .empty then none else some p

/-! ## Messages -/

theorem keep_same (h : Held) (m : Msg) (hr : m.retain = true) : keep h m m.topic = trace m.payload := by
  unfold keep trace
  rw [if_pos hr]
  exact if_pos rfl

theorem keep_other (h : Held) (m : Msg) (t : String) (ht : t ≠ m.topic) : keep h m t = h t := by
  unfold keep
  split
  · exact if_neg ht
  · rfl

theorem keepAll_other (ms : List Msg) : ∀ (h : Held) (t : String), t ∉ ms.map (·.topic) → keepAll h ms t = h t := by
  induction ms with
  | nil => intro h t _; rfl
  | cons m ms ih =>
    intro h t ht
    rw [List.map_cons, List.mem_cons, not_or] at ht
    show keepAll (keep h m) ms t = h t
    rw [ih (keep h m) t ht.2, keep_other h m t ht.1]

theorem keepAll_same (ms : List Msg) : ∀ (h : Held), (ms.map (·.topic)).Nodup → (∀ m ∈ ms, m.retain = true) →
    ∀ m ∈ ms, keepAll h ms m.topic = trace m.payload := by
  induction ms with
  | nil => intro h _ _ m hm; cases hm
  | cons a ms ih =>
    intro h hd hr m hm
    rw [List.map_cons, List.nodup_cons] at hd
    show keepAll (keep h a) ms m.topic = trace m.payload
    rcases List.mem_cons.mp hm with e | hm
    · subst e
      rw [keepAll_other ms (keep h m) m.topic hd.1]
      exact keep_same h m (hr m List.mem_cons_self)
    · exact ih (keep h a) hd.2 (fun m hm => hr m (List.mem_cons_of_mem _ hm)) m hm

theorem stateMsgs_good (near : Near) (r : Reading) :
    ((stateMsgs near r).map (·.topic)).Nodup ∧ ∀ m ∈ stateMsgs near r, m.retain = true := by
  cases r <;> unfold stateMsgs
  case relay => constructor <;> simp [kept]
  case impulse => constructor <;> simp [kept]
  case shutter => constructor <;> simp [kept, shutterMsgs]
  case blind => constructor <;> simp [kept, shutterMsgs]
  case thermometer t => dsimp only; split <;> constructor <;> simp [kept]
  case climate t h => dsimp only; split <;> split <;> constructor <;> simp [kept]
  case dimmer => constructor <;> simp [kept]
  case rgb => constructor <;> simp [kept]
  case rgbw => constructor <;> simp [kept]
  case hvac hc cs _ _ _ _ _ _ =>
    dsimp only; unfold hvacPoints; cases hc <;> constructor <;> simp [kept]
  case opening => constructor <;> simp [kept]
  case binary => constructor <;> simp [kept]
  case meter => constructor <;> simp
  case other => constructor <;> simp

/-! ## The invariant -/

/-- The state messages of the current reading are what the broker keeps. -/
def Told (near : Near) (s : Sys) (n : Nat) : Prop := ∀ m ∈ stateMsgs near (s.reading n), s.held n m.topic = trace m.payload

/-- Every channel with nothing waiting is told. -/
def Inv (near : Near) (s : Sys) : Prop := ∀ n, n < s.count → Settled s n → Told near s n

theorem put_frame (s : Sys) (n : Nat) (ms : List Msg) :
    (put s n ms).count = s.count ∧ (put s n ms).retain = s.retain ∧ (put s n ms).reading = s.reading ∧ (put s n ms).pending = s.pending ∧
      (put s n ms).changed = s.changed ∧ (put s n ms).connected = s.connected ∧ (put s n ms).enter = s.enter ∧
      (put s n ms).offline = s.offline := by
  unfold put
  split <;> exact ⟨rfl, rfl, rfl, rfl, rfl, rfl, rfl, rfl⟩

theorem put_held (s : Sys) (n : Nat) (ms : List Msg) (k : Nat) :
    (put s n ms).held k = if s.connected = true ∧ k = n then keepAll (s.held n) ms else s.held k := by
  unfold put
  split
  · rename_i hc
    show upd s.held n (keepAll (s.held n) ms) k = _
    unfold upd
    by_cases hk : k = n
    · rw [if_pos hk, if_pos ⟨hc, hk⟩]
    · rw [if_neg hk, if_neg (fun h => hk h.2)]
  · rename_i hc
    rw [if_neg (fun h => hc h.1)]

theorem publishState_frame (near : Near) (s : Sys) (n : Nat) :
    (publishState near s n).count = s.count ∧ (publishState near s n).retain = s.retain ∧ (publishState near s n).reading = s.reading ∧
      (publishState near s n).pending = s.pending ∧ (publishState near s n).changed = s.changed ∧
      (publishState near s n).connected = s.connected ∧ (publishState near s n).enter = s.enter ∧
      (publishState near s n).offline = s.offline := by
  unfold publishState
  split
  · exact put_frame s n _
  · exact ⟨rfl, rfl, rfl, rfl, rfl, rfl, rfl, rfl⟩

theorem publishExt_frame (near : Near) (s : Sys) (n : Nat) :
    (publishExt near s n).count = s.count ∧ (publishExt near s n).retain = s.retain ∧ (publishExt near s n).reading = s.reading ∧
      (publishExt near s n).pending = s.pending ∧ (publishExt near s n).changed = s.changed ∧
      (publishExt near s n).connected = s.connected ∧ (publishExt near s n).enter = s.enter ∧
      (publishExt near s n).offline = s.offline := by
  unfold publishExt
  split
  · exact put_frame s n _
  · exact ⟨rfl, rfl, rfl, rfl, rfl, rfl, rfl, rfl⟩

theorem publishState_told (near : Near) (s : Sys) (n : Nat) (hn : n < s.count) (hc : s.connected = true) :
    Told near (publishState near s n) n := by
  intro m hm
  rw [(publishState_frame near s n).2.2.1] at hm
  unfold publishState
  rw [if_pos hn, put_held, if_pos ⟨hc, rfl⟩]
  exact keepAll_same _ _ (stateMsgs_good near (s.reading n)).1 (stateMsgs_good near (s.reading n)).2 m hm

theorem publishState_other (near : Near) (s : Sys) (n k : Nat) (hk : k ≠ n) : (publishState near s n).held k = s.held k := by
  unfold publishState
  split
  · rw [put_held, if_neg (fun h => hk h.2)]
  · rfl

theorem publishExt_other (near : Near) (s : Sys) (n k : Nat) (hk : k ≠ n) : (publishExt near s n).held k = s.held k := by
  unfold publishExt
  split
  · rw [put_held, if_neg (fun h => hk h.2)]
  · rfl

/-- State messages and those of the extended value never go together. -/
theorem one_kind (near : Near) (cfg : Bool) (r : Reading) : stateMsgs near r = [] ∨ extMsgs near cfg r = [] := by
  cases r
  case meter => exact Or.inl rfl
  all_goals exact Or.inr rfl

theorem publishExt_told (near : Near) (s : Sys) (n k : Nat) (h : Told near s k) : Told near (publishExt near s n) k := by
  intro m hm
  rw [(publishExt_frame near s n).2.2.1] at hm
  by_cases hk : k = n
  · subst hk
    rcases one_kind near s.retain (s.reading k) with e | e
    · rw [e] at hm; cases hm
    · have : (publishExt near s k).held k = s.held k := by
        unfold publishExt
        split
        · rw [put_held, e]
          split <;> rfl
        · rfl
      rw [this]
      exact h m hm
  · rw [publishExt_other near s n k hk]
    exact h m hm

theorem setup_frame (near : Near) (s : Sys) (n : Nat) :
    (setup near s n).count = s.count ∧ (setup near s n).reading = s.reading ∧ (setup near s n).pending = s.pending ∧
      (setup near s n).connected = s.connected ∧ (setup near s n).enter = s.enter ∧ (setup near s n).offline = s.offline ∧
      (setup near s n).retain = s.retain := by
  unfold setup
  split
  · have h := publishState_frame near s n
    exact ⟨h.1, h.2.2.1, h.2.2.2.1, h.2.2.2.2.2.1, h.2.2.2.2.2.2.1, h.2.2.2.2.2.2.2, h.2.1⟩
  · exact ⟨rfl, rfl, rfl, rfl, rfl, rfl, rfl⟩

theorem setup_changed (near : Near) (s : Sys) (n k : Nat) (hn : n < s.count) :
    (setup near s n).changed k = if k = n then false else s.changed k := by
  unfold setup
  rw [if_pos hn]
  rfl

theorem setup_self (near : Near) (s : Sys) (n : Nat) (hn : n < s.count) (hc : s.connected = true) : Told near (setup near s n) n := by
  have := publishState_told near s n hn hc
  unfold setup
  rw [if_pos hn]
  exact this

theorem setup_other (near : Near) (s : Sys) (n k : Nat) (hk : k ≠ n) : (setup near s n).held k = s.held k := by
  unfold setup
  split
  · exact publishState_other near s n k hk
  · rfl

/-- Setting up channel `n` keeps what is told of any channel. -/
theorem setup_told (near : Near) (s : Sys) (n k : Nat) (hc : s.connected = true) (h : Told near s k) : Told near (setup near s n) k := by
  by_cases hk : k = n
  · subst hk
    by_cases hn : k < s.count
    · exact setup_self near s k hn hc
    · unfold setup
      rw [if_neg hn]
      exact h
  · intro m hm
    rw [(setup_frame near s n).2.1] at hm
    rw [setup_other near s n k hk]
    exact h m hm

theorem setupAll_frame (near : Near) (s : Sys) (k : Nat) :
    (setupAll near s k).count = s.count ∧ (setupAll near s k).reading = s.reading ∧ (setupAll near s k).pending = s.pending ∧
      (setupAll near s k).connected = s.connected ∧ (setupAll near s k).enter = s.enter ∧ (setupAll near s k).offline = s.offline ∧
      (setupAll near s k).retain = s.retain := by
  induction k with
  | zero => exact ⟨rfl, rfl, rfl, rfl, rfl, rfl, rfl⟩
  | succ k ih =>
    have h := setup_frame near (setupAll near s k) k
    obtain ⟨a, b, c, d, e, f, g⟩ := ih
    obtain ⟨a', b', c', d', e', f', g'⟩ := h
    exact ⟨a'.trans a, b'.trans b, c'.trans c, d'.trans d, e'.trans e, f'.trans f, g'.trans g⟩

theorem setupAll_told (near : Near) (s : Sys) (k : Nat) (hk : k ≤ s.count) (hc : s.connected = true) :
    ∀ n < k, Told near (setupAll near s k) n := by
  induction k with
  | zero => intro n hn; omega
  | succ k ih =>
    intro n hn
    have f := setupAll_frame near s k
    show Told near (setup near (setupAll near s k) k) n
    by_cases e : n = k
    · subst e
      exact setup_self near _ n (by rw [f.1]; omega) (by rw [f.2.2.2.1]; exact hc)
    · exact setup_told near _ k n (by rw [f.2.2.2.1]; exact hc) (ih (by omega) n (by omega))

theorem setupChanged_frame (near : Near) (s : Sys) (k : Nat) :
    (setupChanged near s k).count = s.count ∧ (setupChanged near s k).reading = s.reading ∧ (setupChanged near s k).pending = s.pending ∧
      (setupChanged near s k).connected = s.connected ∧ (setupChanged near s k).enter = s.enter ∧
      (setupChanged near s k).offline = s.offline ∧ (setupChanged near s k).retain = s.retain := by
  induction k with
  | zero => exact ⟨rfl, rfl, rfl, rfl, rfl, rfl, rfl⟩
  | succ k ih =>
    have h := setup_frame near (setupChanged near s k) k
    obtain ⟨a, b, c, d, e, f, g⟩ := ih
    obtain ⟨a', b', c', d', e', f', g'⟩ := h
    unfold setupChanged
    split
    · exact ⟨a'.trans a, b'.trans b, c'.trans c, d'.trans d, e'.trans e, f'.trans f, g'.trans g⟩
    · exact ⟨a, b, c, d, e, f, g⟩

theorem setupChanged_keeps (near : Near) (s : Sys) (k n : Nat) (hc : s.connected = true) (h : Told near s n) :
    Told near (setupChanged near s k) n := by
  induction k with
  | zero => exact h
  | succ k ih =>
    unfold setupChanged
    split
    · exact setup_told near _ k n (by rw [(setupChanged_frame near s k).2.2.2.1]; exact hc) ih
    · exact ih

theorem setupChanged_spec (near : Near) (s : Sys) (k : Nat) (hk : k ≤ s.count) (hc : s.connected = true) :
    ∀ n, (n < k → (setupChanged near s k).changed n = false ∧ (s.changed n = true → Told near (setupChanged near s k) n)) ∧
      (k ≤ n → (setupChanged near s k).changed n = s.changed n) := by
  induction k with
  | zero => exact fun n => ⟨fun h => by omega, fun _ => rfl⟩
  | succ k ih =>
    have ih := ih (by omega)
    have f := setupChanged_frame near s k
    have hc' : (setupChanged near s k).connected = true := by rw [f.2.2.2.1]; exact hc
    have hlt : k < (setupChanged near s k).count := by rw [f.1]; omega
    intro n
    have hk' := (ih k).2 (Nat.le_refl k)
    cases hch : (setupChanged near s k).changed k with
    | true =>
      have e : setupChanged near s (k + 1) = setup near (setupChanged near s k) k := by
        show (if _ then _ else _) = _
        rw [if_pos hch]
      rw [e, setup_changed near _ k n hlt]
      constructor
      · intro hn
        by_cases en : n = k
        · subst en
          exact ⟨if_pos rfl, fun _ => setup_self near _ n hlt hc'⟩
        · rw [if_neg en]
          exact ⟨((ih n).1 (by omega)).1, fun h => setup_told near _ k n hc' (((ih n).1 (by omega)).2 h)⟩
      · intro hn
        rw [if_neg (by omega)]
        exact (ih n).2 (by omega)
    | false =>
      have e : setupChanged near s (k + 1) = setupChanged near s k := by
        show (if _ then _ else _) = _
        rw [if_neg (by rw [hch]; exact Bool.false_ne_true)]
      rw [e]
      constructor
      · intro hn
        by_cases en : n = k
        · subst en
          exact ⟨hch, fun h => by rw [← hk', hch] at h; cases h⟩
        · exact (ih n).1 (by omega)
      · intro hn
        exact (ih n).2 (by omega)

theorem pass_frame (near : Near) (s : Sys) :
    (pass near s).count = s.count ∧ (pass near s).reading = s.reading ∧ (pass near s).pending = s.pending ∧
      (pass near s).connected = s.connected ∧ (pass near s).offline = s.offline := by
  unfold pass
  split
  · exact ⟨rfl, rfl, rfl, rfl, rfl⟩
  · split
    · obtain ⟨a, b, c, d, _, f, _⟩ := setupChanged_frame near (setupAll near { s with enter := false } s.count) s.count
      obtain ⟨a', b', c', d', _, f', _⟩ := setupAll_frame near { s with enter := false } s.count
      exact ⟨a.trans a', b.trans b', c.trans c', d.trans d', f.trans f'⟩
    · obtain ⟨a, b, c, d, _, f, _⟩ := setupChanged_frame near s s.count
      exact ⟨a, b, c, d, f⟩

/-- A pass over a connected client tells everything that was announced, and clears the announcements. -/
theorem pass_spec (near : Near) (s : Sys) (hc : s.connected = true) (n : Nat) (hn : n < s.count) :
    (pass near s).enter = false ∧ (pass near s).changed n = false ∧
      ((s.enter = true ∨ s.changed n = true ∨ Told near s n) → Told near (pass near s) n) := by
  unfold pass
  rw [if_neg (by rw [hc]; exact Bool.false_ne_true)]
  split
  · have f := setupAll_frame near { s with enter := false } s.count
    have t := setupAll_told near { s with enter := false } s.count (Nat.le_refl _) hc n hn
    have hc' : (setupAll near { s with enter := false } s.count).connected = true := f.2.2.2.1.trans hc
    have g := setupChanged_frame near (setupAll near { s with enter := false } s.count) s.count
    have sp := setupChanged_spec near (setupAll near { s with enter := false } s.count) s.count (by rw [f.1]) hc' n
    exact ⟨g.2.2.2.2.1.trans f.2.2.2.2.1, (sp.1 hn).1, fun _ => setupChanged_keeps near _ _ n hc' t⟩
  · rename_i he
    have g := setupChanged_frame near s s.count
    have sp := setupChanged_spec near s s.count (Nat.le_refl _) hc n
    refine ⟨?_, (sp.1 hn).1, ?_⟩
    · rw [g.2.2.2.2.1]; exact Bool.eq_false_iff.mpr he
    · intro h
      rcases h with h | h | h
      · exact absurd h he
      · exact (sp.1 hn).2 h
      · exact setupChanged_keeps near s _ n hc h

theorem sendOne_frame (near : Near) (s : Sys) (n : Nat) :
    (sendOne near s n).count = s.count ∧ (sendOne near s n).reading = s.reading ∧ (sendOne near s n).changed = s.changed ∧
      (sendOne near s n).connected = s.connected ∧ (sendOne near s n).enter = s.enter ∧ (sendOne near s n).offline = s.offline ∧
      ∀ k, (sendOne near s n).pending k = if k = n then false else s.pending k := by
  unfold sendOne
  split
  · obtain ⟨a, _, c, d, e, f, g, i⟩ := publishExt_frame near (publishState near { s with pending := upd s.pending n false } n) n
    obtain ⟨a', _, c', d', e', f', g', i'⟩ := publishState_frame near { s with pending := upd s.pending n false } n
    exact ⟨a.trans a', c.trans c', e.trans e', f.trans f', g.trans g', i.trans i', fun k => by rw [d, d']; rfl⟩
  · rename_i hp
    refine ⟨rfl, rfl, rfl, rfl, rfl, rfl, fun k => ?_⟩
    by_cases hk : k = n
    · rw [if_pos hk, hk]; exact Bool.eq_false_iff.mpr hp
    · rw [if_neg hk]

theorem sendOne_self (near : Near) (s : Sys) (n : Nat) (hn : n < s.count) (hc : s.connected = true) (hp : s.pending n = true) :
    Told near (sendOne near s n) n := by
  unfold sendOne
  rw [if_pos hp]
  exact publishExt_told near _ n n (publishState_told near { s with pending := upd s.pending n false } n hn hc)

theorem sendOne_other (near : Near) (s : Sys) (n k : Nat) (hk : k ≠ n) : (sendOne near s n).held k = s.held k := by
  unfold sendOne
  split
  · rw [publishExt_other near _ n k hk, publishState_other near _ n k hk]
  · rfl

theorem inv_step (near : Near) (s : Sys) (o : Op) (h : Inv near s) : Inv near (step near s o) := by
  intro k hk hs
  cases o with
  | value n r =>
    by_cases e : r = s.reading n
    · have e' : step near s (.value n r) = s := if_pos e
      rw [e'] at hk hs ⊢
      exact h k hk hs
    · have e' : step near s (.value n r) = { s with reading := upd s.reading n r, pending := upd s.pending n true } := if_neg e
      rw [e'] at hk hs ⊢
      obtain ⟨h1, h2, h3, h4⟩ := hs
      have h3 : (if k = n then true else s.pending k) = false := h3
      by_cases ek : k = n
      · rw [if_pos ek] at h3; cases h3
      · rw [if_neg ek] at h3
        intro m hm
        have hm : m ∈ stateMsgs near (if k = n then r else s.reading k) := hm
        rw [if_neg ek] at hm
        exact h k hk ⟨h1, h2, h3, h4⟩ m hm
  | func n r =>
    obtain ⟨h1, h2, h3, h4⟩ := hs
    have h4 : (if k = n then true else s.changed k) = false := h4
    by_cases ek : k = n
    · rw [if_pos ek] at h4; cases h4
    · rw [if_neg ek] at h4
      intro m hm
      have hm : m ∈ stateMsgs near (if k = n then r else s.reading k) := hm
      rw [if_neg ek] at hm
      exact h k hk ⟨h1, h2, h3, h4⟩ m hm
  | avail n o =>
    by_cases e : o = s.offline n
    · have e' : step near s (.avail n o) = s := if_pos e
      rw [e'] at hk hs ⊢
      exact h k hk hs
    · have e' : step near s (.avail n o) = { s with offline := upd s.offline n o, pending := upd s.pending n true } := if_neg e
      rw [e'] at hk hs ⊢
      obtain ⟨h1, h2, h3, h4⟩ := hs
      have h3 : (if k = n then true else s.pending k) = false := h3
      by_cases ek : k = n
      · rw [if_pos ek] at h3; cases h3
      · rw [if_neg ek] at h3
        exact fun m hm => h k hk ⟨h1, h2, h3, h4⟩ m hm
  | send n =>
    have f := sendOne_frame near s n
    have k0 : k < s.count := by rw [← f.1]; exact hk
    have c1 : s.connected = true := by rw [← f.2.2.2.1]; exact hs.1
    have c2 : s.enter = false := by rw [← f.2.2.2.2.1]; exact hs.2.1
    have c3 : (if k = n then false else s.pending k) = false := by rw [← f.2.2.2.2.2.2 k]; exact hs.2.2.1
    have c4 : s.changed k = false := by rw [← f.2.2.1]; exact hs.2.2.2
    by_cases ek : k = n
    · rw [← ek]
      cases hp : s.pending k with
      | true => exact sendOne_self near s k k0 c1 hp
      | false =>
        have e' : step near s (.send k) = s := if_neg (by rw [hp]; exact Bool.false_ne_true)
        rw [e']
        exact h k k0 ⟨c1, c2, hp, c4⟩
    · rw [if_neg ek] at c3
      intro m hm
      have hm : m ∈ stateMsgs near ((sendOne near s n).reading k) := hm
      rw [f.2.1] at hm
      show (sendOne near s n).held k m.topic = _
      rw [sendOne_other near s n k ek]
      exact h k k0 ⟨c1, c2, c3, c4⟩ m hm
  | up => exact absurd hs.2.1 (by show true ≠ false; exact Bool.noConfusion)
  | down => exact absurd hs.1 (by show false ≠ true; exact Bool.noConfusion)
  | pass =>
    have f := pass_frame near s
    obtain ⟨h1, h2, h3, _⟩ := hs
    have hk : k < (pass near s).count := hk
    rw [f.1] at hk
    have h1 : (pass near s).connected = true := h1
    rw [f.2.2.2.1] at h1
    have h3 : (pass near s).pending k = false := h3
    rw [f.2.2.1] at h3
    have sp := pass_spec near s h1 k hk
    refine sp.2.2 ?_
    cases he : s.enter with
    | true => exact Or.inl rfl
    | false =>
      cases hch : s.changed k with
      | true => exact Or.inr (Or.inl rfl)
      | false => exact Or.inr (Or.inr (h k hk ⟨h1, he, h3, hch⟩))

theorem inv_run (near : Near) (ops : List Op) : ∀ s, Inv near s → Inv near (run near s ops) := by
  induction ops with
  | nil => exact fun s h => h
  | cons o ops ih => exact fun s h => ih (step near s o) (inv_step near s o h)

theorem inv_init (near : Near) (count : Nat) (retain : Bool) (r : Nat → Reading) (held : Nat → Held) : Inv near (init count retain r held) :=
  fun _ _ hs => absurd hs.1 (by show false ≠ true; exact Bool.noConfusion)

/-! ## The picture -/

theorem double_num (near : Near) (h : Held) (t : String) (x : Rat) (d : Nat) (e : h t = trace (double near x d)) : Num h t x d := by
  refine ⟨near.rnd (x * 10 ^ d), ?_, near.low _, near.high _⟩
  rw [e]; rfl

theorem bool_says (h : Held) (t : String) (b : Bool) (e : h t = trace (bool b)) : Says h t b "true" "false" := by
  refine ⟨fun hb => ?_, fun hb => ?_⟩ <;> (rw [e, hb]; rfl)

theorem word_says (h : Held) (t : String) (b : Bool) (y n : String) (e : h t = trace (.word (if b then y else n))) : Says h t b y n := by
  refine ⟨fun hb => ?_, fun hb => ?_⟩ <;> (rw [e, hb]; rfl)

theorem says_congr (h : Held) (t y n : String) (b c : Bool) (e : b = c) (hs : Says h t b y n) : Says h t c y n := by rw [← e]; exact hs

theorem told_shutter (h : Held) (p : Int) (hp : 0 ≤ p) (ht : ∀ m ∈ shutterMsgs p, h m.topic = trace m.payload) : Position h p := by
  have h1 := ht (kept "is_calibrating" (bool (p == -1))) (List.mem_cons_self)
  have h2 := ht (kept "shut" (int (byte p))) (List.mem_cons_of_mem _ List.mem_cons_self)
  have eb : byte p = p := if_pos hp
  refine ⟨?_, fun _ => ?_, fun hn => by omega⟩
  · refine says_congr h _ _ _ (p == -1) _ ?_ (bool_says h _ _ h1)
    rw [Bool.eq_iff_iff, beq_iff_eq, decide_eq_true_iff]
  · have h2 : h "shut" = trace (int (byte p)) := h2
    rw [eb] at h2
    exact h2

theorem pos_ne (n : Nat) : decide (n > 0) = decide (n ≠ 0) := decide_eq_decide.mpr (by omega)

theorem opt_point (near : Near) (h : Held) (t : String) (x : Int) (hx : -32768 ≤ x) (e : h t = trace (optPoint near x)) : Point h t x := by
  unfold optPoint at e
  constructor
  · intro hn
    rw [if_neg (by omega)] at e
    exact e
  · intro hn
    rw [if_pos (by omega)] at e
    exact double_num near h t _ 2 e

theorem told_shows (near : Near) (h : Held) (r : Reading) (hp : Plain r) (ht : ∀ m ∈ stateMsgs near r, h m.topic = trace m.payload) :
    Shows h r := by
  cases r with
  | relay on => exact bool_says h _ _ (ht _ List.mem_cons_self)
  | impulse on => exact absurd hp id
  | shutter p => exact told_shutter h p hp ht
  | blind p t =>
    have h1 : h "tilt" = trace (int (byte t)) := ht _ List.mem_cons_self
    have eb : byte t = t := if_pos hp.2
    rw [eb] at h1
    exact ⟨told_shutter h p hp.1 (fun m hm => ht m (List.mem_cons_of_mem _ hm)), fun _ => h1, fun hn => absurd hp.2 (by omega)⟩
  | thermometer t =>
    have hp : t > -273 := hp
    have e : stateMsgs near (.thermometer t) = [kept "temperature" (double near t 2)] := if_pos hp
    rw [e] at ht
    exact ⟨fun hn => absurd hp (not_lt.mpr hn), fun _ => double_num near h _ _ _ (ht _ List.mem_cons_self)⟩
  | climate t h' =>
    obtain ⟨hp1, hp2⟩ := hp
    have q : (t : Rat) / 1000 > -273 := by
      have : (t : Rat) / 1000 = t * (1 / 1000) := by rw [div_eq_mul_one_div]
      rw [this]; linarith
    have e : stateMsgs near (.climate t h') = [kept "temperature" (double near (t / 1000) 2), kept "humidity" (double near (h' / 1000) 2)] := by
      show (if _ then _ else _) ++ (if _ then _ else _) = _
      rw [if_pos q, if_pos hp2]; rfl
    rw [e] at ht
    exact ⟨fun hn => absurd hp1 (not_lt.mpr hn), fun _ => double_num near h _ _ _ (ht _ List.mem_cons_self), fun hn => by omega,
      fun _ => double_num near h _ _ _ (ht _ (List.mem_cons_of_mem _ List.mem_cons_self))⟩
  | dimmer b =>
    have h1 := ht (kept "brightness" (int b)) (List.mem_cons_self)
    have h2 := ht (kept "on" (bool (decide (b > 0)))) (List.mem_cons_of_mem _ List.mem_cons_self)
    exact ⟨h1, says_congr h _ _ _ _ _ (pos_ne b) (bool_says h _ _ h2)⟩
  | rgb cb r g b =>
    have h1 := ht (kept "color_brightness" (int cb)) (List.mem_cons_self)
    have h2 := ht (kept "on" (bool (decide (cb > 0)))) (List.mem_cons_of_mem _ List.mem_cons_self)
    have h3 := ht (kept "color" (.colour r g b)) (List.mem_cons_of_mem _ (List.mem_cons_of_mem _ List.mem_cons_self))
    exact ⟨h1, says_congr h _ _ _ _ _ (pos_ne cb) (bool_says h _ _ h2), h3⟩
  | rgbw w cb r g b =>
    have h1 := ht (kept "brightness" (int w)) (by simp [stateMsgs])
    have h2 := ht (kept "color_brightness" (int cb)) (by simp [stateMsgs])
    have h3 := ht (kept "rgb/on" (bool (decide (cb > 0)))) (by simp [stateMsgs])
    have h4 := ht (kept "dimmer/on" (bool (decide (w > 0)))) (by simp [stateMsgs])
    have h5 := ht (kept "color" (.colour r g b)) (by simp [stateMsgs])
    exact ⟨h1, h2, says_congr h _ _ _ _ _ (pos_ne cb) (bool_says h _ _ h3), says_congr h _ _ _ _ _ (pos_ne w) (bool_says h _ _ h4), h5⟩
  | hvac hc cs heating cooling weekly mode heat cool =>
    have h1 : h "action" = some (.word (hvacAction heating cooling mode)) := ht (kept "action" (.word (hvacAction heating cooling mode))) List.mem_cons_self
    have h2 : h "mode" = some (.word (hvacMode weekly mode)) := ht (kept "mode" (.word (hvacMode weekly mode))) (List.mem_cons_of_mem _ List.mem_cons_self)
    have h3 : ∀ m ∈ hvacPoints near hc cs heat cool, h m.topic = trace m.payload :=
      fun m hm => ht m (List.mem_cons_of_mem _ (List.mem_cons_of_mem _ hm))
    refine ⟨?_, ?_, ?_, ?_, ?_, ?_, ?_⟩
    · intro e; rw [h1, e]; rfl
    · intro e; rw [h1, e.1, e.2]; rfl
    · intro e
      rw [e.1, e.2] at h1
      constructor
      · intro hm
        have hm := of_decide_eq_true hm
        rw [h1]
        have : mode = 0 ∨ mode = 1 := by omega
        rcases this with e | e <;> rw [e] <;> rfl
      · intro hm
        have hm := of_decide_eq_false hm
        rw [h1]
        show some (Payload.word (if (mode == 1 || mode == 0) = true then "off" else "idle")) = _
        have : (mode == 1 || mode == 0) = false := by
          rw [Bool.or_eq_false_iff]; exact ⟨beq_eq_false_iff_ne.mpr (by omega), beq_eq_false_iff_ne.mpr (by omega)⟩
        rw [this]; rfl
    · intro e; rw [h2, e]; rfl
    · intro e
      rw [e] at h2
      intro p hp' hm
      rw [h2, hm]
      simp only [List.mem_cons, List.not_mem_nil, or_false] at hp'
      rcases hp' with e | e | e | e | e <;> rw [e] <;> rfl
    · intro e
      subst e
      have hp : -32768 ≤ heat ∧ -32768 ≤ cool := hp
      have h3 : ∀ m ∈ [kept "temperature_setpoint" .empty, kept "temperature_setpoint_heat" (optPoint near heat), kept "temperature_setpoint_cool" (optPoint near cool)], h m.topic = trace m.payload := h3
      exact ⟨opt_point near h _ _ hp.1 (h3 (kept "temperature_setpoint_heat" (optPoint near heat)) (by simp)),
        opt_point near h _ _ hp.2 (h3 (kept "temperature_setpoint_cool" (optPoint near cool)) (by simp)), h3 (kept "temperature_setpoint" .empty) (by simp)⟩
    · intro e
      subst e
      have hp : (if cs then cool else heat) ≠ -32768 := hp
      have h3 : ∀ m ∈ [kept "temperature_setpoint_heat" .empty, kept "temperature_setpoint_cool" .empty,
          kept "temperature_setpoint" (double near ((if cs then cool else heat) / 100) 2)], h m.topic = trace m.payload := h3
      refine ⟨⟨fun hn => absurd hn hp, fun _ => ?_⟩, h3 (kept "temperature_setpoint_heat" .empty) (by simp),
        h3 (kept "temperature_setpoint_cool" .empty) (by simp)⟩
      have h4 := double_num near h _ _ _ (h3 (kept "temperature_setpoint" (double near ((if cs then cool else heat) / 100) 2)) (by simp))
      cases cs <;> exact h4
  | opening on => exact word_says h _ _ _ _ (ht _ List.mem_cons_self)
  | binary on => exact word_says h _ _ _ _ (ht _ List.mem_cons_self)
  | meter m => exact absurd hp id
  | other => trivial

/-- The full claim: in every history, whenever a channel has nothing left to send, the broker's picture of it is
its state. -/
def Shown : Prop :=
  ∀ (near : Near) (count : Nat) (retain : Bool) (r : Nat → Reading) (held : Nat → Held) (ops : List Op) (n : Nat), n < count →
    Settled (run near (init count retain r held) ops) n →
      Shows ((run near (init count retain r held) ops).held n) ((run near (init count retain r held) ops).reading n)

theorem count_run (near : Near) (ops : List Op) : ∀ s, (run near s ops).count = s.count := by
  induction ops with
  | nil => exact fun _ => rfl
  | cons o ops ih =>
    intro s
    refine (ih (step near s o)).trans ?_
    cases o with
    | value n r => show (if _ then _ else _ : Sys).count = _; split <;> rfl
    | func n r => rfl
    | avail n o => show (if _ then _ else _ : Sys).count = _; split <;> rfl
    | send n => exact (sendOne_frame near s n).1
    | up => rfl
    | down => rfl
    | pass => exact (pass_frame near s).1

/-- In every history (whatever the broker kept from before, with any losses of the connection, changes of values and
of functions) the picture of a settled channel is its state, if its value is one of those `Plain` names. -/
theorem shown_partial (near : Near) (count : Nat) (retain : Bool) (r : Nat → Reading) (held : Nat → Held) (ops : List Op) (n : Nat) (hn : n < count)
    (hs : Settled (run near (init count retain r held) ops) n) (hp : Plain ((run near (init count retain r held) ops).reading n)) :
    Shows ((run near (init count retain r held) ops).held n) ((run near (init count retain r held) ops).reading n) :=
  told_shows near _ _ hp (inv_run near ops _ (inv_init near count retain r held) n (by rw [count_run]; exact hn) hs)

/-- A connection, one pass and the channel's turn settle it, whatever was before. -/
theorem catches_up (near : Near) (s : Sys) (n : Nat) (hn : n < s.count) : Settled (run near s [.up, .pass, .send n]) n := by
  have e : run near s [.up, .pass, .send n] = sendOne near (pass near { s with connected := true, enter := true, changed := fun _ => false }) n := rfl
  rw [e]
  have sp := pass_spec near { s with connected := true, enter := true, changed := fun _ => false } rfl n hn
  have pf := pass_frame near { s with connected := true, enter := true, changed := fun _ => false }
  have sf := sendOne_frame near (pass near { s with connected := true, enter := true, changed := fun _ => false }) n
  refine ⟨?_, ?_, ?_, ?_⟩
  · rw [sf.2.2.2.1]; exact pf.2.2.2.1
  · rw [sf.2.2.2.2.1]; exact sp.1
  · rw [sf.2.2.2.2.2.2 n]; exact if_pos rfl
  · rw [sf.2.2.1]; exact sp.2.1

/-! ## What stays behind -/

/-- Topics used for a reading. -/
def topics (near : Near) (cfg : Bool) (r : Reading) : List String := (stateMsgs near r ++ extMsgs near cfg r).map (·.topic)

/-- An operation that leaves the reading of channel `n` as it is. -/
def Leaves (n : Nat) : Op → Prop
  | .value m _ => m ≠ n
  | .func m _ => m ≠ n
  | _ => True

theorem put_topic (s : Sys) (k n : Nat) (ms : List Msg) (t : String) (ht : k = n → t ∉ ms.map (·.topic)) : (put s k ms).held n t = s.held n t := by
  rw [put_held]
  split
  · rename_i h
    rw [h.2]
    exact keepAll_other ms _ t (ht h.2.symm)
  · rfl

theorem publishState_topic (near : Near) (s : Sys) (k n : Nat) (t : String) (ht : t ∉ (stateMsgs near (s.reading n)).map (·.topic)) :
    (publishState near s k).held n t = s.held n t := by
  unfold publishState
  split
  · exact put_topic s k n _ t (fun e => by rw [e]; exact ht)
  · rfl

theorem publishExt_topic (near : Near) (s : Sys) (k n : Nat) (t : String) (ht : t ∉ (extMsgs near s.retain (s.reading n)).map (·.topic)) :
    (publishExt near s k).held n t = s.held n t := by
  unfold publishExt
  split
  · exact put_topic s k n _ t (fun e => by rw [e]; exact ht)
  · rfl

theorem setup_topic (near : Near) (s : Sys) (k n : Nat) (t : String) (ht : t ∉ (stateMsgs near (s.reading n)).map (·.topic)) :
    (setup near s k).held n t = s.held n t := by
  unfold setup
  split
  · exact publishState_topic near s k n t ht
  · rfl

theorem setupAll_topic (near : Near) (s : Sys) (k n : Nat) (t : String) (ht : t ∉ (stateMsgs near (s.reading n)).map (·.topic)) :
    (setupAll near s k).held n t = s.held n t := by
  induction k with
  | zero => rfl
  | succ k ih =>
    show (setup near (setupAll near s k) k).held n t = _
    rw [setup_topic near _ k n t (by rw [(setupAll_frame near s k).2.1]; exact ht), ih]

theorem setupChanged_topic (near : Near) (s : Sys) (k n : Nat) (t : String) (ht : t ∉ (stateMsgs near (s.reading n)).map (·.topic)) :
    (setupChanged near s k).held n t = s.held n t := by
  induction k with
  | zero => rfl
  | succ k ih =>
    unfold setupChanged
    split
    · rw [setup_topic near _ k n t (by rw [(setupChanged_frame near s k).2.1]; exact ht), ih]
    · exact ih

theorem pass_topic (near : Near) (s : Sys) (n : Nat) (t : String) (ht : t ∉ (stateMsgs near (s.reading n)).map (·.topic)) :
    (pass near s).held n t = s.held n t := by
  unfold pass
  split
  · rfl
  · split
    · rw [setupChanged_topic near _ _ n t (by rw [(setupAll_frame near _ _).2.1]; exact ht)]
      exact setupAll_topic near { s with enter := false } _ n t ht
    · exact setupChanged_topic near s _ n t ht

theorem step_topic (near : Near) (s : Sys) (o : Op) (n : Nat) (t : String) (ho : Leaves n o) (ht : t ∉ topics near s.retain (s.reading n)) :
    (step near s o).reading n = s.reading n ∧ (step near s o).retain = s.retain ∧ (step near s o).held n t = s.held n t := by
  unfold topics at ht
  rw [List.map_append, List.mem_append, not_or] at ht
  cases o with
  | value m r =>
    have hm : m ≠ n := ho
    show (if _ then _ else _ : Sys).reading n = _ ∧ (if _ then _ else _ : Sys).retain = _ ∧ (if _ then _ else _ : Sys).held n t = _
    split
    · exact ⟨rfl, rfl, rfl⟩
    · exact ⟨if_neg (fun e => hm e.symm), rfl, rfl⟩
  | func m r =>
    have hm : m ≠ n := ho
    exact ⟨if_neg (fun e => hm e.symm), rfl, rfl⟩
  | avail m o =>
    show (if _ then _ else _ : Sys).reading n = _ ∧ (if _ then _ else _ : Sys).retain = _ ∧ (if _ then _ else _ : Sys).held n t = _
    split <;> exact ⟨rfl, rfl, rfl⟩
  | send m =>
    show (sendOne near s m).reading n = _ ∧ (sendOne near s m).retain = _ ∧ (sendOne near s m).held n t = _
    refine ⟨by rw [(sendOne_frame near s m).2.1], ?_, ?_⟩
    · unfold sendOne
      split
      · exact (publishExt_frame near _ m).2.1.trans (publishState_frame near _ m).2.1
      · rfl
    · unfold sendOne
      split
      · have f := publishState_frame near { s with pending := upd s.pending m false } m
        rw [publishExt_topic near _ m n t (by rw [f.2.1, f.2.2.1]; exact ht.2)]
        exact publishState_topic near { s with pending := upd s.pending m false } m n t ht.1
      · rfl
  | up => exact ⟨rfl, rfl, rfl⟩
  | down => exact ⟨rfl, rfl, rfl⟩
  | pass =>
    refine ⟨by show (pass near s).reading n = _; rw [(pass_frame near s).2.1], ?_, pass_topic near s n t ht.1⟩
    show (pass near s).retain = _
    unfold pass
    split
    · rfl
    · split
      · exact (setupChanged_frame near _ _).2.2.2.2.2.2.trans (setupAll_frame near _ _).2.2.2.2.2.2
      · exact (setupChanged_frame near s _).2.2.2.2.2.2

/-- A topic the current reading has no message for keeps what it had, whatever happens, as long as the reading stays. -/
theorem topic_stays (near : Near) (n : Nat) (t : String) (ops : List Op) : ∀ (s : Sys), (∀ o ∈ ops, Leaves n o) →
    t ∉ topics near s.retain (s.reading n) → (run near s ops).held n t = s.held n t := by
  induction ops with
  | nil => intro s _ _; rfl
  | cons o ops ih =>
    intro s hl ht
    have st := step_topic near s o n t (hl o List.mem_cons_self) ht
    show (run near (step near s o) ops).held n t = _
    rw [ih (step near s o) (fun o ho => hl o (List.mem_cons_of_mem _ ho)) (by rw [st.1, st.2.1]; exact ht)]
    exact st.2.2

/-- A sensor that has no temperature any more: the one kept at the broker stays, over reconnections and all the
rest. -/
theorem temperature_stays (near : Near) (s : Sys) (n : Nat) (t : Rat) (ht : t ≤ -273) (hr : s.reading n = .thermometer t) (ops : List Op)
    (hl : ∀ o ∈ ops, Leaves n o) : (run near s ops).held n = s.held n := by
  funext x
  refine topic_stays near n x ops s hl ?_
  have e : stateMsgs near (.thermometer t) = [] := if_neg (not_lt.mpr ht)
  unfold topics
  rw [hr, e]
  exact List.not_mem_nil

/-- After a change of the function the topics of the former one stay. -/
theorem former_stays (near : Near) (s : Sys) (n : Nat) (p : Int) (hr : s.reading n = .shutter p) (ops : List Op) (hl : ∀ o ∈ ops, Leaves n o) :
    (run near s ops).held n "on" = s.held n "on" := by
  refine topic_stays near n "on" ops s hl ?_
  rw [hr]
  simp [topics, stateMsgs, shutterMsgs, extMsgs, kept]

/-- Nobody can see at the broker that a channel is offline: what is kept for two settled channels with the same
reading is the same on all their topics. -/
theorem offline_unseen (near : Near) (c c' : Nat) (f f' : Bool) (r r' : Nat → Reading) (h h' : Nat → Held) (ops ops' : List Op) (n : Nat)
    (hn : n < c) (hn' : n < c') (hs : Settled (run near (init c f r h) ops) n) (hs' : Settled (run near (init c' f' r' h') ops') n)
    (e : (run near (init c f r h) ops).reading n = (run near (init c' f' r' h') ops').reading n) :
    ∀ m ∈ stateMsgs near ((run near (init c f r h) ops).reading n),
      (run near (init c f r h) ops).held n m.topic = (run near (init c' f' r' h') ops').held n m.topic := by
  intro m hm
  rw [inv_run near ops _ (inv_init near c f r h) n (by rw [count_run]; exact hn) hs m hm]
  rw [e] at hm
  rw [inv_run near ops' _ (inv_init near c' f' r' h') n (by rw [count_run]; exact hn') hs' m hm]

/-! ## Meters -/

theorem fieldMsgs_topics (near : Near) (cfg : Bool) (pre : String) (fs : List (String × Nat × Nat)) : ∀ vs,
    ((fieldMsgs near cfg pre fs vs).map (·.topic)).Sublist (fs.map (fun f => pre ++ f.1)) := by
  induction fs with
  | nil => intro vs; exact List.Sublist.refl _
  | cons f fs ih =>
    intro vs
    cases vs with
    | nil => exact List.nil_sublist _
    | cons v vs =>
      cases v with
      | none => exact (ih vs).cons _
      | some v => exact (ih vs).cons_cons _

theorem fieldMsgs_retain (near : Near) (cfg : Bool) (pre : String) (fs : List (String × Nat × Nat)) : ∀ vs,
    ∀ m ∈ fieldMsgs near cfg pre fs vs, m.retain = cfg := by
  induction fs with
  | nil => intro vs m hm; cases hm
  | cons f fs ih =>
    intro vs m hm
    cases vs with
    | nil => cases hm
    | cons v vs =>
      cases v with
      | none => exact ih vs m hm
      | some v =>
        rcases List.mem_cons.mp hm with e | hm
        · rw [e]
        · exact ih vs m hm

theorem fieldMsgs_mem (near : Near) (cfg : Bool) (pre : String) (fs : List (String × Nat × Nat)) : ∀ vs, ∀ f ∈ fs.zip vs, ∀ v, f.2 = some v →
    ⟨pre ++ f.1.1, double near (v / 10 ^ f.1.2.1) f.1.2.2, cfg⟩ ∈ fieldMsgs near cfg pre fs vs := by
  induction fs with
  | nil => intro vs f hf; cases hf
  | cons g fs ih =>
    intro vs f hf v hv
    cases vs with
    | nil => cases hf
    | cons w vs =>
      rw [List.zip_cons_cons] at hf
      cases w with
      | none =>
        rcases List.mem_cons.mp hf with e | hf
        · rw [e] at hv; cases hv
        · exact ih vs f hf v hv
      | some w =>
        rcases List.mem_cons.mp hf with e | hf
        · rw [e] at hv ⊢
          injection hv with hv
          rw [← hv]
          exact List.mem_cons_self
        · exact List.mem_cons_of_mem _ (ih vs f hf v hv)

/-- All topics of the phases from `k` on. -/
def phaseTopics : Nat → Nat → List String
  | _, 0 => []
  | k, j + 1 => phaseFields.map (fun f => ("phases/" ++ toString (k + 1) ++ "/") ++ f.1) ++ phaseTopics (k + 1) j

theorem phaseMsgs_topics (near : Near) (cfg : Bool) (ps : List (Bool × List (Option Int))) : ∀ k,
    ((phaseMsgs near cfg k ps).map (·.topic)).Sublist (phaseTopics k ps.length) := by
  induction ps with
  | nil => intro k; exact List.Sublist.refl _
  | cons p ps ih =>
    intro k
    obtain ⟨has, vs⟩ := p
    show (((if has = true then fieldMsgs near cfg ("phases/" ++ toString (k + 1) ++ "/") phaseFields vs else []) ++ phaseMsgs near cfg (k + 1) ps).map (·.topic)).Sublist (_ ++ phaseTopics (k + 1) ps.length)
    rw [List.map_append]
    refine List.Sublist.append ?_ (ih (k + 1))
    split
    · exact fieldMsgs_topics near cfg _ phaseFields vs
    · exact List.nil_sublist _

theorem phaseMsgs_retain (near : Near) (cfg : Bool) (ps : List (Bool × List (Option Int))) : ∀ k, ∀ m ∈ phaseMsgs near cfg k ps, m.retain = cfg := by
  induction ps with
  | nil => intro k m hm; cases hm
  | cons p ps ih =>
    intro k m hm
    obtain ⟨has, vs⟩ := p
    rcases List.mem_append.mp hm with hm | hm
    · cases has with
      | true => exact fieldMsgs_retain near cfg _ _ vs m hm
      | false => cases hm
    · exact ih (k + 1) m hm

theorem phaseMsgs_mem (near : Near) (cfg : Bool) (ps : List (Bool × List (Option Int))) : ∀ k j vs, ps[j]? = some (true, vs) →
    ∀ m ∈ fieldMsgs near cfg ("phases/" ++ toString (k + j + 1) ++ "/") phaseFields vs, m ∈ phaseMsgs near cfg k ps := by
  induction ps with
  | nil => intro k j vs hj; cases hj
  | cons p ps ih =>
    intro k j vs hj m hm
    cases j with
    | zero =>
      have e : p = (true, vs) := Option.some.inj hj
      rw [e]
      exact List.mem_append_left _ hm
    | succ j =>
      have hj : ps[j]? = some (true, vs) := hj
      refine List.mem_append_right _ (ih (k + 1) j vs hj m ?_)
      have e : k + 1 + j + 1 = k + (j + 1) + 1 := by omega
      rw [e]; exact hm

theorem meter_topics : (totalFields.map (fun f => "" ++ f.1) ++ phaseTopics 0 3).Nodup := by decide +kernel

theorem phaseTopics_le (n : Nat) : ∀ k m, n ≤ m → (phaseTopics k n).Sublist (phaseTopics k m) := by
  induction n with
  | zero => intro k m _; exact List.nil_sublist _
  | succ n ih =>
    intro k m hm
    cases m with
    | zero => omega
    | succ m => exact List.Sublist.append (List.Sublist.refl _) (ih (k + 1) m (by omega))

theorem extMsgs_good (near : Near) (m : Meter) (hp : m.phases.length ≤ 3) :
    ((extMsgs near true (.meter m)).map (·.topic)).Nodup ∧ ∀ x ∈ extMsgs near true (.meter m), x.retain = true := by
  constructor
  · refine List.Sublist.nodup ?_ meter_topics
    show ((fieldMsgs near true "" totalFields m.totals ++ phaseMsgs near true 0 m.phases).map (·.topic)).Sublist _
    rw [List.map_append]
    exact List.Sublist.append (fieldMsgs_topics near true "" totalFields m.totals)
      ((phaseMsgs_topics near true m.phases 0).trans (phaseTopics_le _ 0 3 hp))
  · intro x hx
    rcases List.mem_append.mp hx with hx | hx
    · exact fieldMsgs_retain near true _ _ _ x hx
    · exact phaseMsgs_retain near true _ 0 x hx

/-- When a meter's new values get their turn while the broker is connected and retained messages are configured, all
of them are at the broker, to half a unit of their last digit. -/
theorem meter_sent_partial (near : Near) (s : Sys) (n : Nat) (m : Meter) (hn : n < s.count) (hr : s.reading n = .meter m) (hc : s.connected = true)
    (hp : s.pending n = true) (hret : s.retain = true) (hph : m.phases.length ≤ 3) :
    Shows ((step near s (.send n)).held n) (.meter m) := by
  have e1 : publishState near { s with pending := upd s.pending n false } n = put { s with pending := upd s.pending n false } n [] := by
    unfold publishState
    rw [if_pos (show n < ({ s with pending := upd s.pending n false } : Sys).count from hn)]
    show put _ n (stateMsgs near (s.reading n)) = _
    rw [hr]; rfl
  have f := put_frame { s with pending := upd s.pending n false } n []
  have hh : (step near s (.send n)).held n = keepAll (s.held n) (extMsgs near true (.meter m)) := by
    show (sendOne near s n).held n = _
    unfold sendOne
    rw [if_pos hp, e1]
    unfold publishExt
    rw [if_pos (by rw [f.1]; exact hn), put_held, if_pos ⟨by rw [f.2.2.2.2.2.1]; exact hc, rfl⟩, f.2.1, f.2.2.1, put_held,
      if_pos ⟨hc, rfl⟩]
    show keepAll (s.held n) (extMsgs near s.retain (s.reading n)) = _
    rw [hret, hr]
  have good := extMsgs_good near m hph
  have all : ∀ x ∈ extMsgs near true (.meter m), (step near s (.send n)).held n x.topic = trace x.payload := by
    intro x hx
    rw [hh]
    exact keepAll_same _ _ good.1 good.2 x hx
  constructor
  · rw [← totalFields_units]
    intro g hg v hv
    exact double_num near _ _ _ _ (all _ (List.mem_append_left _ (fieldMsgs_mem near true "" totalFields m.totals g hg v hv)))
  · rw [← phaseFields_units]
    intro k vs hk g hg v hv
    have e : 0 + k + 1 = k + 1 := by omega
    have := phaseMsgs_mem near true m.phases 0 k vs hk _ (by rw [e]; exact fieldMsgs_mem near true _ phaseFields vs g hg v hv)
    exact double_num near _ _ _ _ (all _ (List.mem_append_right _ this))

/-- Connecting tells nothing about a meter: what the broker has stays until the next change of a value. -/
theorem meter_reconnect (near : Near) (s : Sys) (n : Nat) (m : Meter) (hr : s.reading n = .meter m) (hp : s.pending n = false) (t : String) :
    (run near s [.up, .pass, .send n]).held n t = s.held n t := by
  have e : run near s [.up, .pass, .send n] = sendOne near (pass near { s with connected := true, enter := true, changed := fun _ => false }) n := rfl
  rw [e]
  have pf := pass_frame near { s with connected := true, enter := true, changed := fun _ => false }
  have : sendOne near (pass near { s with connected := true, enter := true, changed := fun _ => false }) n =
      pass near { s with connected := true, enter := true, changed := fun _ => false } := by
    unfold sendOne
    rw [pf.2.2.1, if_neg (by show ¬ s.pending n = true; rw [hp]; exact Bool.false_ne_true)]
  rw [this]
  exact pass_topic near _ n t (by show t ∉ (stateMsgs near (s.reading n)).map (·.topic); rw [hr]; exact List.not_mem_nil)

/-! ## Violations -/

/-- Rounding for the witnesses: half up. -/
def half : Near where
  rnd x := (x + 1 / 2).floor
  low x := by
    have : x + 1 / 2 < (((x + 1 / 2).floor + 1 : Int) : Rat) := Rat.lt_floor_add_one _
    rw [Rat.intCast_add] at this
    have e : ((1 : Int) : Rat) = 1 := rfl
    rw [e] at this
    linarith
  high x := Rat.floor_le _

/-- Only channel 0 matters. -/
def one (r : Reading) : Nat → Reading := fun n => if n = 0 then r else .other

/-- A broker that keeps nothing. -/
def blank : Nat → Held := fun _ _ => none

/-- A gate whose relay is on is "closed", as is one whose relay is off, in every settled history. -/
theorem gate_closed (near : Near) (count : Nat) (retain : Bool) (r : Nat → Reading) (held : Nat → Held) (ops : List Op) (n : Nat) (on : Bool)
    (hn : n < count) (hs : Settled (run near (init count retain r held) ops) n)
    (hr : (run near (init count retain r held) ops).reading n = .impulse on) :
    (run near (init count retain r held) ops).held n "on" = some (.word "closed") := by
  have := inv_run near ops _ (inv_init near count retain r held) n (by rw [count_run]; exact hn) hs (kept "on" (.word "closed"))
    (by rw [hr]; exact List.mem_cons_self)
  exact this

theorem gate_violation : ¬ Shown := by
  intro h
  have := h half 1 true (one (.impulse true)) blank [.up, .pass] 0 (by decide) (by decide +kernel)
  have := this.1 rfl
  revert this
  decide +kernel

/-- A set point that is not set is published as -327.68 degrees. -/
theorem setpoint_unset (near : Near) (count : Nat) (retain : Bool) (r : Nat → Reading) (held : Nat → Held) (ops : List Op) (n : Nat)
    (heating cooling weekly : Bool) (mode : Nat) (cool : Int) (hn : n < count) (hs : Settled (run near (init count retain r held) ops) n)
    (hr : (run near (init count retain r held) ops).reading n = .hvac false false heating cooling weekly mode (-32768) cool) :
    Num ((run near (init count retain r held) ops).held n) "temperature_setpoint" (-32768 / 100) 2 := by
  have := inv_run near ops _ (inv_init near count retain r held) n (by rw [count_run]; exact hn) hs
    (kept "temperature_setpoint" (double near ((-32768 : Int) / 100) 2)) (by rw [hr]; simp [stateMsgs, hvacPoints])
  have := double_num near _ _ _ _ this
  exact this

theorem setpoint_violation : ¬ Shown := by
  intro h
  have := h half 1 true (one (.hvac false false false false false 1 (-32768) (-32768))) blank [.up, .pass] 0 (by decide) (by decide +kernel)
  have := (this.2.2.2.2.2.2 rfl).1.1 rfl
  revert this
  decide +kernel

theorem temperature_violation : ¬ Shown := by
  intro h
  have := h half 1 true (one (.thermometer 21)) blank [.up, .pass, .value 0 (.thermometer (-275)), .send 0] 0 (by decide) (by decide +kernel)
  have := this.1 (by decide +kernel)
  revert this
  decide +kernel

/-- A shutter that does not know its position is published as open. -/
theorem position_violation : ¬ Shown := by
  intro h
  have := h half 1 true (one (.shutter (-1))) blank [.up, .pass] 0 (by decide) (by decide +kernel)
  have := this.2.2 (by decide)
  revert this
  decide +kernel

/-- A meter with one total. -/
def oneTotal (v : Int) : Meter := ⟨[some v, none, none, none], []⟩

/-- Energy counted while only the other protocol was connected is not published at the connection. -/
theorem meter_violation : ¬ Shown := by
  intro h
  have := h half 1 true (one (.meter (oneTotal 100000))) blank
    [.up, .pass, .value 0 (.meter (oneTotal 200000)), .send 0, .down, .value 0 (.meter (oneTotal 300000)), .send 0, .up, .pass, .send 0] 0
    (by decide) (by decide +kernel)
  obtain ⟨m, e, lo, hi⟩ := this.1 (("total_forward_active_energy", 5, 4), some 300000) (by decide +kernel) 300000 rfl
  have e2 : (run half (init 1 true (one (.meter (oneTotal 100000))) blank)
    [.up, .pass, .value 0 (.meter (oneTotal 200000)), .send 0, .down, .value 0 (.meter (oneTotal 300000)), .send 0, .up, .pass, .send 0]).held 0
      ("" ++ "total_forward_active_energy") = some (.num 20000 4) := by decide +kernel
  rw [e2] at e
  have e3 : m = 20000 := by injection e with e; injection e with e _; exact e.symm
  rw [e3] at lo
  norm_num at lo

/-- Once more the full claim on what is kept besides: nothing but the topics of the current reading. -/
def NothingElse : Prop :=
  ∀ (near : Near) (count : Nat) (retain : Bool) (r : Nat → Reading) (ops : List Op) (n : Nat) (t : String), n < count →
    Settled (run near (init count retain r blank) ops) n →
      t ∉ topics near retain ((run near (init count retain r blank) ops).reading n) → (run near (init count retain r blank) ops).held n t = none

theorem former_violation : ¬ NothingElse := by
  intro h
  have := h half 1 true (one (.relay true)) [.up, .pass, .func 0 (.shutter 0), .pass] 0 "on" (by decide) (by decide +kernel) (by decide +kernel)
  revert this
  decide +kernel

/-- The claim that availability can be seen: a channel that is offline has a picture different from an online one. -/
def OfflineSeen : Prop :=
  ∀ (near : Near) (count : Nat) (retain : Bool) (r : Nat → Reading) (held : Nat → Held) (ops : List Op) (n : Nat), n < count →
    Settled (run near (init count retain r held) ops) n → (run near (init count retain r held) ops).offline n = 1 →
      ¬ Shows ((run near (init count retain r held) ops).held n) ((run near (init count retain r held) ops).reading n)

theorem offline_violation : ¬ OfflineSeen := by
  intro h
  refine h half 1 true (one (.relay true)) blank [.up, .pass, .avail 0 1, .send 0] 0 (by decide) (by decide +kernel) (by decide +kernel) ?_
  exact shown_partial half 1 true (one (.relay true)) blank [.up, .pass, .avail 0 1, .send 0] 0 (by decide) (by decide +kernel) trivial

/-! ## Non-vacuity -/

example : Settled (run half (init 1 false (one (.dimmer 40)) blank) [.up, .pass, .value 0 (.dimmer 0), .send 0]) 0 ∧
    (run half (init 1 false (one (.dimmer 40)) blank) [.up, .pass, .value 0 (.dimmer 0), .send 0]).held 0 "on" = some (.word "false") := by
  decide +kernel

example : (run half (init 2 false (fun _ => .climate 21456 48000) blank) [.up, .pass]).held 1 "temperature" = some (.num 2146 2) := by decide +kernel

example : Leaves 0 (.value 1 (.relay true)) ∧ Leaves 0 .up := by unfold Leaves; decide

example : (step half { init 1 true (one (.meter (oneTotal 123456))) blank with connected := true, pending := fun _ => true } (.send 0)).held 0
    "total_forward_active_energy" = some (.num 12346 4) := by decide +kernel

end Verif.Mqtt.State
