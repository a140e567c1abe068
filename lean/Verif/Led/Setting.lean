import Verif.Led.Model

/-!
# The mode of the status LED: where it is set and stored

Models `StatusLed::onLoadConfig` and `storeModeToConfig` (/repo/src/supla/device/status_led.cpp, S, lines 41-107),
the server's way to set the mode (/repo/src/supla/device/remote_device_config.cpp, R, lines 374-388) and the web
page's (/repo/src/supla/network/html/status_led_parameters.cpp, W, lines 73-102).  The configuration is one entry of
type `int8_t` under `StatusLedCfgTag`; a configuration object exists.
-/

namespace Verif.Led

/-- The numbers of `LedMode`, status_led.h lines 26-31. -/
def Mode.code : Mode → Int
  | .onWhenConnected => 0
  | .offWhenConnected => 1
  | .alwaysOff => 2
  | .configOnly => 3

/-- The `switch` of S lines 57-71. -/
def byValue (v : Int) : Mode := if v = 1 then .offWhenConnected else if v = 2 then .alwaysOff else .onWhenConnected

/-- The fields of `StatusLed` used here (status_led.h lines 84-87) and the configuration entry. -/
structure Setting where
  stored : Option Int
  mode : Mode
  dflt : Mode
  use : Bool
deriving DecidableEq, Repr

/-- `onLoadConfig`, S lines 41-77, without the registration of the field. -/
def load (s : Setting) : Setting :=
  if s.mode = .configOnly ∨ s.use = false then s
  else { s with stored := some (s.stored.getD s.dflt.code), mode := byValue (s.stored.getD s.dflt.code) }

/-- A byte as `int8_t`. -/
def s8 (n : Nat) : Int := if n % 256 < 128 then ((n % 256 : Nat) : Int) else ((n % 256 : Nat) : Int) - 256

/-- `processStatusLedConfig`, R lines 374-388, with the reload by `onDeviceConfigChange`, S lines 299-305; the type is an
`unsigned char`. -/
def server (n : Nat) (s : Setting) : Setting :=
  if 0 ≤ s.stored.getD (-1) ∧ s.stored.getD (-1) ≤ 2 ∧ s.stored.getD (-1) ≠ ((n % 256 : Nat) : Int) then
    load { s with stored := some (s8 n) }
  else s

/-- `handleResponse`, W lines 73-102, with the reload; `n` is the number sent by the page. -/
def web (n : Int) (s : Setting) : Setting :=
  if s.stored.getD (-1) ≠ n then load { s with stored := some (if n = 1 ∨ n = 2 then n else 0) } else s

/-- `setMode(m)` and `storeModeToConfig()`, S lines 290-293 and 79-107: the way a button or a display sets the mode. -/
def localSet (m : Mode) (s : Setting) : Setting :=
  if s.stored.getD 0 ≠ m.code then
    { s with mode := m, stored := some (if m.code = 1 ∨ m.code = 2 then m.code else 0) }
  else { s with mode := m }

/-- What happens: a boot (a new object with the application's `setMode` before `begin`), the server, the web page, the
device itself. -/
inductive SetOp
  | boot (first : Mode)
  | server (n : Nat)
  | web (n : Int)
  | localSet (m : Mode)
deriving DecidableEq, Repr

/-- One event. -/
def setStep (s : Setting) : SetOp → Setting
  | .boot m => load { s with mode := m }
  | .server n => server n s
  | .web n => web n s
  | .localSet m => localSet m s

/-- A history after the first boot of a new device. -/
def setRun (dflt : Mode) (use : Bool) (first : Mode) (ops : List SetOp) : Setting :=
  ops.foldl setStep (load ⟨none, first, dflt, use⟩)

/-! ## Specification -/

/-- The mode chosen by a number, as the documentation of the field has it (proto.h: 0 on when connected, 1 off when
connected, 2 always off). -/
def chosen : Int → Option Mode
  | 0 => some .onWhenConnected
  | 1 => some .offWhenConnected
  | 2 => some .alwaysOff
  | _ => none

/-- Nothing in the history asks for "configuration mode only". -/
def Usual : SetOp → Prop
  | .boot m => m ≠ .configOnly
  | .localSet m => m ≠ .configOnly
  | _ => True

/-! ## Proofs -/

/-- The mode in force is the mode stored. -/
structure Agrees (s : Setting) : Prop where
  use : s.use = true
  mode : s.mode ≠ .configOnly
  same : ∃ v, s.stored = some v ∧ s.mode = byValue v

theorem byValue_ne (v : Int) : byValue v ≠ .configOnly := by
  unfold byValue
  repeat' split
  all_goals decide

theorem load_agrees (s : Setting) (h1 : s.use = true) (h2 : s.mode ≠ .configOnly) : Agrees (load s) := by
  unfold load
  rw [if_neg (by simp [h1, h2])]
  exact ⟨h1, byValue_ne _, _, rfl, rfl⟩

theorem step_agrees (s : Setting) (h : Agrees s) (o : SetOp) (ho : Usual o) : Agrees (setStep s o) := by
  cases o with
  | boot m => exact load_agrees _ h.use ho
  | server n =>
    unfold setStep server
    dsimp only
    split
    · exact load_agrees _ h.use h.mode
    · exact h
  | web n =>
    unfold setStep web
    dsimp only
    split
    · exact load_agrees _ h.use h.mode
    · exact h
  | localSet m =>
    obtain ⟨v, hv, hm⟩ := h.same
    have ho' : m ≠ .configOnly := ho
    unfold setStep localSet
    dsimp only
    rw [hv]
    split
    · refine ⟨h.use, ho', _, rfl, ?_⟩
      cases m
      · rfl
      · rfl
      · rfl
      · exact absurd rfl ho'
    · rename_i hq
      have hq' : v = m.code := by simpa using hq
      refine ⟨h.use, ho', v, rfl, ?_⟩
      rw [hq']
      cases m
      · rfl
      · rfl
      · rfl
      · exact absurd rfl ho'

theorem run_agrees (d first : Mode) (ops : List SetOp) (hf : first ≠ .configOnly) (ho : ∀ o ∈ ops, Usual o) :
    Agrees (setRun d true first ops) := by
  have key : ∀ (ops : List SetOp) (s : Setting), Agrees s → (∀ o ∈ ops, Usual o) → Agrees (ops.foldl setStep s) := by
    intro ops
    induction ops with
    | nil => intro s h _; exact h
    | cons o ops ih =>
      intro s h ho
      exact ih _ (step_agrees s h o (ho o (List.mem_cons_self ..))) (fun x hx => ho x (List.mem_cons_of_mem _ hx))
  exact key ops _ (load_agrees _ rfl hf) ho

/-- **C76 (kept).** Whatever the server, the web page and the device itself set, in any order: a restart (with any mode
but "configuration mode only" set by the application before it loads its configuration) shows the mode that was in
force before it. -/
theorem mode_kept (d first next : Mode) (ops : List SetOp) (hf : first ≠ .configOnly) (hn : next ≠ .configOnly)
    (ho : ∀ o ∈ ops, Usual o) :
    (setStep (setRun d true first ops) (.boot next)).mode = (setRun d true first ops).mode := by
  obtain ⟨h1, _, v, hv, hm⟩ := run_agrees d first ops hf ho
  generalize setRun d true first ops = s at *
  unfold setStep load
  dsimp only
  rw [if_neg (by simp [h1, hn]), hm, hv]
  rfl

/-- **C76 (the page).** After any history the web page sets the mode it names. -/
theorem page_sets (d first : Mode) (ops : List SetOp) (hf : first ≠ .configOnly) (ho : ∀ o ∈ ops, Usual o) (n : Int)
    (m : Mode) (hm : chosen n = some m) : (setStep (setRun d true first ops) (.web n)).mode = m := by
  obtain ⟨h1, h2, v, hv, h3⟩ := run_agrees d first ops hf ho
  generalize setRun d true first ops = s at *
  have hn : (n = 0 ∧ m = .onWhenConnected) ∨ (n = 1 ∧ m = .offWhenConnected) ∨ (n = 2 ∧ m = .alwaysOff) := by
    unfold chosen at hm
    split at hm
    · exact .inl ⟨rfl, (Option.some.inj hm).symm⟩
    · exact .inr (.inl ⟨rfl, (Option.some.inj hm).symm⟩)
    · exact .inr (.inr ⟨rfl, (Option.some.inj hm).symm⟩)
    · cases hm
  unfold setStep web
  dsimp only
  split
  · unfold load
    rw [if_neg (by simp [h1, h2])]
    rcases hn with ⟨a, b⟩ | ⟨a, b⟩ | ⟨a, b⟩ <;> rw [a, b] <;> rfl
  · rename_i hq
    have hq' : v = n := by rw [hv] at hq; simpa using hq
    rw [h3, hq']
    rcases hn with ⟨a, b⟩ | ⟨a, b⟩ | ⟨a, b⟩ <;> rw [a, b] <;> rfl

/-- **C76 (the server; partial: only while the stored number is one of 0, 1, 2).** The server sets the mode it names. -/
theorem server_sets_partial (d first : Mode) (ops : List SetOp) (hf : first ≠ .configOnly) (ho : ∀ o ∈ ops, Usual o)
    (v : Int) (hv : (setRun d true first ops).stored = some v) (hr : 0 ≤ v ∧ v ≤ 2) (n : Nat) (m : Mode)
    (hm : chosen n = some m) : (setStep (setRun d true first ops) (.server n)).mode = m := by
  obtain ⟨h1, h2, v', hv', h3⟩ := run_agrees d first ops hf ho
  generalize setRun d true first ops = s at *
  have e : v' = v := by rw [hv'] at hv; exact Option.some.inj hv
  have hn : (n = 0 ∧ m = .onWhenConnected) ∨ (n = 1 ∧ m = .offWhenConnected) ∨ (n = 2 ∧ m = .alwaysOff) := by
    unfold chosen at hm
    split at hm
    · rename_i hz; exact .inl ⟨by omega, (Option.some.inj hm).symm⟩
    · rename_i hz; exact .inr (.inl ⟨by omega, (Option.some.inj hm).symm⟩)
    · rename_i hz; exact .inr (.inr ⟨by omega, (Option.some.inj hm).symm⟩)
    · cases hm
  unfold setStep server
  dsimp only
  rw [hv]
  split
  · unfold load
    rw [if_neg (by simp [h1, h2])]
    rcases hn with ⟨a, b⟩ | ⟨a, b⟩ | ⟨a, b⟩ <;> rw [a, b] <;> rfl
  · rename_i hq
    have hq' : v = ((n % 256 : Nat) : Int) := by
      have : ¬ (v ≠ ((n % 256 : Nat) : Int)) := fun w => hq ⟨hr.1, hr.2, w⟩
      exact Decidable.not_not.mp this
    rw [h3, e, hq']
    rcases hn with ⟨a, b⟩ | ⟨a, b⟩ | ⟨a, b⟩ <;> rw [a, b] <;> rfl

/-- **C76 (configuration mode only).** A device whose application chose "configuration mode only" ignores the stored
number at boot, and neither the server nor the page changes the mode. -/
theorem config_only_kept (s : Setting) (h : s.mode = .configOnly) (n : Nat) (k : Int) :
    (setStep s (.boot .configOnly)).mode = .configOnly ∧ (setStep s (.server n)).mode = .configOnly ∧
    (setStep s (.web k)).mode = .configOnly := by
  refine ⟨?_, ?_, ?_⟩
  · unfold setStep load; dsimp only; rw [if_pos (.inl rfl)]
  · unfold setStep server
    dsimp only
    split
    · unfold load; rw [if_pos (.inl h)]; exact h
    · exact h
  · unfold setStep web
    dsimp only
    split
    · unfold load; rw [if_pos (.inl h)]; exact h
    · exact h

/-- The full claims: a new device starts in the application's default mode, and the server always sets the mode. -/
def DefaultShown : Prop := ∀ d : Mode, (setRun d true .onWhenConnected []).mode = d

/-- See `DefaultShown`. -/
def ServerSets : Prop :=
  ∀ (d : Mode) (ops : List SetOp) (n : Nat) (m : Mode), (∀ o ∈ ops, Usual o) → chosen n = some m →
    (setStep (setRun d true .onWhenConnected ops) (.server n)).mode = m

/-- **C76 (violation).** The default "configuration mode only" of `setDefaultMode` is not honoured: the device shows its
connection; and the number 3 it stores locks the setting for the server for ever. -/
theorem default_config_only_violation : ¬ DefaultShown ∧ ¬ ServerSets ∧
    ∀ n, setStep (setRun .configOnly true .onWhenConnected []) (.server n) = setRun .configOnly true .onWhenConnected [] := by
  refine ⟨fun h => absurd (h .configOnly) (by decide), fun h => ?_, fun n => ?_⟩
  · have := h .configOnly [] 2 .alwaysOff (fun _ h => by cases h) rfl
    revert this
    decide +kernel
  · show server n ⟨some 3, .onWhenConnected, .configOnly, true⟩ = _
    unfold server
    rw [if_neg]
    · rfl
    · intro h
      have : (3 : Int) ≤ 2 := h.2.1
      omega

/-- The defaults 0, 1, 2 are honoured. -/
theorem default_shown_partial (d : Mode) (h : d ≠ .configOnly) : (setRun d true .onWhenConnected []).mode = d := by
  cases d
  · rfl
  · rfl
  · rfl
  · exact absurd rfl h

/-- The server sets "always off", the page "off when connected", the device restarts. -/
example : (setRun .onWhenConnected true .onWhenConnected [.server 2]).mode = .alwaysOff ∧
    (setRun .onWhenConnected true .onWhenConnected [.server 2, .web 1, .boot .onWhenConnected]).mode = .offWhenConnected ∧
    (setRun .onWhenConnected true .onWhenConnected [.localSet .alwaysOff, .boot .onWhenConnected]).mode = .alwaysOff := by
  decide +kernel

end Verif.Led
