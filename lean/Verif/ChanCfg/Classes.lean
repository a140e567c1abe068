import Verif.ChanCfg.Link

/-!
# Two classes of channels

`/repo/src/supla/sensor/general_purpose_channel_base.cpp` (cited as G) and
`/repo/src/supla/sensor/therm_hygro_meter.cpp` (cited as T) as instances of `Elem`.

Simplified: messages have the size and the type that the class expects (the others are refused without effect,
G 457-466, T 198-200).
-/

namespace Verif.ChanCfg

/-! ## General purpose channel -/

/-- What is read of an array of 15 bytes as a string, at most 15 bytes. -/
def str (u : List Nat) : List Nat := (u.take 15).takeWhile (· ≠ 0)

/-- `strncpy(dst, u, 14); dst[14] = 0` into an array of 15 bytes (G 233-245, 263-278, 379-382, 397-399). -/
def unit (u : List Nat) : List Nat :=
  let t := (u.take 14).takeWhile (· ≠ 0)
  t ++ List.replicate (15 - t.length) 0

/-- `GPMCommonConfig` (`general_purpose_channel_base.h` 32-44). -/
structure Gpm where
  divider : Int := 0
  multiplier : Int := 0
  added : Int := 0
  precision : Nat := 0
  noSpaceBefore : Nat := 0
  noSpaceAfter : Nat := 0
  keepHistory : Nat := 0
  chartType : Nat := 0
  refresh : Nat := 0
  before : List Nat := List.replicate 15 0
  after : List Nat := List.replicate 15 0
deriving DecidableEq, Repr

/-- The defaults given by the software (G 174-215). -/
structure Defaults where
  divider : Int := 0
  multiplier : Int := 0
  added : Int := 0
  precision : Nat := 0
  before : List Nat := List.replicate 15 0
  after : List Nat := List.replicate 15 0
deriving DecidableEq, Repr

/-- `TChannelConfig_GeneralPurposeMeasurement` (`proto.h` 3258-3299). -/
structure GpmMsg where
  cfg : Gpm
  def' : Defaults
deriving DecidableEq, Repr

/-- `setUnitBeforeValue`, `setUnitAfterValue` (G 373-406). -/
def setUnit (u old : List Nat) : List Nat :=
  if str u ≠ str (unit old) then unit u else old

/-- The test of the defaults (G 490-499). -/
def otherDefaults (m d : Defaults) : Bool :=
  m.divider ≠ d.divider || m.multiplier ≠ d.multiplier || m.added ≠ d.added || m.precision ≠ d.precision ||
  str m.before ≠ str d.before || str m.after ≠ str d.after

/-- `fillChannelConfig` (G 507-541) and `applyChannelConfig` (G 451-505) of a channel with the defaults `d`. -/
def gpm (d : Defaults) : Elem Gpm GpmMsg where
  fill c := some
    { cfg := { c with before := unit c.before, after := unit c.after }
      def' := { d with before := unit d.before, after := unit d.after } }
  apply m c :=
    ({ m.cfg with before := setUnit m.cfg.before c.before, after := setUnit m.cfg.after c.after },
     if otherDefaults m.def' d then .mark else .keep)

/-- The four strings of a message are terminated and padded with zeros. -/
def Padded (m : GpmMsg) : Prop :=
  unit m.cfg.before = m.cfg.before ∧ unit m.cfg.after = m.cfg.after ∧
  unit m.def'.before = m.def'.before ∧ unit m.def'.after = m.def'.after

theorem takeWhile_pad (t : List Nat) (k : Nat) (h : ∀ x ∈ t, x ≠ 0) :
    (t ++ List.replicate k 0).takeWhile (· ≠ 0) = t := by
  induction t with
  | nil => cases k <;> simp [List.replicate]
  | cons x t ih =>
    rw [List.cons_append, List.takeWhile_cons_of_pos (by simpa using h x List.mem_cons_self),
      ih fun y hy => h y (List.mem_cons_of_mem _ hy)]

theorem takeWhile_nz (u : List Nat) : ∀ x ∈ u.takeWhile (· ≠ 0), x ≠ 0 := by
  induction u with
  | nil => intro x hx; cases hx
  | cons y u ih =>
    intro x hx
    by_cases h : y = 0
    · rw [List.takeWhile_cons_of_neg (by simp [h])] at hx
      cases hx
    · rw [List.takeWhile_cons_of_pos (by simp [h])] at hx
      cases hx with
      | head => exact h
      | tail _ hx => exact ih x hx

theorem take14_length (u : List Nat) : ((u.take 14).takeWhile (· ≠ 0)).length ≤ 14 := by
  have h1 := (List.takeWhile_sublist (l := u.take 14) (fun x => decide (x ≠ 0))).length_le
  have h2 := List.length_take_le 14 u
  exact Nat.le_trans h1 h2

theorem unit_length (u : List Nat) : (unit u).length = 15 := by
  have := take14_length u
  unfold unit
  simp only [List.length_append, List.length_replicate]
  omega

theorem str_unit (u : List Nat) : str (unit u) = (u.take 14).takeWhile (· ≠ 0) := by
  unfold str
  rw [List.take_of_length_le (Nat.le_of_eq (unit_length u))]
  exact takeWhile_pad _ _ (takeWhile_nz _)

theorem unit_eq_of_str {u w : List Nat} (h : str (unit u) = str (unit w)) : unit u = unit w := by
  rw [str_unit, str_unit] at h
  unfold unit
  rw [h]

theorem unit_unit (u : List Nat) : unit (unit u) = unit u := by
  have h := str_unit (unit u)
  apply unit_eq_of_str
  rw [h]
  have hl := take14_length u
  show _ = str (unit u)
  rw [str_unit u]
  unfold unit
  dsimp only
  generalize hg : (u.take 14).takeWhile (fun x => decide (x ≠ 0)) = t at hl
  have ht : ∀ x ∈ t, x ≠ 0 := hg ▸ takeWhile_nz _
  rw [List.take_append, List.take_of_length_le hl, List.take_replicate]
  exact takeWhile_pad _ _ ht

/-- A taken unit is the one that is reported. -/
theorem unit_setUnit {u old : List Nat} (h : unit u = u) : unit (setUnit u old) = u := by
  unfold setUnit
  split
  · rw [unit_unit, h]
  · rename_i hs
    have hs : str u = str (unit old) := Classical.not_not.mp hs
    rw [← h] at hs
    rw [← unit_eq_of_str hs, h]

/-- The general purpose channel is faithful: a configuration that it takes is the one it then reports, and when
the server has other defaults it asks to send its own. -/
theorem gpm_faithful (d : Defaults) : Faithful (gpm d) Padded := by
  refine ⟨fun c => ⟨_, rfl, unit_unit _, unit_unit _, unit_unit _, unit_unit _⟩, fun m c hm h => ?_, rfl⟩
  have hd : otherDefaults m.def' d = false := by
    cases ho : otherDefaults m.def' d with
    | false => rfl
    | true =>
      have : ((gpm d).apply m c).2 = .mark := by
        show (if otherDefaults m.def' d then After.mark else .keep) = _
        rw [ho]; rfl
      rw [this] at h
      rcases h with h | h | h <;> cases h
  obtain ⟨h1, h2, h3, h4⟩ := hm
  unfold otherDefaults at hd
  simp only [Bool.or_eq_false_iff, decide_eq_false_iff_not, Classical.not_not] at hd
  obtain ⟨⟨⟨⟨⟨a1, a2⟩, a3⟩, a4⟩, a5⟩, a6⟩ := hd
  have key : ∀ u w : List Nat, unit u = u → str u = str w → unit w = u := by
    intro u w hu hs
    have hl := unit_length u
    rw [← hu] at hs
    have e := str_unit u
    rw [hs] at e
    -- the string of `w` has at most 14 bytes
    have hlen : (str w).length ≤ 14 := by rw [e]; exact take14_length u
    have hw : (w.take 14).takeWhile (· ≠ 0) = str w := by
      unfold str at hlen ⊢
      have hsplit : w.take 15 = w.take 14 ++ (w.drop 14).take 1 := by
        rw [show 15 = 14 + 1 from rfl, List.take_add]
      rw [hsplit] at hlen ⊢
      rw [List.takeWhile_append] at hlen ⊢
      split
      · rename_i hall
        rw [if_pos hall] at hlen
        cases hx : (List.drop 14 w).take 1 with
        | nil =>
          simp only [List.takeWhile_nil, List.append_nil]
          have hsub := List.takeWhile_prefix (l := w.take 14) (fun x => decide (x ≠ 0))
          exact hsub.eq_of_length hall
        | cons x l =>
          have hl14 : (w.take 14).length = 14 := by
            have : 14 < w.length := by
              cases Nat.lt_or_ge 14 w.length with
              | inl h => exact h
              | inr h => rw [List.drop_eq_nil_of_le h] at hx; cases hx
            rw [List.length_take]; omega
          have hxl : (List.takeWhile (fun x => decide (x ≠ 0)) (x :: l)) = [] := by
            rw [hx, List.length_append, hl14] at hlen
            exact List.eq_nil_of_length_eq_zero (by omega)
          rw [hxl, List.append_nil]
          have hsub := List.takeWhile_prefix (l := w.take 14) (fun x => decide (x ≠ 0))
          exact hsub.eq_of_length hall
      · rfl
    have : str (unit w) = str (unit u) := by rw [str_unit w, hw, hs]
    rw [unit_eq_of_str this, hu]
  show some _ = some m
  congr 1
  obtain ⟨mc, md⟩ := m
  dsimp only [gpm] at *
  have e1 := unit_setUnit (old := c.before) h1
  have e2 := unit_setUnit (old := c.after) h2
  rw [e1, e2]
  have k5 := key _ _ h3 a5
  have k6 := key _ _ h4 a6
  rw [k5, k6]
  obtain ⟨_, _, _, _, _, _⟩ := md
  dsimp only at *
  rw [← a1, ← a2, ← a3, ← a4]

example : Padded ⟨{ before := [36] ++ List.replicate 14 0, divider := 5 }, {}⟩ := by unfold Padded; decide +kernel

/-- So, for a general purpose channel and a server that pads its strings, the device and the server agree
whenever nothing is under way. -/
theorem gpm_converges_partial (d : Defaults) (v : Gpm) (srv : Option GpmMsg) (es : List (Ev Gpm GpmMsg))
    (hs : ∀ m, srv = some m → Padded m) (hw : ∀ m, .edit m ∈ es → Padded m)
    (hc : AllNoCrossing (gpm d) es { dev := { val := v }, srv := srv })
    (hq : Quiet (play (gpm d) es { dev := { val := v }, srv := srv })) :
    (play (gpm d) es { dev := { val := v }, srv := srv }).srv =
      (gpm d).fill (play (gpm d) es { dev := { val := v }, srv := srv }).dev.val :=
  converges_partial (gpm_faithful d) v srv es hs hw hc hq

/-- After a refusal, each configuration of the server with other defaults makes the device send again. -/
theorem gpm_insists_violation : ¬ NoInsisting (gpm { divider := 1000 }) := by
  intro h
  have := h { val := {}, st := .failed, fin := true } [.message (.config true (some ⟨{}, {}⟩)), .pass false true]
    rfl (by simp)
  revert this
  decide +kernel

/-! ## Thermometer, hygrometer -/

/-- The corrections kept on the device, in 0.1 degree and 0.1 percent. -/
structure Corr where
  t : Int := 0
  h : Int := 0
deriving DecidableEq, Repr

/-- `TChannelConfig_TemperatureAndHumidity` (`proto.h` 2980-2986), in 0.01. -/
structure CorrMsg where
  t : Int
  h : Int
  byDevice : Bool
deriving DecidableEq, Repr

/-- The limits (T 141-146, 165-169). -/
def clamp (x : Int) : Int := if x < -500 then -500 else if x > 500 then 500 else x

/-- `fillChannelConfig` (T 250-270) and `applyChannelConfig` (T 185-222, 228-248). The sums are of 16 bits; they
do not overflow. -/
def therm : Elem Corr CorrMsg where
  fill c := some { t := clamp c.t * 10, h := clamp c.h * 10, byDevice := true }
  apply m c :=
    if m.byDevice = false then
      ({ t := clamp (clamp c.t + m.t.tdiv 10), h := clamp (clamp c.h + m.h.tdiv 10) }, .mark)
    else ({ t := clamp (m.t.tdiv 10), h := clamp (m.h.tdiv 10) }, .clear)

/-- What the device can represent: tenths, up to 50. -/
def Tenths (m : CorrMsg) : Prop :=
  m.byDevice = true → m.t % 10 = 0 ∧ -5000 ≤ m.t ∧ m.t ≤ 5000 ∧ m.h % 10 = 0 ∧ -5000 ≤ m.h ∧ m.h ≤ 5000

theorem clamp_range (x : Int) : -500 ≤ clamp x ∧ clamp x ≤ 500 := by
  unfold clamp
  split
  · omega
  · split <;> omega

theorem clamp_id {x : Int} (h : -500 ≤ x ∧ x ≤ 500) : clamp x = x := by
  unfold clamp
  rw [if_neg (by omega), if_neg (by omega)]

theorem tenth_back {x : Int} (h1 : x % 10 = 0) (h2 : -5000 ≤ x) (h3 : x ≤ 5000) : clamp (clamp (x.tdiv 10)) * 10 = x := by
  have hx : x.tdiv 10 * 10 = x := Int.tdiv_mul_cancel (Int.dvd_of_emod_eq_zero h1)
  generalize x.tdiv 10 = q at hx
  rw [clamp_id (clamp_range q), clamp_id (by omega)]
  exact hx

/-- The thermometer is faithful for corrections in tenths within its range. -/
theorem therm_faithful : Faithful therm Tenths := by
  refine ⟨fun c => ⟨_, rfl, fun _ => ?_⟩, fun m c hm h => ?_, rfl⟩
  · have h1 := clamp_range c.t
    have h2 := clamp_range c.h
    dsimp only
    omega
  · cases hb : m.byDevice with
    | false =>
      have : (therm.apply m c).2 = .mark := by
        show (if m.byDevice = false then _ else _ : Corr × After).2 = _
        rw [hb]; rfl
      rw [this] at h
      rcases h with h | h | h <;> cases h
    | true =>
      obtain ⟨a1, a2, a3, b1, b2, b3⟩ := hm hb
      have : (therm.apply m c).1 = { t := clamp (m.t.tdiv 10), h := clamp (m.h.tdiv 10) } := by
        show (if m.byDevice = false then _ else _ : Corr × After).1 = _
        rw [hb]; rfl
      rw [this]
      show some _ = some m
      dsimp only
      rw [tenth_back a1 a2 a3, tenth_back b1 b2 b3, ← hb]

example : Tenths ⟨-120, 50, true⟩ := by unfold Tenths; decide

/-- A correction that the device cannot represent is answered as accepted and silently changed: the server
keeps 0.55 degrees, the device uses 0.5. -/
theorem therm_rounding_violation : ¬ Converges therm (fun _ => True) := by
  intro h
  have := h {} (some ⟨0, 0, true⟩) [.connect, .deliver, .deliver, .edit ⟨55, 0, true⟩, .deliver]
    (fun _ _ => trivial) (fun _ _ => trivial) ⟨by decide +kernel, by decide +kernel, by decide +kernel, by decide +kernel, by decide +kernel⟩
  revert this
  decide +kernel

/-- A correction that the server applied until now is added to the one of the device, and reported. -/
theorem therm_moved (m : CorrMsg) (s : S Corr) (hm : m.byDevice = false) (hs : s.st ≠ .pending) :
    (config therm true (some m) s).val = { t := clamp (clamp s.val.t + m.t.tdiv 10), h := clamp (clamp s.val.h + m.h.tdiv 10) } ∧
    (config therm true (some m) s).st = .pending ∧ (config therm true (some m) s).flag = true := by
  unfold config
  rw [if_neg (by simp), if_neg hs]
  have : therm.apply m s.val = ({ t := clamp (clamp s.val.t + m.t.tdiv 10), h := clamp (clamp s.val.h + m.h.tdiv 10) }, .mark) := by
    show (if m.byDevice = false then _ else _ : Corr × After) = _
    rw [hm]; rfl
  dsimp only
  rw [this]
  exact ⟨rfl, rfl, rfl⟩

/-- It is added once, however often the server repeats it until the device has reported. -/
def AddedOnce : Prop := ∀ (m : CorrMsg) (s : S Corr) ops, m.byDevice = false → s.st = .none →
  (∀ op ∈ ops, op = .message (.config true (some m)) ∨ (∃ b r, op = .pass b r)) →
  (run therm (.message (.config true (some m)) :: ops) s).1.val = (therm.apply m s.val).1

/-- It holds until the report has been sent. -/
theorem added_once_partial (m : CorrMsg) (s : S Corr) (n : Nat) (hm : m.byDevice = false) (hs : s.st = .none) :
    (run therm (List.replicate (n + 1) (.message (.config true (some m)))) s).1.val = (therm.apply m s.val).1 := by
  have key : ∀ n (s : S Corr), s.st = .pending → (run therm (List.replicate n (.message (.config true (some m)))) s).1 = s := by
    intro n
    induction n with
    | zero => intro s _; rfl
    | succ n ih =>
      intro s h
      have : (step therm s (.message (.config true (some m)))).1 = s := by
        simp only [step, config]
        rw [if_neg (by simp), if_pos h]
      show (run therm _ (step therm s _).1).1 = s
      rw [this, ih s h]
  have hmv := therm_moved m s hm (by rw [hs]; exact fun a => nomatch a)
  show (run therm _ (config therm true (some m) s)).1.val = _
  rw [key n _ hmv.2.1]
  have : therm.apply m s.val = ({ t := clamp (clamp s.val.t + m.t.tdiv 10), h := clamp (clamp s.val.h + m.h.tdiv 10) }, .mark) := by
    show (if m.byDevice = false then _ else _ : Corr × After) = _
    rw [hm]; rfl
  rw [this]
  exact hmv.1

/-- Between the report and its answer the same message is added a second time. -/
theorem added_twice_violation : ¬ AddedOnce := by
  intro h
  have := h ⟨100, 0, false⟩ { val := {}, fin := true } [.pass false true, .message (.config true (some ⟨100, 0, false⟩))]
    rfl rfl (by simp)
  revert this
  decide +kernel

end Verif.ChanCfg
