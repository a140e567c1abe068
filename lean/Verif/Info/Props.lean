import Verif.Info.Model
import Mathlib.Data.List.Induction

/-! # What is told about a channel is what its drivers said -/

namespace Verif.Info

/-! ## Specification -/

/-- The last battery level a driver gave, among those that are levels. -/
def lastLevel (h : List Op) : Option Nat :=
  (h.filterMap (fun o => match o with | .level x => if 0 ≤ x ∧ x ≤ 100 then some x.toNat else none | _ => none)).getLast?

/-- The last thing a driver said about the supply. -/
def lastPowered (h : List Op) : Option Bool :=
  (h.filterMap (fun o => match o with | .powered b => some b | _ => none)).getLast?

/-- The last strength of the signal, unless it was withdrawn (a number over 100). -/
def lastBridge (h : List Op) : Option Nat :=
  ((h.filterMap (fun o => match o with | .bridge x => some (x % 256) | _ => none)).getLast?).filter (fun x => decide (x ≤ 100))

/-- Each number belongs to the main channel of one element only. -/
def OwnNumbers (els : List Elem) : Prop :=
  els.Pairwise fun a b => ∀ c, a.main = some c → ∀ d, b.main = some d → c.num ≠ d.num

/-- The turns of the loop follow each other by at most `g` ms, after `prev`. -/
def Steady (g : Nat) : Nat → List (Nat × List Elem) → Prop
  | _, [] => True
  | prev, (t, _) :: l => prev ≤ t ∧ t ≤ prev + g ∧ Steady g t l

/-- A channel is told about without being asked: the app may show it, it is online, and something about its battery is known. -/
def Told (els : List Elem) (n : Nat) : Prop :=
  ∃ e ∈ els, ∃ c, e.main = some c ∧ c.num = n ∧ c.enabled = true ∧ c.online = true ∧ (c.powered ≠ 0 ∨ c.level ≤ 100)

/-! ## Channels -/

theorem run_snoc (c : Chan) (l : List Op) (o : Op) : c.run (l ++ [o]) = (c.run l).step o := by simp [Chan.run]

/-- What a new channel knows after a history. -/
theorem knows (n : Nat) (en : Bool) (h : List Op) :
    (({ num := n, enabled := en } : Chan).run h).num = n ∧
    (({ num := n, enabled := en } : Chan).run h).enabled = en ∧
    (({ num := n, enabled := en } : Chan).run h).level = (lastLevel h).getD 255 ∧
    (∀ x, lastLevel h = some x → x ≤ 100) ∧
    (({ num := n, enabled := en } : Chan).run h).powered = (match lastPowered h with | none => 0 | some true => 1 | some false => 2) ∧
    (if (({ num := n, enabled := en } : Chan).run h).bridge ≤ 100
      then lastBridge h = some (({ num := n, enabled := en } : Chan).run h).bridge else lastBridge h = none) := by
  induction h using List.reverseRecOn with
  | nil => simp [Chan.run, lastLevel, lastPowered, lastBridge]
  | append_singleton l o ih =>
    obtain ⟨h1, h2, h3, h4, h5, h6⟩ := ih
    rw [run_snoc]
    generalize ({ num := n, enabled := en } : Chan).run l = c at *
    cases o with
    | level x =>
      by_cases hx : 0 ≤ x ∧ x ≤ 100
      · have e : lastLevel (l ++ [.level x]) = some x.toNat := by simp [lastLevel, hx]
        have e2 : lastPowered (l ++ [.level x]) = lastPowered l := by simp [lastPowered]
        have e3 : lastBridge (l ++ [.level x]) = lastBridge l := by simp [lastBridge]
        rw [e, e2, e3]
        simp only [Chan.step, if_pos hx]
        refine ⟨h1, h2, rfl, ?_, h5, h6⟩
        intro y hy; simp only [Option.some.injEq] at hy; omega
      · have e : lastLevel (l ++ [.level x]) = lastLevel l := by simp [lastLevel, hx]
        have e2 : lastPowered (l ++ [.level x]) = lastPowered l := by simp [lastPowered]
        have e3 : lastBridge (l ++ [.level x]) = lastBridge l := by simp [lastBridge]
        rw [e, e2, e3]
        simp only [Chan.step, if_neg hx]
        exact ⟨h1, h2, h3, h4, h5, h6⟩
    | powered b =>
      have e : lastLevel (l ++ [.powered b]) = lastLevel l := by simp [lastLevel]
      have e2 : lastPowered (l ++ [.powered b]) = some b := by simp [lastPowered]
      have e3 : lastBridge (l ++ [.powered b]) = lastBridge l := by simp [lastBridge]
      rw [e, e2, e3]
      refine ⟨h1, h2, h3, h4, ?_, h6⟩
      cases b <;> simp [Chan.step]
    | bridge x =>
      have e : lastLevel (l ++ [.bridge x]) = lastLevel l := by simp [lastLevel]
      have e2 : lastPowered (l ++ [.bridge x]) = lastPowered l := by simp [lastPowered]
      rw [e, e2]
      refine ⟨h1, h2, h3, h4, h5, ?_⟩
      by_cases hx : x % 256 ≤ 100
      · simp [Chan.step, lastBridge, hx]
      · simp [Chan.step, lastBridge, hx]
        omega
    | online b =>
      have e : lastLevel (l ++ [.online b]) = lastLevel l := by simp [lastLevel]
      have e2 : lastPowered (l ++ [.online b]) = lastPowered l := by simp [lastPowered]
      have e3 : lastBridge (l ++ [.online b]) = lastBridge l := by simp [lastBridge]
      rw [e, e2, e3]
      exact ⟨h1, h2, h3, h4, h5, h6⟩

/-! ## The element asked for -/

theorem find_own (els : List Elem) (h : OwnNumbers els) (e : Elem) (he : e ∈ els) (c : Chan) (hc : e.main = some c) :
    find els c.num = some e := by
  induction els with
  | nil => cases he
  | cons a l ih =>
    unfold OwnNumbers at h
    rw [List.pairwise_cons] at h
    rcases List.mem_cons.mp he with e1 | e1
    · subst e1
      simp [find, hc]
    · have hn : (a.main.any fun d => d.num == c.num) = false := by
        cases ha : a.main with
        | none => rfl
        | some d => simpa using h.1 e e1 d ha c hc
      rw [find, List.find?_cons, hn]
      exact ih h.2 e1

theorem find_none (els : List Elem) (n : Nat) (h : ∀ e ∈ els, ∀ c, e.main = some c → c.num ≠ n) : find els n = none := by
  rw [find, List.find?_eq_none]
  intro e he
  cases hm : e.main with
  | none => simp
  | some c => simpa using h e he c hm

/-- The part of the message that does not come from an element. -/
def basic (src : Nat) (net : Net) (d : Dev) (receiver : Int) (number : Nat) : Msg :=
  answer [] src net d receiver number

theorem answer_none (els : List Elem) (src : Nat) (net : Net) (d : Dev) (r : Int) (n : Nat) (h : find els n = none) :
    answer els src net d r n = basic src net d r n := by
  unfold basic answer
  rw [h]
  rfl

theorem answer_some (els : List Elem) (src : Nat) (net : Net) (d : Dev) (r : Int) (n : Nat) (e : Elem) (h : find els n = some e) :
    answer els src net d r n = fillElem e (basic src net d r n) := by
  unfold basic answer
  rw [h]
  rfl

/-- The basic part: address and hardware address, signal, times; nothing about batteries and lamps. -/
theorem basic_fields (src : Nat) (net : Net) (d : Dev) (r : Int) (n : Nat) :
    (basic src net d r n).receiver = r ∧ (basic src net d r n).number = n ∧
    ((basic src net d r n).fields 0 = true ↔ src ≠ 0 ∨ net.mac.isSome) ∧
    ((basic src net d r n).fields 1 = true ↔ net.mac.isSome) ∧
    ((basic src net d r n).fields 4 = true ↔ net.mac.isSome ∧ net.rssi.isSome) ∧
    ((basic src net d r n).fields 5 = true ↔ net.mac.isSome ∧ net.rssi.isSome) ∧
    ((basic src net d r n).fields 7 = true ↔ d.showUptime = true) ∧
    ((basic src net d r n).fields 8 = true ↔ d.sleeping = false) ∧
    ((basic src net d r n).fields 11 = true ↔ d.sleeping = false ∧ 0 < d.cause) ∧
    (∀ i ∈ [2, 3, 6, 9, 10, 12, 13, 14, 15], (basic src net d r n).fields i = false) ∧
    (∀ a, net.mac = some a → (basic src net d r n).mac = a ∧ (basic src net d r n).ip = net.ip) ∧
    (net.mac = none → (basic src net d r n).ip = src) ∧
    (∀ a s q, net.mac = some a → net.rssi = some (s, q) → (basic src net d r n).rssi = s ∧ (basic src net d r n).signal = q) ∧
    (d.showUptime = true → (basic src net d r n).uptime = d.uptime) ∧
    (d.sleeping = false → (basic src net d r n).connection = d.connection) ∧
    (d.sleeping = false → 0 < d.cause → (basic src net d r n).cause = d.cause) := by
  obtain ⟨ip, mac, rssi⟩ := net
  obtain ⟨su, sl, up, cn, ca⟩ := d
  have hs : src = 0 ∨ src ≠ 0 := by omega
  have hca : ca = 0 ∨ 0 < ca := by omega
  rcases hs with hs | hs <;> rcases hca with hca | hca <;> cases mac <;> cases rssi <;> cases su <;> cases sl <;>
    simp [basic, answer, find, fillDev, fillNet, Msg.mark, hs, hca] <;> (intro a s q _ hv; rw [hv]; exact ⟨rfl, rfl⟩)

/-- The fields about the channel, after `fillElem`, for an element whose main channel is asked for. -/
theorem fillElem_main (e : Elem) (c : Chan) (hc : e.main = some c) (m : Msg) (hn : m.number = c.num) (h2 : m.fields 2 = false)
    (h3 : m.fields 3 = false) (h6 : m.fields 6 = false) :
    (fillElem e m).receiver = m.receiver ∧ (fillElem e m).number = m.number ∧
    ((fillElem e m).fields 2 = true ↔ c.level ≤ 100) ∧ (c.level ≤ 100 → (fillElem e m).level = c.level) ∧
    ((fillElem e m).fields 3 = true ↔ c.powered ≠ 0) ∧ (c.powered ≠ 0 → (fillElem e m).powered = if c.powered = 1 then 1 else 0) ∧
    ((fillElem e m).fields 6 = true ↔ c.bridge ≤ 100) ∧ (c.bridge ≤ 100 → (fillElem e m).bridge = c.bridge) := by
  obtain ⟨main, second, lamp⟩ := e
  dsimp only at hc
  subst hc
  have a1 : c.level ≤ 100 ∨ ¬ c.level ≤ 100 := by omega
  have a2 : c.powered = 0 ∨ c.powered ≠ 0 := by omega
  have a3 : c.bridge ≤ 100 ∨ ¬ c.bridge ≤ 100 := by omega
  rcases a1 with a1 | a1 <;> rcases a2 with a2 | a2 <;> rcases a3 with a3 | a3 <;> cases lamp <;>
    simp [fillElem, fillChannels, fillLamp, fillChan, Chan.knowsPowered, Chan.batteryLevel, Msg.mark, hn, h2, h3, h6, a1, a2, a3]

/-! ## Theorems: what is told -/

/-- **Battery and signal.**  Ask about a main channel: the answer is for the one who asked and about that channel; it tells the battery level
exactly if some driver gave one, and then the last one given; the supply exactly if a driver said what it is; the signal of the bridge unless unknown. -/
theorem told_what_drivers_said (els : List Elem) (own : OwnNumbers els) (e : Elem) (he : e ∈ els) (n : Nat) (en : Bool) (h : List Op)
    (hm : e.main = some (({ num := n, enabled := en } : Chan).run h)) (src : Nat) (net : Net) (d : Dev) (r : Int) :
    (answer els src net d r n).receiver = r ∧ (answer els src net d r n).number = n ∧
    ((answer els src net d r n).fields 2 = true ↔ (lastLevel h).isSome) ∧
    (∀ x, lastLevel h = some x → (answer els src net d r n).level = x) ∧
    ((answer els src net d r n).fields 3 = true ↔ (lastPowered h).isSome) ∧
    (∀ b, lastPowered h = some b → (answer els src net d r n).powered = if b then 1 else 0) ∧
    ((answer els src net d r n).fields 6 = true ↔ (lastBridge h).isSome) ∧
    (∀ x, lastBridge h = some x → (answer els src net d r n).bridge = x) := by
  obtain ⟨k1, k2, k3, k4, k5, k6⟩ := knows n en h
  have hf := find_own els own e he _ hm
  rw [k1] at hf
  rw [answer_some els src net d r n e hf]
  obtain ⟨b1, b2, -, -, -, -, -, -, -, b10, -⟩ := basic_fields src net d r n
  obtain ⟨f1, f2, f3, f4, f5, f6, f7, f8⟩ := fillElem_main e _ hm (basic src net d r n) (by rw [b2, k1])
    (b10 2 (by simp)) (b10 3 (by simp)) (b10 6 (by simp))
  refine ⟨f1.trans b1, f2.trans b2, ?_, ?_, ?_, ?_, ?_, ?_⟩
  · rw [f3, k3]
    cases hl : lastLevel h with
    | none => simp
    | some x => simpa using k4 x hl
  · intro x hl
    rw [f4 (by rw [k3, hl]; exact k4 x hl), k3, hl]
    rfl
  · rw [f5, k5]
    cases hl : lastPowered h with
    | none => simp
    | some b => cases b <;> simp
  · intro b hl
    rw [hl] at k5
    cases b with
    | true => rw [f6 (by rw [k5]; simp), k5]; simp
    | false => rw [f6 (by rw [k5]; simp), k5]; simp
  · rw [f7]
    split at k6
    · rename_i hb; rw [k6]; simpa using hb
    · rename_i hb; rw [k6]; simpa using hb
  · intro x hl
    split at k6
    · rename_i hb
      rw [f8 hb]
      rw [hl] at k6
      simpa using k6.symm
    · rw [hl] at k6; cases k6

/-- The other bits, with the frame of `fillElem`: nothing of the basic part is changed. -/
theorem fillElem_frame (e : Elem) (m : Msg) :
    (fillElem e m).receiver = m.receiver ∧ (fillElem e m).number = m.number ∧ (fillElem e m).ip = m.ip ∧ (fillElem e m).mac = m.mac ∧
    (fillElem e m).rssi = m.rssi ∧ (fillElem e m).signal = m.signal ∧ (fillElem e m).uptime = m.uptime ∧
    (fillElem e m).connection = m.connection ∧ (fillElem e m).cause = m.cause ∧
    (∀ i ∈ [0, 1, 4, 5, 7, 8, 9, 10, 11, 14, 15], (fillElem e m).fields i = m.fields i) ∧
    (e.lamp = none → (fillElem e m).fields 12 = m.fields 12 ∧ (fillElem e m).fields 13 = m.fields 13) ∧
    (∀ life time, e.lamp = some (life, time) → (fillElem e m).fields 12 = true ∧ (fillElem e m).fields 13 = true ∧
      (fillElem e m).lifespan = life ∧ (fillElem e m).operating = time) := by
  have fc : ∀ c m, (fillChan c m).receiver = m.receiver ∧ (fillChan c m).number = m.number ∧ (fillChan c m).ip = m.ip ∧
      (fillChan c m).mac = m.mac ∧ (fillChan c m).rssi = m.rssi ∧ (fillChan c m).signal = m.signal ∧ (fillChan c m).uptime = m.uptime ∧
      (fillChan c m).connection = m.connection ∧ (fillChan c m).cause = m.cause ∧
      (∀ i ∈ [0, 1, 4, 5, 7, 8, 9, 10, 11, 12, 13, 14, 15], (fillChan c m).fields i = m.fields i) := by
    intro c m
    have a1 : c.level ≤ 100 ∨ ¬ c.level ≤ 100 := by omega
    have a2 : c.powered = 0 ∨ c.powered ≠ 0 := by omega
    have a3 : c.bridge ≤ 100 ∨ ¬ c.bridge ≤ 100 := by omega
    rcases a1 with a1 | a1 <;> rcases a2 with a2 | a2 <;> rcases a3 with a3 | a3 <;>
      simp [fillChan, Chan.knowsPowered, Chan.batteryLevel, Msg.mark, a1, a2, a3]
  obtain ⟨main, second, lamp⟩ := e
  have key : ∀ m', m'.receiver = m.receiver ∧ m'.number = m.number ∧ m'.ip = m.ip ∧
      m'.mac = m.mac ∧ m'.rssi = m.rssi ∧ m'.signal = m.signal ∧ m'.uptime = m.uptime ∧
      m'.connection = m.connection ∧ m'.cause = m.cause ∧
      (∀ i ∈ [0, 1, 4, 5, 7, 8, 9, 10, 11, 12, 13, 14, 15], m'.fields i = m.fields i) →
      ∀ x : Msg, x = fillLamp lamp m' →
      x.receiver = m.receiver ∧ x.number = m.number ∧ x.ip = m.ip ∧ x.mac = m.mac ∧
      x.rssi = m.rssi ∧ x.signal = m.signal ∧ x.uptime = m.uptime ∧ x.connection = m.connection ∧ x.cause = m.cause ∧
      (∀ i ∈ [0, 1, 4, 5, 7, 8, 9, 10, 11, 14, 15], x.fields i = m.fields i) ∧
      (lamp = none → x.fields 12 = m.fields 12 ∧ x.fields 13 = m.fields 13) ∧
      (∀ life time, lamp = some (life, time) → x.fields 12 = true ∧ x.fields 13 = true ∧ x.lifespan = life ∧ x.operating = time) := by
    intro m' ⟨h1, h2, h3, h4, h5, h6, h7, h8, h9, h10⟩ x hx
    simp only [List.mem_cons, List.not_mem_nil, or_false, forall_eq_or_imp, forall_eq] at h10
    obtain ⟨g0, g1, g4, g5, g7, g8, g9, g10, g11, g12, g13, g14, g15⟩ := h10
    cases lamp with
    | none => subst hx; simp [*]
    | some p => obtain ⟨a, b⟩ := p; subst hx; simp [fillLamp, Msg.mark, *]
  have trivialm : m.receiver = m.receiver ∧ m.number = m.number ∧ m.ip = m.ip ∧
      m.mac = m.mac ∧ m.rssi = m.rssi ∧ m.signal = m.signal ∧ m.uptime = m.uptime ∧
      m.connection = m.connection ∧ m.cause = m.cause ∧
      (∀ i ∈ [0, 1, 4, 5, 7, 8, 9, 10, 11, 12, 13, 14, 15], m.fields i = m.fields i) := by simp
  cases main with
  | none => exact key m trivialm _ rfl
  | some c =>
    by_cases hn : m.number = c.num
    · exact key _ (fc c m) _ (by simp only [fillElem, fillChannels, if_pos hn])
    · cases second with
      | none => exact key m trivialm _ (by simp only [fillElem, fillChannels, if_neg hn])
      | some d =>
        by_cases hd : m.number = d.num
        · exact key _ (fc d m) _ (by simp only [fillElem, fillChannels, if_neg hn, if_pos hd])
        · exact key m trivialm _ (by simp only [fillElem, fillChannels, if_neg hn, if_neg hd])

/-- **Address, signal and times.**  Whatever the channels: the answer goes to the one who asked and names the channel; the address is the one of the
interface, or of the connection where the interface tells none (Linux); the hardware address, the radio signal, the uptime, the time of connection
and the cause of the last reset are told exactly when they exist; no other field is marked. -/
theorem told_about_device (els : List Elem) (src : Nat) (net : Net) (d : Dev) (r : Int) (n : Nat) :
    (answer els src net d r n).receiver = r ∧ (answer els src net d r n).number = n ∧
    ((answer els src net d r n).fields 0 = true ↔ src ≠ 0 ∨ net.mac.isSome) ∧
    (answer els src net d r n).ip = (if net.mac.isSome then net.ip else src) ∧
    ((answer els src net d r n).fields 1 = true ↔ net.mac.isSome) ∧
    (∀ a, net.mac = some a → (answer els src net d r n).mac = a) ∧
    ((answer els src net d r n).fields 4 = true ↔ net.mac.isSome ∧ net.rssi.isSome) ∧
    ((answer els src net d r n).fields 5 = true ↔ net.mac.isSome ∧ net.rssi.isSome) ∧
    (∀ a s q, net.mac = some a → net.rssi = some (s, q) → (answer els src net d r n).rssi = s ∧ (answer els src net d r n).signal = q) ∧
    ((answer els src net d r n).fields 7 = true ↔ d.showUptime = true) ∧
    (d.showUptime = true → (answer els src net d r n).uptime = d.uptime) ∧
    ((answer els src net d r n).fields 8 = true ↔ d.sleeping = false) ∧
    (d.sleeping = false → (answer els src net d r n).connection = d.connection) ∧
    ((answer els src net d r n).fields 11 = true ↔ d.sleeping = false ∧ 0 < d.cause) ∧
    (d.sleeping = false → 0 < d.cause → (answer els src net d r n).cause = d.cause) ∧
    (∀ i ∈ [9, 10, 14, 15], (answer els src net d r n).fields i = false) := by
  obtain ⟨b1, b2, b3, b4, b5, b6, b7, b8, b9, b10, b11, b12, b13, b14, b15, b16⟩ := basic_fields src net d r n
  have hip : (basic src net d r n).ip = (if net.mac.isSome then net.ip else src) := by
    cases hm : net.mac with
    | none => simpa using b12 hm
    | some a => simpa using (b11 a hm).2
  simp only [List.mem_cons, List.not_mem_nil, or_false, forall_eq_or_imp, forall_eq] at b10
  obtain ⟨c2, c3, c6, c9, c10, c12, c13, c14, c15⟩ := b10
  cases hf : find els n with
  | none =>
    rw [answer_none els src net d r n hf]
    refine ⟨b1, b2, b3, hip, b4, fun a ha => (b11 a ha).1, b5, b6, b13, b7, b14, b8, b15, b9, b16, ?_⟩
    simp [*]
  | some e =>
    rw [answer_some els src net d r n e hf]
    obtain ⟨f1, f2, f3, f4, f5, f6, f7, f8, f9, f10, -, -⟩ := fillElem_frame e (basic src net d r n)
    simp only [List.mem_cons, List.not_mem_nil, or_false, forall_eq_or_imp, forall_eq] at f10
    obtain ⟨g0, g1, g4, g5, g7, g8, g9, g10, g11, g14, g15⟩ := f10
    rw [f1, f2, f3, f4, f5, f6, f7, f8, f9, g0, g1, g4, g5, g7, g8, g11]
    refine ⟨b1, b2, b3, hip, b4, fun a ha => (b11 a ha).1, b5, b6, b13, b7, b14, b8, b15, b9, b16, ?_⟩
    simp [*]

/-- **Lamps.**  The lifetime and the time of operation are told exactly for lights. -/
theorem told_about_lamps (els : List Elem) (own : OwnNumbers els) (e : Elem) (he : e ∈ els) (c : Chan) (hm : e.main = some c)
    (src : Nat) (net : Net) (d : Dev) (r : Int) :
    ((answer els src net d r c.num).fields 12 = true ↔ e.lamp.isSome) ∧ ((answer els src net d r c.num).fields 13 = true ↔ e.lamp.isSome) ∧
    (∀ life time, e.lamp = some (life, time) → (answer els src net d r c.num).lifespan = life ∧ (answer els src net d r c.num).operating = time) := by
  rw [answer_some els src net d r c.num e (find_own els own e he c hm)]
  obtain ⟨-, -, -, -, -, -, -, -, -, b10, -⟩ := basic_fields src net d r c.num
  obtain ⟨-, -, -, -, -, -, -, -, -, -, f11, f12⟩ := fillElem_frame e (basic src net d r c.num)
  cases hl : e.lamp with
  | none =>
    obtain ⟨g1, g2⟩ := f11 hl
    rw [g1, g2, b10 12 (by simp), b10 13 (by simp)]
    simp
  | some p =>
    obtain ⟨life, time⟩ := p
    obtain ⟨g1, g2, g3, g4⟩ := f12 life time hl
    rw [g1, g2, g3, g4]
    simp

/-- **A second channel.**  About a channel that is not the main one of an element (the pressure of a sensor of temperature, humidity and pressure)
nothing is told of its battery and signal, although the drivers said it and the code that would tell it exists. -/
theorem second_channel_silent (els : List Elem) (n : Nat) (h : ∀ e ∈ els, ∀ c, e.main = some c → c.num ≠ n)
    (src : Nat) (net : Net) (d : Dev) (r : Int) :
    (answer els src net d r n).fields 2 = false ∧ (answer els src net d r n).fields 3 = false ∧ (answer els src net d r n).fields 6 = false := by
  rw [answer_none els src net d r n (find_none els n h)]
  obtain ⟨-, -, -, -, -, -, -, -, -, b10, -⟩ := basic_fields src net d r n
  exact ⟨b10 2 (by simp), b10 3 (by simp), b10 6 (by simp)⟩

/-- The claim for second channels. -/
def SecondChannelTold : Prop :=
  ∀ (els : List Elem), OwnNumbers els → ∀ e ∈ els, ∀ c, e.second = some c → c.level ≤ 100 →
    ∀ src net d r, (answer els src net d r c.num).fields 2 = true

theorem second_channel_violation : ¬ SecondChannelTold := by
  intro h
  have := h [{ main := some { num := 0, level := 50 }, second := some { num := 1, level := 50 } }] (by simp [OwnNumbers])
    _ (List.mem_singleton.mpr rfl) { num := 1, level := 50 } rfl (by decide) 0 ⟨0, none, none⟩ ⟨true, false, 0, 0, 0⟩ 0
  have k := (second_channel_silent [{ main := some { num := 0, level := 50 }, second := some { num := 1, level := 50 } }] 1
    (by simp) 0 ⟨0, none, none⟩ ⟨true, false, 0, 0, 0⟩ 0).1
  rw [k] at this
  cases this

/-- Once a battery level is known, no history makes it unknown again: the last one is told for ever. -/
theorem level_stays (c : Chan) (hc : c.level ≤ 100) (h : List Op) : (c.run h).level ≤ 100 := by
  induction h using List.reverseRecOn with
  | nil => exact hc
  | append_singleton l o ih =>
    rw [run_snoc]
    cases o with
    | level x =>
      simp only [Chan.step]
      split
      · dsimp only; omega
      · exact ih
    | powered b => exact ih
    | bridge x => exact ih
    | online b => exact ih

/-- The claim: a driver that lost its battery sensor can say so. -/
def LevelWithdrawn : Prop := ∃ o : Op, ∀ c : Chan, (c.step o).batteryLevel = 255

theorem level_withdrawn_violation : ¬ LevelWithdrawn := by
  rintro ⟨o, h⟩
  have h1 := h { num := 0, level := 50 }
  have h2 := level_stays { num := 0, level := 50 } (by decide) [o]
  have e : ({ num := 0, level := 50 } : Chan).run [o] = ({ num := 0, level := 50 } : Chan).step o := rfl
  rw [e] at h2
  unfold Chan.batteryLevel at h1
  rw [if_pos h2] at h1
  omega

/-! ## Theorems: when it is sent -/

/-- The schedule in unbounded time: `due` after the time `at_`. -/
def schedule (at_ : Nat) : List (Nat × List Elem) → List (Nat × Option (List Nat))
  | [] => []
  | (t, els) :: l => if t ≤ at_ then (t, none) :: schedule at_ l else (t, some (due els)) :: schedule (t + 1200000) l

theorem batteryLevel_known (c : Chan) : c.batteryLevel ≤ 100 ↔ c.level ≤ 100 := by
  unfold Chan.batteryLevel
  split <;> omega

theorem mem_due (els : List Elem) (n : Nat) : n ∈ due els ↔ Told els n := by
  unfold due Told
  rw [List.mem_filterMap]
  constructor
  · rintro ⟨e, he, h⟩
    cases hm : e.main with
    | none => rw [hm] at h; cases h
    | some c =>
      rw [hm] at h
      dsimp only at h
      split at h
      · rename_i hc
        simp only [Bool.and_eq_true, Bool.or_eq_true, decide_eq_true_eq, Chan.knowsPowered, bne_iff_ne, ne_eq, batteryLevel_known] at hc
        refine ⟨e, he, c, hm, by simpa using h, hc.1.1, hc.1.2, hc.2⟩
      · cases h
  · rintro ⟨e, he, c, hm, hn, h1, h2, h3⟩
    refine ⟨e, he, ?_⟩
    rw [hm]
    dsimp only
    rw [if_pos, hn]
    simp only [Bool.and_eq_true, Bool.or_eq_true, decide_eq_true_eq, Chan.knowsPowered, bne_iff_ne, ne_eq, batteryLevel_known]
    exact ⟨⟨h1, h2⟩, h3⟩

theorem turn_at (els : List Elem) (at_ t : Nat) (h1 : at_ ≤ t + 1200000) (h2 : t + 1200000 < at_ + 2 ^ 32) :
    turn els (clk (at_ + 2 ^ 32 - 1200000)) t =
      if t ≤ at_ then (none, clk (at_ + 2 ^ 32 - 1200000)) else (some (due els), clk (t + 1200000 + 2 ^ 32 - 1200000)) := by
  have e : since (clk t) (clk (at_ + 2 ^ 32 - 1200000)) = t + 1200000 - at_ := by unfold since clk; omega
  have e2 : clk (t + 1200000 + 2 ^ 32 - 1200000) = clk t := by unfold clk; omega
  unfold turn
  rw [e, e2]
  by_cases h : t ≤ at_
  · rw [if_pos h, if_neg (by omega)]
  · rw [if_neg h, if_pos (by omega)]

theorem turns_schedule (g : Nat) (hg : g + 1200000 < 2 ^ 32) (l : List (Nat × List Elem)) :
    ∀ prev at_, prev ≤ at_ → at_ ≤ prev + 1200000 → Steady g prev l →
      turns (clk (at_ + 2 ^ 32 - 1200000)) l = schedule at_ l := by
  induction l with
  | nil => intros; rfl
  | cons a l ih =>
    obtain ⟨t, els⟩ := a
    intro prev at_ h1 h2 hs
    obtain ⟨s1, s2, s3⟩ := hs
    rw [turns, turn_at els at_ t (by omega) (by omega), schedule]
    by_cases h : t ≤ at_
    · rw [if_pos h, if_pos h]
      dsimp only
      rw [ih t at_ h (by omega) s3]
    · rw [if_neg h, if_neg h]
      dsimp only
      rw [ih t (t + 1200000) (by omega) (by omega) s3]

/-- **On time.**  After a registration at `t0`, while the loop turns (never resting longer than 49 days less 20 minutes), the states of the channels
are sent at the first turn after 5 s and then at the first turn after every 20 minutes, whatever the clock says. -/
theorem sent_on_schedule (g : Nat) (hg : g + 1200000 < 2 ^ 32) (t0 : Nat) (l : List (Nat × List Elem)) (hs : Steady g t0 l) :
    turns (scheduled t0) l = schedule (t0 + 5000) l := by
  have e : scheduled t0 = clk (t0 + 5000 + 2 ^ 32 - 1200000) := by unfold scheduled clk; omega
  rw [e]
  exact turns_schedule g hg l t0 (t0 + 5000) (by omega) (by omega) hs

theorem schedule_recent (l : List (Nat × List Elem)) :
    ∀ prev g at_, Steady g prev l → ∀ p ∈ schedule at_ l, prev ≤ p.1 ∧ (at_ < p.1 →
      ∃ q ∈ schedule at_ l, q.2.isSome ∧ q.1 ≤ p.1 ∧ p.1 ≤ q.1 + 1200000) := by
  induction l with
  | nil => intro prev g at_ _ p hp; cases hp
  | cons a l ih =>
    obtain ⟨t, els⟩ := a
    intro prev g at_ hs p hp
    obtain ⟨s1, s2, s3⟩ := hs
    rw [schedule] at hp ⊢
    by_cases h : t ≤ at_
    · rw [if_pos h] at hp ⊢
      rcases List.mem_cons.mp hp with e | e
      · subst e; exact ⟨s1, fun h' => by dsimp only at h'; omega⟩
      · obtain ⟨i1, i2⟩ := ih t g at_ s3 p e
        refine ⟨by omega, fun h' => ?_⟩
        obtain ⟨q, hq, k⟩ := i2 h'
        exact ⟨q, List.mem_cons_of_mem _ hq, k⟩
    · rw [if_neg h] at hp ⊢
      rcases List.mem_cons.mp hp with e | e
      · subst e
        exact ⟨s1, fun _ => ⟨_, List.mem_cons_self, rfl, Nat.le_refl _, by dsimp only; omega⟩⟩
      · obtain ⟨i1, i2⟩ := ih t g (t + 1200000) s3 p e
        refine ⟨by omega, fun h' => ?_⟩
        by_cases hc : t + 1200000 < p.1
        · obtain ⟨q, hq, k⟩ := i2 hc
          exact ⟨q, List.mem_cons_of_mem _ hq, k⟩
        · exact ⟨_, List.mem_cons_self, rfl, i1, by dsimp only; omega⟩

/-- **Fresh.**  At any turn later than 5 s after the registration, the states were sent in the last 20 minutes. -/
theorem sent_recently (g : Nat) (hg : g + 1200000 < 2 ^ 32) (t0 : Nat) (l : List (Nat × List Elem)) (hs : Steady g t0 l)
    (p : Nat × Option (List Nat)) (hp : p ∈ turns (scheduled t0) l) (ht : t0 + 5000 < p.1) :
    ∃ q ∈ turns (scheduled t0) l, q.2.isSome ∧ q.1 ≤ p.1 ∧ p.1 ≤ q.1 + 1200000 := by
  rw [sent_on_schedule g hg t0 l hs] at hp ⊢
  exact (schedule_recent l t0 g (t0 + 5000) hs p hp).2 ht

theorem schedule_sparse (l : List (Nat × List Elem)) :
    ∀ prev g at_, Steady g prev l →
      (∀ p ∈ schedule at_ l, p.2.isSome → at_ < p.1) ∧
      (schedule at_ l).Pairwise (fun p q => p.2.isSome → q.2.isSome → p.1 + 1200000 < q.1) := by
  induction l with
  | nil => intro prev g at_ _; exact ⟨fun p hp => absurd hp List.not_mem_nil, List.Pairwise.nil⟩
  | cons a l ih =>
    obtain ⟨t, els⟩ := a
    intro prev g at_ hs
    obtain ⟨s1, s2, s3⟩ := hs
    rw [schedule]
    by_cases h : t ≤ at_
    · rw [if_pos h]
      obtain ⟨i1, i2⟩ := ih t g at_ s3
      refine ⟨?_, List.pairwise_cons.mpr ⟨?_, i2⟩⟩
      · intro p hp hs
        rcases List.mem_cons.mp hp with e | e
        · subst e; cases hs
        · exact i1 p e hs
      · intro q _ hs; cases hs
    · rw [if_neg h]
      obtain ⟨i1, i2⟩ := ih t g (t + 1200000) s3
      refine ⟨?_, List.pairwise_cons.mpr ⟨?_, i2⟩⟩
      · intro p hp hs
        rcases List.mem_cons.mp hp with e | e
        · subst e; dsimp only; omega
        · have := i1 p e hs; omega
      · intro q hq _ hs
        have := i1 q hq hs
        dsimp only
        exact this

/-- **Not more often.**  Two sendings are more than 20 minutes apart. -/
theorem sent_sparsely (g : Nat) (hg : g + 1200000 < 2 ^ 32) (t0 : Nat) (l : List (Nat × List Elem)) (hs : Steady g t0 l) :
    (turns (scheduled t0) l).Pairwise (fun p q => p.2.isSome → q.2.isSome → p.1 + 1200000 < q.1) := by
  rw [sent_on_schedule g hg t0 l hs]
  exact (schedule_sparse l t0 g (t0 + 5000) hs).2

/-- **Which.**  A sending tells about exactly the channels that may be shown, are online, and whose battery something is known about. -/
theorem sent_channels (els : List Elem) (last t : Nat) (s : List Nat) (h : (turn els last t).1 = some s) (n : Nat) :
    n ∈ s ↔ Told els n := by
  unfold turn at h
  split at h
  · simp only [Option.some.injEq] at h
    rw [← h]
    exact mem_due els n
  · cases h

/-! ## Theorems: sensors of the Linux port -/

/-- **What a sensor's file says.**  Without undefined behaviour: a level of the file within 0..100 is taken over, otherwise the old one is kept; the
supply is what the file says if it can be read. -/
theorem refreshed (b : Battery) (p l : Source) (c c' : Chan) (h : refresh b p l c = some c') :
    c'.num = c.num ∧ c'.online = c.online ∧ c'.bridge = c.bridge ∧
    c'.level = (match l with | some x => if b.level = true ∧ 0 ≤ x ∧ x ≤ 100 then x.toNat else c.level | none => c.level) ∧
    (b.forced = true → c'.powered = 1) ∧
    (b.forced = false → b.powered = false → c'.powered = c.powered) ∧
    (b.forced = false → b.powered = true → ∀ x, p = some x → c'.powered = if x = 1 then 1 else 2) := by
  obtain ⟨f, po, le⟩ := b
  have key : ∀ c1 : Chan, c1.num = c.num ∧ c1.online = c.online ∧ c1.bridge = c.bridge ∧ c1.powered = c.powered →
      (if f then some (c1.step (.powered true))
        else if po then some (c1.step (.powered (saysPowered p)))
        else some c1) = some c' →
      c'.num = c.num ∧ c'.online = c.online ∧ c'.bridge = c.bridge ∧ c'.level = c1.level ∧
      (f = true → c'.powered = 1) ∧ (f = false → po = false → c'.powered = c.powered) ∧
      (f = false → po = true → ∀ x, p = some x → c'.powered = if x = 1 then 1 else 2) := by
    intro c1 ⟨k1, k2, k3, k4⟩ hh
    cases f with
    | true =>
      simp only [if_true, Option.some.injEq] at hh
      subst hh
      simp [Chan.step, k1, k2, k3]
    | false =>
      cases po with
      | true =>
        simp only [Bool.false_eq_true, if_false, if_true, Option.some.injEq] at hh
        subst hh
        refine ⟨k1, k2, k3, rfl, by simp, by simp, ?_⟩
        intro _ _ x hx
        subst hx
        simp [Chan.step, saysPowered]
      | false =>
        simp only [Bool.false_eq_true, if_false, Option.some.injEq] at hh
        subst hh
        simp [k1, k2, k3, k4]
  cases le with
  | false =>
    have := key c ⟨rfl, rfl, rfl, rfl⟩ h
    obtain ⟨a1, a2, a3, a4, a5, a6, a7⟩ := this
    refine ⟨a1, a2, a3, ?_, a5, a6, a7⟩
    rw [a4]
    cases l <;> simp
  | true =>
    cases l with
    | none => exact key c ⟨rfl, rfl, rfl, rfl⟩ h
    | some x =>
      by_cases hu : x < 0 ∨ x > 255
      · simp [refresh, hu] at h
      · by_cases hx : x ≤ 100
        · have e : c.step (.level x) = { c with level := x.toNat } := by
            simp only [Chan.step]; rw [if_pos ⟨by omega, hx⟩]
          have := key { c with level := x.toNat } ⟨rfl, rfl, rfl, rfl⟩ (by
            rw [← h]; simp only [refresh, if_true, if_neg hu, if_pos hx, e])
          obtain ⟨a1, a2, a3, a4, a5, a6, a7⟩ := this
          refine ⟨a1, a2, a3, ?_, a5, a6, a7⟩
          rw [a4]; dsimp only; rw [if_pos ⟨rfl, by omega, hx⟩]
        · have := key c ⟨rfl, rfl, rfl, rfl⟩ (by
            rw [← h]; simp only [refresh, if_true, if_neg hu, if_neg hx])
          obtain ⟨a1, a2, a3, a4, a5, a6, a7⟩ := this
          refine ⟨a1, a2, a3, ?_, a5, a6, a7⟩
          rw [a4]; dsimp only; rw [if_neg (by omega)]

/-- A level outside an octet is undefined behaviour: exactly then. -/
theorem refresh_undefined (b : Battery) (p l : Source) (c : Chan) :
    refresh b p l c = none ↔ b.level = true ∧ ∃ x, l = some x ∧ (x < 0 ∨ 255 < x) := by
  obtain ⟨f, po, le⟩ := b
  cases le with
  | false => cases f <;> cases po <;> simp [refresh]
  | true =>
    cases l with
    | none => cases f <;> cases po <;> simp [refresh]
    | some x =>
      by_cases hu : x < 0 ∨ 255 < x
      · simp [refresh, hu]
      · by_cases hx : x ≤ 100 <;> cases f <;> cases po <;> simp [refresh, hu, hx]

/-- The claim: whatever number the file holds, the battery is refreshed. -/
def AnyNumberSafe : Prop := ∀ b p l c, refresh b p l c ≠ none

theorem number_violation : ¬ AnyNumberSafe := by
  intro h
  exact h ⟨false, false, true⟩ none (some (-1)) { num := 0 } (by decide)

/-- The claim: a sensor whose file cannot be read is not said to be on battery when it was said not to be. -/
def UnreadableKept : Prop := ∀ b l (c c' : Chan), b.forced = false → refresh b none l c = some c' → c'.powered = c.powered

/-- **An unreadable file tells of a battery.**  Whatever was known before. -/
theorem unreadable_powered (b : Battery) (l : Source) (c c' : Chan) (hp : b.powered = true) (h : refresh b none l c = some c') :
    c'.powered = 1 := by
  obtain ⟨f, po, le⟩ := b
  dsimp only at hp
  subst hp
  cases le with
  | false => cases f <;> (simp [refresh] at h; rw [← h]; simp [Chan.step, saysPowered])
  | true =>
    cases l with
    | none => cases f <;> (simp [refresh] at h; rw [← h]; simp [Chan.step, saysPowered])
    | some x =>
      by_cases hu : x < 0 ∨ 255 < x
      · simp [refresh, hu] at h
      · by_cases hx : x ≤ 100 <;> cases f <;> (simp [refresh, hu, hx] at h; rw [← h]; simp [Chan.step, saysPowered])

theorem unreadable_violation : ¬ UnreadableKept := by
  intro h
  have := h ⟨false, true, false⟩ none { num := 0, powered := 2 } { num := 0, powered := 1 } rfl (by decide)
  revert this
  decide

/-! ## The hypotheses are met -/

/-- A sensor on battery, a light and a sensor of pressure. -/
def home : List Elem :=
  [{ main := some (({ num := 0 } : Chan).run [.powered true, .level 80, .level 300, .bridge 70, .level 79]) },
   { main := some { num := 1 }, lamp := some (1000, 3600) },
   { main := some { num := 2 }, second := some { num := 3, level := 10 } }]

example : OwnNumbers home := by unfold OwnNumbers home; simp [Chan.run, Chan.step]
example : lastLevel [.powered true, .level 80, .level 300, .bridge 70, .level 79] = some 79 := by decide
example : due home = [0] := by decide
example : turns (scheduled 100) [(200, home), (5100, home), (5101, home), (1205101, home), (1205102, home)] =
    [(200, none), (5100, none), (5101, some [0]), (1205101, none), (1205102, some [0])] := by decide +kernel
example : Steady 1200000 100 [(200, home), (5100, home), (5101, home), (1205101, home), (1205102, home)] := by
  simp [Steady]
example : refresh ⟨false, true, true⟩ (some 0) (some 55) { num := 0 } = some { num := 0, powered := 2, level := 55 } := by decide

end Verif.Info
