import Verif.Message.Complete
/-
C90: what the server says is what the device acts on: every message of the protocol is read field by
field as it was written and given to the element whose channel it names; what is not a message of
the protocol has no effect; no packet makes the device read or write beyond the structures.
-/
namespace Verif.Message

/-- What a message does on a device: `some` list for every message. -/
theorem received_message (d : Device) (m : Msg) (h : m.ok) :
    ∃ ev, received d m.call m.octets = some ev := by
  cases m with
  | versionError a b => exact ⟨_, read_versionError d a b h⟩
  | registerResult a b c e => exact ⟨_, read_registerResult d a b c e h⟩
  | registerResultB a b c e f => exact ⟨_, read_registerResultB d a b c e f h⟩
  | setValue v => exact ⟨_, read_setValue d v h⟩
  | setGroupValue a b c v => exact ⟨_, read_setGroupValue d a b c v h⟩
  | activityTimeout a b c => exact ⟨_, read_activityTimeout d a b c h⟩
  | stateRequest a b c => exact ⟨_, read_stateRequest d a b c h⟩
  | pingResult a => exact ⟨_, read_pingResult d a h⟩
  | localTime t => exact ⟨_, read_localTime d t h⟩
  | service s => exact ⟨_, read_service d s h⟩
  | configResult c => exact ⟨_, read_configResult d c h⟩
  | setConfig c => exact ⟨_, read_setConfig d c h⟩
  | setConfigResult a b c => exact ⟨_, read_setConfigResult d a b c h⟩
  | deviceConfig c => exact ⟨_, read_deviceConfig d c h⟩
  | deviceConfigResult a b => exact ⟨_, read_deviceConfigResult d a b h⟩
  | configFinished a => exact ⟨_, read_configFinished d a h⟩
  | captionResult a b c e => exact ⟨_, read_captionResult d a b c e h⟩

/-- **No packet is undefined.**  Whatever call number and octets arrive, the device neither copies
more than the structure holds nor reads an octet that was never written. -/
theorem received_defined (d : Device) (call : Nat) (data : List Byte) :
    received d call data ≠ none := by
  cases hg : getData call data with
  | none => exact absurd hg (getData_defined call data)
  | some g =>
    cases g with
    | dataError => simp [received, hg]
    | ok s =>
      by_cases hc : ∃ m : Msg, m.call = call
      · obtain ⟨m, hm, rfl, rfl⟩ := complete_message call data s hc hg
        obtain ⟨ev, hev⟩ := received_message d m hm
        simp [hev]
      · rw [received_of_ok d call data s hg,
          dispatch_other d call s (fun m hm => hc ⟨m, hm⟩)]
        simp

/-- **Only messages have effects.**  If a packet makes the device do anything, it is a message of
the protocol, octet for octet. -/
theorem only_messages_have_effects (d : Device) (call : Nat) (data : List Byte) (ev : List Event)
    (h : received d call data = some ev) (hne : ev ≠ []) :
    ∃ m : Msg, m.ok ∧ m.call = call ∧ m.octets = data := by
  cases hg : getData call data with
  | none => exact absurd hg (getData_defined call data)
  | some g =>
    cases g with
    | dataError =>
      simp only [received, hg, Option.bind_some, Option.some.injEq] at h
      exact absurd h.symm hne
    | ok s =>
      by_cases hc : ∃ m : Msg, m.call = call
      · exact complete_message call data s hc hg
      · rw [received_of_ok d call data s hg,
          dispatch_other d call s (fun m hm => hc ⟨m, hm⟩)] at h
        exact absurd (Option.some.inj h).symm hne

set_option linter.unusedSimpArgs false in
/-- **A packet is at most one message.** -/
theorem octets_injective (m n : Msg) (hm : m.ok) (hn : n.ok) (hc : m.call = n.call)
    (h : m.octets = n.octets) : m = n := by
  cases m <;> cases n <;> first
    | (exfalso; revert hc; simp [Msg.call]; done)
    | skip
  case versionError a b a' b' =>
    obtain ⟨h1, h2⟩ := hm; obtain ⟨g1, g2⟩ := hn
    simp [le_inj, le_inj', Msg.octets, h1, g1, h2, g2] at h
    simp [h]
  case registerResult a b c e a' b' c' e' =>
    obtain ⟨h1, h2, h3, h4⟩ := hm; obtain ⟨g1, g2, g3, g4⟩ := hn
    simp [le_inj, le_inj', Msg.octets, h1, g1, h2, g2, h3, g3,
      h4, g4] at h
    simp [h]
  case registerResultB a b c e f a' b' c' e' f' =>
    obtain ⟨h1, h2, h3, h4, h5⟩ := hm; obtain ⟨g1, g2, g3, g4, g5⟩ := hn
    simp [le_inj, le_inj', Msg.octets, h1, g1, h2, g2, h3, g3,
      h4, g4] at h
    have := (List.append_inj h.2.2.2.2 (by simp)).2
    simp [h, this]
  case setValue v v' =>
    obtain ⟨h1, h2, h3, h4⟩ := hm; obtain ⟨g1, g2, g3, g4⟩ := hn
    simp [le_inj, le_inj', Msg.octets, h1, g1, h2, g2,
      h3, g3] at h
    cases v; cases v'; simp_all
  case setGroupValue a b c v a' b' c' v' =>
    obtain ⟨h1, h2, h3, h4, h5, h6, h7, h8⟩ := hm; obtain ⟨g1, g2, g3, g4, g5, g6, g7, g8⟩ := hn
    simp [le_inj, le_inj', Msg.octets, h1, g1, h2, g2,
      h3, g3, h6, g6, h7, g7] at h
    cases v; cases v'; simp_all
  case activityTimeout a b c a' b' c' =>
    obtain ⟨h1, h2, h3⟩ := hm; obtain ⟨g1, g2, g3⟩ := hn
    simp [le_inj, le_inj', Msg.octets, h1, g1, h2, g2, h3, g3] at h
    simp [h]
  case stateRequest a b c a' b' c' =>
    obtain ⟨h1, h2, h3⟩ := hm; obtain ⟨g1, g2, g3⟩ := hn
    simp [le_inj, le_inj', Msg.octets, h1, g1, h2, g2] at h
    simp [h]
  case pingResult a a' => exact congrArg _ h
  case localTime t t' =>
    obtain ⟨h1, h2, h3, h4, h5, h6, h7, h8⟩ := hm; obtain ⟨g1, g2, g3, g4, g5, g6, g7, g8⟩ := hn
    simp [le_inj, le_inj', Msg.octets, h1, g1, h2, g2,
      h3, g3, h4, g4, h5, g5,
      h6, g6, h7, g7] at h
    obtain ⟨e1, e2, e3, e4, e5, e6, e7, e⟩ := h
    have := (List.append_inj e (by simp)).2
    cases t; cases t'; simp_all
  case service t t' =>
    obtain ⟨h1, h2, h3, h4, h5, h6⟩ := hm; obtain ⟨g1, g2, g3, g4, g5, g6⟩ := hn
    simp [le_inj, le_inj', Msg.octets, h1, g1, h2, g2,
      h3, g3, h4, g4, h5, g5] at h
    obtain ⟨e1, e2, e3, e4, e5, e⟩ := h
    have := (List.append_inj e (by simp)).2
    cases t; cases t'; simp_all
  case configResult t t' =>
    obtain ⟨h1, h2, h3, h4⟩ := hm; obtain ⟨g1, g2, g3, g4⟩ := hn
    simp [le_inj, le_inj', Msg.octets, Config.octets, h1, g1, h2, g2,
      h3, g3] at h
    obtain ⟨e1, e2, e3, e⟩ := h
    have := (List.append_inj e (by simp)).2
    cases t; cases t'; simp_all
  case setConfig t t' =>
    obtain ⟨h1, h2, h3, h4⟩ := hm; obtain ⟨g1, g2, g3, g4⟩ := hn
    simp [le_inj, le_inj', Msg.octets, Config.octets, h1, g1, h2, g2,
      h3, g3] at h
    obtain ⟨e1, e2, e3, e⟩ := h
    have := (List.append_inj e (by simp)).2
    cases t; cases t'; simp_all
  case setConfigResult a b c a' b' c' =>
    obtain ⟨h1, h2, h3⟩ := hm; obtain ⟨g1, g2, g3⟩ := hn
    simp [le_inj, le_inj', Msg.octets, h1, g1, h2, g2, h3, g3] at h
    simp [h]
  case deviceConfig t t' =>
    obtain ⟨h1, h2, h3, h4, h5⟩ := hm; obtain ⟨g1, g2, g3, g4, g5⟩ := hn
    simp [le_inj, le_inj', Msg.octets, h1, g1] at h
    obtain ⟨e1, e⟩ := h
    obtain ⟨e2, e⟩ := List.append_inj e (by rw [h2, g2])
    simp [le_inj, h3, g3, h4, g4] at e
    obtain ⟨e3, e4, e⟩ := e
    have := (List.append_inj e (by simp)).2
    cases t; cases t'; simp_all
  case deviceConfigResult a b a' b' =>
    obtain ⟨h1, h2⟩ := hm; obtain ⟨g1, g2⟩ := hn
    simp [le_inj, le_inj', Msg.octets, h1, g1] at h
    simp [h]
  case configFinished a a' =>
    rw [Msg.octets, Msg.octets, le_inj' 1 _ _ hm hn] at h
    simp [h]
  case captionResult a b c e a' b' c' e' =>
    obtain ⟨h1, h2, h3, h4⟩ := hm; obtain ⟨g1, g2, g3, g4⟩ := hn
    simp [le_inj, le_inj', Msg.octets, h1, g1] at h
    obtain ⟨e1, h⟩ := h
    obtain ⟨e2, h⟩ := List.append_inj h (by rw [h2, g2])
    simp [le_inj, h3, g3] at h
    have := (List.append_inj h.2 (by simp)).2
    simp [e1, e2, h, this]

/-- **Messages about the device as a whole** lead to exactly what they say. -/
theorem general_message (d : Device) (m : Msg) (h : m.ok) (hc : m.channel = none)
    (hs : m.call ≠ 500) : received d m.call m.octets = some m.general := by
  cases m with
  | versionError a b => exact read_versionError d a b h
  | registerResult a b c e => exact read_registerResult d a b c e h
  | registerResultB a b c e f => exact read_registerResultB d a b c e f h
  | activityTimeout a b c => exact read_activityTimeout d a b c h
  | stateRequest a b c => exact absurd rfl hs
  | pingResult a => exact read_pingResult d a h
  | localTime t => exact read_localTime d t h
  | service s => exact read_service d s h
  | deviceConfig c => exact read_deviceConfig d c h
  | deviceConfigResult a b => exact read_deviceConfigResult d a b h
  | captionResult a b c e => exact read_captionResult d a b c e h
  | _ => simp [Msg.channel] at hc

/-- **A new value reaches its element**, with every field as sent, and the result the handler gives
goes back to the sender, unless it is −1. -/
theorem new_value (d : Device) (hd : d.distinct) (v : NewValue) (hv : v.ok) (i : Nat)
    (hi : d.hasChannel i v.channel) :
    received d 110 (Msg.setValue v).octets = some (.newValue i v ::
      if d.onValue i v = -1 then []
      else [.sent 120 (le 1 v.channel ++ le 4 v.sender ++ octet (d.onValue i v))]) := by
  rw [read_setValue d v hv, onSetValue, lookup_eq d hd i _ hi]
  by_cases h : d.onValue i v = -1 <;> simp [h, valueResult]

/-- **A value for a group** reaches the element and is not answered. -/
theorem group_value (d : Device) (hd : d.distinct) (sender group last : Nat) (v : NewValue)
    (h : (Msg.setGroupValue sender group last v).ok) (i : Nat)
    (hi : d.hasChannel i v.channel) :
    received d 115 (Msg.setGroupValue sender group last v).octets = some [.newValue i v] := by
  rw [read_setGroupValue d sender group last v h, onGroupValue, lookup_eq d hd i _ hi]

theorem deliver_eq (i : Nat) (c : Config) : deliver i c = handOver i c := by
  unfold deliver handOver
  split
  · simp [*]
  · simp [*]
  · rename_i h2 h3; rw [if_neg h2, if_neg h3]

theorem delivered_eq (d : Device) (i : Nat) (c : Config) : delivered d i c = d.verdict i c := by
  unfold delivered Device.verdict
  split
  · simp [*]
  · simp [*]
  · rename_i h2 h3; rw [if_neg h2, if_neg h3]

/-- **A configuration that was asked for** reaches the element, as a configuration or as one of the
two weekly schedules. -/
theorem config_result (d : Device) (hd : d.distinct) (c : Config) (hc : c.ok) (i : Nat)
    (hi : d.hasChannel i c.channel) :
    received d 690 (Msg.configResult c).octets = some [handOver i c] := by
  rw [read_configResult d c hc, onConfigResult, lookup_eq d hd i _ hi]
  simp only [deliver_eq]

/-- **A configuration changed on the server** reaches the element, and what the element thinks of it
goes back with the number of the channel. -/
theorem config_change (d : Device) (hd : d.distinct) (c : Config) (hc : c.ok) (i : Nat)
    (hi : d.hasChannel i c.channel) :
    ∃ kind, received d 682 (Msg.setConfig c).octets
      = some [handOver i c, .sent 692 (le 1 (d.verdict i c) ++ le 1 kind ++ le 1 c.channel)] := by
  refine ⟨0, ?_⟩
  rw [read_setConfig d c hc, onSetConfig, lookup_eq d hd i _ hi]
  simp only [deliver_eq, delivered_eq, List.append_assoc]

/-- **The answer to a configuration the device sent** and **the end of a configuration** reach the
element. -/
theorem config_answers (d : Device) (hd : d.distinct) (i n : Nat) (hn : n < 256)
    (hi : d.hasChannel i n) :
    (∀ result kind, result < 256 → kind < 256 →
      received d 691 (Msg.setConfigResult result kind n).octets
        = some [.configDone i result kind]) ∧
    received d 683 (Msg.configFinished n).octets = some [.configFinished i] := by
  refine ⟨fun result kind hr hk => ?_, ?_⟩
  · rw [read_setConfigResult d result kind n ⟨hr, hk, hn⟩, lookup_eq d hd i _ hi]
  · rw [read_configFinished d n hn, lookup_eq d hd i _ hi]

/-- **The state of a channel goes to whoever asked for it.** -/
theorem state_request (d : Device) (hd : d.distinct) (sender channel : Nat) (rest : List Byte)
    (h : (Msg.stateRequest sender channel rest).ok) :
    (∀ i, d.hasChannel i channel →
      received d 500 (Msg.stateRequest sender channel rest).octets
        = some [.state sender channel (some i)]) ∧
    ((∀ i, ¬ d.hasChannel i channel) →
      received d 500 (Msg.stateRequest sender channel rest).octets
        = some [.state sender channel none]) := by
  refine ⟨fun i hi => ?_, fun hi => ?_⟩
  · rw [read_stateRequest d sender channel rest h, lookup_eq d hd i _ hi]
  · rw [read_stateRequest d sender channel rest h, lookup_absent d _ hi]

/-- **A message for a channel no element has** changes nothing; only a change of configuration is
answered: the channel was not found. -/
theorem unknown_channel (d : Device) (m : Msg) (h : m.ok) (n : Nat) (hc : m.channel = some n)
    (hi : ∀ i, ¬ d.hasChannel i n) :
    (m.call ≠ 682 → received d m.call m.octets = some []) ∧
    (m.call = 682 → ∃ kind, received d m.call m.octets
      = some [.sent 692 (le 1 25 ++ le 1 kind ++ le 1 n)]) := by
  have hl := lookup_absent d n hi
  cases m with
  | setValue v =>
    obtain rfl : v.channel = n := Option.some.inj hc
    exact ⟨fun _ => by rw [Msg.call, read_setValue d v h, onSetValue, hl],
      fun h => absurd h (by simp [Msg.call])⟩
  | setGroupValue a b c v =>
    obtain rfl : v.channel = n := Option.some.inj hc
    exact ⟨fun _ => by rw [Msg.call, read_setGroupValue d a b c v h, onGroupValue, hl],
      fun h => absurd h (by simp [Msg.call])⟩
  | configResult c =>
    obtain rfl : c.channel = n := Option.some.inj hc
    exact ⟨fun _ => by rw [Msg.call, read_configResult d c h, onConfigResult, hl],
      fun h => absurd h (by simp [Msg.call])⟩
  | setConfig c =>
    obtain rfl : c.channel = n := Option.some.inj hc
    exact ⟨fun h => absurd rfl h, fun _ => ⟨0, by
      rw [Msg.call, read_setConfig d c h, onSetConfig, hl]; simp only [List.append_assoc]⟩⟩
  | setConfigResult a b c =>
    obtain rfl : c = n := Option.some.inj hc
    exact ⟨fun _ => by rw [Msg.call, read_setConfigResult d a b c h, hl],
      fun h => absurd h (by simp [Msg.call])⟩
  | configFinished c =>
    obtain rfl : c = n := Option.some.inj hc
    exact ⟨fun _ => by rw [Msg.call, read_configFinished d c h, hl],
      fun h => absurd h (by simp [Msg.call])⟩
  | _ => simp [Msg.channel] at hc

/-! A device with a relay (channel 0), an element without a channel, a thermometer (channel 1) and a
thermometer with hygrometer and a second channel for the pressure (channels 2 and 3). -/

/-- The device of the examples. -/
def sample : Device where
  elems := [⟨some 0, none⟩, ⟨none, none⟩, ⟨some 1, none⟩, ⟨some 2, some 3⟩]
  onValue := fun i _ => if i = 0 then 1 else -1
  onConfig := fun i _ => if i = 0 then 0 else 1
  onWeekly := fun _ _ _ => 3

theorem sample_distinct : sample.distinct := by
  have key : ∀ i n, sample.hasChannel i n → (i = 0 ∧ n = 0) ∨ (i = 2 ∧ n = 1) ∨ (i = 3 ∧ n = 2) := by
    intro i n ⟨e, he, hp⟩
    match i with
    | 0 => simp [sample] at he; subst he; simp at hp; simp [hp]
    | 1 => simp [sample] at he; subst he; simp at hp
    | 2 => simp [sample] at he; subst he; simp at hp; simp [hp]
    | 3 => simp [sample] at he; subst he; simp at hp; simp [hp]
    | i + 4 => simp [sample] at he
  intro i j n hi hj
  rcases key i n hi with h | h | h <;> rcases key j n hj with h' | h' | h' <;> omega

/-- The relay is switched on for 5000 ms by client 7 and the client is told. -/
example : received sample 110 [7, 0, 0, 0, 0, 0x88, 0x13, 0, 0, 1, 0, 0, 0, 0, 0, 0, 0]
    = some [.newValue 0 ⟨7, 0, 5000, [1, 0, 0, 0, 0, 0, 0, 0]⟩, .sent 120 [0, 7, 0, 0, 0, 1]] := by
  decide +kernel

example : sample.hasChannel 0 0 ∧ (⟨7, 0, 5000, [1, 0, 0, 0, 0, 0, 0, 0]⟩ : NewValue).ok :=
  ⟨⟨_, rfl, rfl⟩, by simp [NewValue.ok]⟩

/-- One octet less is not a message. -/
example : received sample 110 [7, 0, 0, 0, 0, 0x88, 0x13, 0, 0, 1, 0, 0, 0, 0, 0, 0] = some [] := by
  decide +kernel

/-- A configuration of three octets whose size field says four is not a message. -/
example : received sample 682 [0, 1, 0, 0, 0, 0, 4, 0, 9, 9, 9] = some [] := by decide +kernel

example : received sample 682 [0, 1, 0, 0, 0, 0, 3, 0, 9, 9, 9]
    = some [.config 0 ⟨0, 1, 0, [9, 9, 9]⟩, .sent 692 [0, 0, 0]] := by decide +kernel

example : (Msg.service ⟨1, 2, 3, 1, 5, [1, 2]⟩).ok ∧
    received sample 460 (Msg.service ⟨1, 2, 3, 1, 5, [1, 2]⟩).octets
      = some [.service ⟨1, 2, 3, 1, 5, [1, 2]⟩] :=
  ⟨by simp [Msg.ok, Service.ok], by decide +kernel⟩

/-- No element has channel 9. -/
example : (∀ i, ¬ sample.hasChannel i 9) ∧
    received sample 682 (Msg.setConfig ⟨9, 1, 0, []⟩).octets = some [.sent 692 [25, 0, 9]] := by
  refine ⟨fun i h => ?_, by decide +kernel⟩
  have := lookup_eq sample sample_distinct i 9 h
  revert this
  have : lookup sample.elems 9 = none := by decide
  rw [this]; simp

/-! What the answers say. -/

/-- The answer to a change of configuration repeats the kind of configuration it is about: the
server may have sent the configuration and both schedules of a channel (`TSDS_SetChannelConfigResult`
has the field ConfigType for it, proto.h:2881-2885). -/
def AnswerNamesKind : Prop :=
  ∀ (d : Device) (c : Config) (ev : List Event) (octets : List Byte), c.ok →
    received d 682 (Msg.setConfig c).octets = some ev → .sent 692 octets ∈ ev →
    ∃ result n, octets = le 1 result ++ (le 1 c.kind ++ le 1 n)

/-- **False**: the field is never set; a weekly schedule (kind 2) is answered as if it were the
plain configuration (kind 0) (/repo/src/supla/protocol/supla_srpc.cpp:411-446). -/
theorem answer_names_kind_violation : ¬ AnswerNamesKind := by
  intro h
  have e : received sample 682 (Msg.setConfig ⟨0, 1, 2, [5]⟩).octets
      = some [.weekly 0 ⟨0, 1, 2, [5]⟩ false, .sent 692 [3, 0, 0]] := by decide +kernel
  obtain ⟨result, n, hr⟩ := h sample ⟨0, 1, 2, [5]⟩ _ [3, 0, 0] (by simp [Config.ok]) e (by simp)
  simp only [le, List.cons_append, List.nil_append] at hr
  injection hr with _ hr
  injection hr with hr _
  revert hr
  decide

/-- For the plain configuration the answer is about it. -/
theorem answer_names_kind_partial (d : Device) (c : Config) (ev : List Event) (octets : List Byte)
    (hc : c.ok) (hk : c.kind = 0) (h : received d 682 (Msg.setConfig c).octets = some ev)
    (hm : .sent 692 octets ∈ ev) : ∃ result n, octets = le 1 result ++ (le 1 c.kind ++ le 1 n) := by
  rw [read_setConfig d c hc, onSetConfig] at h
  obtain rfl := Option.some.inj h
  rw [hk]
  split at hm
  · rw [deliver_eq, handOver, if_neg (by omega), if_neg (by omega)] at hm
    simp at hm
    exact ⟨_, _, hm⟩
  · simp at hm
    exact ⟨25, _, hm⟩

/-- Every channel of the device can be told something: a message that names the second channel of an
element reaches that element. -/
def EveryChannelReached : Prop :=
  ∀ (d : Device) (c : Config) (i : Nat) (e : Elem), d.distinct → c.ok → d.elems[i]? = some e →
    e.secondary = some c.channel →
    ∃ ev, received d 682 (Msg.setConfig c).octets = some (handOver i c :: ev)

/-- **False**: only the first channel of an element is looked at
(/repo/src/supla/element.cpp:63-74), so the configuration of a second channel is answered "channel
not found". -/
theorem every_channel_reached_violation : ¬ EveryChannelReached := by
  intro h
  obtain ⟨ev, he⟩ := h sample ⟨3, 52, 0, [1]⟩ 3 ⟨some 2, some 3⟩ sample_distinct
    (by simp [Config.ok]) rfl rfl
  have e : received sample 682 (Msg.setConfig ⟨3, 52, 0, [1]⟩).octets
      = some [.sent 692 [25, 0, 3]] := by decide +kernel
  rw [e] at he
  simp [handOver] at he

/-- Restricted to first channels the message arrives. -/
theorem every_channel_reached_partial (d : Device) (c : Config) (i : Nat) (e : Elem)
    (hd : d.distinct) (hc : c.ok) (hi : d.elems[i]? = some e) (hp : e.primary = some c.channel) :
    ∃ ev, received d 682 (Msg.setConfig c).octets = some (handOver i c :: ev) := by
  obtain ⟨kind, hk⟩ := config_change d hd c hc i ⟨e, hi, hp⟩
  exact ⟨_, hk⟩

end Verif.Message
