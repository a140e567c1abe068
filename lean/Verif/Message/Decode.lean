import Verif.Message.Lemmas
/-
Every message of the protocol is read as it was written.
-/
namespace Verif.Message

theorem getData_fixed (call size : Nat) (zeroed : Bool) (data : List Byte)
    (hr : rule call = .fixed size zeroed) (h : data.length = size) :
    getData call data = some (.ok (data.map some)) := by
  subst h
  simp [getData, hr, copy_fixed]

theorem getData_sized (call size item max off width : Nat) (zeroed : Bool) (data : List Byte)
    (n : Nat) (hr : rule call = .sized size item max off width zeroed)
    (h1 : size - item * max ≤ data.length) (h2 : data.length ≤ size)
    (hn : Mem.num (data.map some) off width = some n)
    (he : n * item = data.length - (size - item * max)) :
    getData call data = some (.ok (data.map some
      ++ List.replicate (size - data.length) (if zeroed then some 0 else none))) := by
  simp [getData, hr, validSize, copy, h1, h2, hn, he]

theorem received_of_ok (d : Device) (call : Nat) (data : List Byte) (s : Mem)
    (h : getData call data = some (.ok s)) : received d call data = dispatch d call s := by
  simp [received, h]

theorem read_versionError (d : Device) (min ver : Nat) (h : (Msg.versionError min ver).ok) :
    received d 30 (Msg.versionError min ver).octets = some [.versionError min ver] := by
  obtain ⟨h1, h2⟩ := h
  rw [received_of_ok d _ _ _ (getData_fixed 30 2 true _ rfl (by simp [Msg.octets]))]
  simp [Msg.octets, dispatch, num_front, num_skip, num_whole, h1, h2]

theorem read_registerResult (d : Device) (code timeout ver min : Nat)
    (h : (Msg.registerResult code timeout ver min).ok) :
    received d 70 (Msg.registerResult code timeout ver min).octets
      = some [.registerResult code timeout ver min] := by
  obtain ⟨h1, h2, h3, h4⟩ := h
  rw [received_of_ok d _ _ _ (getData_fixed 70 7 true _ rfl (by simp [Msg.octets]))]
  simp [Msg.octets, dispatch, num_front, num_skip, num_whole, h1, h2, h3, h4]

theorem read_registerResultB (d : Device) (code timeout ver min : Nat) (report : List Byte)
    (h : (Msg.registerResultB code timeout ver min report).ok) :
    received d 71 (Msg.registerResultB code timeout ver min report).octets
      = some [.registerResult code timeout ver min, .report report] := by
  obtain ⟨h1, h2, h3, h4, h5⟩ := h
  have h6 : report.length < 65536 := by omega
  rw [received_of_ok d _ _ _ (getData_sized 71 265 1 256 7 2 true _ report.length rfl
    (by simp [Msg.octets]; omega) (by simp [Msg.octets]; omega)
    (by simp [Msg.octets, num_front, num_skip, h6]) (by simp [Msg.octets]; omega))]
  simp [Msg.octets, dispatch, num_front, num_skip, bytes_front, bytes_skip, h1, h2, h3, h4, h6]

theorem read_setValue (d : Device) (v : NewValue) (h : v.ok) :
    received d 110 (Msg.setValue v).octets = some (onSetValue d v) := by
  obtain ⟨h1, h2, h3, h4⟩ := h
  rw [received_of_ok d _ _ _ (getData_fixed 110 17 true _ rfl (by simp [Msg.octets, h4]))]
  simp [Msg.octets, dispatch, readNewValue, num_front, num_skip, bytes_skip, bytes_whole, h1, h2, h3,
    h4]

theorem read_setGroupValue (d : Device) (sender group last : Nat) (v : NewValue)
    (h : (Msg.setGroupValue sender group last v).ok) :
    received d 115 (Msg.setGroupValue sender group last v).octets = some (onGroupValue d v) := by
  obtain ⟨h1, h2, h3, h4, h5, h6, h7, h8⟩ := h
  have e : v = ⟨0, v.channel, v.duration, v.value⟩ := by rw [← h4]
  rw [received_of_ok d _ _ _ (getData_fixed 115 22 true _ rfl (by simp [Msg.octets, h8]))]
  simp [Msg.octets, dispatch, readGroupValue, num_front, num_skip, bytes_skip, bytes_whole, h6, h7,
    h8, ← e]

theorem read_activityTimeout (d : Device) (timeout min max : Nat)
    (h : (Msg.activityTimeout timeout min max).ok) :
    received d 220 (Msg.activityTimeout timeout min max).octets
      = some [.activityTimeout timeout] := by
  obtain ⟨h1, h2, h3⟩ := h
  rw [received_of_ok d _ _ _ (getData_fixed 220 3 true _ rfl (by simp [Msg.octets]))]
  simp [Msg.octets, dispatch, num_front, h1]

theorem read_stateRequest (d : Device) (sender channel : Nat) (rest : List Byte)
    (h : (Msg.stateRequest sender channel rest).ok) :
    received d 500 (Msg.stateRequest sender channel rest).octets
      = some [.state sender channel (lookup d.elems channel)] := by
  obtain ⟨h1, h2, h3⟩ := h
  rw [received_of_ok d _ _ _ (getData_fixed 500 8 true _ rfl (by simp [Msg.octets, h3]))]
  simp [Msg.octets, dispatch, num_front, num_skip, h1, h2]

theorem read_pingResult (d : Device) (now : List Byte) (h : (Msg.pingResult now).ok) :
    received d 50 (Msg.pingResult now).octets = some [] := by
  rw [received_of_ok d _ _ _ (getData_fixed 50 16 true (Msg.pingResult now).octets rfl h)]
  simp [dispatch]

theorem read_localTime (d : Device) (t : LocalTime) (h : t.ok) :
    received d 490 (Msg.localTime t).octets = some [.localTime t] := by
  obtain ⟨h1, h2, h3, h4, h5, h6, h7, h8⟩ := h
  have h9 : t.zone.length < 4294967296 := by omega
  rw [received_of_ok d _ _ _ (getData_sized 490 63 1 51 8 4 true _ t.zone.length rfl
    (by simp [Msg.octets]; omega) (by simp [Msg.octets]; omega)
    (by simp [Msg.octets, num_front, num_skip, h9]) (by simp [Msg.octets]; omega))]
  simp [Msg.octets, dispatch, readLocalTime, num_front, num_skip, bytes_front, bytes_skip, h1, h2,
    h3, h4, h5, h6, h7, h9]

theorem read_service (d : Device) (s : Service) (h : s.ok) :
    received d 460 (Msg.service s).octets = some [.service s] := by
  obtain ⟨h1, h2, h3, h4, h5, h6⟩ := h
  have h9 : s.data.length < 4294967296 := by omega
  rw [received_of_ok d _ _ _ (getData_sized 460 149 1 128 17 4 true _ s.data.length rfl
    (by simp [Msg.octets]; omega) (by simp [Msg.octets]; omega)
    (by simp [Msg.octets, num_front, num_skip, h9]) (by simp [Msg.octets]; omega))]
  simp [Msg.octets, dispatch, readService, num_front, num_skip, bytes_front, bytes_skip, h1, h2,
    h3, h4, h5, h9]

theorem readConfig_eq (c : Config) (h : c.ok) (r : Mem) :
    readConfig (c.octets.map some ++ r) = some c := by
  obtain ⟨h1, h2, h3, h4⟩ := h
  have h9 : c.config.length < 65536 := by omega
  simp [Config.octets, readConfig, num_front, num_skip, bytes_front, bytes_skip, h1, h2, h3, h9]

theorem config_data (call : Nat) (zeroed : Bool) (c : Config)
    (hr : rule call = .sized 520 1 512 6 2 zeroed) (h : c.ok) :
    getData call c.octets = some (.ok (c.octets.map some
      ++ List.replicate (520 - c.octets.length) (if zeroed then some 0 else none))) := by
  obtain ⟨h1, h2, h3, h4⟩ := h
  have h9 : c.config.length < 65536 := by omega
  exact getData_sized call 520 1 512 6 2 zeroed _ c.config.length hr
    (by simp [Config.octets]; omega) (by simp [Config.octets]; omega)
    (by simp [Config.octets, num_front, num_skip, h9]) (by simp [Config.octets]; omega)

theorem read_configResult (d : Device) (c : Config) (h : c.ok) :
    received d 690 (Msg.configResult c).octets = some (onConfigResult d c) := by
  rw [Msg.octets, received_of_ok d _ _ _ (config_data 690 true c rfl h), dispatch,
    readConfig_eq c h]
  rfl

theorem read_setConfig (d : Device) (c : Config) (h : c.ok) :
    received d 682 (Msg.setConfig c).octets = some (onSetConfig d c) := by
  rw [Msg.octets, received_of_ok d _ _ _ (config_data 682 false c rfl h), dispatch,
    readConfig_eq c h]
  rfl

theorem read_setConfigResult (d : Device) (result kind channel : Nat)
    (h : (Msg.setConfigResult result kind channel).ok) :
    received d 691 (Msg.setConfigResult result kind channel).octets
      = some (match lookup d.elems channel with
        | some i => [.configDone i result kind]
        | none => []) := by
  obtain ⟨h1, h2, h3⟩ := h
  rw [received_of_ok d _ _ _ (getData_fixed 691 3 false _ rfl (by simp [Msg.octets]))]
  simp [Msg.octets, dispatch, num_front, num_skip, num_whole, h1, h2, h3]
  cases lookup d.elems channel <;> rfl

theorem read_deviceConfig (d : Device) (c : DevConfig) (h : c.ok) :
    received d 685 (Msg.deviceConfig c).octets = some [.deviceConfig c] := by
  obtain ⟨h1, h2, h3, h4, h5⟩ := h
  have h9 : c.config.length < 65536 := by omega
  rw [received_of_ok d _ _ _ (getData_sized 685 539 1 512 25 2 false _ c.config.length rfl
    (by simp [Msg.octets, h2]; omega) (by simp [Msg.octets, h2]; omega)
    (by simp [Msg.octets, num_front, num_skip, h9, h2]) (by simp [Msg.octets, h2]; omega))]
  simp [Msg.octets, dispatch, readDevConfig, num_front, num_skip, bytes_front, bytes_skip, h1, h2,
    h3, h4, h9]

theorem read_deviceConfigResult (d : Device) (result : Nat) (zero : List Byte)
    (h : (Msg.deviceConfigResult result zero).ok) :
    received d 694 (Msg.deviceConfigResult result zero).octets
      = some [.deviceConfigResult result] := by
  obtain ⟨h1, h2⟩ := h
  rw [received_of_ok d _ _ _ (getData_fixed 694 10 false _ rfl (by simp [Msg.octets, h2]))]
  simp [Msg.octets, dispatch, num_front, h1]

theorem read_configFinished (d : Device) (channel : Nat) (h : (Msg.configFinished channel).ok) :
    received d 683 (Msg.configFinished channel).octets
      = some (match lookup d.elems channel with
        | some i => [.configFinished i]
        | none => []) := by
  have h1 : channel < 256 := h
  rw [received_of_ok d _ _ _ (getData_fixed 683 1 false _ rfl (by simp [Msg.octets]))]
  simp [Msg.octets, dispatch, num_whole, h1]
  cases lookup d.elems channel <;> rfl

theorem read_captionResult (d : Device) (channel : Nat) (rest : List Byte) (code : Nat)
    (caption : List Byte) (h : (Msg.captionResult channel rest code caption).ok) :
    received d 650 (Msg.captionResult channel rest code caption).octets = some [] := by
  obtain ⟨h1, h2, h3, h4⟩ := h
  have h9 : caption.length < 4294967296 := by omega
  rw [received_of_ok d _ _ _ (getData_sized 650 410 1 401 5 4 true _ caption.length rfl
    (by simp [Msg.octets, h2]; omega) (by simp [Msg.octets, h2]; omega)
    (by simp [Msg.octets, num_front, num_skip, h9, h2]) (by simp [Msg.octets, h2]; omega))]
  simp [Msg.octets, dispatch, num_front, h1]

end Verif.Message
