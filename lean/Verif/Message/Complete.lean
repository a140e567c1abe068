import Verif.Message.Decode
/-
What the device takes for a message is one.
-/
namespace Verif.Message

theorem fixed_length (call size : Nat) (zeroed : Bool) (data : List Byte) (s : Mem)
    (hr : rule call = .fixed size zeroed) (h : getData call data = some (.ok s)) :
    data.length = size := by
  simp only [getData, hr] at h
  split at h
  · assumption
  · simp at h

theorem sized_length (call size max off width : Nat) (zeroed : Bool) (data : List Byte)
    (s : Mem) (hr : rule call = .sized size 1 max off width zeroed)
    (h : getData call data = some (.ok s)) :
    size - max ≤ data.length ∧ data.length ≤ size ∧
      Mem.num (data.map some) off width = some (data.length - (size - max)) := by
  simp only [getData, hr, validSize, Nat.one_mul, Nat.mul_one] at h
  split at h
  next hl =>
    cases hn : Mem.num (data.map some) off width with
    | none => rw [hn] at h; simp at h
    | some n =>
      rw [hn] at h
      by_cases he : n = data.length - (size - max)
      · exact ⟨hl.1, hl.2, by rw [he]⟩
      · simp [he] at h
  next => simp at h

set_option maxHeartbeats 1600000 in
/-- A packet that passes the checks of its call is a message, octet for octet. -/
theorem complete_message (call : Nat) (data : List Byte) (s : Mem)
    (hc : ∃ m : Msg, m.call = call) (h : getData call data = some (.ok s)) :
    ∃ m : Msg, m.ok ∧ m.call = call ∧ m.octets = data := by
  obtain ⟨m0, rfl⟩ := hc
  cases m0 with
  | versionError a b =>
    have hl := fixed_length 30 2 true data s rfl h
    obtain ⟨x, r, hx, rfl, hr⟩ := split_num 1 data (by omega)
    obtain ⟨y, r, hy, rfl, hr'⟩ := split_num 1 r (by omega)
    obtain rfl : r = [] := List.length_eq_zero_iff.mp (by omega)
    exact ⟨.versionError x y, ⟨hx, hy⟩, rfl, by simp [Msg.octets]⟩
  | registerResult a b c e =>
    have hl := fixed_length 70 7 true data s rfl h
    obtain ⟨x, r, hx, rfl, hr⟩ := split_num 4 data (by omega)
    obtain ⟨y, r, hy, rfl, hr'⟩ := split_num 1 r (by omega)
    obtain ⟨z, r, hz, rfl, hr2⟩ := split_num 1 r (by omega)
    obtain ⟨u, r, hu, rfl, hr3⟩ := split_num 1 r (by omega)
    obtain rfl : r = [] := List.length_eq_zero_iff.mp (by omega)
    exact ⟨.registerResult x y z u, ⟨hx, hy, hz, hu⟩, rfl, by simp [Msg.octets]⟩
  | registerResultB a b c e f =>
    obtain ⟨hl, hl', hn⟩ := sized_length 71 265 256 7 2 true data s rfl h
    obtain ⟨x, r, hx, rfl, hr⟩ := split_num 4 data (by omega)
    obtain ⟨y, r, hy, rfl, hr'⟩ := split_num 1 r (by omega)
    obtain ⟨z, r, hz, rfl, hr2⟩ := split_num 1 r (by omega)
    obtain ⟨u, r, hu, rfl, hr3⟩ := split_num 1 r (by omega)
    obtain ⟨n, r, hnn, rfl, hr4⟩ := split_num 2 r (by omega)
    simp [num_skip, num_front, hnn] at hn
    simp only [List.length_append, length_le] at *
    exact ⟨.registerResultB x y z u r, ⟨hx, hy, hz, hu, by omega⟩, rfl, by
      have : n = r.length := by omega
      simp [Msg.octets, this]⟩
  | setValue v =>
    have hl := fixed_length 110 17 true data s rfl h
    obtain ⟨x, r, hx, rfl, hr⟩ := split_num 4 data (by omega)
    obtain ⟨y, r, hy, rfl, hr'⟩ := split_num 1 r (by omega)
    obtain ⟨z, r, hz, rfl, hr2⟩ := split_num 4 r (by omega)
    exact ⟨.setValue ⟨x, y, z, r⟩, ⟨hx, hy, hz, by simp only; omega⟩, rfl, rfl⟩
  | setGroupValue a b c v =>
    have hl := fixed_length 115 22 true data s rfl h
    obtain ⟨x, r, hx, rfl, hr⟩ := split_num 4 data (by omega)
    obtain ⟨y, r, hy, rfl, hr'⟩ := split_num 4 r (by omega)
    obtain ⟨z, r, hz, rfl, hr2⟩ := split_num 1 r (by omega)
    obtain ⟨u, r, hu, rfl, hr3⟩ := split_num 1 r (by omega)
    obtain ⟨w, r, hw, rfl, hr4⟩ := split_num 4 r (by omega)
    exact ⟨.setGroupValue x y z ⟨0, u, w, r⟩,
      ⟨hx, hy, hz, rfl, (by decide : 0 < 2 ^ 32), hu, hw, by simp only; omega⟩, rfl, rfl⟩
  | activityTimeout a b c =>
    have hl := fixed_length 220 3 true data s rfl h
    obtain ⟨x, r, hx, rfl, hr⟩ := split_num 1 data (by omega)
    obtain ⟨y, r, hy, rfl, hr'⟩ := split_num 1 r (by omega)
    obtain ⟨z, r, hz, rfl, hr2⟩ := split_num 1 r (by omega)
    obtain rfl : r = [] := List.length_eq_zero_iff.mp (by omega)
    exact ⟨.activityTimeout x y z, ⟨hx, hy, hz⟩, rfl, by simp [Msg.octets]⟩
  | stateRequest a b c =>
    have hl := fixed_length 500 8 true data s rfl h
    obtain ⟨x, r, hx, rfl, hr⟩ := split_num 4 data (by omega)
    obtain ⟨y, r, hy, rfl, hr'⟩ := split_num 1 r (by omega)
    exact ⟨.stateRequest x y r, ⟨hx, hy, by omega⟩, rfl, rfl⟩
  | pingResult a =>
    have hl := fixed_length 50 16 true data s rfl h
    exact ⟨.pingResult data, hl, rfl, rfl⟩
  | localTime t =>
    obtain ⟨hl, hl', hn⟩ := sized_length 490 63 51 8 4 true data s rfl h
    obtain ⟨x1, r, h1, rfl, hr⟩ := split_num 2 data (by omega)
    obtain ⟨x2, r, h2, rfl, hr2⟩ := split_num 1 r (by omega)
    obtain ⟨x3, r, h3, rfl, hr3⟩ := split_num 1 r (by omega)
    obtain ⟨x4, r, h4, rfl, hr4⟩ := split_num 1 r (by omega)
    obtain ⟨x5, r, h5, rfl, hr5⟩ := split_num 1 r (by omega)
    obtain ⟨x6, r, h6, rfl, hr6⟩ := split_num 1 r (by omega)
    obtain ⟨x7, r, h7, rfl, hr7⟩ := split_num 1 r (by omega)
    obtain ⟨n, r, hnn, rfl, hr8⟩ := split_num 4 r (by omega)
    simp [num_skip, num_front, hnn] at hn
    simp only [List.length_append, length_le] at *
    exact ⟨.localTime ⟨x1, x2, x3, x4, x5, x6, x7, r⟩,
      ⟨h1, h2, h3, h4, h5, h6, h7, by simp only; omega⟩, rfl, by
      have : n = r.length := by omega
      simp [Msg.octets, this]⟩
  | service q =>
    obtain ⟨hl, hl', hn⟩ := sized_length 460 149 128 17 4 true data s rfl h
    obtain ⟨x1, r, h1, rfl, hr⟩ := split_num 4 data (by omega)
    obtain ⟨x2, r, h2, rfl, hr2⟩ := split_num 4 r (by omega)
    obtain ⟨x3, r, h3, rfl, hr3⟩ := split_num 4 r (by omega)
    obtain ⟨x4, r, h4, rfl, hr4⟩ := split_num 1 r (by omega)
    obtain ⟨x5, r, h5, rfl, hr5⟩ := split_num 4 r (by omega)
    obtain ⟨n, r, hnn, rfl, hr8⟩ := split_num 4 r (by omega)
    simp [num_skip, num_front, hnn] at hn
    simp only [List.length_append, length_le] at *
    exact ⟨.service ⟨x1, x2, x3, x4, x5, r⟩,
      ⟨h1, h2, h3, h4, h5, by simp only; omega⟩, rfl, by
      have : n = r.length := by omega
      simp [Msg.octets, this]⟩
  | configResult c =>
    obtain ⟨hl, hl', hn⟩ := sized_length 690 520 512 6 2 true data s rfl h
    obtain ⟨x1, r, h1, rfl, hr⟩ := split_num 1 data (by omega)
    obtain ⟨x2, r, h2, rfl, hr2⟩ := split_num 4 r (by omega)
    obtain ⟨x3, r, h3, rfl, hr3⟩ := split_num 1 r (by omega)
    obtain ⟨n, r, hnn, rfl, hr8⟩ := split_num 2 r (by omega)
    simp [num_skip, num_front, hnn] at hn
    simp only [List.length_append, length_le] at *
    exact ⟨.configResult ⟨x1, x2, x3, r⟩, ⟨h1, h2, h3, by simp only; omega⟩, rfl, by
      have : n = r.length := by omega
      simp [Msg.octets, Config.octets, this]⟩
  | setConfig c =>
    obtain ⟨hl, hl', hn⟩ := sized_length 682 520 512 6 2 false data s rfl h
    obtain ⟨x1, r, h1, rfl, hr⟩ := split_num 1 data (by omega)
    obtain ⟨x2, r, h2, rfl, hr2⟩ := split_num 4 r (by omega)
    obtain ⟨x3, r, h3, rfl, hr3⟩ := split_num 1 r (by omega)
    obtain ⟨n, r, hnn, rfl, hr8⟩ := split_num 2 r (by omega)
    simp [num_skip, num_front, hnn] at hn
    simp only [List.length_append, length_le] at *
    exact ⟨.setConfig ⟨x1, x2, x3, r⟩, ⟨h1, h2, h3, by simp only; omega⟩, rfl, by
      have : n = r.length := by omega
      simp [Msg.octets, Config.octets, this]⟩
  | setConfigResult a b c =>
    have hl := fixed_length 691 3 false data s rfl h
    obtain ⟨x, r, hx, rfl, hr⟩ := split_num 1 data (by omega)
    obtain ⟨y, r, hy, rfl, hr'⟩ := split_num 1 r (by omega)
    obtain ⟨z, r, hz, rfl, hr2⟩ := split_num 1 r (by omega)
    obtain rfl : r = [] := List.length_eq_zero_iff.mp (by omega)
    exact ⟨.setConfigResult x y z, ⟨hx, hy, hz⟩, rfl, by simp [Msg.octets]⟩
  | deviceConfig c =>
    obtain ⟨hl, hl', hn⟩ := sized_length 685 539 512 25 2 false data s rfl h
    obtain ⟨x1, r, h1, rfl, hr⟩ := split_num 1 data (by omega)
    obtain ⟨x2, r, h2, rfl, hr2⟩ := split_bytes 8 r (by omega)
    obtain ⟨x3, r, h3, rfl, hr3⟩ := split_num 8 r (by omega)
    obtain ⟨x4, r, h4, rfl, hr4⟩ := split_num 8 r (by omega)
    obtain ⟨n, r, hnn, rfl, hr8⟩ := split_num 2 r (by omega)
    simp [num_skip, num_front, hnn, h2] at hn
    simp only [List.length_append, length_le] at *
    exact ⟨.deviceConfig ⟨x1, x2, x3, x4, r⟩, ⟨h1, h2, h3, h4, by simp only; omega⟩, rfl, by
      have : n = r.length := by omega
      simp [Msg.octets, this]⟩
  | deviceConfigResult a b =>
    have hl := fixed_length 694 10 false data s rfl h
    obtain ⟨x, r, hx, rfl, hr⟩ := split_num 1 data (by omega)
    exact ⟨.deviceConfigResult x r, ⟨hx, by omega⟩, rfl, rfl⟩
  | configFinished a =>
    have hl := fixed_length 683 1 false data s rfl h
    obtain ⟨x, r, hx, rfl, hr⟩ := split_num 1 data (by omega)
    obtain rfl : r = [] := List.length_eq_zero_iff.mp (by omega)
    exact ⟨.configFinished x, hx, rfl, by simp [Msg.octets]⟩
  | captionResult a b c e =>
    obtain ⟨hl, hl', hn⟩ := sized_length 650 410 401 5 4 true data s rfl h
    obtain ⟨x1, r, h1, rfl, hr⟩ := split_num 1 data (by omega)
    obtain ⟨x2, r, h2, rfl, hr2⟩ := split_bytes 3 r (by omega)
    obtain ⟨x3, r, h3, rfl, hr3⟩ := split_num 1 r (by omega)
    obtain ⟨n, r, hnn, rfl, hr8⟩ := split_num 4 r (by omega)
    simp [num_skip, num_front, hnn, h2] at hn
    simp only [List.length_append, length_le] at *
    exact ⟨.captionResult x1 x2 x3 r, ⟨h1, h2, h3, by omega⟩, rfl, by
      have : n = r.length := by omega
      simp [Msg.octets, this]⟩

/-- Every size field lies within the part of its structure that must be there. -/
def Rule.fits : Rule → Bool
  | .sized size item max off width _ => decide (off + width ≤ size - item * max)
  | _ => true

theorem rule_fits (call : Nat) : (rule call).fits = true := by
  unfold rule
  split <;> rfl

/-- Taking a packet apart copies within the structure and reads no octet it does not have. -/
theorem getData_defined (call : Nat) (data : List Byte) : getData call data ≠ none := by
  have hf := rule_fits call
  unfold getData
  cases hr : rule call with
  | noData => simp
  | unknown => simp
  | fixed size zeroed =>
    dsimp only
    split
    · simp [copy, *]
    · simp
  | sized size item max off width zeroed =>
    rw [hr] at hf
    simp only [Rule.fits, decide_eq_true_eq] at hf
    dsimp only
    rw [validSize]
    split
    next hl =>
      obtain ⟨n, hn⟩ := num_defined data off width (by omega)
      rw [hn]
      simp only [Option.map_some, Option.bind_some]
      split
      · simp [copy, hl.2]
      · simp
    next => simp
  | push =>
    dsimp only
    rw [validPush]
    split
    next hl =>
      obtain ⟨a, ha⟩ := num_defined data 38 2 (by omega)
      obtain ⟨b, hb⟩ := num_defined data 40 2 (by omega)
      rw [ha, hb]
      simp only [Option.map_some, Option.bind_some]
      split
      · simp [copy, hl.2]
      · simp
    next => simp
  | ping =>
    dsimp only
    split
    · simp [copy, *]
    · split <;> simp
  | url =>
    dsimp only
    split
    next h =>
      have : data.length ≤ 208 := by omega
      simp [copy, this]
    next => simp

theorem dispatch_other (d : Device) (call : Nat) (s : Mem) (h : ∀ m : Msg, m.call ≠ call) :
    dispatch d call s = some [] := by
  unfold dispatch
  split
  · exact absurd rfl (h (.versionError 0 0))
  · exact absurd rfl (h (.registerResult 0 0 0 0))
  · exact absurd rfl (h (.registerResultB 0 0 0 0 []))
  · exact absurd rfl (h (.setValue ⟨0, 0, 0, []⟩))
  · exact absurd rfl (h (.activityTimeout 0 0 0))
  · exact absurd rfl (h (.stateRequest 0 0 []))
  · rfl
  · exact absurd rfl (h (.localTime ⟨0, 0, 0, 0, 0, 0, 0, []⟩))
  · exact absurd rfl (h (.service ⟨0, 0, 0, 0, 0, []⟩))
  · exact absurd rfl (h (.configResult ⟨0, 0, 0, []⟩))
  · exact absurd rfl (h (.setConfigResult 0 0 0))
  · exact absurd rfl (h (.setConfig ⟨0, 0, 0, []⟩))
  · exact absurd rfl (h (.deviceConfigResult 0 []))
  · exact absurd rfl (h (.deviceConfig ⟨0, [], 0, 0, []⟩))
  · exact absurd rfl (h (.setGroupValue 0 0 0 ⟨0, 0, 0, []⟩))
  · exact absurd rfl (h (.configFinished 0))
  · exact absurd rfl (h (.captionResult 0 [] 0 []))
  · rfl

end Verif.Message
