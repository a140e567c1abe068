import Verif.Mqtt.DiscoveryUnique

/-!
# Discovery documents: what home automation reads is what the device sends and understands
-/

namespace Verif.Mqtt.Discovery

open Verif.Mqtt Verif.Tools

/-! ## Topics of messages -/

theorem field_topics (near : State.Near) (cfg : Bool) (pre : String) : ∀ (fs : List (String × Nat × Nat)) (vs : List (Option Int)),
    fs.length = vs.length → (∀ x ∈ vs, x.isSome = true) → ∀ f ∈ fs, ∃ m ∈ State.fieldMsgs near cfg pre fs vs, m.topic = pre ++ f.1 := by
  intro fs
  induction fs with
  | nil => intro vs _ _ f hf; cases hf
  | cons g fs ih =>
    intro vs hl hs f hf
    cases vs with
    | nil => cases hl
    | cons x vs =>
      cases x with
      | none => exact absurd (hs none (List.mem_cons_self ..)) (by decide)
      | some x =>
        obtain ⟨t, a, b⟩ := g
        rcases List.mem_cons.mp hf with rfl | hf
        · exact ⟨_, List.mem_cons_self .., rfl⟩
        · obtain ⟨m, hm, e⟩ := ih vs (by simpa using hl) (fun x hx => hs x (List.mem_cons_of_mem _ hx)) f hf
          exact ⟨m, List.mem_cons_of_mem _ hm, e⟩

theorem total_names : ∀ i < 2, ∃ f ∈ State.totalFields, txt f.1 = (meterTotals.getD i ([], [], [], [])).1 := by decide +kernel

set_option maxRecDepth 100000 in
theorem phase_names : ∀ i < 12, ∃ f ∈ State.phaseFields, txt f.1 = (meterPhase.getD i ([], [], [], [])).1 := by decide +kernel

theorem phase_part : ∀ k < 3, txt ("phases/" ++ toString (0 + k + 1) ++ "/") = phasePart (k + 1) := by decide +kernel

theorem meter_topic (near : State.Near) (cfg : Bool) (m : State.Meter) (hm : Complete m) (id : Nat) (h1 : 1 ≤ id) (h40 : id ≤ 40) (hs : sound (.meter id) = true) :
    ∃ x ∈ State.extMsgs near cfg (.meter m), txt x.topic = phasePart (phaseOf id) ++ (meterRow id).1 := by
  by_cases h : id < 5
  · have h3 : id ≠ 3 := by rintro rfl; revert hs; decide
    have h4 : id ≠ 4 := by rintro rfl; revert hs; decide
    obtain ⟨f, hf, e⟩ := total_names (id - 1) (by omega)
    obtain ⟨x, hx, ex⟩ := field_topics near cfg "" State.totalFields m.totals (by rw [hm.1.1]; rfl) hm.1.2 f hf
    refine ⟨x, List.mem_append_left _ hx, ?_⟩
    have e0 : phaseOf id = 0 := by unfold phaseOf; omega
    rw [ex, txt_append, e, e0]
    unfold meterRow
    rw [if_pos h]
    rfl
  · obtain ⟨f, hf, e⟩ := phase_names ((id - 5) % 12) (by omega)
    have hk : (id - 5) / 12 < 3 := by omega
    have hk' : (id - 5) / 12 < m.phases.length := by rw [hm.2.1]; exact hk
    have hp := hm.2.2 _ (List.getElem_mem hk')
    obtain ⟨x, hx, ex⟩ := field_topics near cfg ("phases/" ++ toString (0 + (id - 5) / 12 + 1) ++ "/") State.phaseFields (m.phases[(id - 5) / 12]).2
      (by rw [hp.2.1]; rfl) hp.2.2 f hf
    refine ⟨x, List.mem_append_right _ (State.phaseMsgs_mem near cfg m.phases 0 ((id - 5) / 12) (m.phases[(id - 5) / 12]).2 ?_ x hx), ?_⟩
    · rw [List.getElem?_eq_getElem hk']
      congr 1
      exact Prod.ext hp.1 rfl
    · have e0 : phaseOf id = (id - 5) / 12 + 1 := by unfold phaseOf; omega
      rw [ex, txt_append, e, e0, phase_part _ hk]
      unfold meterRow
      rw [if_neg h]

theorem word_on : txt "on" = codes "on" := by decide +kernel

/-- Every topic named in a document is published. -/
theorem published (near : State.Near) (cfg : Bool) (c : Chan) (hc : Wf c) (r : State.Reading) (hf : Fits c r) (d : Doc) (hd : d ∈ docsOf c) (hs : sound d = true) :
    ∀ t ∈ topicsOf d, ∃ m ∈ State.stateMsgs near r ++ State.extMsgs near cfg r, txt m.topic = t := by
  cases c with
  | relay f =>
    rw [List.mem_singleton.mp hd]
    have : topicsOf (relayDoc f) = [codes "on"] := by
      unfold relayDoc
      split
      · rfl
      split
      · rfl
      split
      · rfl
      · rfl
    rw [this]
    intro t ht
    rw [List.mem_singleton.mp ht, ← word_on]
    have hf' : (if f = 20 ∨ f = 30 ∨ f = 90 ∨ f = 10 then ∃ on, r = .impulse on else ∃ on, r = .relay on) := hf
    split at hf'
    · obtain ⟨on, rfl⟩ := hf'; exact ⟨_, List.mem_cons_self .., rfl⟩
    · obtain ⟨on, rfl⟩ := hf'; exact ⟨_, List.mem_cons_self .., rfl⟩
  | shutter f =>
    rw [List.mem_singleton.mp hd]
    have e1 : txt "shut" = codes "shut" := by decide +kernel
    have e2 : txt "tilt" = codes "tilt" := by decide +kernel
    replace hf : (if f = 940 ∨ f = 900 then ∃ p t, r = .blind p t else ∃ p, r = .shutter p) := hf
    by_cases h : f = 940 ∨ f = 900
    · rw [if_pos h] at hf
      obtain ⟨p, t, rfl⟩ := hf
      have : (f == 940 || f == 900) = true := by simpa using h
      rw [this]
      intro x hx
      rcases List.mem_cons.mp hx with rfl | hx
      · rw [← e1]; exact ⟨State.kept "shut" (State.int (State.byte p)), by simp [State.stateMsgs, State.shutterMsgs], rfl⟩
      · rw [List.mem_singleton.mp hx, ← e2]; exact ⟨_, List.mem_cons_self .., rfl⟩
    · rw [if_neg h] at hf
      obtain ⟨p, rfl⟩ := hf
      have : (f == 940 || f == 900) = false := by simpa using h
      rw [this]
      intro x hx
      rw [List.mem_singleton.mp hx, ← e1]
      exact ⟨State.kept "shut" (State.int (State.byte p)), by simp [State.stateMsgs, State.shutterMsgs], rfl⟩
  | thermometer =>
    obtain ⟨t, rfl, ht⟩ := hf
    rw [List.mem_singleton.mp hd]
    intro x hx
    have e1 : txt "temperature" = codes "temperature" := by decide +kernel
    rw [List.mem_singleton.mp hx, ← e1]
    exact ⟨State.kept "temperature" (State.double near t 2), by simp [State.stateMsgs, ht], rfl⟩
  | climate =>
    obtain ⟨t, h, rfl, ht, hh⟩ := hf
    have e1 : txt "temperature" = codes "temperature" := by decide +kernel
    have e2 : txt "humidity" = codes "humidity" := by decide +kernel
    have hq : (t : Rat) / 1000 > -273 := by
      have : ((-273000 : Int) : Rat) < t := Rat.intCast_lt_intCast.mpr ht
      rw [gt_iff_lt, lt_div_iff₀ (by norm_num)]
      calc (-273 : Rat) * 1000 = ((-273000 : Int) : Rat) := by norm_num
        _ < t := this
    rcases List.mem_cons.mp hd with rfl | hd
    · intro x hx
      rw [List.mem_singleton.mp hx, ← e1]
      exact ⟨State.kept "temperature" (State.double near (t / 1000) 2), by simp [State.stateMsgs, hq], rfl⟩
    · rw [List.mem_singleton.mp hd]
      intro x hx
      rw [List.mem_singleton.mp hx, ← e2]
      exact ⟨State.kept "humidity" (State.double near (h / 1000) 2), by simp [State.stateMsgs, hh], rfl⟩
  | trigger caps =>
    obtain ⟨i, _, rfl⟩ := List.mem_map.mp hd
    intro t ht
    cases ht
  | meter ids =>
    obtain ⟨i, hi, rfl⟩ := List.mem_map.mp hd
    obtain ⟨m, rfl, hm⟩ := hf
    intro t ht
    rw [List.mem_singleton.mp ht]
    have := hc i hi
    obtain ⟨x, hx, e⟩ := meter_topic near cfg m hm i this.1 this.2 hs
    exact ⟨x, List.mem_append_right _ hx, e⟩
  | dimmer =>
    obtain ⟨b, rfl⟩ := hf
    rw [List.mem_singleton.mp hd]
    have e : topicsOf (.dimmer false) = [txt "on", txt "brightness"] := by decide +kernel
    rw [e]
    intro t ht
    rcases List.mem_cons.mp ht with rfl | ht
    · exact ⟨State.kept "on" (State.bool (decide (b > 0))), by simp [State.stateMsgs], rfl⟩
    · rw [List.mem_singleton.mp ht]; exact ⟨State.kept "brightness" (State.int b), by simp [State.stateMsgs], rfl⟩
  | rgb =>
    obtain ⟨cb, red, g, b, rfl⟩ := hf
    rw [List.mem_singleton.mp hd]
    have e : topicsOf (.rgb false) = [txt "on", txt "color_brightness", txt "color"] := by decide +kernel
    rw [e]
    intro t ht
    rcases List.mem_cons.mp ht with rfl | ht
    · exact ⟨State.kept "on" (State.bool (decide (cb > 0))), by simp [State.stateMsgs], rfl⟩
    rcases List.mem_cons.mp ht with rfl | ht
    · exact ⟨State.kept "color_brightness" (State.int cb), by simp [State.stateMsgs], rfl⟩
    · rw [List.mem_singleton.mp ht]; exact ⟨State.kept "color" (.colour red g b), by simp [State.stateMsgs], rfl⟩
  | rgbw =>
    obtain ⟨w, cb, red, g, b, rfl⟩ := hf
    rcases List.mem_cons.mp hd with rfl | hd
    · have e : topicsOf (.dimmer true) = [txt "dimmer/on", txt "brightness"] := by decide +kernel
      rw [e]
      intro t ht
      rcases List.mem_cons.mp ht with rfl | ht
      · exact ⟨State.kept "dimmer/on" (State.bool (decide (w > 0))), by simp [State.stateMsgs], rfl⟩
      · rw [List.mem_singleton.mp ht]; exact ⟨State.kept "brightness" (State.int w), by simp [State.stateMsgs], rfl⟩
    · rw [List.mem_singleton.mp hd]
      have e : topicsOf (.rgb true) = [txt "rgb/on", txt "color_brightness", txt "color"] := by decide +kernel
      rw [e]
      intro t ht
      rcases List.mem_cons.mp ht with rfl | ht
      · exact ⟨State.kept "rgb/on" (State.bool (decide (cb > 0))), by simp [State.stateMsgs], rfl⟩
      rcases List.mem_cons.mp ht with rfl | ht
      · exact ⟨State.kept "color_brightness" (State.int cb), by simp [State.stateMsgs], rfl⟩
      · rw [List.mem_singleton.mp ht]; exact ⟨State.kept "color" (.colour red g b), by simp [State.stateMsgs], rfl⟩
  | hvac both cool =>
    obtain ⟨heating, cooling, weekly, mode, lo, hi, rfl⟩ := hf
    have hdd := List.mem_singleton.mp hd
    have hb : both = false := by
      cases both
      · rfl
      · rw [hdd] at hs
        cases cool <;> exact absurd hs (by decide)
    subst hb
    rw [hdd]
    have e : topicsOf (.hvac false cool) = [txt "action", txt "mode", txt "temperature_setpoint"] := by
      cases cool <;> decide +kernel
    rw [e]
    intro t ht
    rcases List.mem_cons.mp ht with rfl | ht
    · exact ⟨State.kept "action" (.word (State.hvacAction heating cooling mode)), by simp [State.stateMsgs], rfl⟩
    rcases List.mem_cons.mp ht with rfl | ht
    · exact ⟨State.kept "mode" (.word (State.hvacMode weekly mode)), by simp [State.stateMsgs], rfl⟩
    · rw [List.mem_singleton.mp ht]
      exact ⟨State.kept "temperature_setpoint" (State.double near ((if cool then hi else lo) / 100) 2),
        by simp [State.stateMsgs, State.hvacPoints], rfl⟩
  | binary f =>
    rw [List.mem_singleton.mp hd]
    intro t ht
    rw [List.mem_singleton.mp ht]
    have hf' : (if openClosed f = true then ∃ on, r = .opening on else ∃ on, r = .binary on) := hf
    split at hf'
    · obtain ⟨on, rfl⟩ := hf'; exact ⟨_, List.mem_cons_self .., by show txt "" = []; decide⟩
    · obtain ⟨on, rfl⟩ := hf'; exact ⟨_, List.mem_cons_self .., by show txt "" = []; decide⟩
  | other => cases hd

/-! ## Theorems -/

/-- What is known of the texts of a device: they can be put into strings as they are, and hole 1 is the number of the
channel. -/
def Device (v : Nat → List Nat) (n : Nat) : Prop := Clean v ∧ v 1 = decimalText n

/-- A device for the examples. -/
def sample (n : Nat) : Nat → List Nat := fun i =>
  if i = 0 then codes "home/supla/devices/lamp" else if i = 1 then decimalText n else if i = 7 then decimalText 30 else codes "x"

theorem sample_device : Device (sample 3) 3 := by
  refine ⟨⟨?_, 30, rfl⟩, rfl⟩
  intro i
  unfold sample
  split
  · decide
  split
  · decide +kernel
  split
  · decide +kernel
  · decide

/-- The full claim about the form: every document is well-formed. -/
def WellFormed : Prop := ∀ (c : Chan) (d : Doc) (v : Nat → List Nat), Wf c → d ∈ docsOf c → ∃ ms, Content (text d v) ms

/-- **C134.** Every document of every channel is well-formed JSON without repeated keys, and can be read in one way only, if
the texts of the device need no escaping. -/
theorem document_partial (c : Chan) (hc : Wf c) (d : Doc) (hd : d ∈ docsOf c) (v : Nat → List Nat) (hv : Clean v) :
    ∃ ms, Content (text d v) ms ∧ ∀ ms', Content (text d v) ms' → ms' = ms :=
  ⟨_, content d (docsOf_docs c hc d hd) v hv, fun _ h => content_unique _ _ _ h (content d (docsOf_docs c hc d hd) v hv)⟩

example : ∃ ms, Content (text (.hvac true false) (sample 3)) ms ∧ ∀ ms', Content (text (.hvac true false) (sample 3)) ms' → ms' = ms :=
  document_partial (.hvac true false) trivial _ (List.mem_cons_self ..) _ sample_device.1

theorem names_of (v : Nat → List Nat) (d : Doc) (hd : d ∈ docs) (hb : hasBase d = true) (n : Nat) (hn : v 1 = decimalText n) (key w : List Nat)
    (h : (⟨key, false, .str ((codes "~/" ++ w).map .ch)⟩ : Mem Piece) ∈ mems d) : Names ((mems d).map (instM v)) key (documented (v 0) n w) := by
  refine ⟨_, List.mem_map_of_mem h, rfl, codes "~/" ++ w, ?_, ?_⟩
  · show J.str (inst v _) = _
    rw [inst_chars]
  · exact (inst_resolved v d hd hb n hn w).symm

theorem text_of (v : Nat → List Nat) (d : Doc) (key w : List Nat) (h : (⟨key, false, .str (w.map .ch)⟩ : Mem Piece) ∈ mems d) :
    Text ((mems d).map (instM v)) key w := by
  refine ⟨_, List.mem_map_of_mem h, rfl, ?_⟩
  show J.str (inst v _) = _
  rw [inst_chars]

/-- The full claim about topics to read. -/
def StatesPublished : Prop :=
  ∀ (near : State.Near) (cfg : Bool) (c : Chan) (r : State.Reading) (d : Doc) (v : Nat → List Nat) (n : Nat) (ms : List (Mem Nat)),
    Wf c → Fits c r → d ∈ docsOf c → Device v n → Content (text d v) ms →
    ∀ key ∈ stateKeys, ∀ t, Names ms key t → ∃ m ∈ State.stateMsgs near r ++ State.extMsgs near cfg r, t = stateTopic (v 0) n m.topic

/-- **C134.** Every topic a document tells home automation to read is one the device publishes the state of this channel
under, and every document but those of buttons has one. Not so for the balanced energies of meters and the function "heat
and cool". -/
theorem states_partial (near : State.Near) (cfg : Bool) (c : Chan) (hc : Wf c) (r : State.Reading) (hf : Fits c r) (d : Doc) (hd : d ∈ docsOf c)
    (h1 : d ≠ .meter 3) (h2 : d ≠ .meter 4) (h3 : ∀ cool, d ≠ .hvac true cool) (v : Nat → List Nat) (n : Nat) (hv : Device v n)
    (ms : List (Mem Nat)) (hms : Content (text d v) ms) :
    ((∀ i, d ≠ .trigger i) → ∃ key ∈ stateKeys, ∃ t, Names ms key t) ∧
      ∀ key ∈ stateKeys, ∀ t, Names ms key t → ∃ m ∈ State.stateMsgs near r ++ State.extMsgs near cfg r, t = stateTopic (v 0) n m.topic := by
  have hdd := docsOf_docs c hc d hd
  have hs : sound d = true := by
    unfold sound
    simp [h1, h2, h3]
  rw [content_unique _ _ _ hms (content d hdd v hv.1)]
  refine ⟨?_, ?_⟩
  · intro ht
    have hb : hasBase d = true := by
      cases d with
      | trigger i => exact absurd rfl (ht i)
      | _ => rfl
    obtain ⟨m, hm, hk⟩ := state_key_exists d hdd hb
    obtain ⟨w, _, e⟩ := state_keys_ok d hdd hs m hm hk
    exact ⟨m.key, hk, _, instM v m, List.mem_map_of_mem hm, rfl, inst v ((stateText w).map .ch), by simp [instM, e, instJ], rfl⟩
  · rintro key hk t ⟨m', hm', ek, s, es, et⟩
    obtain ⟨m, hm, rfl⟩ := List.mem_map.mp hm'
    obtain ⟨w, hw, e⟩ := state_keys_ok d hdd hs m hm (by rw [show m.key = key from ek]; exact hk)
    have es' : s = stateText w := by
      have : (instM v m).val = .str (inst v ((stateText w).map .ch)) := by simp [instM, e, instJ]
      rw [this, inst_chars] at es
      exact (J.str.inj es).symm
    have hb : hasBase d = true := by
      cases d with
      | trigger i => cases hw
      | _ => rfl
    obtain ⟨x, hx, ex⟩ := published near cfg c hc r hf d hd hs w hw
    refine ⟨x, hx, ?_⟩
    rw [et, es']
    unfold stateTopic
    rw [ex]
    exact inst_resolved v d hdd hb n hv.2 _

example : ∃ key ∈ stateKeys, ∃ t, Names ((mems .relay).map (instM (sample 3))) key t :=
  (states_partial State.half true (.relay 130) trivial (.relay true) ⟨true, rfl⟩ .relay (List.mem_cons_self ..) (by decide) (by decide) (by decide) (sample 3) 3 sample_device _
    (content .relay (by decide +kernel) _ sample_device.1)).1 (by intro i h; cases h)

/-- The full claim about topics to write to. -/
def CommandsSubscribed : Prop :=
  ∀ (c : Chan) (d : Doc) (v : Nat → List Nat) (n : Nat) (ms : List (Mem Nat)), Wf c → d ∈ docsOf c → Device v n → Content (text d v) ms →
    ∀ key ∈ commandKeys, ∀ t, Names ms key t → ∃ part ∈ subscriptions (kindOf c), t = documented (v 0) n part

theorem commands_subscribed (c : Chan) (d : Doc) (hd : d ∈ docsOf c) (w : List Nat) (hw : w ∈ commandsOf d) : w ∈ subscriptions (kindOf c) := by
  have e1 : txt "set/on" = codes "set/on" := by decide +kernel
  cases c with
  | relay f =>
    rw [List.mem_singleton.mp hd] at hw
    have : commandsOf (relayDoc f) = [codes "set/on"] := by
      unfold relayDoc
      split
      · rfl
      split
      · rfl
      split
      · rfl
      · rfl
    rw [this] at hw
    rw [List.mem_singleton.mp hw, ← e1]
    exact List.mem_cons_self ..
  | shutter f =>
    rw [List.mem_singleton.mp hd] at hw
    revert hw
    generalize (f == 940 || f == 900) = b
    have : ∀ b, ∀ w ∈ commandsOf (.shutter .none b), w ∈ subscriptions .shutter := by decide +kernel
    exact fun hw => this b w (by cases b <;> exact hw)
  | thermometer => rw [List.mem_singleton.mp hd] at hw; cases hw
  | climate =>
    rcases List.mem_cons.mp hd with rfl | hd
    · cases hw
    · rw [List.mem_singleton.mp hd] at hw; cases hw
  | trigger caps => obtain ⟨i, _, rfl⟩ := List.mem_map.mp hd; cases hw
  | meter ids => obtain ⟨i, _, rfl⟩ := List.mem_map.mp hd; cases hw
  | dimmer =>
    rw [List.mem_singleton.mp hd] at hw
    have : ∀ w ∈ commandsOf (.dimmer false), w ∈ subscriptions .dimmer := by decide +kernel
    exact this w hw
  | rgb =>
    rw [List.mem_singleton.mp hd] at hw
    have : ∀ w ∈ commandsOf (.rgb false), w ∈ subscriptions .rgb := by decide +kernel
    exact this w hw
  | rgbw =>
    have : ∀ d ∈ docsOf .rgbw, ∀ w ∈ commandsOf d, w ∈ subscriptions .rgbw := by decide +kernel
    exact this d hd w hw
  | hvac both cool =>
    rw [List.mem_singleton.mp hd] at hw
    have : ∀ both cool, ∀ w ∈ commandsOf (.hvac both cool), w ∈ subscriptions (.hvac cool) := by decide +kernel
    exact this both cool w hw
  | binary f => rw [List.mem_singleton.mp hd] at hw; cases hw
  | other => cases hd

/-- **C134.** Every topic a document tells home automation to write to is one the device has subscribed for this channel. Not
so for the function "heat and cool". -/
theorem commands_partial (c : Chan) (hc : Wf c) (d : Doc) (hd : d ∈ docsOf c) (h3 : ∀ cool, d ≠ .hvac true cool) (v : Nat → List Nat) (n : Nat)
    (hv : Device v n) (ms : List (Mem Nat)) (hms : Content (text d v) ms) :
    ∀ key ∈ commandKeys, ∀ t, Names ms key t → ∃ part ∈ subscriptions (kindOf c), t = documented (v 0) n part := by
  have hdd := docsOf_docs c hc d hd
  rw [content_unique _ _ _ hms (content d hdd v hv.1)]
  rintro key hk t ⟨m', hm', ek, s, es, et⟩
  obtain ⟨m, hm, rfl⟩ := List.mem_map.mp hm'
  obtain ⟨w, hw, e⟩ := command_keys_ok d hdd (fun cool => h3 cool) m hm (by rw [show m.key = key from ek]; exact hk)
  have es' : s = codes "~/" ++ w := by
    have : (instM v m).val = .str (inst v ((codes "~/" ++ w).map .ch)) := by simp [instM, e, instJ]
    rw [this, inst_chars] at es
    exact (J.str.inj es).symm
  have hb : hasBase d = true := by
    cases d with
    | trigger i => cases hw
    | _ => rfl
  exact ⟨w, commands_subscribed c d hd w hw, by rw [et, es']; exact inst_resolved v d hdd hb n hv.2 w⟩

/-- What the payloads in a document have to do: key of the payload, key of the topic, command to the channel. -/
def meanings : Doc → List (List Nat × List Nat × Cmd)
  | .impulse _ => [(codes "payload_open", codes "cmd_t", .bytes [(0, 1)])]
  | .relay => [(codes "pl_on", codes "cmd_t", .bytes [(0, 1)]), (codes "pl_off", codes "cmd_t", .bytes [(0, 0)])]
  | .shutter _ _ => [(codes "pl_open", codes "cmd_t", .bytes [(0, 10), (1, -1)]), (codes "pl_cls", codes "cmd_t", .bytes [(0, 110), (1, -1)]),
      (codes "pl_stop", codes "cmd_t", .bytes [(0, 0), (1, -1)])]
  | .rgb _ => [(codes "pl_on", codes "cmd_t", .bytes [(6, 4)]), (codes "pl_off", codes "cmd_t", .bytes [(6, 5)])]
  | .dimmer _ => [(codes "pl_on", codes "cmd_t", .bytes [(6, 1)]), (codes "pl_off", codes "cmd_t", .bytes [(6, 2)])]
  | .hvac _ _ => [(codes "payload_on", codes "power_command_topic", .mode 8), (codes "payload_off", codes "power_command_topic", .mode 1)]
  | _ => []

/-- Sending the payload under `pk` to the topic under `ck` makes the device give its channel the command `cmd` first. -/
def Does (ms : List (Mem Nat)) (k : Kind) (pre : List Nat) (n : Nat) (pk ck : List Nat) (cmd : Cmd) : Prop :=
  ∃ p part, Text ms pk p ∧ Names ms ck (documented pre n part) ∧ part ∈ subscriptions k ∧ ∀ on, ∃ rest, request k on part p = some (cmd :: rest)

/-- The full claim about payloads. -/
def OffersUnderstood : Prop :=
  ∀ (c : Chan) (d : Doc) (v : Nat → List Nat) (n : Nat) (ms : List (Mem Nat)), Wf c → d ∈ docsOf c → Device v n → Content (text d v) ms →
    ∀ x ∈ meanings d, Does ms (kindOf c) (v 0) n x.1 x.2.1 x.2.2

theorem offers_meanings (d : Doc) : meanings d = (offers d).map (fun x => (x.1, x.2.1, x.2.2.2.2)) := by cases d <;> rfl

/-- The first command of a request. -/
def firstCmd (r : Option (List Cmd)) : Option Cmd := r.bind List.head?

theorem firstCmd_some (r : Option (List Cmd)) (c : Cmd) (h : firstCmd r = some c) : ∃ rest, r = some (c :: rest) := by
  unfold firstCmd at h
  cases r with
  | none => cases h
  | some l =>
    cases l with
    | nil => cases h
    | cons a l => exact ⟨l, by rw [show a = c from Option.some.inj h]⟩

theorem relay_offers : ∀ d, d = .relay ∨ (∃ c, d = .impulse c) → ∀ x ∈ offers d, x.2.2.2.1 ∈ subscriptions .relay ∧
    ∀ on, firstCmd (request .relay on x.2.2.2.1 x.2.2.1) = some x.2.2.2.2 := by
  have h1 : ∀ x ∈ offers .relay, x.2.2.2.1 ∈ subscriptions .relay ∧ ∀ on, firstCmd (request .relay on x.2.2.2.1 x.2.2.1) = some x.2.2.2.2 := by
    decide +kernel
  have h2 : ∀ x ∈ offers (.impulse .gate), x.2.2.2.1 ∈ subscriptions .relay ∧ ∀ on, firstCmd (request .relay on x.2.2.2.1 x.2.2.1) = some x.2.2.2.2 := by
    decide +kernel
  rintro d (rfl | ⟨c, rfl⟩)
  · exact h1
  · exact h2

theorem offers_understood (c : Chan) (d : Doc) (hd : d ∈ docsOf c) (hr : d ≠ .rgb false) (x) (hx : x ∈ offers d) :
    x.2.2.2.1 ∈ subscriptions (kindOf c) ∧ ∀ on, firstCmd (request (kindOf c) on x.2.2.2.1 x.2.2.1) = some x.2.2.2.2 := by
  cases c with
  | relay f =>
    refine relay_offers d ?_ x hx
    rw [List.mem_singleton.mp hd]
    unfold relayDoc
    split
    · right; exact ⟨_, rfl⟩
    split
    · right; exact ⟨_, rfl⟩
    split
    · right; exact ⟨_, rfl⟩
    · left; rfl
  | shutter f =>
    rw [List.mem_singleton.mp hd] at hx
    have : ∀ x ∈ offers (.shutter .none false), x.2.2.2.1 ∈ subscriptions .shutter ∧ ∀ on, firstCmd (request .shutter on x.2.2.2.1 x.2.2.1) = some x.2.2.2.2 := by
      decide +kernel
    exact this x hx
  | thermometer => rw [List.mem_singleton.mp hd] at hx; cases hx
  | climate =>
    rcases List.mem_cons.mp hd with rfl | hd
    · cases hx
    · rw [List.mem_singleton.mp hd] at hx; cases hx
  | trigger caps => obtain ⟨i, _, rfl⟩ := List.mem_map.mp hd; cases hx
  | meter ids => obtain ⟨i, _, rfl⟩ := List.mem_map.mp hd; cases hx
  | dimmer =>
    rw [List.mem_singleton.mp hd] at hx
    have : ∀ x ∈ offers (.dimmer false), x.2.2.2.1 ∈ subscriptions .dimmer ∧ ∀ on, firstCmd (request .dimmer on x.2.2.2.1 x.2.2.1) = some x.2.2.2.2 := by
      decide +kernel
    exact this x hx
  | rgb => exact absurd (List.mem_singleton.mp hd) hr
  | rgbw =>
    have : ∀ d ∈ docsOf .rgbw, ∀ x ∈ offers d, x.2.2.2.1 ∈ subscriptions .rgbw ∧ ∀ on, firstCmd (request .rgbw on x.2.2.2.1 x.2.2.1) = some x.2.2.2.2 := by
      decide +kernel
    exact this d hd x hx
  | hvac both cool =>
    rw [List.mem_singleton.mp hd] at hx
    have : ∀ cool, ∀ x ∈ offers (.hvac false false), x.2.2.2.1 ∈ subscriptions (.hvac cool) ∧
        ∀ on, firstCmd (request (.hvac cool) on x.2.2.2.1 x.2.2.1) = some x.2.2.2.2 := by decide +kernel
    exact this cool x hx
  | binary f => rw [List.mem_singleton.mp hd] at hx; cases hx
  | other => cases hd

/-- **C134.** Every payload offered in a document does, sent to the topic given there, what its name says. Not so for lights
with colour only. -/
theorem offers_partial (c : Chan) (hc : Wf c) (d : Doc) (hd : d ∈ docsOf c) (hr : d ≠ .rgb false) (v : Nat → List Nat) (n : Nat) (hv : Device v n)
    (ms : List (Mem Nat)) (hms : Content (text d v) ms) : ∀ x ∈ meanings d, Does ms (kindOf c) (v 0) n x.1 x.2.1 x.2.2 := by
  have hdd := docsOf_docs c hc d hd
  rw [content_unique _ _ _ hms (content d hdd v hv.1), offers_meanings]
  intro y hy
  obtain ⟨x, hx, rfl⟩ := List.mem_map.mp hy
  have hb : hasBase d = true := by
    cases d with
    | trigger i => cases hx
    | _ => rfl
  obtain ⟨o1, o2⟩ := offers_ok d hdd x hx
  obtain ⟨u1, u2⟩ := offers_understood c d hd hr x hx
  exact ⟨x.2.2.1, x.2.2.2.1, text_of v d _ _ o1, names_of v d hdd hb n hv.2 _ _ o2, u1, fun on => firstCmd_some _ _ (u2 on)⟩

example : Does ((mems .relay).map (instM (sample 3))) .relay (sample 3 0) 3 (codes "pl_on") (codes "cmd_t") (.bytes [(0, 1)]) :=
  offers_partial (.relay 140) trivial .relay (List.mem_cons_self ..) (by decide) (sample 3) 3 sample_device _
    (content .relay (by decide +kernel) _ sample_device.1) _ (List.mem_cons_self ..)

/-- **C134.** The document says when the device is there: with the topic and the payloads of the message on connecting and of the
last will. -/
theorem availability (c : Chan) (hc : Wf c) (d : Doc) (hd : d ∈ docsOf c) (ht : ∀ i, d ≠ .trigger i) (v : Nat → List Nat) (hv : Clean v)
    (hl : (v 0).length ≤ 94) (ms : List (Mem Nat)) (hms : Content (text d v) ms) :
    Text ms (codes "avty_t") (connectedMessages (v 0)).1.1 ∧ Text ms (codes "pl_avail") (connectedMessages (v 0)).1.2 ∧
    Text ms (codes "avty_t") (connectedMessages (v 0)).2.1 ∧ Text ms (codes "pl_not_avail") (connectedMessages (v 0)).2.2 := by
  have hdd := docsOf_docs c hc d hd
  rw [content_unique _ _ _ hms (content d hdd v hv)]
  have hb : hasBase d = true := by
    cases d with
    | trigger i => exact absurd rfl (ht i)
    | _ => rfl
  obtain ⟨a1, a2, a3⟩ := avail_ok d hdd hb
  have t1 : txt "state/connected" = codes "state/connected" := by decide +kernel
  have t2 : txt "true" = codes "true" := by decide +kernel
  have t3 : txt "false" = codes "false" := by decide +kernel
  have t4 : txt "state" = codes "state" := by decide +kernel
  have t5 : txt "connected" = codes "connected" := by decide +kernel
  have x : Text ((mems d).map (instM v)) (codes "avty_t") (v 0 ++ codes "/state/connected") := by
    refine ⟨_, List.mem_map_of_mem a1, rfl, ?_⟩
    show J.str (inst v ([.hole 0] ++ _)) = _
    rw [inst_append, inst_chars]
    simp [inst]
  have e1 : (connectedMessages (v 0)).1.1 = v 0 ++ codes "/state/connected" := by
    show full (v 0) (txt "state/connected") = _
    unfold full
    rw [t1, append_fits [] (v 0) (by simp; omega), slash_fits _ _ (by simp; omega)]
    simp
  have e2 : (connectedMessages (v 0)).2.1 = v 0 ++ codes "/state/connected" := by
    show slash (slash (append [] (v 0)) (txt "state")) (txt "connected") = _
    rw [t4, t5, append_fits [] (v 0) (by simp; omega), slash_fits ([] ++ v 0) _ (by simp; omega), slash_fits _ _ (by simp; omega)]
    simp
  refine ⟨by rw [e1]; exact x, ?_, by rw [e2]; exact x, ?_⟩
  · show Text _ _ (txt "true")
    rw [t2]; exact text_of v d _ _ a2
  · show Text _ _ (txt "false")
    rw [t3]; exact text_of v d _ _ a3

example : Text ((mems .thermometer).map (instM (sample 3))) (codes "avty_t") (connectedMessages (sample 3 0)).2.1 :=
  (availability .thermometer trivial .thermometer (List.mem_cons_self ..) (by intro i h; cases h) (sample 3) sample_device.1 (by decide) _
    (content .thermometer (by decide +kernel) _ sample_device.1)).2.2.1

/-- Modes a thermostat can be in: off, or one of its function. -/
def Possible (both cool : Bool) (mode : Nat) : Prop :=
  mode ≤ 1 ∨ both = true ∧ (mode = 2 ∨ mode = 3 ∨ mode = 4) ∨ both = false ∧ cool = true ∧ mode = 3 ∨ both = false ∧ cool = false ∧ mode = 2

instance (both cool : Bool) (mode : Nat) : Decidable (Possible both cool mode) := by unfold Possible; infer_instance

/-- Words for modes and the modes they stand for. -/
def modeWords : List (List Nat × Nat) := [(codes "off", 1), (codes "auto", 9), (codes "heat", 2), (codes "cool", 3), (codes "heat_cool", 4)]

/-- **C134.** The modes offered for a thermostat are understood, and the mode it publishes is one of those offered. -/
theorem modes_offered (both cool : Bool) (v : Nat → List Nat) (n : Nat) (hv : Device v n) (ms : List (Mem Nat))
    (hms : Content (text (.hvac both cool) v) ms) :
    ∃ g xs, (⟨codes "modes", g, .arr xs⟩ : Mem Nat) ∈ ms ∧ Names ms (codes "mode_command_topic") (documented (v 0) n (txt "execute_action")) ∧
      (∀ x ∈ xs, ∃ m, (x, m) ∈ modeWords ∧ ∀ on, request (.hvac cool) on (txt "execute_action") x = some [.mode m]) ∧
      ∀ weekly mode, Possible both cool mode → txt (State.hvacMode weekly mode) ∈ xs := by
  have hdd : Doc.hvac both cool ∈ docs := docsOf_docs (.hvac both cool) trivial _ (List.mem_cons_self ..)
  rw [content_unique _ _ _ hms (content _ hdd v hv.1)]
  obtain ⟨m1, m2⟩ := modes_ok both cool
  refine ⟨false, modesOf both cool, ?_, ?_, ?_, ?_⟩
  · have := List.mem_map_of_mem (f := instM v) m1
    have e : instM v ⟨codes "modes", false, .arr ((modesOf both cool).map (·.map .ch))⟩ = ⟨codes "modes", false, .arr (modesOf both cool)⟩ := by
      show (⟨_, _, J.arr (((modesOf both cool).map (·.map .ch)).map (inst v))⟩ : Mem Nat) = _
      rw [List.map_map]
      have : (inst v ∘ fun x : List Nat => x.map .ch) = id := by
        funext x
        exact inst_chars v x
      rw [this, List.map_id]
    rw [e] at this
    exact this
  · have e : txt "execute_action" = codes "execute_action" := by decide +kernel
    rw [e]
    exact names_of v _ hdd rfl n hv.2 _ _ m2
  · have : ∀ both cool, ∀ x ∈ modesOf both cool, ∃ y ∈ modeWords, x = y.1 ∧ ∀ on, request (.hvac cool) on (txt "execute_action") x = some [.mode y.2] := by
      decide +kernel
    intro x hx
    obtain ⟨y, hy, rfl, h⟩ := this both cool x hx
    exact ⟨y.2, hy, h⟩
  · have : ∀ both cool weekly, ∀ mode ∈ List.range 5, Possible both cool mode → txt (State.hvacMode weekly mode) ∈ modesOf both cool := by
      decide +kernel
    intro weekly mode hm
    refine this both cool weekly mode (List.mem_range.mpr ?_) hm
    unfold Possible at hm
    omega

example : Possible true false 4 := by unfold Possible; decide

/-- How home automation reads a sensor that is on or off: `p` stands for on, `q` for off ("ON" and "OFF" if nothing is said). -/
def OnOff (ms : List (Mem Nat)) (p q : List Nat) : Prop :=
  (Text ms (codes "payload_on") p ∨ (∀ m ∈ ms, m.key ≠ codes "payload_on") ∧ p = codes "ON") ∧
  (Text ms (codes "payload_off") q ∨ (∀ m ∈ ms, m.key ≠ codes "payload_off") ∧ q = codes "OFF")

/-- The kind of binary sensor of a document. -/
def binariesOf : Doc → List (Cla × Bool)
  | .binary c o => [(c, o)]
  | _ => []

/-- **C134.** A binary sensor is on for home automation exactly if it is open (sensors of doors, gates and windows) or on. -/
theorem binary_read (near : State.Near) (f : Nat) (v : Nat → List Nat) (hv : Clean v) (ms : List (Mem Nat))
    (hms : Content (text (.binary (binaryClass f) (openClosed f)) v) ms) :
    ∃ p q, OnOff ms p q ∧ p ≠ q ∧
      (openClosed f = true → ∀ closed, ∃ w, State.stateMsgs near (.opening closed) = [⟨"", .word w, true⟩] ∧ txt w = if closed then q else p) ∧
      (openClosed f = false → ∀ on, ∃ w, State.stateMsgs near (.binary on) = [⟨"", .word w, true⟩] ∧ txt w = if on then p else q) := by
  have hdd := binaryDoc_docs f
  rw [content_unique _ _ _ hms (content _ hdd v hv)]
  have hb : (binaryClass f, openClosed f) ∈ binaries := by
    have : ∀ d ∈ docs, ∀ c o, d = .binary c o → (c, o) ∈ binaries := by
      have : ∀ d ∈ docs, ∀ x ∈ binariesOf d, x ∈ binaries := by decide +kernel
      intro d hd c o e
      refine this d hd _ ?_
      rw [e]
      exact List.mem_cons_self ..
    exact this _ hdd _ _ rfl
  have ok := binary_words_ok _ hb
  cases ho : openClosed f with
  | true =>
    rw [ho] at ok
    dsimp only at ok
    rw [if_pos rfl] at ok
    refine ⟨codes "open", codes "closed", ⟨Or.inl (text_of v _ _ _ ok.1), Or.inl (text_of v _ _ _ ok.2)⟩, by decide, ?_, fun h => by cases h⟩
    intro _ closed
    cases closed
    · exact ⟨"open", rfl, by decide +kernel⟩
    · exact ⟨"closed", rfl, by decide +kernel⟩
  | false =>
    rw [ho] at ok
    dsimp only at ok
    rw [if_neg Bool.false_ne_true] at ok
    have no : ∀ m ∈ (mems (.binary (binaryClass f) false)).map (instM v), m.key ≠ codes "payload_on" ∧ m.key ≠ codes "payload_off" := by
      intro m hm
      obtain ⟨x, hx, rfl⟩ := List.mem_map.mp hm
      exact ok x hx
    refine ⟨codes "ON", codes "OFF", ⟨Or.inr ⟨fun m hm => (no m hm).1, rfl⟩, Or.inr ⟨fun m hm => (no m hm).2, rfl⟩⟩, by decide, fun h => (by cases h), ?_⟩
    intro _ on
    cases on
    · exact ⟨"OFF", rfl, by decide +kernel⟩
    · exact ⟨"ON", rfl, by decide +kernel⟩

/-- **C134.** A switch or light is on for home automation exactly if the relay is on. -/
theorem relay_read (near : State.Near) (v : Nat → List Nat) (hv : Clean v) (ms : List (Mem Nat)) (hms : Content (text .relay v) ms) :
    ∃ p q, Text ms (codes "pl_on") p ∧ Text ms (codes "pl_off") q ∧ p ≠ q ∧
      ∀ on, ∃ w, State.stateMsgs near (.relay on) = [⟨"on", .word w, true⟩] ∧ txt w = if on then p else q := by
  have hdd : Doc.relay ∈ docs := by decide +kernel
  rw [content_unique _ _ _ hms (content _ hdd v hv)]
  have h1 := (offers_ok _ hdd _ (List.mem_cons_self ..)).1
  have h2 := (offers_ok _ hdd _ (List.mem_cons_of_mem _ (List.mem_cons_self ..))).1
  refine ⟨codes "true", codes "false", text_of v _ _ _ h1, text_of v _ _ _ h2, by decide, ?_⟩
  intro on
  cases on
  · exact ⟨"false", rfl, by decide +kernel⟩
  · exact ⟨"true", rfl, by decide +kernel⟩

/-! ## Buttons -/

/-- The actions a button can have, as bits. -/
def actionBits : List Nat := [0, 1, 2, 3, 4, 5, 6, 10, 11, 12, 13, 14, 15]

theorem action_enabled (caps i : Nat) (hi : i ∈ actionBits) (h : caps.testBit i = true) : enabled caps (actionIdx (2 ^ i)) = true := by
  simp only [actionBits, List.mem_cons, List.not_mem_nil, or_false] at hi
  rcases hi with rfl | rfl | rfl | rfl | rfl | rfl | rfl | rfl | rfl | rfl | rfl | rfl | rfl <;> simp [actionIdx, enabled, h]

theorem idx_lt : ∀ i ∈ actionBits, actionIdx (2 ^ i) < 8 := by decide

/-- **C134.** Every action of a button is announced, and what the device sends for it is the topic and the payload of the
announcement. -/
theorem action_announced (caps i : Nat) (hi : i ∈ actionBits) (h : caps.testBit i = true) (custom host : List Nat) (hcu : custom.length ≤ 48)
    (hho : host.length ≤ 31) (v : Nat → List Nat) (n : Nat) (hn : n < 256) (hv : Device v n) (hp : v 0 = devicePrefix custom host) :
    ∃ d ∈ docsOf (.trigger caps), ∀ ms, Content (text d v) ms → Text ms (codes "topic") (actionMessage (v 0) n (2 ^ i)).1 ∧
      Text ms (codes "payload") (actionMessage (v 0) n (2 ^ i)).2 ∧ Text ms (codes "type") (actionMessage (v 0) n (2 ^ i)).2 := by
  have hlt := idx_lt i hi
  refine ⟨.trigger (actionIdx (2 ^ i)), List.mem_map_of_mem (List.mem_filter.mpr ⟨List.mem_range.mpr hlt, action_enabled caps i hi h⟩), ?_⟩
  intro ms hms
  have hdd := trigger_docs _ hlt
  rw [content_unique _ _ _ hms (content _ hdd v hv.1)]
  obtain ⟨t1, t2, t3, _⟩ := trigger_ok _ hlt
  have e : (actionMessage (v 0) n (2 ^ i)).1 = documented (v 0) n (triggerType (actionIdx (2 ^ i))) := by
    show full (v 0) (slash (channelTopic n) (triggerType (actionIdx (2 ^ i)))) = _
    rw [hp]
    refine topic_exact custom host _ n hcu hho hn ?_
    have : ∀ k < 8, (triggerType k).length ≤ 140 := by decide
    exact this _ hlt
  refine ⟨?_, text_of v _ _ _ t2, text_of v _ _ _ t3⟩
  rw [e]
  refine ⟨_, List.mem_map_of_mem t1, rfl, ?_⟩
  show J.str (inst v _) = _
  have : txt "/channels/" = codes "/channels/" := by decide +kernel
  unfold documented
  rw [this, ← hv.2]
  simp [inst_chars, inst]

example : ∃ d ∈ docsOf (.trigger (2 ^ 12)), d = .trigger 2 := by decide

/-- **C134.** Only actions the button has are announced, each under its own topic. -/
theorem only_actions (caps : Nat) (d : Doc) (hd : d ∈ docsOf (.trigger caps)) : ∃ i ∈ actionBits, caps.testBit i = true ∧ d = .trigger (actionIdx (2 ^ i)) := by
  obtain ⟨k, hk, rfl⟩ := List.mem_map.mp hd
  obtain ⟨h1, h2⟩ := List.mem_filter.mp hk
  have h1 := List.mem_range.mp h1
  have c : k = 0 ∨ k = 1 ∨ k = 2 ∨ k = 3 ∨ k = 4 ∨ k = 5 ∨ k = 6 ∨ k = 7 := by omega
  rcases c with rfl | rfl | rfl | rfl | rfl | rfl | rfl | rfl
  · exact ⟨10, by decide, h2, by decide⟩
  · rcases Bool.or_eq_true_iff.mp (show (caps.testBit 2 || caps.testBit 11) = true from h2) with h | h
    · exact ⟨2, by decide, h, by decide⟩
    · exact ⟨11, by decide, h, by decide⟩
  · rcases Bool.or_eq_true_iff.mp (show (caps.testBit 3 || caps.testBit 12) = true from h2) with h | h
    · exact ⟨3, by decide, h, by decide⟩
    · exact ⟨12, by decide, h, by decide⟩
  · rcases Bool.or_eq_true_iff.mp (show (caps.testBit 4 || caps.testBit 13) = true from h2) with h | h
    · exact ⟨4, by decide, h, by decide⟩
    · exact ⟨13, by decide, h, by decide⟩
  · rcases Bool.or_eq_true_iff.mp (show (caps.testBit 5 || caps.testBit 14) = true from h2) with h | h
    · exact ⟨5, by decide, h, by decide⟩
    · exact ⟨14, by decide, h, by decide⟩
  · rcases Bool.or_eq_true_iff.mp (show (caps.testBit 6 || caps.testBit 15) = true from h2) with h | h
    · exact ⟨6, by decide, h, by decide⟩
    · exact ⟨15, by decide, h, by decide⟩
  · exact ⟨0, by decide, h2, by decide⟩
  · exact ⟨1, by decide, h2, by decide⟩

theorem types_differ : ∀ i < 8, ∀ j < 8, triggerType i = triggerType j → i = j := by decide

theorem buttons_count (l : List Bool) : ∀ k i, l[i]? = some true → (buttons k l)[i]? = some (some (k + (l.take (i + 1)).count true)) := by
  induction l with
  | nil => intro k i h; cases h
  | cons b l ih =>
    intro k i h
    cases i with
    | zero =>
      have : b = true := by simpa using h
      subst this
      simp [buttons]
    | succ i =>
      have h' : l[i]? = some true := by simpa using h
      cases b with
      | true =>
        show (buttons (k + 1) l)[i]? = _
        rw [ih (k + 1) i h']
        simp
        omega
      | false =>
        show (buttons k l)[i]? = _
        rw [ih k i h']
        simp

/-- **C134.** On connecting, buttons are numbered by their order among the channels, so that no two share a number. -/
theorem button_numbers (l : List Bool) (i j a : Nat) (hi : l[i]? = some true) (hj : l[j]? = some true) (ha : (buttons 0 l)[i]? = some (some a))
    (hb : (buttons 0 l)[j]? = some (some a)) : a = (l.take (i + 1)).count true ∧ i = j := by
  rw [buttons_count l 0 i hi] at ha
  rw [buttons_count l 0 j hj] at hb
  have ea := Option.some.inj (Option.some.inj ha)
  have eb := Option.some.inj (Option.some.inj hb)
  have mono : ∀ i j, i < j → l[j]? = some true → (l.take (i + 1)).count true < (l.take (j + 1)).count true := by
    intro i j hij hj
    have hlen : j < l.length := by
      by_contra hc
      rw [List.getElem?_eq_none (by omega)] at hj
      cases hj
    have e : l.take (j + 1) = l.take j ++ [true] := by
      rw [List.take_add_one, hj]
      rfl
    have s : (l.take (i + 1)).Sublist (l.take j) := by
      rw [show l.take (i + 1) = (l.take j).take (i + 1) by rw [List.take_take, Nat.min_eq_left (by omega)]]
      exact List.take_sublist _ _
    have := s.count_le true
    rw [e, List.count_append]
    have : List.count true [true] = 1 := by decide
    omega
  refine ⟨by omega, ?_⟩
  by_contra hne
  rcases Nat.lt_or_gt_of_ne hne with h | h
  · have := mono i j h hj; omega
  · have := mono j i h hi; omega

example : buttons 0 [false, true, false, true] = [none, some 1, none, some 2] := by decide

/-! ## Where the documents are wrong -/

/-- All topics of states, phases aside. -/
def known : List String :=
  ["on", "is_calibrating", "shut", "tilt", "temperature", "humidity", "brightness", "color_brightness", "color", "rgb/on", "dimmer/on", "action", "mode",
   "temperature_setpoint", "temperature_setpoint_heat", "temperature_setpoint_cool", "", "total_forward_active_energy", "total_reverse_active_energy",
   "total_forward_balanced_active_energy", "total_reverse_balanced_active_energy"]

theorem state_known (near : State.Near) (r : State.Reading) : ∀ m ∈ State.stateMsgs near r, m.topic ∈ known := by
  intro m hm
  have : (State.stateMsgs near r).map (·.topic) ⊆ known := by
    cases r with
    | thermometer t => unfold State.stateMsgs; dsimp only; split <;> simp [State.kept, known]
    | climate t h => unfold State.stateMsgs; dsimp only; split <;> split <;> simp [State.kept, known]
    | hvac hc cs heating cooling weekly mode heat cool => cases hc <;> simp [State.stateMsgs, State.hvacPoints, State.kept, known]
    | _ => simp [State.stateMsgs, State.shutterMsgs, State.kept, known]
  exact this (List.mem_map_of_mem hm)

theorem ext_known (near : State.Near) (cfg : Bool) (r : State.Reading) : ∀ m ∈ State.extMsgs near cfg r, m.topic ∈ known ∨ (txt m.topic).head? = some 112 := by
  intro m hm
  cases r with
  | meter x =>
    rcases List.mem_append.mp hm with hm | hm
    · left
      have := (State.fieldMsgs_topics near cfg "" State.totalFields x.totals).subset (List.mem_map_of_mem (f := (·.topic)) hm)
      simp [State.totalFields] at this
      rcases this with h | h | h | h <;> rw [h] <;> simp [known]
    · right
      have all : ∀ j k, ∀ t ∈ State.phaseTopics k j, (txt t).head? = some 112 := by
        intro j
        induction j with
        | zero => intro k t ht; cases ht
        | succ j ih =>
          intro k t ht
          rcases List.mem_append.mp ht with ht | ht
          · obtain ⟨f, _, rfl⟩ := List.mem_map.mp ht
            rw [txt_append, txt_append, txt_append]
            have : txt "phases/" = codes "phases/" := by decide +kernel
            rw [this]
            rfl
          · exact ih (k + 1) t ht
      exact all _ _ _ ((State.phaseMsgs_topics near cfg x.phases 0).subset (List.mem_map_of_mem (f := (·.topic)) hm))
  | _ => cases hm

/-- Topics in documents that nothing is published under. -/
def unpublished : List (List Nat) :=
  [codes "total_forward_active_energy_balanced", codes "total_reverse_active_energy_balanced", codes "temperature_setpoint_cool/",
   codes "temperature_setpoint_heat/"]

theorem never_published (near : State.Near) (cfg : Bool) (r : State.Reading) (w : List Nat) (hw : w ∈ unpublished) (pre : List Nat) (n : Nat) :
    ∀ m ∈ State.stateMsgs near r ++ State.extMsgs near cfg r, documented pre n (codes "state/" ++ w) ≠ stateTopic pre n m.topic := by
  intro m hm e
  have h0 : ∀ w ∈ unpublished, w.head? = some 116 := by decide
  have h1 : ∀ x ∈ known, ∀ w ∈ unpublished, txt x ≠ w := by decide +kernel
  have ne : txt m.topic ≠ w := by
    have c : m.topic ∈ known ∨ (txt m.topic).head? = some 112 := by
      rcases List.mem_append.mp hm with h | h
      · left; exact state_known near r m h
      · exact ext_known near cfg r m h
    rcases c with c | c
    · exact h1 _ c w hw
    · intro e; rw [e, h0 w hw] at c; cases c
  have e' : codes "state/" ++ w = codes "state" ++ if txt m.topic = [] then [] else [47] ++ txt m.topic := List.append_cancel_left e
  rw [show codes "state/" ++ w = codes "state" ++ ([47] ++ w) from rfl] at e'
  have e' := List.append_cancel_left e'
  split at e'
  · cases e'
  · exact ne (List.append_cancel_left e').symm

/-- **C134, false of the code.** The documents of the balanced energies of a meter name topics under which no channel ever
publishes anything (the device publishes them with the words in another order). -/
theorem balanced_violation (near : State.Near) (cfg : Bool) (r : State.Reading) (i : Nat) (hi : i = 3 ∨ i = 4) (v : Nat → List Nat) (n : Nat) (hv : Device v n)
    (ms : List (Mem Nat)) (hms : Content (text (.meter i) v) ms) :
    ∃ t, Names ms (codes "stat_t") t ∧ ∀ m ∈ State.stateMsgs near r ++ State.extMsgs near cfg r, t ≠ stateTopic (v 0) n m.topic := by
  rcases hi with rfl | rfl
  · have hdd : Doc.meter 3 ∈ docs := by decide +kernel
    rw [content_unique _ _ _ hms (content _ hdd v hv.1)]
    exact ⟨_, names_of v _ hdd rfl n hv.2 _ _ wrong_ok.1, never_published near cfg r (codes "total_forward_active_energy_balanced") (by decide) _ _⟩
  · have hdd : Doc.meter 4 ∈ docs := by decide +kernel
    rw [content_unique _ _ _ hms (content _ hdd v hv.1)]
    exact ⟨_, names_of v _ hdd rfl n hv.2 _ _ wrong_ok.2.1, never_published near cfg r (codes "total_reverse_active_energy_balanced") (by decide) _ _⟩

/-- **C134, false of the code.** For a thermostat of the function "heat and cool" the topics of both setpoints end in a slash: the
device publishes nothing there and does not listen to what is written there. -/
theorem setpoint_violation (near : State.Near) (cfg cool : Bool) (r : State.Reading) (v : Nat → List Nat) (n : Nat) (hv : Device v n)
    (ms : List (Mem Nat)) (hms : Content (text (.hvac true cool) v) ms) :
    (∀ key ∈ [codes "temperature_high_state_topic", codes "temperature_low_state_topic"], ∃ t, Names ms key t ∧
      ∀ m ∈ State.stateMsgs near r ++ State.extMsgs near cfg r, t ≠ stateTopic (v 0) n m.topic) ∧
    ∀ key ∈ [codes "temperature_high_command_topic", codes "temperature_low_command_topic"], ∃ t, Names ms key t ∧
      ∀ k, ∀ part ∈ subscriptions k, t ≠ documented (v 0) n part := by
  have hdd : Doc.hvac true cool ∈ docs := docsOf_docs (.hvac true cool) trivial _ (List.mem_cons_self ..)
  rw [content_unique _ _ _ hms (content _ hdd v hv.1)]
  obtain ⟨w1, w2, w3, w4⟩ := wrong_ok.2.2 cool
  have sub : ∀ k, ∀ part ∈ subscriptions k, part ≠ codes "set/temperature_setpoint_cool/" ∧ part ≠ codes "set/temperature_setpoint_heat/" := by
    intro k
    cases k with
    | hvac c => revert c; decide +kernel
    | _ => decide +kernel
  constructor
  · intro key hk
    rcases List.mem_cons.mp hk with rfl | hk
    · exact ⟨_, names_of v _ hdd rfl n hv.2 _ _ w1, never_published near cfg r (codes "temperature_setpoint_cool/") (by decide) _ _⟩
    · rw [List.mem_singleton.mp hk]
      exact ⟨_, names_of v _ hdd rfl n hv.2 _ _ w2, never_published near cfg r (codes "temperature_setpoint_heat/") (by decide) _ _⟩
  · intro key hk
    rcases List.mem_cons.mp hk with rfl | hk
    · exact ⟨_, names_of v _ hdd rfl n hv.2 _ _ w3, fun k part hp e => (sub k part hp).1 (List.append_cancel_left e).symm⟩
    · rw [List.mem_singleton.mp hk]
      exact ⟨_, names_of v _ hdd rfl n hv.2 _ _ w4, fun k part hp e => (sub k part hp).2 (List.append_cancel_left e).symm⟩

/-- **C134, false of the code.** A light with colour only does not react to being switched on or off by home automation. -/
theorem light_violation (v : Nat → List Nat) (n : Nat) (hv : Device v n) (ms : List (Mem Nat)) (hms : Content (text (.rgb false) v) ms) :
    Names ms (codes "cmd_t") (documented (v 0) n (txt "execute_action")) ∧
    ∀ key ∈ [codes "pl_on", codes "pl_off"], ∃ p, Text ms key p ∧ ∀ on, request .rgb on (txt "execute_action") p = some [] := by
  have hdd : Doc.rgb false ∈ docs := by decide +kernel
  rw [content_unique _ _ _ hms (content _ hdd v hv.1)]
  have e : txt "execute_action" = codes "execute_action" := by decide +kernel
  have h1 := offers_ok _ hdd _ (List.mem_cons_self ..)
  have h2 := offers_ok _ hdd _ (List.mem_cons_of_mem _ (List.mem_cons_self ..))
  refine ⟨by rw [e]; exact names_of v _ hdd rfl n hv.2 _ _ h1.2, ?_⟩
  have no : ∀ p ∈ [codes "TURN_ON", codes "TURN_OFF"], ∀ on, request .rgb on (txt "execute_action") p = some [] := by decide +kernel
  intro key hk
  rcases List.mem_cons.mp hk with rfl | hk
  · exact ⟨_, text_of v _ _ _ h1.1, no _ (List.mem_cons_self ..)⟩
  · rw [List.mem_singleton.mp hk]
    exact ⟨_, text_of v _ _ _ h2.1, no _ (List.mem_cons_of_mem _ (List.mem_cons_self ..))⟩

/-- So the three full claims fail. -/
theorem claims_violation : ¬ StatesPublished ∧ ¬ CommandsSubscribed ∧ ¬ OffersUnderstood := by
  refine ⟨?_, ?_, ?_⟩
  · intro h
    have hdd : Doc.hvac true true ∈ docs := docsOf_docs (.hvac true true) trivial _ (List.mem_cons_self ..)
    have hms := content _ hdd _ sample_device.1
    obtain ⟨t, ht, no⟩ := (setpoint_violation State.half false true (.hvac true true false false false 4 2000 2500) _ 3 sample_device _ hms).1 _ (List.mem_cons_self ..)
    obtain ⟨m, hm, e⟩ := h State.half false (.hvac true true) (.hvac true true false false false 4 2000 2500) _ _ 3 _ trivial (by simp [Fits]) (List.mem_cons_self ..) sample_device hms
      _ (by decide) t ht
    exact no m hm e
  · intro h
    have hdd : Doc.hvac true true ∈ docs := docsOf_docs (.hvac true true) trivial _ (List.mem_cons_self ..)
    have hms := content _ hdd _ sample_device.1
    obtain ⟨t, ht, no⟩ := (setpoint_violation State.half false true .other _ 3 sample_device _ hms).2 _ (List.mem_cons_self ..)
    obtain ⟨m, hm, e⟩ := h (.hvac true true) _ _ 3 _ trivial (List.mem_cons_self ..) sample_device hms _ (by decide) t ht
    exact no _ m hm e
  · intro h
    have hdd : Doc.rgb false ∈ docs := docsOf_docs .rgb trivial _ (List.mem_cons_self ..)
    have hms := content _ hdd _ sample_device.1
    obtain ⟨p, part, hp, hn, hs, hr⟩ := h .rgb _ _ 3 _ trivial (List.mem_cons_self ..) sample_device hms _ (List.mem_cons_self ..)
    obtain ⟨rest, hr⟩ := hr false
    have no : ∀ part ∈ subscriptions .rgb, ∀ p ∈ [codes "TURN_ON"], request .rgb false part p ≠ some (.bytes [(6, 4)] :: rest) := by
      intro part hpart p hp
      have : ∀ part ∈ subscriptions .rgb, ∀ p ∈ [codes "TURN_ON"], firstCmd (request .rgb false part p) ≠ some (.bytes [(6, 4)]) := by decide +kernel
      intro e
      exact this part hpart p hp (by rw [e]; rfl)
    refine no part hs p ?_ hr
    obtain ⟨_, hn1⟩ := light_violation _ 3 sample_device _ hms
    have h1 := text_of (sample 3) _ _ _ (offers_ok _ hdd _ (List.mem_cons_self ..)).1
    obtain ⟨m, hm, hk, hv⟩ := hp
    obtain ⟨m', hm', hk', hv'⟩ := h1
    have : m = m' := List.inj_on_of_nodup_map hms.2.2 hm hm' (by rw [hk, hk'])
    rw [this, hv'] at hv
    injection hv with hv
    rw [← hv]
    exact List.mem_cons_self ..

set_option maxRecDepth 100000 in
theorem starts_slash : ∀ d ∈ docs, hasBase d = true → (template d).take 13 = (codes "{\"avty_t\":\"").map .ch ++ [.hole 0, .ch 47] := by decide +kernel

theorem esc_plain (a : List Nat) (h : ∀ c ∈ a, c ≠ 34 ∧ c ≠ 92) : esc a = a := by
  induction a with
  | nil => rfl
  | cons c a ih =>
    have := h c (List.mem_cons_self ..)
    show (if c = 34 ∨ c = 92 then [92, c] else [c]) ++ esc a = _
    rw [if_neg (by omega), ih (fun c hc => h c (List.mem_cons_of_mem _ hc))]
    rfl

/-- **C134, false of the code.** Texts are put into the documents without escaping: if the prefix of the topics (which the user
enters) has a quotation mark, the document of every channel is not JSON, whatever else is in it. -/
theorem quote_violation (d : Doc) (hd : d ∈ docs) (hb : hasBase d = true) (v : Nat → List Nat) (a b : List Nat) (h : v 0 = a ++ 34 :: b)
    (ha : ∀ c ∈ a, c ≠ 34 ∧ c ≠ 92) (hbb : b.head? ≠ some 44 ∧ b.head? ≠ some 125) : ∀ ms, ¬ Content (text d v) ms := by
  rintro ms ⟨e, hval, _⟩
  have t : text d v = codes "{\"avty_t\":\"" ++ (a ++ 34 :: b ++ 47 :: inst v ((template d).drop 13)) := by
    show inst v (template d) = _
    conv_lhs => rw [← List.take_append_drop 13 (template d)]
    rw [starts_slash d hd hb, inst_append, inst_append, inst_chars]
    simp [inst, h]
  rw [t] at e
  cases ms with
  | nil => cases (List.cons.inj (List.cons.inj e).2).1
  | cons m ms =>
    have e1 : object (m :: ms) = 123 :: (member m ++ (if ms.isEmpty then [125] else 44 :: (commas 44 (ms.map member) ++ [125]))) := by
      unfold object
      rw [List.append_assoc]
      exact congrArg _ (commas_cons member 125 m ms [])
    rw [e1] at e
    generalize ht : (if ms.isEmpty = true then [125] else 44 :: (commas 44 (ms.map member) ++ [125])) = tail at e
    have htail : tail.head? = some 125 ∨ tail.head? = some 44 := by
      rw [← ht]
      split
      · left; rfl
      · right; rfl
    have e := (List.cons.inj e).2
    have e : quoted (codes "avty_t") ++ (58 :: (quoted a ++ (b ++ 47 :: inst v ((template d).drop 13)))) =
        quoted m.key ++ (58 :: ((if m.gap then [32] else []) ++ (value m.val ++ tail))) := by
      rw [show quoted a = [34] ++ a ++ [34] by unfold quoted; rw [esc_plain a ha],
        show quoted (codes "avty_t") = codes "\"avty_t\"" by decide]
      unfold member at e
      simpa using e
    have e := (List.cons.inj (quoted_end _ _ _ _ e).2).2
    have hg : m.gap = false := by
      cases hgg : m.gap with
      | false => rfl
      | true => rw [hgg] at e; cases (List.cons.inj e).1
    rw [hg] at e
    have e : quoted a ++ (b ++ 47 :: inst v ((template d).drop 13)) = value m.val ++ tail := e
    have hv := (hval m (List.mem_cons_self ..)).2
    have h34 : (value m.val ++ tail).head? = some 34 := by rw [← e]; rfl
    rcases value_head m.val hv tail with ⟨s, hs, _⟩ | ⟨s, hs, k⟩ | ⟨s, hs, k⟩ | ⟨s, hs, c, k, k2⟩
    · rw [hs] at e
      have e := (quoted_end a s _ _ e).2
      rw [← e] at htail
      cases b with
      | nil => simp at htail
      | cons c b =>
        simp at htail hbb
        omega
    · rw [k] at h34; cases h34
    · rw [k] at h34; cases h34
    · rw [k] at h34; exact k2.1 (Option.some.inj h34)

/-- So not every document is well-formed. -/
theorem form_violation : ¬ WellFormed := by
  intro h
  obtain ⟨ms, hm⟩ := h .dimmer (.dimmer false) (fun _ => [34]) trivial (List.mem_cons_self ..)
  exact quote_violation (.dimmer false) (docsOf_docs .dimmer trivial _ (List.mem_cons_self ..)) rfl _ [] [] rfl (fun c hc => by cases hc) (by decide) ms hm

/-- The broker keeps one document for a relay, the last. -/
def OneDocument : Prop :=
  ∀ (held : List Nat → Option (List Nat)) (f g : Nat) (id : List Nat) (v v' : Nat → List Nat), id.length ≤ 29 → (∀ t, held t = none) →
    ∀ t, announce (announce held f id v) g id v' t = if t = relayTopic g id then some (text (relayDoc g) v') else none

theorem types_short (f : Nat) : (txt (relayType f)).length ≤ 30 := by
  unfold relayType
  split
  · decide
  split
  · decide
  · decide

theorem topic_type (f g : Nat) (id : List Nat) (hid : id.length ≤ 29) : relayTopic f id = relayTopic g id ↔ relayType f = relayType g := by
  unfold relayTopic
  rw [discovery_exact _ _ (types_short f) (by omega), discovery_exact _ _ (types_short g) (by omega)]
  constructor
  · intro e
    have e := List.append_cancel_right (List.append_cancel_right (List.append_cancel_right e))
    have e := List.append_cancel_left e
    unfold txt at e
    have inj : ∀ (a b : List Char), a.map Char.toNat = b.map Char.toNat → a = b := by
      intro a b h
      exact List.map_injective_iff.mpr (fun x y hxy => Char.toNat_inj.mp hxy) h
    exact String.toList_injective (inj _ _ e)
  · intro e; rw [e]

/-- **C134.** A new document of a relay replaces the former one if it is of the same type. -/
theorem replaced_partial (held : List Nat → Option (List Nat)) (f g : Nat) (id : List Nat) (v v' : Nat → List Nat) (hid : id.length ≤ 29)
    (h0 : ∀ t, held t = none) (h : relayType f = relayType g) :
    ∀ t, announce (announce held f id v) g id v' t = if t = relayTopic g id then some (text (relayDoc g) v') else none := by
  intro t
  unfold announce
  rw [(topic_type f g id hid).mpr h]
  split
  · rfl
  · exact h0 t

example : relayType 20 = relayType 90 := by decide

/-- **C134, false of the code.** If the user changes the function of a relay to one of another type, home automation still sees the
former one beside the new. -/
theorem former_violation (held : List Nat → Option (List Nat)) (f g : Nat) (id : List Nat) (v v' : Nat → List Nat) (hid : id.length ≤ 29)
    (h : relayType f ≠ relayType g) : announce (announce held f id v) g id v' (relayTopic f id) = some (text (relayDoc f) v) := by
  have : relayTopic f id ≠ relayTopic g id := fun e => h ((topic_type f g id hid).mp e)
  unfold announce
  rw [if_neg this, if_pos (show relayTopic f id = relayTopic f id from rfl)]

theorem one_document_violation : ¬ OneDocument := by
  intro h
  have := h (fun _ => none) 130 140 [] (fun _ => []) (fun _ => []) (by decide) (fun _ => rfl) (relayTopic 130 [])
  rw [former_violation _ 130 140 [] _ _ (by decide) (by decide)] at this
  rw [if_neg (fun e => absurd ((topic_type 130 140 [] (by decide)).mp e) (by decide))] at this
  cases this

/-- The topics a thermostat gives for the temperature and the humidity of its thermometer are those of the thermometer. -/
def ThermometerTopics : Prop :=
  ∀ custom host, custom.length ≤ 48 → host.length ≤ 31 → ∀ n < 256, ∀ what ∈ ["temperature", "humidity"],
    cutTopic (devicePrefix custom host) n what = stateTopic (devicePrefix custom host) n what

/-- **C134.** They are if they have at most 99 characters. -/
theorem thermometer_partial (pre : List Nat) (n : Nat) (what : String) (hw : what ∈ ["temperature", "humidity"]) :
    cutTopic pre n what = stateTopic pre n what ↔ (stateTopic pre n what).length ≤ 99 := by
  have e : stateTopic pre n what = pre ++ txt "/channels/" ++ decimalText n ++ txt "/state/" ++ txt what := by
    have h1 : txt what ≠ [] := by
      have : ∀ what ∈ ["temperature", "humidity"], txt what ≠ [] := by decide +kernel
      exact this what hw
    have h2 : txt "/state/" = codes "/state/" := by decide +kernel
    unfold stateTopic documented
    rw [if_neg h1, h2]
    simp
  unfold cutTopic
  rw [e]
  constructor
  · intro h
    rw [← h]
    exact List.length_take_le ..
  · intro h
    exact List.take_of_length_le h

/-- **C134, false of the code.** With the longest prefix and name of the device they never are. -/
theorem thermometer_violation : ¬ ThermometerTopics := by
  intro h
  have := h (List.replicate 48 97) (List.replicate 31 97) (by decide) (by decide) 3 (by decide) "temperature" (by decide)
  rw [thermometer_partial _ _ _ (by decide)] at this
  revert this
  decide +kernel

/-! ## Values that expire -/

theorem setup_changed_at (near : State.Near) (s : State.Sys) (k n : Nat) (h : s.changed n = false) : (State.setup near s k).changed n = false := by
  unfold State.setup
  split
  · show State.upd s.changed k false n = false
    unfold State.upd
    split
    · rfl
    · exact h
  · exact h

theorem setupChanged_quiet (near : State.Near) (s : State.Sys) (n : Nat) (h : s.changed n = false) : ∀ k,
    (State.setupChanged near s k).changed n = false ∧ (State.setupChanged near s k).held n = s.held n := by
  intro k
  induction k with
  | zero => exact ⟨h, rfl⟩
  | succ k ih =>
    show (if (State.setupChanged near s k).changed k = true then State.setup near (State.setupChanged near s k) k else State.setupChanged near s k).changed n = false ∧
      (if (State.setupChanged near s k).changed k = true then State.setup near (State.setupChanged near s k) k else State.setupChanged near s k).held n = s.held n
    split
    · rename_i hk
      have hne : n ≠ k := by rintro rfl; rw [ih.1] at hk; cases hk
      exact ⟨setup_changed_at near _ k n ih.1, by rw [State.setup_other near _ k n hne]; exact ih.2⟩
    · exact ih

/-- What happens while the connection lasts and nothing about channel `n` changes; measuring the same value again is allowed. -/
def Quiet (n : Nat) (r : State.Reading) : State.Op → Prop
  | .value m x => m = n → x = r
  | .func m _ => m ≠ n
  | .avail m _ => m ≠ n
  | .send _ => True
  | .up => False
  | .down => False
  | .pass => True

/-- Settled, with reading `r`. -/
def Still (s : State.Sys) (n : Nat) (r : State.Reading) : Prop := State.Settled s n ∧ s.reading n = r

theorem still_step (near : State.Near) (s : State.Sys) (n : Nat) (r : State.Reading) (h : Still s n r) (o : State.Op) (ho : Quiet n r o) :
    Still (State.step near s o) n r ∧ (State.step near s o).held n = s.held n := by
  obtain ⟨⟨h1, h2, h3, h4⟩, h5⟩ := h
  cases o with
  | value m x =>
    show Still (if x = s.reading m then s else _) n r ∧ (if x = s.reading m then s else _).held n = s.held n
    split
    · exact ⟨⟨⟨h1, h2, h3, h4⟩, h5⟩, rfl⟩
    · rename_i hx
      have hne : n ≠ m := by
        rintro rfl
        exact hx (by rw [h5]; exact ho rfl)
      refine ⟨⟨⟨h1, h2, ?_, h4⟩, ?_⟩, rfl⟩
      · show State.upd s.pending m true n = false
        unfold State.upd
        rw [if_neg hne]
        exact h3
      · show State.upd s.reading m x n = r
        unfold State.upd
        rw [if_neg hne]
        exact h5
  | func m x =>
    have hne : n ≠ m := fun e => ho e.symm
    refine ⟨⟨⟨h1, h2, h3, ?_⟩, ?_⟩, rfl⟩
    · show State.upd s.changed m true n = false
      unfold State.upd
      rw [if_neg hne]
      exact h4
    · show State.upd s.reading m x n = r
      unfold State.upd
      rw [if_neg hne]
      exact h5
  | avail m x =>
    have hne : n ≠ m := fun e => ho e.symm
    show Still (if x = s.offline m then s else _) n r ∧ (if x = s.offline m then s else _).held n = s.held n
    split
    · exact ⟨⟨⟨h1, h2, h3, h4⟩, h5⟩, rfl⟩
    · refine ⟨⟨⟨h1, h2, ?_, h4⟩, h5⟩, rfl⟩
      show State.upd s.pending m true n = false
      unfold State.upd
      rw [if_neg hne]
      exact h3
  | send m =>
    by_cases hne : n = m
    · subst hne
      have : State.step near s (.send n) = s := by
        show State.sendOne near s n = s
        unfold State.sendOne
        rw [h3, if_neg Bool.false_ne_true]
      rw [this]
      exact ⟨⟨⟨h1, h2, h3, h4⟩, h5⟩, rfl⟩
    · have f := State.sendOne_frame near s m
      refine ⟨⟨⟨f.2.2.2.1.trans h1, f.2.2.2.2.1.trans h2, ?_, ?_⟩, ?_⟩, State.sendOne_other near s m n hne⟩
      · show (State.sendOne near s m).pending n = false
        rw [f.2.2.2.2.2.2 n, if_neg hne]
        exact h3
      · show (State.sendOne near s m).changed n = false
        rw [f.2.2.1]
        exact h4
      · show (State.sendOne near s m).reading n = r
        rw [f.2.1]
        exact h5
  | up => exact ho.elim
  | down => exact ho.elim
  | pass =>
    have e : State.step near s .pass = State.setupChanged near s s.count := by
      show State.pass near s = _
      unfold State.pass
      rw [h1, h2]
      rfl
    rw [e]
    have f := State.setupChanged_frame near s s.count
    have q := setupChanged_quiet near s n h4 s.count
    exact ⟨⟨⟨f.2.2.2.1.trans h1, f.2.2.2.2.1.trans h2, by rw [f.2.2.1]; exact h3, q.1⟩, by rw [f.2.1]; exact h5⟩, q.2⟩

/-- The full claim: a value for which a time of expiry is announced is sent again and again, so that a broker that has lost it has it
again sometime. -/
def Refreshed : Prop :=
  ∀ (near : State.Near) (s : State.Sys) (n : Nat) (t : Rat), n < s.count → t > -273 → Still s n (.thermometer t) →
    ∃ ops, (∀ o ∈ ops, Quiet n (.thermometer t) o) ∧ (State.run near s ops).held n "temperature" ≠ none

/-- While the connection lasts and nothing changes, nothing is sent for a channel. -/
theorem nothing_sent (near : State.Near) (n : Nat) (r : State.Reading) (ops : List State.Op) : ∀ s, Still s n r → (∀ o ∈ ops, Quiet n r o) →
    (State.run near s ops).held n = s.held n := by
  induction ops with
  | nil => intro s _ _; rfl
  | cons o ops ih =>
    intro s h ho
    have := still_step near s n r h o (ho o (List.mem_cons_self ..))
    show (State.run near (State.step near s o) ops).held n = s.held n
    rw [ih _ this.1 (fun o h => ho o (List.mem_cons_of_mem _ h)), this.2]

/-- **C134, false of the code.** The document of a thermometer says that its value expires (after the activity timeout of the device,
hole 7), but a steady temperature is never sent again, so that home automation takes a working sensor for a dead one. -/
theorem expire_violation : (⟨codes "expire_after", false, .lit [.hole 7]⟩ : Mem Piece) ∈ mems .thermometer ∧ ¬ Refreshed := by
  refine ⟨by decide +kernel, ?_⟩
  intro h
  obtain ⟨ops, hq, hn⟩ := h State.half { State.init 1 false (fun _ => .thermometer 20) (fun _ _ => none) with connected := true } 0 20 (by decide) (by norm_num)
    ⟨⟨rfl, rfl, rfl, rfl⟩, rfl⟩
  rw [nothing_sent State.half 0 _ ops _ ⟨⟨rfl, rfl, rfl, rfl⟩, rfl⟩ hq] at hn
  exact hn rfl

end Verif.Mqtt.Discovery
