import Verif.Mqtt.Model

/-!
# MQTT: the topics of a device are exact and belong to one channel
-/

namespace Verif.Mqtt

open Verif.Tools

/-! ## Specification -/

/-- The topic of something about channel `n`, as documented: prefix, "channels", number, what. -/
def documented (pre : List Nat) (n : Nat) (what : List Nat) : List Nat :=
  pre ++ txt "/channels/" ++ decimalText n ++ [47] ++ what

/-! ## Lemmas -/

theorem append_fits (t s : List Nat) (h : t.length + s.length < 256) : append t s = t ++ s := by
  unfold append maxTopic
  rw [if_pos h]

theorem slash_fits (t s : List Nat) (h : t.length + s.length + 1 < 256) : slash t s = t ++ [47] ++ s := by
  unfold slash
  rw [append_fits t [47] (by simp; omega), append_fits _ _ (by simp; omega)]

theorem append_length (t s : List Nat) (h : t.length < 256) : (append t s).length < 256 := by
  unfold append maxTopic
  split
  · simpa using by assumption
  · exact h

theorem text_length (n : Nat) (h : n < 256) : (decimalText n).length ≤ 3 := by
  have : ∀ n : Fin 256, (decimalText n).length ≤ 3 := by decide +kernel
  exact this ⟨n, h⟩

theorem text_no (n c : Nat) (hc : c < 48) : c ∉ decimalText n := by
  intro h
  have := (decimal_text n).2 c h
  omega

theorem text_no' (n c : Nat) (hc : 57 < c) : c ∉ decimalText n := by
  intro h
  have := (decimal_text n).2 c h
  omega

theorem text_inj (n m : Nat) (h : decimalText n = decimalText m) : n = m := by
  rw [← (decimal_text n).1, h, (decimal_text m).1]

/-- What is in front of the first separator is determined. -/
theorem cut_unique (c : Nat) (a b s t : List Nat) (ha : c ∉ a) (hb : c ∉ b) (h : a ++ c :: s = b ++ c :: t) : a = b ∧ s = t := by
  induction a generalizing b with
  | nil =>
    cases b with
    | nil => simpa using h
    | cons y b => simp at h hb; omega
  | cons x a ih =>
    cases b with
    | nil => simp at h ha; omega
    | cons y b =>
      simp only [List.cons_append, List.cons.injEq] at h
      simp only [List.mem_cons, not_or] at ha hb
      obtain ⟨h1, h2⟩ := ih b ha.2 hb.2 h.2
      exact ⟨by rw [h.1, h1], h2⟩

theorem txt_channels : txt "channels" = [99, 104, 97, 110, 110, 101, 108, 115] := by decide +kernel

theorem txt_channels_path : txt "/channels/" = [47, 99, 104, 97, 110, 110, 101, 108, 115, 47] := by decide +kernel

theorem prefix_length (custom host : List Nat) (hc : custom.length ≤ 48) (hh : host.length ≤ 31) :
    (devicePrefix custom host).length ≤ 94 := by
  have h1 : (txt "supla/devices/").length = 14 := by decide +kernel
  unfold devicePrefix
  simp only [List.length_append, h1]
  split
  · simp; omega
  · simp; omega

theorem channelTopic_eq (n : Nat) (h : n < 256) : channelTopic n = txt "channels" ++ [47] ++ decimalText n := by
  have h1 := text_length n h
  have h2 : (txt "channels").length = 8 := by decide +kernel
  unfold channelTopic slashInt
  rw [append_fits [] _ (by simp; omega), slash_fits _ _ (by simp; omega)]
  simp

/-! ## Theorems -/

/-- **C69.** No topic the device builds is longer than its buffer, whatever is appended. -/
theorem topic_length (t s : List Nat) (h : t.length < 256) : (slash t s).length < 256 :=
  append_length _ _ (append_length _ _ h)

set_option maxRecDepth 4096 in
example : (slash (List.replicate 255 97) (txt "state")).length < 256 := topic_length _ _ (by rw [List.length_replicate]; decide)

/-- **C69.** With every custom prefix and host name the device can have, the topics of every channel are
the documented ones: nothing is cut off. -/
theorem topic_exact (custom host what : List Nat) (n : Nat) (hc : custom.length ≤ 48) (hh : host.length ≤ 31) (hn : n < 256)
    (hw : what.length ≤ 140) :
    full (devicePrefix custom host) (slash (channelTopic n) what) = documented (devicePrefix custom host) n what := by
  have h1 := text_length n hn
  have h2 : (txt "channels").length = 8 := by decide +kernel
  have h3 := prefix_length custom host hc hh
  rw [channelTopic_eq n hn, slash_fits (_ ++ _) what (by simp; omega)]
  unfold full
  rw [append_fits [] _ (by simp; omega), slash_fits _ _ (by simp; omega)]
  simp [documented, txt_channels, txt_channels_path]

/-- Steps of a path can be appended one by one. -/
theorem slash_slash (t a b : List Nat) (h : t.length + a.length + b.length + 2 < 256) :
    slash (slash t a) b = slash t (a ++ [47] ++ b) := by
  rw [slash_fits t a (by omega), slash_fits _ b (by simp; omega), slash_fits t _ (by simp; omega)]
  simp

example : full (devicePrefix (txt "home") (txt "lamp-1a2b3c")) (slash (slash (channelTopic 12) (txt "set")) (txt "on"))
    = txt "home/supla/devices/lamp-1a2b3c/channels/12/set/on" := by decide +kernel

/-- **C69.** Two topics of one device are the same only if they are about the same channel and the same
thing. -/
theorem topic_distinct (pre what what' : List Nat) (n m : Nat) (h : documented pre n what = documented pre m what') :
    n = m ∧ what = what' := by
  unfold documented at h
  simp only [List.append_assoc, List.append_cancel_left_eq, List.singleton_append] at h
  obtain ⟨h1, h2⟩ := cut_unique 47 _ _ _ _ (text_no n 47 (by decide)) (text_no m 47 (by decide)) h
  exact ⟨text_inj n m h1, h2⟩

example : documented (txt "p") 1 (txt "1/state") ≠ documented (txt "p") 11 (txt "state") := by
  intro h
  exact absurd (topic_distinct _ _ _ _ _ h).1 (by decide)

/-- The full claim: appending a step to a path always gives the longer path. -/
def TopicsExact : Prop := ∀ t s : List Nat, slash t s = t ++ [47] ++ s

/-- **Finding.** A step that does not fit is dropped without a sign: with a prefix beyond the usual limits,
the state of a channel is published under the topic of the channel itself. -/
theorem topics_exact_violation : ¬ TopicsExact := by
  intro h
  have := h (List.replicate 253 97) (txt "state")
  clear h; revert this; decide +kernel

/-! ## Discovery -/

theorem object_id_eq (mac : List Nat) (n sub : Nat) (hn : n < 100) (hs : sub < 100) :
    objectId mac n sub = mac ++ 95 :: (decimalText n ++ 95 :: decimalText sub) := by
  unfold objectId
  rw [if_neg (by omega)]
  simp

/-- **C69.** Below a hundred channels and a hundred parts per channel, the identifiers published for home
automation are different for different channels, parts and devices. -/
theorem object_id_distinct_partial (mac mac' : List Nat) (hm : mac.length = mac'.length) (n sub n' sub' : Nat) (hn : n < 100) (hs : sub < 100)
    (hn' : n' < 100) (hs' : sub' < 100) (h : objectId mac n sub = objectId mac' n' sub') :
    mac = mac' ∧ n = n' ∧ sub = sub' := by
  rw [object_id_eq _ _ _ hn hs, object_id_eq _ _ _ hn' hs'] at h
  obtain ⟨h1, h2⟩ := List.append_inj h hm
  injection h2 with _ h2
  obtain ⟨h3, h4⟩ := cut_unique 95 _ _ _ _ (text_no' n 95 (by decide)) (text_no' n' 95 (by decide)) h2
  exact ⟨h1, text_inj _ _ h3, text_inj _ _ h4⟩

example : objectId (txt "0a1b2c3d4e5f") 3 12 = txt "0a1b2c3d4e5f_3_12" := by decide +kernel

/-- **C69.** The identifier fits the buffer it is written to (30 bytes, of which 7 for the numbers). -/
theorem object_id_fits (mac : List Nat) (n sub : Nat) (hm : mac.length = 12) : (objectId mac n sub).length ≤ 18 := by
  have key : ∀ n : Fin 100, (decimalText n).length ≤ 2 := by decide +kernel
  by_cases h : n ≥ 100 ∨ sub ≥ 100
  · rw [objectId, if_pos h]; simp
  · have h1 := key ⟨n, by omega⟩
    have h2 := key ⟨sub, by omega⟩
    rw [object_id_eq _ _ _ (by omega) (by omega)]
    simp at h1 h2 ⊢
    omega

example : (objectId (txt "0a1b2c3d4e5f") 99 99).length = 18 := by decide +kernel

/-- **C69.** Different identifiers are published under different topics, and each under the documented one. -/
theorem discovery_exact (type id : List Nat) (ht : type.length ≤ 30) (hi : id.length ≤ 30) :
    discoveryTopic type id = txt "homeassistant/" ++ type ++ txt "/supla/" ++ id ++ txt "/config" := by
  have h1 : txt "homeassistant" = [104, 111, 109, 101, 97, 115, 115, 105, 115, 116, 97, 110, 116] := by decide +kernel
  have h2 : txt "homeassistant/" = [104, 111, 109, 101, 97, 115, 115, 105, 115, 116, 97, 110, 116, 47] := by decide +kernel
  have h3 : txt "supla" = [115, 117, 112, 108, 97] := by decide +kernel
  have h4 : txt "/supla/" = [47, 115, 117, 112, 108, 97, 47] := by decide +kernel
  have h5 : txt "config" = [99, 111, 110, 102, 105, 103] := by decide +kernel
  have h6 : txt "/config" = [47, 99, 111, 110, 102, 105, 103] := by decide +kernel
  unfold discoveryTopic
  rw [h1, h2, h3, h4, h5, h6, append_fits [] _ (by simp), slash_fits _ type (by simp; omega), slash_fits _ [_, _, _, _, _] (by simp; omega),
    slash_fits _ id (by simp; omega), slash_fits _ _ (by simp; omega)]
  simp

example : discoveryTopic (txt "light") (objectId (txt "0a1b2c3d4e5f") 3 0) = txt "homeassistant/light/supla/0a1b2c3d4e5f_3_0/config" := by
  decide +kernel

/-- The full claim: different channels have different identifiers. -/
def ObjectIdsDistinct : Prop :=
  ∀ (mac : List Nat) (n n' : Nat), n < 256 → n' < 256 → objectId mac n 0 = objectId mac n' 0 → n = n'

/-- **Finding.** Channels from number 100 on all get the empty identifier, so each overwrites the discovery
message of the one before. -/
theorem object_id_distinct_violation : ¬ ObjectIdsDistinct := by
  intro h
  have := h [] 100 101 (by decide) (by decide) (by decide)
  revert this; decide

/-! ## Changed configuration -/

/-- Whether the bit of channel `n` is set. -/
def marked (bits : List Nat) (n : Nat) : Bool := (bits.getD (n / 8) 0).testBit (n % 8)

/-- **C69.** Below channel 64 a change is remembered for exactly that channel. -/
theorem notify_partial (bits : List Nat) (hl : bits.length = 8) (n : Nat) (hn : n < 64) :
    ∃ bits', notifyChange bits n = some bits' ∧ bits'.length = 8 ∧ ∀ m, marked bits' m = (marked bits m || m == n) := by
  refine ⟨bits.modify (n / 8) (· ||| 2 ^ (n % 8)), ?_, by simp [hl], ?_⟩
  · unfold notifyChange
    rw [if_pos (by omega), if_pos (by simp; omega)]
    rfl
  · intro m
    unfold marked
    simp only [List.getD_eq_getElem?_getD, List.getElem?_modify]
    by_cases h : n / 8 = m / 8
    · simp only [if_pos h]
      have hlt : m / 8 < bits.length := by omega
      simp only [List.getElem?_eq_getElem hlt, Option.getD_some]
      by_cases h2 : n % 8 = m % 8
      · have : m = n := by omega
        simp [this]
      · have : m ≠ n := by omega
        simp [h2, this]
    · simp only [if_neg h]
      have : m ≠ n := by omega
      simp [this]

example : (notifyChange (List.replicate 8 0) 13).map (marked · 13) = some true := by decide +kernel

theorem passLoop_spec (i count : Nat) (bits : List Nat) (hl : bits.length = 8) (h : i + count ≤ 64) :
    ∃ out bits', passLoop i count bits = some (out, bits') ∧ (∀ m, m ∈ out ↔ i ≤ m ∧ m < i + count ∧ marked bits m = true) ∧
      ∀ m, marked bits' m = (marked bits m && !(decide (i ≤ m) && decide (m < i + count))) := by
  induction count generalizing i bits with
  | zero => exact ⟨[], bits, rfl, by intro m; simp; omega, by intro m; by_cases h : i ≤ m <;> simp [h]⟩
  | succ count ih =>
    have hlt : i / 8 < bits.length := by omega
    unfold passLoop
    rw [List.getElem?_eq_getElem hlt]
    dsimp only
    have hmi : marked bits i = bits[i / 8].testBit (i % 8) := by
      simp [marked, List.getD_eq_getElem?_getD, List.getElem?_eq_getElem hlt]
    by_cases hb : bits[i / 8].testBit (i % 8) = true
    · rw [if_pos hb]
      have hset : ∀ m, marked (bits.set (i / 8) (bits[i / 8] ^^^ 2 ^ (i % 8))) m = (marked bits m && m != i) := by
        intro m
        unfold marked
        simp only [List.getD_eq_getElem?_getD, List.getElem?_set]
        by_cases h : i / 8 = m / 8
        · simp only [if_pos h, if_pos hlt, Option.getD_some, Nat.testBit_xor, Nat.testBit_two_pow]
          have hm : bits[m / 8]? = some bits[i / 8] := by rw [← h, List.getElem?_eq_getElem hlt]
          rw [hm, Option.getD_some]
          by_cases h2 : i % 8 = m % 8
          · have : m = i := by omega
            subst this
            simp [hb]
          · have : m ≠ i := by omega
            simp [h2, this]
        · simp only [if_neg h]
          have : m ≠ i := by omega
          simp [this]
      obtain ⟨out, bits', h1, h2, h3⟩ := ih (i + 1) (bits.set (i / 8) (bits[i / 8] ^^^ 2 ^ (i % 8))) (by rw [List.length_set]; exact hl) (by omega)
      refine ⟨i :: out, bits', by rw [h1]; rfl, ?_, ?_⟩
      · intro m
        rw [List.mem_cons, h2 m, hset m]
        by_cases hm : m = i
        · subst hm; simp [hmi, hb]
        · have hb2 : (m != i) = true := by simp [hm]
          rw [hb2, Bool.and_true]
          constructor
          · rintro (a | ⟨a, b, c⟩)
            · exact absurd a hm
            · exact ⟨by omega, by omega, c⟩
          · rintro ⟨a, b, c⟩
            exact Or.inr ⟨by omega, by omega, c⟩
      · intro m
        rw [h3 m, hset m]
        by_cases hm : m = i
        · subst hm; simp
        · have h4 : decide (i + 1 ≤ m) = decide (i ≤ m) := by simp; omega
          have h5 : decide (m < i + 1 + count) = decide (m < i + (count + 1)) := by simp; omega
          have hb2 : (m != i) = true := by simp [hm]
          rw [h4, h5, hb2, Bool.and_true]
    · rw [if_neg hb]
      obtain ⟨out, bits', h1, h2, h3⟩ := ih (i + 1) bits hl (by omega)
      refine ⟨out, bits', h1, ?_, ?_⟩
      · intro m
        rw [h2 m]
        by_cases hm : m = i
        · subst hm; simp [hmi, hb]
        · constructor <;> (rintro ⟨a, b, c⟩; exact ⟨by omega, by omega, c⟩)
      · intro m
        rw [h3 m]
        by_cases hm : m = i
        · subst hm; simp [hmi, hb]
        · have h4 : decide (i + 1 ≤ m) = decide (i ≤ m) := by simp; omega
          have h5 : decide (m < i + 1 + count) = decide (m < i + (count + 1)) := by simp; omega
          rw [h4, h5]

/-- **C69.** With at most 64 channels, a pass publishes exactly the channels with a change, and leaves no
change of one of them behind. -/
theorem pass_exact_partial (bits : List Nat) (hl : bits.length = 8) (count : Nat) (hc : count ≤ 64) :
    ∃ out bits', pass bits count = some (out, bits') ∧ (∀ m, m ∈ out ↔ m < count ∧ marked bits m = true) ∧
      ∀ m < count, marked bits' m = false := by
  unfold pass
  split
  · rename_i h
    have hz : ∀ m, marked bits m = false := by
      intro m
      unfold marked
      rw [List.getD_eq_getElem?_getD]
      cases hm : bits[m / 8]? with
      | none => simp
      | some b =>
        have := List.all_eq_true.mp h b (List.mem_of_getElem? hm)
        simp at this
        simp [this]
    exact ⟨[], bits, rfl, by intro m; simp [hz], fun m _ => hz m⟩
  · obtain ⟨out, bits', h1, h2, h3⟩ := passLoop_spec 0 count bits hl (by omega)
    refine ⟨out, bits', h1, ?_, ?_⟩
    · intro m; rw [h2 m]; simp
    · intro m hm; rw [h3 m]; simp [hm]

example : pass [0, 32, 0, 0, 0, 0, 0, 128] 64 = some ([13, 63], [0, 0, 0, 0, 0, 0, 0, 0]) := by decide +kernel

/-- **Finding.** With more than 64 channels a pass reads behind the array as soon as one channel changed. -/
theorem pass_safe_violation : ¬ ∀ count, pass [0, 32, 0, 0, 0, 0, 0, 0] count ≠ none := by
  intro h
  have := h 65
  revert this; decide +kernel

/-- The full claim: remembering a change never writes outside. -/
def NotifySafe : Prop := ∀ n : Int, notifyChange (List.replicate 8 0) n ≠ none

/-- **Finding.** The bits are only 64: the change of channel 64 or above is written behind the array. -/
theorem notify_safe_violation : ¬ NotifySafe := by
  intro h
  have := h 64
  revert this; decide +kernel

end Verif.Mqtt
