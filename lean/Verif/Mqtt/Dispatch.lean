import Verif.Mqtt.Topic

/-!
# MQTT: a message controls the channel its topic names
-/

namespace Verif.Mqtt

open Verif.Tools

/-! ## Lemmas about the first token -/

theorem dropWhile_all (p : Nat → Bool) (a s : List Nat) (h : ∀ c ∈ a, p c = true) : (a ++ s).dropWhile p = s.dropWhile p := by
  induction a with
  | nil => rfl
  | cons c a ih =>
    rw [List.cons_append, List.dropWhile_cons_of_pos (h c (by simp))]
    exact ih (fun x hx => h x (by simp [hx]))

theorem takeWhile_all (p : Nat → Bool) (a s : List Nat) (h : ∀ c ∈ a, p c = true) : (a ++ s).takeWhile p = a ++ s.takeWhile p := by
  induction a with
  | nil => rfl
  | cons c a ih =>
    rw [List.cons_append, List.takeWhile_cons_of_pos (h c (by simp)), ih (fun x hx => h x (by simp [hx]))]
    rfl

theorem mem_takeWhile (p : Nat → Bool) (s : List Nat) : ∀ c ∈ s.takeWhile p, p c = true := by
  induction s with
  | nil => simp
  | cons x s ih =>
    intro c hc
    by_cases h : p x = true
    · rw [List.takeWhile_cons_of_pos h, List.mem_cons] at hc
      rcases hc with rfl | hc
      · exact h
      · exact ih c hc
    · rw [List.takeWhile_cons_of_neg h] at hc
      simp at hc

theorem dropWhile_head (p : Nat → Bool) (s : List Nat) (c : Nat) (r : List Nat) (h : s.dropWhile p = c :: r) : p c = false := by
  induction s with
  | nil => simp at h
  | cons x s ih =>
    by_cases hx : p x = true
    · rw [List.dropWhile_cons_of_pos hx] at h; exact ih h
    · rw [List.dropWhile_cons_of_neg hx] at h
      injection h with h1 h2
      rw [← h1]; simpa using hx

/-- The token of a text whose number is followed by a slash. -/
theorem token_some (sl num rest : List Nat) (hs : ∀ c ∈ sl, c = 47) (hne : num ≠ []) (hn : 47 ∉ num) :
    token (sl ++ num ++ 47 :: rest) = some (num, some rest) := by
  have hp : ∀ c ∈ num, (c != 47) = true := by
    intro c hc
    simp only [bne_iff_ne]
    intro h; exact hn (h ▸ hc)
  obtain ⟨d, num', rfl⟩ := List.exists_cons_of_ne_nil hne
  have h1 : (sl ++ (d :: num') ++ 47 :: rest).dropWhile (· == 47) = (d :: num') ++ 47 :: rest := by
    rw [List.append_assoc, dropWhile_all _ _ _ (by simpa using hs), List.cons_append, List.dropWhile_cons_of_neg]
    have := hp d (by simp)
    simpa using this
  unfold token
  rw [h1, List.cons_append]
  dsimp only
  rw [← List.cons_append, dropWhile_all _ _ _ hp, takeWhile_all _ _ _ hp, List.dropWhile_cons_of_neg (by simp),
    List.takeWhile_cons_of_neg (by simp)]
  simp

/-- The text behind the token, with its slash. -/
def tailText : Option (List Nat) → List Nat
  | none => []
  | some r => 47 :: r

/-- What a token found means. -/
theorem token_inv (s num : List Nat) (rest : Option (List Nat)) (h : token s = some (num, rest)) :
    ∃ sl, (∀ c ∈ sl, c = 47) ∧ num ≠ [] ∧ 47 ∉ num ∧ s = sl ++ num ++ tailText rest := by
  have hsplit := List.takeWhile_append_dropWhile (p := (· == 47)) (l := s)
  have hsl : ∀ c ∈ s.takeWhile (· == 47), c = 47 := by
    intro c hc
    have := mem_takeWhile _ _ c hc
    simpa using this
  unfold token at h
  cases hd : s.dropWhile (· == 47) with
  | nil => rw [hd] at h; cases h
  | cons c r =>
    rw [hd] at h
    dsimp only at h
    have hc := dropWhile_head _ _ _ _ hd
    have hsplit2 := List.takeWhile_append_dropWhile (p := (· != 47)) (l := c :: r)
    have htake : (c :: r).takeWhile (· != 47) ≠ [] := by
      rw [List.takeWhile_cons_of_pos (by simpa using hc)]
      simp
    have hno : 47 ∉ (c :: r).takeWhile (· != 47) := by
      intro hm
      have := mem_takeWhile _ _ 47 hm
      simp at this
    cases hd2 : (c :: r).dropWhile (· != 47) with
    | nil =>
      rw [hd2] at h hsplit2
      dsimp only at h
      injection h with h; injection h with h1 h2
      subst h1; subst h2
      refine ⟨_, hsl, htake, hno, ?_⟩
      simp only [tailText]
      rw [← hsplit, hd]
      rw [List.append_nil] at hsplit2 ⊢
      rw [hsplit2]
      congr 1
      rw [← hd, hsplit]
    | cons x rest' =>
      rw [hd2] at h hsplit2
      dsimp only at h
      injection h with h; injection h with h1 h2
      subst h1; subst h2
      have hx := dropWhile_head _ _ _ _ hd2
      have hx : x = 47 := by simpa using hx
      subst hx
      refine ⟨_, hsl, htake, hno, ?_⟩
      simp only [tailText]
      rw [List.append_assoc, hsplit2, ← hd, hsplit]

/-! ## Theorems -/

/-- The head of a topic for this device. -/
def headText (pre : List Nat) : List Nat := pre ++ txt "/channels/"

theorem head_length (pre : List Nat) : (headText pre).length = pre.length + 10 := by
  have : (txt "/channels/").length = 10 := by decide +kernel
  simp [headText, this]

theorem target_of_head (dev : Int → Bool) (pre s : List Nat) (hs : s ≠ []) :
    target dev pre (headText pre ++ s) =
      numberPart dev (decide ((headText pre ++ s).length ≥ 256)) (((headText pre ++ s).take 256).drop (pre.length + 10)) := by
  have h10 : (txt "/channels/").length = 10 := by decide +kernel
  have hpos : 0 < s.length := List.length_pos_iff.mpr hs
  unfold target maxTopic
  rw [if_neg, if_neg]
  · rw [List.length_append, head_length]
    simp only [headText, List.append_assoc, List.drop_left]
    rw [List.take_append_of_le_length (by omega), List.take_of_length_le (by omega)]
    simp
    exact hpos
  · rw [List.length_append, head_length]
    simp only [headText, List.append_assoc, List.take_left]
    simp
    omega

/-- **C67.** A message whose topic does not start with the prefix of the device followed by "/channels/" has
no effect, however long it is: a device whose name continues the name of another one does not react to
its messages. -/
theorem foreign_ignored (dev : Int → Bool) (pre topic : List Nat) (h : ¬ headText pre <+: topic) : target dev pre topic = .none := by
  have h10 : (txt "/channels/").length = 10 := by decide +kernel
  unfold target
  split
  · rfl
  · split
    · rfl
    · rename_i h1 h2
      exfalso
      apply h
      simp only [not_or, Decidable.not_not, Nat.not_le] at h1 h2
      refine ⟨topic.drop (pre.length + 10), ?_⟩
      have e1 : topic = pre ++ topic.drop pre.length := by
        conv => lhs; rw [← List.take_append_drop pre.length topic, h1.2]
      have e2 : topic.drop pre.length = txt "/channels/" ++ (topic.drop pre.length).drop 10 := by
        conv => lhs; rw [← List.take_append_drop 10 (topic.drop pre.length), h2.2]
      rw [List.drop_drop] at e2
      rw [headText, List.append_assoc, ← e2, ← e1]

example : target (fun _ => true) (txt "supla/devices/lamp-1") (txt "supla/devices/lamp-12/channels/0/set/on") = .none :=
  foreign_ignored _ _ _ (by decide +kernel)

/-- **C67.** Exactly which messages reach which channel, for topics of less than 256 characters: behind the
head there may be further slashes, then the text of a number which the conversion reads as the number of
an existing channel, then a slash and the part that says what to do. -/
theorem dispatch_iff_partial (dev : Int → Bool) (pre topic : List Nat) (hl : topic.length < 256) (n : Int) (part : List Nat) :
    target dev pre topic = .channel n part ↔
      ∃ sl num, (∀ c ∈ sl, c = 47) ∧ num ≠ [] ∧ 47 ∉ num ∧ topic = headText pre ++ sl ++ num ++ [47] ++ part ∧
        stringToInt num = .val n ∧ dev n = true ∧ part ≠ [] := by
  constructor
  · intro h
    by_cases hp : headText pre <+: topic
    · obtain ⟨s, rfl⟩ := hp
      by_cases hs : s = []
      · subst hs
        have hn : target dev pre (headText pre ++ []) = .none := by
          unfold target
          split
          · rfl
          · rw [if_pos (Or.inl (by rw [List.append_nil, head_length]; omega))]
        rw [hn] at h; cases h
      · rw [target_of_head dev pre s hs, List.take_of_length_le (by omega), ← head_length, List.drop_left,
          show decide ((headText pre ++ s).length ≥ 256) = false by simp; simp at hl; omega] at h
        unfold numberPart at h
        cases ht : token s with
        | none => rw [ht] at h; cases h
        | some t =>
          obtain ⟨num, rest⟩ := t
          rw [ht] at h
          dsimp only at h
          rw [if_neg (by simp)] at h
          obtain ⟨sl, h1, h2, h3, h4⟩ := token_inv s num rest ht
          unfold lookup at h
          cases hi : stringToInt num with
          | ub => rw [hi] at h; cases h
          | val m =>
            rw [hi] at h
            dsimp only at h
            by_cases hd : dev m = true
            · rw [if_neg (by simp [hd]), if_neg (by simp)] at h
              cases rest with
              | none => cases h
              | some r =>
                cases r with
                | nil => cases h
                | cons c r =>
                  injection h with h5 h6
                  subst h5; subst h6
                  refine ⟨sl, num, h1, h2, h3, ?_, hi, hd, by simp⟩
                  rw [h4]
                  simp [tailText]
            · rw [if_pos (by simp [hd])] at h; cases h
    · rw [foreign_ignored dev pre topic hp] at h; cases h
  · rintro ⟨sl, num, h1, h2, h3, h4, h5, h6, h7⟩
    have e : topic = headText pre ++ (sl ++ num ++ 47 :: part) := by rw [h4]; simp
    subst e
    rw [target_of_head dev pre _ (by simp), List.take_of_length_le (by omega), ← head_length, List.drop_left,
      show decide ((headText pre ++ (sl ++ num ++ 47 :: part)).length ≥ 256) = false by rw [decide_eq_false_iff_not]; omega]
    unfold numberPart
    rw [token_some sl num part h1 h2 h3]
    dsimp only
    rw [if_neg (by simp)]
    unfold lookup
    rw [h5]
    dsimp only
    rw [if_neg (by simp [h6]), if_neg (by simp)]
    obtain ⟨c, r, rfl⟩ := List.exists_cons_of_ne_nil h7
    rfl

example : target (fun n => n == 12) (txt "p") (txt "p/channels/12/set/on") = .channel 12 (txt "set/on") := by decide +kernel

/-- **C67.** The documented topic of an existing channel reaches that channel, with what is behind it. -/
theorem documented_reaches (dev : Int → Bool) (pre part : List Nat) (n : Nat) (hn : dev n = true) (hb : n < 2 ^ 31) (hp : part ≠ [])
    (hl : (documented pre n part).length < 256) : target dev pre (documented pre n part) = .channel n part := by
  rw [dispatch_iff_partial dev pre _ hl]
  obtain ⟨h1, h2⟩ := decimal_text n
  refine ⟨[], decimalText n, by simp, ?_, text_no n 47 (by decide), by simp [documented, headText], ?_, hn, hp⟩
  · intro h
    have := Nat.length_toDigits_pos (b := 10) (n := n)
    rw [decimalText, List.map_eq_nil_iff] at h
    rw [h] at this; simp at this
  · rw [(int_digits _ h2 (by omega)).1, h1]

example : (documented (txt "supla/devices/lamp") 7 (txt "execute_action")).length < 256 := by decide +kernel

/-- **C67.** A topic the device subscribes to for a channel reaches that channel and that part, whatever
its prefix and name are. -/
theorem subscribed_reaches (kinds : Int → Option Kind) (custom host : List Nat) (n : Nat) (k : Kind) (part : List Nat)
    (hc : custom.length ≤ 48) (hh : host.length ≤ 31) (hn : n < 256) (hk : kinds n = some k) (hp : part ∈ subscriptions k) :
    target (fun n => (kinds n).isSome) (devicePrefix custom host) (full (devicePrefix custom host) (slash (channelTopic n) part))
      = .channel n part := by
  have key : ∀ k, (∀ part ∈ subscriptions k, part ≠ [] ∧ part.length ≤ 29) := by
    intro k
    cases k with
    | hvac c => cases c <;> decide +kernel
    | _ => decide +kernel
  obtain ⟨h1, h2⟩ := key k part hp
  have h3 := text_length n hn
  have h4 := prefix_length custom host hc hh
  rw [topic_exact custom host part n hc hh hn (by omega)]
  refine documented_reaches _ _ _ _ (by simp [hk]) (by omega) h1 ?_
  have h10 : (txt "/channels/").length = 10 := by decide +kernel
  simp [documented, h10]
  omega

example : txt "set/tilt" ∈ subscriptions .shutter := by decide +kernel

/-- **C67.** If the text of the number consists of digits, the message is for the channel with that number
and for no other. -/
theorem digits_exact (num : List Nat) (h : Digits num) (hb : decimal num < 2 ^ 31) (n : Int) (hn : stringToInt num = .val n) :
    n = decimal num := by
  rw [(int_digits num h hb).1] at hn
  injection hn with hn
  exact hn.symm

/-- The full claim: a message that reaches a channel has the number of that channel in its topic. -/
def NamesChannel : Prop :=
  ∀ (dev : Int → Bool) (pre topic part : List Nat) (n : Int), target dev pre topic = .channel n part →
    ∃ num : List Nat, Digits num ∧ n = decimal num ∧ topic = headText pre ++ num ++ [47] ++ part

/-- **Finding.** Text that is no number is read as 0: a message for "channels/kitchen/set/on" switches
channel 0. -/
theorem names_channel_violation : ¬ NamesChannel := by
  intro h
  obtain ⟨num, h1, _, h3⟩ := h (fun _ => true) (txt "p") (txt "p/channels/kitchen/set/on") (txt "set/on") 0 (by decide +kernel)
  have h4 : txt "p/channels/kitchen/set/on" = headText (txt "p") ++ txt "kitchen" ++ [47] ++ txt "set/on" := by decide +kernel
  rw [h4] at h3
  simp only [List.append_assoc, List.append_cancel_left_eq, List.singleton_append] at h3
  obtain ⟨h5, _⟩ := cut_unique 47 _ _ _ _ (by decide +kernel) (by intro hm; have := h1 47 hm; omega) h3
  have := h1 107 (by rw [← h5]; decide +kernel)
  omega

/-- The full claim: no message makes the device read outside its memory or overflow a number. -/
def DispatchSafe : Prop := ∀ (dev : Int → Bool) (pre topic : List Nat), target dev pre topic ≠ .ub

/-- **Finding.** A topic of 256 or more characters is copied without a terminating zero and read on behind the
buffer. -/
theorem dispatch_long_violation : ¬ DispatchSafe := by
  intro h
  have := h (fun _ => true) (txt "p") (txt "p/channels/1/" ++ List.replicate 243 97)
  revert this; decide +kernel

/-- **Finding.** So is a number of ten digits, in a short topic. -/
theorem dispatch_number_violation : ¬ DispatchSafe := by
  intro h
  have := h (fun _ => true) (txt "p") (txt "p/channels/9999999999/set/on")
  revert this; decide +kernel

/-- Topics of less than 256 characters with at most nine between two slashes at that place are safe. -/
theorem dispatch_safe_partial (dev : Int → Bool) (pre topic : List Nat) (hl : topic.length < 256)
    (h9 : ∀ sl num rest, topic = headText pre ++ sl ++ num ++ rest → (∀ c ∈ sl, c = 47) → 47 ∉ num → num.length ≤ 9) :
    target dev pre topic ≠ .ub := by
  intro h
  by_cases hp : headText pre <+: topic
  · obtain ⟨s, rfl⟩ := hp
    by_cases hs : s = []
    · subst hs
      have hn : target dev pre (headText pre ++ []) = .none := by
        unfold target
        split
        · rfl
        · rw [if_pos (Or.inl (by rw [List.append_nil, head_length]; omega))]
      rw [hn] at h; cases h
    · rw [target_of_head dev pre s hs, List.take_of_length_le (by omega), ← head_length, List.drop_left,
        show decide ((headText pre ++ s).length ≥ 256) = false by simp; simp at hl; omega] at h
      unfold numberPart at h
      cases ht : token s with
      | none => rw [ht] at h; cases h
      | some t =>
        obtain ⟨num, rest⟩ := t
        rw [ht] at h
        dsimp only at h
        rw [if_neg (by simp)] at h
        obtain ⟨sl, h1, h2, h3, h4⟩ := token_inv s num rest ht
        have h5 := h9 sl num (tailText rest) (by rw [h4]; simp) h1 h3
        unfold lookup at h
        cases hi : stringToInt num with
        | ub => exact int_safe_partial num h5 hi
        | val m =>
          rw [hi] at h
          dsimp only at h
          split at h
          · cases h
          · rw [if_neg (by simp)] at h
            split at h <;> cases h
  · rw [foreign_ignored dev pre topic hp] at h; cases h

end Verif.Mqtt
