import Verif.Calcfg.Model

/-!
# Service commands: authorised, for the addressed channel, answered to the one who asked
-/

namespace Verif.Calcfg

/-! ## Specification -/

/-- The documented commands for the device: number, result and effect with clock and pairing. -/
def deviceCommands : List (Int × Int × Effect) :=
  [(9000, 2, .cfgMode), (9400, 2, .restart), (9100, 2, .setTime), (9200, 1, .pairing), (9300, 2, .identify)]

/-- The documented commands for channels of the library and their effect. -/
def channelCommand : Kind → List (Int × Effect)
  | .counter => [(7000, .resetCounters)]
  | .meter => [(7000, .resetCounters)]
  | .gpm => [(7000, .resetCounters)]
  | .ocr => [(7000, .resetCounters), (9420, .photo)]
  | .shutter => [(8000, .recalibrate)]
  | _ => []

/-- An element of the library, not of the application. -/
def Library : Kind → Prop
  | .custom _ => False
  | _ => True

/-- A device with library elements only. -/
def LibraryOnly (d : Dev) : Prop :=
  (∀ n k s, d.channel n = some (k, s) → Library k) ∧ ∀ i k, d.owner i = some k → Library k

/-! ## Authorisation -/

theorem element_auth (k : Kind) (hk : Library k) (r : Request) (h : r.auth = 0) : (elementHandle k r).2 = [] := by
  cases k with
  | custom f => exact absurd hk id
  | plain => rfl
  | light =>
    simp only [elementHandle, lightHandle, h]
    repeat' split
    all_goals first
      | rfl
      | (rename_i h1 _; exact absurd (by decide : (0 : Int) ≠ 1) h1)
      | (exfalso; simp_all)
  | shutter =>
    simp only [elementHandle, shutterHandle, h]
    repeat' split
    all_goals first | rfl | (exfalso; simp_all)
  | ocr =>
    simp only [elementHandle, ocrHandle, counterHandle, h]
    repeat' split
    all_goals first | rfl | (exfalso; simp_all)
  | counter =>
    simp only [elementHandle, counterHandle, h]
    repeat' split
    all_goals first | rfl | (exfalso; simp_all)
  | meter =>
    simp only [elementHandle, counterHandle, h]
    repeat' split
    all_goals first | rfl | (exfalso; simp_all)
  | gpm =>
    simp only [elementHandle, counterHandle, h]
    repeat' split
    all_goals first | rfl | (exfalso; simp_all)

/-- **C70.** A request without the authorisation of a super user has no effect, whatever the command, the
channel and the data are. -/
theorem unauthorised_no_effect (d : Dev) (hd : LibraryOnly d) (l : List Item) (r : Request) (h : r.auth = 0) :
    (outcome d l r).effects = [] ∧ (outcome d l r).pending = l := by
  unfold outcome
  by_cases hc : r.channel = -1
  · rw [if_pos hc]
    simp [forDevice, deviceHandle, h, unauthorized, resTrue]
  · rw [if_neg hc]
    cases hch : d.channel r.channel with
    | none => exact ⟨rfl, rfl⟩
    | some p =>
      obtain ⟨k, sub⟩ := p
      have h1 := element_auth k (hd.1 _ _ _ hch) r h
      dsimp only
      have hp : (elementHandle k r).1 ≠ resPending := by
        have hk := hd.1 _ _ _ hch
        cases k with
        | custom f => exact absurd hk id
        | _ =>
          simp only [elementHandle, counterHandle, lightHandle, shutterHandle, ocrHandle, h]
          repeat' split
          all_goals decide
      unfold forElement
      rw [if_neg hp]
      split
      · unfold forOwner
        split
        · simp [h1]
        · rename_i o ho
          have ho' : d.owner sub = some o := by
            split at ho
            · exact ho
            · cases ho
          simp [h1, element_auth o (hd.2 _ _ ho') r h]
      · simp [h1]

/-- A counter reset without authorisation. -/
example : (outcome ⟨fun n => if n = 3 then some (.counter, 0) else none, fun _ => none, true, true⟩ [] ⟨7, 3, 7000, 0, 0, 0, false, false⟩).result
    = unauthorized := by decide

/-- **C70.** The device itself answers every request without authorisation with "unauthorised". -/
theorem device_unauthorised (d : Dev) (l : List Item) (r : Request) (hc : r.channel = -1) (h : r.auth ≠ 1) :
    reply d l r = some ⟨r.sender, r.channel, r.command, 104⟩ ∧ (outcome d l r).effects = [] := by
  have h1 : outcome d l r = ⟨104, [], l⟩ := by
    unfold outcome
    rw [if_pos hc]
    simp [forDevice, deviceHandle, h, unauthorized, resTrue]
  unfold reply
  rw [h1]
  exact ⟨rfl, rfl⟩

/-- The full claim: only the value 1 authorises. -/
def OnlyOne : Prop := ∀ (d : Dev) (l : List Item) (r : Request), LibraryOnly d → r.auth ≠ 1 → (outcome d l r).effects = []

/-- **Finding.** Channels take every value but 0 as authorisation, the device and light relays only 1. -/
theorem only_one_violation : ¬ OnlyOne := by
  intro h
  have := h ⟨fun n => if n = 3 then some (.counter, 0) else none, fun _ => none, true, true⟩ [] ⟨7, 3, 7000, 2, 0, 0, false, false⟩
    ⟨by intro n k s hk; simp only at hk; split at hk <;> cases hk; exact trivial, by intro i k hk; cases hk⟩ (by decide)
  revert this; decide

/-! ## What a command does -/

/-- **C70.** An authorised command for the device has exactly its documented effect (SET_TIME with data of the
right size). -/
theorem device_exact (d : Dev) (l : List Item) (r : Request) (hc : r.channel = -1) (ha : r.auth = 1) (hclock : d.clock = true) (hpair : d.pair = true)
    (hs : r.dataSize = 63) (row : Int × Int × Effect) (hr : row ∈ deviceCommands) (hcmd : r.command = row.1) :
    (outcome d l r).effects = [(Target.device, row.2.2)] ∧ reply d l r = some ⟨r.sender, -1, row.1, row.2.1⟩ := by
  have key : deviceHandle d.clock d.pair r = (row.2.1, [row.2.2]) := by
    simp only [deviceCommands, List.mem_cons, List.not_mem_nil, or_false] at hr
    unfold deviceHandle
    rw [if_neg (by simp [ha])]
    rcases hr with rfl | rfl | rfl | rfl | rfl <;> simp only at hcmd <;> simp [hcmd, hs, hclock, hpair, done, resTrue]
  have ho : outcome d l r = forDevice d l r := by unfold outcome; rw [if_pos hc]
  unfold reply
  rw [ho]
  have h0 : row.2.1 ≥ 0 := by
    revert hr; clear key hcmd; revert row; decide
  simp only [forDevice, key, List.map_cons, List.map_nil]
  rw [if_pos h0, hc, hcmd]
  exact ⟨trivial, rfl⟩

/-- **C70.** Other commands for the device have no effect and are answered with "not supported". -/
theorem device_other (d : Dev) (l : List Item) (r : Request) (hc : r.channel = -1) (ha : r.auth = 1)
    (h : ∀ row ∈ deviceCommands, r.command ≠ row.1) :
    (outcome d l r).effects = [] ∧ reply d l r = some ⟨r.sender, -1, r.command, 102⟩ := by
  have h1 := h (9000, 2, .cfgMode) (by simp [deviceCommands])
  have h2 := h (9400, 2, .restart) (by simp [deviceCommands])
  have h3 := h (9100, 2, .setTime) (by simp [deviceCommands])
  have h4 := h (9200, 1, .pairing) (by simp [deviceCommands])
  have h5 := h (9300, 2, .identify) (by simp [deviceCommands])
  simp only at h1 h2 h3 h4 h5
  have ho : outcome d l r = ⟨102, [], l⟩ := by
    unfold outcome
    rw [if_pos hc]
    simp [forDevice, deviceHandle, ha, h1, h2, h3, h4, h5, notSupported]
  unfold reply
  rw [ho, hc]
  exact ⟨rfl, rfl⟩

/-- **C70.** An authorised command that a channel documents has exactly its effect, on this channel, and is
answered with "done". -/
theorem channel_exact (d : Dev) (l : List Item) (r : Request) (k : Kind) (sub : Nat) (hc : r.channel ≠ -1) (hch : d.channel r.channel = some (k, sub))
    (ha : r.auth = 1) (row : Int × Effect) (hr : row ∈ channelCommand k) (hcmd : r.command = row.1) :
    (outcome d l r).effects = [(Target.channel r.channel, row.2)] ∧ reply d l r = some ⟨r.sender, r.channel, row.1, 2⟩ := by
  have key : elementHandle k r = (2, [row.2]) := by
    cases k with
    | plain => cases hr
    | light => cases hr
    | custom f => cases hr
    | ocr =>
      simp only [channelCommand, List.mem_cons, List.not_mem_nil, or_false] at hr
      rcases hr with rfl | rfl <;> simp only at hcmd <;> simp [elementHandle, ocrHandle, counterHandle, hcmd, ha, done, notSupported]
    | shutter =>
      simp only [channelCommand, List.mem_cons, List.not_mem_nil, or_false] at hr
      subst hr; simp only at hcmd; simp [elementHandle, shutterHandle, hcmd, ha, done]
    | _ =>
      simp only [channelCommand, List.mem_cons, List.not_mem_nil, or_false] at hr
      subst hr; simp only at hcmd; simp [elementHandle, counterHandle, hcmd, ha, done]
  have ho : outcome d l r = ⟨2, [(Target.channel r.channel, row.2)], l⟩ := by
    unfold outcome
    rw [if_neg hc, hch]
    simp [forElement, key, resPending, notSupported]
  unfold reply
  rw [ho, hcmd]
  exact ⟨rfl, rfl⟩

example : (7000, Effect.resetCounters) ∈ channelCommand .meter := by simp [channelCommand]

/-- **C70.** Whatever is done, it is done to the device for channel -1, and otherwise to the addressed channel
or the owner of its subdevice. -/
theorem effects_target (d : Dev) (l : List Item) (r : Request) (t : Target) (e : Effect) (h : (t, e) ∈ (outcome d l r).effects) :
    (r.channel = -1 ∧ t = .device) ∨ (r.channel ≠ -1 ∧ ∃ k sub, d.channel r.channel = some (k, sub) ∧
      (t = .channel r.channel ∨ (t = .owner sub ∧ 0 < sub))) := by
  unfold outcome at h
  by_cases hc : r.channel = -1
  · rw [if_pos hc] at h
    left
    simp only [forDevice, List.mem_map] at h
    obtain ⟨x, _, hx⟩ := h
    injection hx with hx _
    exact ⟨hc, hx.symm⟩
  · rw [if_neg hc] at h
    right
    refine ⟨hc, ?_⟩
    cases hch : d.channel r.channel with
    | none => rw [hch] at h; cases h
    | some p =>
      obtain ⟨k, sub⟩ := p
      rw [hch] at h
      dsimp only at h
      refine ⟨k, sub, rfl, ?_⟩
      have hm : (t, e) ∈ (elementHandle k r).2.map (Target.channel r.channel, ·) → t = .channel r.channel := by
        intro hm
        simp only [List.mem_map] at hm
        obtain ⟨x, _, hx⟩ := hm
        injection hx with hx _
        exact hx.symm
      unfold forElement at h
      split at h
      · exact Or.inl (hm h)
      · split at h
        · unfold forOwner at h
          split at h
          · exact Or.inl (hm h)
          · rename_i o ho
            rw [List.mem_append] at h
            rcases h with h | h
            · exact Or.inl (hm h)
            · right
              simp only [List.mem_map] at h
              obtain ⟨x, _, hx⟩ := h
              injection hx with hx _
              refine ⟨hx.symm, ?_⟩
              split at ho
              · assumption
              · cases ho
        · exact Or.inl (hm h)

/-- The full claim: the clock is set only by data of the right size. -/
def SetTimeChecked : Prop :=
  ∀ (d : Dev) (l : List Item) (r : Request), (Target.device, Effect.setTime) ∈ (outcome d l r).effects → r.dataSize = 63

/-- **Finding.** The check is "type not 0 and size wrong" instead of "or": without data the clock is set to the
year 0. -/
theorem set_time_violation : ¬ SetTimeChecked := by
  intro h
  have := h ⟨fun _ => none, fun _ => none, true, true⟩ [] ⟨7, -1, 9100, 1, 0, 0, false, false⟩ (by decide)
  revert this; decide

/-- With a type other than 0 it is. -/
theorem set_time_partial (d : Dev) (l : List Item) (r : Request) (ht : r.dataType ≠ 0)
    (h : (Target.device, Effect.setTime) ∈ (outcome d l r).effects) : r.dataSize = 63 := by
  rcases effects_target d l r _ _ h with ⟨hc, _⟩ | ⟨_, k, sub, _, h1 | ⟨h1, _⟩⟩
  · unfold outcome at h
    rw [if_pos hc] at h
    simp only [forDevice, deviceHandle] at h
    by_cases hs : r.dataSize = 63
    · exact hs
    · exfalso
      revert h
      simp only [ht, hs, ne_eq, not_false_eq_true, and_self, if_true]
      repeat' split
      all_goals simp
  · cases h1
  · cases h1

/-! ## Answers -/

/-- **C70.** A reply goes to the sender of the request and repeats its channel and command. -/
theorem reply_echo (d : Dev) (l : List Item) (r : Request) (p : Reply) (h : reply d l r = some p) :
    p.receiver = r.sender ∧ p.channel = r.channel ∧ p.command = r.command := by
  unfold reply at h
  split at h
  · injection h with h; rw [← h]; exact ⟨rfl, rfl, rfl⟩
  · cases h

theorem library_result (k : Kind) (hk : Library k) (r : Request) : 0 ≤ (elementHandle k r).1 := by
  cases k with
  | custom f => exact absurd hk id
  | _ =>
    simp only [elementHandle, counterHandle, lightHandle, shutterHandle, ocrHandle]
    repeat' split
    all_goals decide

/-- **C70.** With elements of the library every request is answered. -/
theorem always_answered (d : Dev) (hd : LibraryOnly d) (l : List Item) (r : Request) : ∃ p, reply d l r = some p := by
  have : 0 ≤ (outcome d l r).result := by
    unfold outcome
    split
    · simp only [forDevice, deviceHandle]
      repeat' split
      all_goals decide
    · split
      · rename_i k sub hch
        have h1 := library_result k (hd.1 _ _ _ hch) r
        unfold forElement
        split
        · exact h1
        · split
          · unfold forOwner
            split
            · exact h1
            · rename_i o ho
              have ho' : d.owner sub = some o := by
                split at ho
                · exact ho
                · cases ho
              exact library_result o (hd.2 _ _ ho') r
          · exact h1
      · show (0 : Int) ≤ 102; decide
  exact ⟨_, if_pos this⟩

/-! ## Pending answers -/

/-- Operations on the pending answers. -/
inductive Op
  | set (channel receiver command : Int)
  | clear (channel : Int)
deriving DecidableEq, Repr

/-- One operation. -/
def step (l : List Item) : Op → List Item
  | .set ch rcv cmd => setPending l ch rcv cmd
  | .clear ch => clearPending l ch

/-- Specification: what is pending for a channel is what was set last and not cleared since. -/
def last (ch : Int) : Option Item → Op → Option Item
  | m, .set c rcv cmd => if c = ch then some ⟨c, rcv, cmd⟩ else m
  | m, .clear c => if c = ch then none else m

/-- No channel is listed twice. -/
def Unique (l : List Item) : Prop := (l.map (·.channel)).Nodup

theorem get_set (l : List Item) (ch rcv cmd c : Int) :
    getPending (setPending l ch rcv cmd) c = if ch = c then some ⟨ch, rcv, cmd⟩ else getPending l c := by
  induction l with
  | nil => simp [setPending, getPending]
  | cons i l ih =>
    unfold setPending
    split
    · rename_i hi
      simp only [getPending]
      by_cases h : ch = c
      · simp [h]
      · simp [h, hi]
    · rename_i hi
      simp only [getPending, ih]
      by_cases h : ch = c
      · subst h; simp [hi]
      · simp [h]

theorem get_none (l : List Item) (c : Int) (h : c ∉ l.map (·.channel)) : getPending l c = none := by
  induction l with
  | nil => rfl
  | cons i l ih =>
    simp only [List.map_cons, List.mem_cons, not_or] at h
    simp only [getPending]
    rw [if_neg (fun e => h.1 e.symm)]
    exact ih h.2

theorem get_clear (l : List Item) (hu : Unique l) (ch c : Int) :
    getPending (clearPending l ch) c = if ch = c then none else getPending l c := by
  induction l with
  | nil => simp [clearPending, getPending]
  | cons i l ih =>
    simp only [Unique, List.map_cons, List.nodup_cons] at hu
    unfold clearPending
    split
    · rename_i hi
      by_cases h : ch = c
      · subst h
        rw [if_pos rfl]
        exact get_none l _ (hi ▸ hu.1)
      · rw [if_neg h]
        simp only [getPending]
        rw [if_neg (by rw [hi]; exact h)]
    · rename_i hi
      simp only [getPending, ih hu.2]
      by_cases h : ch = c
      · subst h; simp [hi]
      · simp [h]

theorem mem_set (l : List Item) (ch rcv cmd x : Int) (h : x ∈ (setPending l ch rcv cmd).map (·.channel)) : x = ch ∨ x ∈ l.map (·.channel) := by
  induction l with
  | nil => simp [setPending] at h; exact Or.inl h
  | cons i l ih =>
    unfold setPending at h
    split at h
    · simp only [List.map_cons, List.mem_cons] at h ⊢
      rcases h with h | h
      · exact Or.inl h
      · exact Or.inr (Or.inr h)
    · simp only [List.map_cons, List.mem_cons] at h ⊢
      rcases h with h | h
      · exact Or.inr (Or.inl h)
      · rcases ih h with h | h
        · exact Or.inl h
        · exact Or.inr (Or.inr h)

theorem mem_clear (l : List Item) (ch x : Int) (h : x ∈ (clearPending l ch).map (·.channel)) : x ∈ l.map (·.channel) := by
  induction l with
  | nil => cases h
  | cons i l ih =>
    unfold clearPending at h
    split at h
    · simp only [List.map_cons, List.mem_cons]; exact Or.inr h
    · simp only [List.map_cons, List.mem_cons] at h ⊢
      rcases h with h | h
      · exact Or.inl h
      · exact Or.inr (ih h)

theorem unique_step (l : List Item) (hu : Unique l) (o : Op) : Unique (step l o) := by
  cases o with
  | set ch rcv cmd =>
    simp only [step]
    induction l with
    | nil => simp [setPending, Unique]
    | cons i l ih =>
      simp only [Unique, List.map_cons, List.nodup_cons] at hu
      unfold setPending
      split
      · rename_i hi
        simp only [Unique, List.map_cons, List.nodup_cons]
        exact ⟨hi ▸ hu.1, hu.2⟩
      · rename_i hi
        simp only [Unique, List.map_cons, List.nodup_cons]
        refine ⟨?_, ih hu.2⟩
        intro hm
        rcases mem_set _ _ _ _ _ hm with h | h
        · exact hi h
        · exact hu.1 h
  | clear ch =>
    simp only [step]
    induction l with
    | nil => simp [clearPending, Unique]
    | cons i l ih =>
      simp only [Unique, List.map_cons, List.nodup_cons] at hu
      unfold clearPending
      split
      · exact hu.2
      · simp only [Unique, List.map_cons, List.nodup_cons]
        exact ⟨fun hm => hu.1 (mem_clear _ _ _ hm), ih hu.2⟩

theorem history (ops : List Op) (l : List Item) (hu : Unique l) (ch : Int) :
    getPending (ops.foldl step l) ch = ops.foldl (last ch) (getPending l ch) := by
  induction ops generalizing l with
  | nil => rfl
  | cons o ops ih =>
    rw [List.foldl_cons, List.foldl_cons, ih (step l o) (unique_step l hu o)]
    congr 1
    cases o with
    | set c rcv cmd => simp only [step, last, get_set]
    | clear c => simp only [step, last, get_clear l hu]

/-- **C70.** After any history, the answer pending for a channel is that of the last request noted for it, if
it was not cleared since. -/
theorem pending_exact (ops : List Op) (ch : Int) : getPending (ops.foldl step []) ch = ops.foldl (last ch) none :=
  history ops [] (by simp [Unique]) ch

example : getPending ([Op.set 1 10 5, .set 2 20 6, .set 1 11 7, .clear 2].foldl step []) 1 = some ⟨1, 11, 7⟩ ∧
    getPending ([Op.set 1 10 5, .set 2 20 6, .set 1 11 7, .clear 2].foldl step []) 2 = none := by decide

/-- **C70.** A late answer of at most 128 bytes goes to that requester, with its command unless another one is
given. -/
theorem late_answer_partial (l : List Item) (ch result command size : Int) (i : Item) (hi : getPending l ch = some i) (h0 : 0 ≤ size) (h1 : size ≤ 128) :
    sendPending l ch result command size = some (some ⟨i.receiver, ch, if command ≥ 0 then command else i.command, result⟩) := by
  unfold sendPending
  rw [hi]
  dsimp only
  rw [if_neg (by omega), if_neg (by omega)]

example : getPending [⟨4, 17, 9200⟩] 4 = some ⟨4, 17, 9200⟩ := by decide

/-- **C70.** Nothing is sent for a channel nobody waits for. -/
theorem no_request_no_answer (l : List Item) (ch result command size : Int) (h : getPending l ch = none) :
    sendPending l ch result command size = some none := by
  unfold sendPending
  rw [h]

/-- The full claim: a late answer is always sent, cut to what fits. -/
def LateAnswered : Prop :=
  ∀ (l : List Item) (ch result command size : Int) (i : Item), getPending l ch = some i → 0 ≤ size →
    ∃ p, sendPending l ch result command size = some (some p)

/-- **Finding.** The size is noted before it is cut to 128, so the protocol layer refuses the whole answer. -/
theorem late_answered_violation : ¬ LateAnswered := by
  intro h
  obtain ⟨p, hp⟩ := h [⟨4, 17, 9200⟩] 4 2 (-1) 129 ⟨4, 17, 9200⟩ (by decide) (by decide)
  revert hp
  rw [show sendPending [⟨4, 17, 9200⟩] 4 2 (-1) 129 = some none by decide]
  intro hp; cases hp

/-- The full claim: a request answered later is noted. -/
def LateNoted : Prop :=
  ∀ (d : Dev) (l : List Item) (r : Request), (outcome d l r).result = resPending →
    getPending (outcome d l r).pending r.channel = some ⟨r.channel, r.sender, r.command⟩

/-- **Finding.** It is not if the owner of a subdevice answers later: its answer is then dropped. -/
theorem late_noted_violation : ¬ LateNoted := by
  intro h
  have := h ⟨fun n => if n = 3 then some (.plain, 1) else none, fun i => if i = 1 then some (.custom (fun _ => -2)) else none, true, true⟩ []
    ⟨7, 3, 9410, 1, 0, 0, false, false⟩ (by decide)
  revert this; decide

/-- It is if the channel itself does. -/
theorem late_noted_partial (d : Dev) (l : List Item) (r : Request) (k : Kind) (sub : Nat) (hc : r.channel ≠ -1)
    (hch : d.channel r.channel = some (k, sub)) (h : (elementHandle k r).1 = resPending) :
    getPending (outcome d l r).pending r.channel = some ⟨r.channel, r.sender, r.command⟩ ∧ reply d l r = none := by
  have ho : outcome d l r = ⟨(elementHandle k r).1, (elementHandle k r).2.map (Target.channel r.channel, ·), setPending l r.channel r.sender r.command⟩ := by
    unfold outcome
    rw [if_neg hc, hch]
    dsimp only
    unfold forElement
    rw [if_pos h]
  unfold reply
  rw [ho]
  refine ⟨by rw [get_set, if_pos rfl], ?_⟩
  rw [h]
  rfl

/-- The full claim: whoever asked gets the answer, also if somebody else asks before it comes. -/
def EveryoneAnswered : Prop :=
  ∀ (l : List Item) (ch rcv cmd rcv' cmd' result : Int),
    ∃ p, sendPending (setPending (setPending l ch rcv cmd) ch rcv' cmd') ch result (-1) 0 = some (some p) ∧ p.receiver = rcv

/-- **Finding.** Only the last one gets it: one answer is noted per channel. -/
theorem everyone_answered_violation : ¬ EveryoneAnswered := by
  intro h
  obtain ⟨p, h1, h2⟩ := h [] 3 10 5 11 5 2
  rw [show sendPending (setPending (setPending [] 3 10 5) 3 11 5) 3 2 (-1) 0 = some (some ⟨11, 3, 5, 2⟩) by decide] at h1
  injection h1 with h1; injection h1 with h1
  rw [← h1] at h2
  revert h2; decide

end Verif.Calcfg
