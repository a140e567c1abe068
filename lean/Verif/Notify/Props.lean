import Verif.Notify.Model

/-!
# C56: push notifications
-/

namespace Verif.Notify

/-! ## Specification -/

/-- A text the program may give: bytes that are not zero. -/
def Text (s : List Nat) : Prop := ∀ c ∈ s, c ≠ 0

/-- The title the server reads: the bytes up to the terminator within the first `titleSize` bytes. -/
def readTitle (p : Packet) : List Nat := (p.data.take p.titleSize).takeWhile (· ≠ 0)

/-- The body the server reads: the bytes up to the terminator within the next `bodySize` bytes. -/
def readBody (p : Packet) : List Nat := ((p.data.drop p.titleSize).take p.bodySize).takeWhile (· ≠ 0)

/-- The packet is well formed: the sizes fit and cover the data, and each field that is present ends with
a terminator. -/
structure WellFormed (p : Packet) : Prop where
  title : p.titleSize ≤ 101
  body : p.bodySize ≤ 256
  data : p.data.length = p.titleSize + p.bodySize
  titleEnd : 0 < p.titleSize → p.data[p.titleSize - 1]? = some 0
  bodyEnd : 0 < p.bodySize → p.data[p.titleSize + p.bodySize - 1]? = some 0

/-- The packet says what the program said. -/
structure Says (p : Packet) (context : Int) (title msg : List Nat) : Prop where
  wf : WellFormed p
  context : p.context = context
  title : readTitle p = title
  body : readBody p = msg

/-- The full claim: a call that returns `true` has sent the texts, cut to the documented maximum. -/
def Delivers : Prop := ∀ c title msg sound r, -2 ^ 15 ≤ c → c < 2 ^ 15 → Text title → Text msg →
  sendNotification true c (some title) (some msg) sound = some (true, r) →
  ∃ p, r = some p ∧ Says p c (title.take 100) (msg.take 255)

/-! ## Memory -/

theorem copy_some {m src : List Nat} {off n : Nat} (h1 : off + n ≤ m.length) (h2 : n ≤ src.length) :
    copy m off src n = some (m.take off ++ src.take n ++ m.drop (off + n)) := if_pos ⟨h1, h2⟩

theorem copy_length {m src m' : List Nat} {off n : Nat} (h : copy m off src n = some m') :
    m'.length = m.length := by
  unfold copy at h
  split at h
  · rename_i hc
    injection h with h
    subst h
    simp only [List.length_append, List.length_take, List.length_drop]
    omega
  · cases h

theorem cut_le (max len : Nat) (h : 0 < max) : cut max len < max ∧ cut max len ≤ len := by
  unfold cut; split <;> omega

theorem offset_le (len : Nat) : offset len ≤ len + 1 := by
  unfold offset; split <;> omega

theorem putTitle_some (title : List Nat) {m : List Nat} (hm : m.length = 357) :
    ∃ m', putTitle title m = some (m', cut titleMax title.length) ∧ m'.length = 357 := by
  unfold putTitle
  have hle := cut_le titleMax title.length (by decide)
  have ht : titleMax = 101 := rfl
  dsimp only
  generalize cut titleMax title.length = len at *
  split
  · have h1 : ∃ m1, copy m 0 (title ++ [0]) len = some m1 :=
      ⟨_, copy_some (by omega) (by simp; omega)⟩
    obtain ⟨m1, h1⟩ := h1
    have hm1 := copy_length h1
    rw [h1]
    have h2 : ∃ m2, zero m1 len = some m2 := ⟨_, copy_some (by omega) (by simp)⟩
    obtain ⟨m2, h2⟩ := h2
    have hm2 := copy_length h2
    exact ⟨m2, by simp [h2], by omega⟩
  · exact ⟨m, rfl, hm⟩

theorem putBody_some (msg : List Nat) {m : List Nat} {len : Nat} (hm : m.length = 357) (hlen : len ≤ 100) :
    ∃ m', putBody msg len m = some m' ∧ m'.length = 357 := by
  unfold putBody
  have hle := cut_le bodyMax msg.length (by decide)
  have ht : bodyMax = 256 := rfl
  have hoff := offset_le len
  dsimp only
  generalize cut bodyMax msg.length = n at *
  generalize offset len = off at *
  split
  · have h1 : ∃ m1, copy m off (msg ++ [0]) (n + 1) = some m1 :=
      ⟨_, copy_some (by omega) (by simp; omega)⟩
    obtain ⟨m1, h1⟩ := h1
    have hm1 := copy_length h1
    rw [h1]
    have h2 : ∃ m2, zero m1 (off + n) = some m2 := ⟨_, copy_some (by omega) (by simp)⟩
    obtain ⟨m2, h2⟩ := h2
    have hm2 := copy_length h2
    exact ⟨m2, h2, by omega⟩
  · exact ⟨m, rfl, hm⟩

/-- **C56, memory.** Texts of any length are handled without touching memory outside the message. -/
theorem send_safe (ready : Bool) (context : Int) (title msg : Option (List Nat)) (sound : Int) (s : St) :
    send ready context title msg sound s ≠ none := by
  unfold send
  split
  · simp
  split
  · simp
  rename_i r _
  unfold sendNotification
  split
  · simp
  · dsimp only
    obtain ⟨m1, h1, l1⟩ := putTitle_some ((if r.title then none else title).getD [])
      (m := List.replicate (titleMax + bodyMax) 0) List.length_replicate
    rw [h1]
    dsimp only
    obtain ⟨m2, h2, l2⟩ := putBody_some ((if r.body then none else msg).getD []) l1
      (len := cut titleMax ((if r.title then none else title).getD []).length)
      (Nat.le_of_lt_succ (cut_le titleMax _ (by decide)).1)
    rw [h2]
    simp

/-! ## Delivery -/

theorem putTitle_short {title m : List Nat} (h0 : title ≠ []) (hl : title.length ≤ 100)
    (hm : m.length = 357) :
    putTitle title m = some (title ++ [0] ++ m.drop (title.length + 1), title.length) := by
  have hpos : 0 < title.length := List.length_pos_iff.2 h0
  unfold putTitle
  rw [show cut titleMax title.length = title.length from if_neg (by have : titleMax = 101 := rfl; omega)]
  dsimp only
  rw [if_pos hpos, copy_some (by omega) (by simp)]
  have h1 : m.take 0 ++ (title ++ [0]).take title.length ++ m.drop (0 + title.length) =
      title ++ m.drop title.length := by
    simp
  rw [h1]
  dsimp only
  unfold zero
  rw [copy_some (by simp; omega) (by simp)]
  simp only [Option.map_some, Option.some.injEq, Prod.mk.injEq, and_true]
  rw [List.take_left, List.drop_append]
  simp [List.drop_drop]

theorem putBody_short {msg m : List Nat} {len : Nat} (h0 : msg ≠ []) (hl : msg.length ≤ 255)
    (hlen : len ≤ 100) (hm : m.length = 357) :
    putBody msg len m = some (m.take (offset len) ++ (msg ++ [0]) ++
      m.drop (offset len + msg.length + 1)) := by
  have hpos : 0 < msg.length := List.length_pos_iff.2 h0
  unfold putBody
  rw [show cut bodyMax msg.length = msg.length from if_neg (by have : bodyMax = 256 := rfl; omega)]
  dsimp only
  have hoff := offset_le len
  generalize offset len = off at *
  rw [if_pos hpos, copy_some (by omega) (by simp)]
  dsimp only
  have h1 : (msg ++ [0]).take (msg.length + 1) = msg ++ [0] := by
    rw [List.take_of_length_le (by simp)]
  rw [h1]
  unfold zero
  have hlen' : (m.take off).length = off := by simp; omega
  rw [copy_some (by simp; omega) (by simp)]
  simp only [Option.some.injEq]
  have h2 : (m.take off ++ (msg ++ [0]) ++ m.drop (off + (msg.length + 1))).take (off + msg.length) =
      m.take off ++ msg := by
    rw [show m.take off ++ (msg ++ [0]) ++ m.drop (off + (msg.length + 1)) =
      (m.take off ++ msg) ++ ([0] ++ m.drop (off + (msg.length + 1))) by simp]
    rw [List.take_left' (by simp; omega)]
  have h3 : (m.take off ++ (msg ++ [0]) ++ m.drop (off + (msg.length + 1))).drop (off + msg.length + 1) =
      m.drop (off + msg.length + 1) := by
    rw [List.drop_left' (by simp; omega)]
    rfl
  rw [h2, h3]
  simp

theorem takeWhile_text {s : List Nat} (h : Text s) (r : List Nat) :
    (s ++ 0 :: r).takeWhile (· ≠ 0) = s := by
  induction s with
  | nil => rfl
  | cons c s ih =>
    have hc : c ≠ 0 := h c List.mem_cons_self
    rw [List.cons_append, List.takeWhile_cons_of_pos (by simpa using hc),
      ih (fun c hc => h c (List.mem_cons_of_mem _ hc))]

/-- A text as a field of the message: absent when empty, else with its terminator. -/
def field (s : List Nat) : List Nat := if s = [] then [] else s ++ [0]

theorem field_length {s : List Nat} (h : s.length ≤ 255) : (field s).length = sizeField s.length := by
  unfold field sizeField
  by_cases hs : s = []
  · rw [if_pos hs, if_pos (by simp [hs])]
    rfl
  · rw [if_neg hs, if_neg (by simpa using hs)]
    simp only [List.length_append, List.length_singleton]
    omega

theorem field_read {s : List Nat} (h : Text s) (r : List Nat) :
    (((field s ++ r).take (field s).length)).takeWhile (· ≠ 0) = s := by
  rw [List.take_left]
  unfold field
  split
  · rename_i hs; rw [hs]; rfl
  · exact takeWhile_text h []

theorem packed {t b : List Nat} (ht : t.length ≤ 100) (hb : b.length ≤ 255) :
    ∃ m m' rest, putTitle t (List.replicate (titleMax + bodyMax) 0) = some (m, t.length) ∧
      putBody b t.length m = some m' ∧ m' = field t ++ field b ++ rest := by
  have hm0 : (List.replicate (titleMax + bodyMax) 0).length = 357 := List.length_replicate
  generalize List.replicate (titleMax + bodyMax) 0 = m0 at *
  have h1 : ∃ m rest, putTitle t m0 = some (m, t.length) ∧ m.length = 357 ∧ m = field t ++ rest := by
    by_cases h0 : t = []
    · refine ⟨m0, m0, ?_, hm0, by simp [field, h0]⟩
      rw [h0]
      rfl
    · refine ⟨_, m0.drop (t.length + 1), putTitle_short h0 ht hm0, ?_, by simp only [field, if_neg h0]⟩
      simp
      omega
  obtain ⟨m, rest, e1, e2, e3⟩ := h1
  have hoff : offset t.length = (field t).length := by
    unfold offset field
    by_cases h0 : t = []
    · rw [if_pos (by simp [h0]), if_pos h0]; rfl
    · rw [if_neg (by simpa using h0), if_neg h0]; simp
  by_cases h0 : b = []
  · refine ⟨m, m, rest, e1, ?_, by rw [e3]; simp [field, h0]⟩
    rw [h0]
    rfl
  · refine ⟨m, _, m.drop (offset t.length + b.length + 1), e1, putBody_short h0 hb ht e2, ?_⟩
    rw [hoff]
    rw [show m.take (field t).length = field t by rw [e3, List.take_left]]
    simp [field, h0]

/-- **C56, delivery (partial: titles up to 100 and bodies up to 255 characters).** Over a ready connection
the call returns `true` and the message sent is well formed and says exactly what the program said. -/
theorem delivers_partial {c : Int} {title msg : Option (List Nat)} {sound : Int}
    (hc1 : -2 ^ 15 ≤ c) (hc2 : c < 2 ^ 15)
    (ht : (title.getD []).length ≤ 100) (hb : (msg.getD []).length ≤ 255)
    (tt : Text (title.getD [])) (tb : Text (msg.getD [])) :
    ∃ p, sendNotification true c title msg sound = some (true, some p) ∧
      Says p c (title.getD []) (msg.getD []) := by
  unfold sendNotification
  rw [if_neg (by decide)]
  dsimp only
  generalize title.getD [] = t at *
  generalize msg.getD [] = b at *
  obtain ⟨m, m', rest, e1, e2, e3⟩ := packed ht hb
  rw [e1]
  dsimp only
  rw [e2]
  dsimp only
  have lt := field_length (s := t) (by omega)
  have lb := field_length (s := b) hb
  have st : sizeField t.length ≤ 101 := by unfold sizeField; split <;> omega
  have sb : sizeField b.length ≤ 256 := by unfold sizeField; split <;> omega
  unfold transmit
  rw [if_neg (by simp only [bodyMax, titleMax]; omega)]
  have hd : m'.take (sizeField b.length + sizeField t.length) = field t ++ field b := by
    rw [e3, ← lt, ← lb, List.take_left' (by simp; omega)]
  refine ⟨_, rfl, ⟨⟨st, sb, ?_, ?_, ?_⟩, ?_, ?_, ?_⟩⟩
  · show (m'.take (sizeField b.length + sizeField t.length)).length = sizeField t.length + sizeField b.length
    rw [hd, List.length_append, lt, lb]
  · intro hp
    show (m'.take (sizeField b.length + sizeField t.length))[sizeField t.length - 1]? = some 0
    have hp' : 0 < sizeField t.length := hp
    rw [hd, ← lt] at *
    rw [List.getElem?_append_left (by omega)]
    unfold field at *
    split at hp'
    · exact absurd hp' (by simp)
    · rename_i hq
      rw [if_neg hq]
      simp
  · intro hp
    show (m'.take (sizeField b.length + sizeField t.length))[sizeField t.length + sizeField b.length - 1]? = some 0
    have hp' : 0 < sizeField b.length := hp
    rw [hd, ← lt, ← lb] at *
    rw [List.getElem?_append_right (by omega)]
    rw [show (field t).length + (field b).length - 1 - (field t).length = (field b).length - 1 by omega]
    unfold field at *
    split at hp'
    · exact absurd hp' (by simp)
    · rename_i hq
      rw [if_neg hq]
      simp
  · show i16 c = c
    unfold i16
    omega
  · show ((m'.take (sizeField b.length + sizeField t.length)).take (sizeField t.length)).takeWhile (· ≠ 0) = t
    rw [hd, ← lt]
    exact field_read tt _
  · show (((m'.take (sizeField b.length + sizeField t.length)).drop (sizeField t.length)).take
      (sizeField b.length)).takeWhile (· ≠ 0) = b
    rw [hd, ← lt, List.drop_left, ← lb]
    have := field_read tb []
    rw [List.append_nil] at this
    exact this

/-- C56 fails beyond: a title of 101 characters is not cut but never sent, and the call returns `true`. -/
theorem long_title_violation : ¬ Delivers := by
  intro h
  obtain ⟨p, hp, _⟩ := h 0 (List.replicate 101 65) [66] 0 none (by decide) (by decide)
    (by intro c hc; rw [List.mem_replicate] at hc; omega) (by intro c hc; simp at hc; omega)
    (by decide +kernel)
  cases hp

/-- The same for a body of 256 characters. -/
theorem long_body_violation :
    sendNotification true 0 none (some (List.replicate 256 65)) 0 = some (true, none) := by
  decide +kernel

example : ((sendNotification true (-1) (some [72, 105]) (some [66, 111]) (-1)).map
    (fun r => (r.1, r.2.map (·.data)))) = some (true, some [72, 105, 0, 66, 111, 0]) := by decide +kernel

/-! ## Registration -/

/-- The documented contexts: -1 for the device, 0 to 255 for a channel. -/
def Documented : Op → Prop
  | .register c _ _ _ => -1 ≤ c ∧ c ≤ 255
  | .accepted => True

/-- **C56, registrations.** At most 50 notifications, no context twice, in every history. -/
theorem registrations (ops : List Op) (h : ∀ op ∈ ops, Documented op) :
    ((ops.foldl step {}).regs.map (·.context)).Nodup ∧ (ops.foldl step {}).regs.length ≤ 50 := by
  have key : ∀ (ops : List Op) (s : St), (∀ op ∈ ops, Documented op) →
      (s.regs.map (·.context)).Nodup → s.regs.length ≤ 50 →
      ((ops.foldl step s).regs.map (·.context)).Nodup ∧ (ops.foldl step s).regs.length ≤ 50 := by
    intro ops
    induction ops with
    | nil => intro s _ h1 h2; exact ⟨h1, h2⟩
    | cons op ops ih =>
      intro s hd h1 h2
      rw [List.foldl_cons]
      have hstep : ((step s op).regs.map (·.context)).Nodup ∧ (step s op).regs.length ≤ 50 := by
        cases op with
        | accepted => exact ⟨h1, h2⟩
        | register c t b d =>
          have hdoc : -1 ≤ c ∧ c ≤ 255 := hd _ List.mem_cons_self
          simp only [step, register]
          split
          · exact ⟨h1, h2⟩
          split
          · exact ⟨h1, h2⟩
          rename_i hnot
          split
          · rename_i hlt
            simp only [maxRegs] at hlt
            have hi : i16 c = c := by unfold i16; omega
            refine ⟨?_, by simp; omega⟩
            rw [List.map_append, List.nodup_append]
            refine ⟨h1, by simp, ?_⟩
            intro a ha x hx hax
            simp only [List.map_cons, List.map_nil, List.mem_singleton] at hx
            rw [hx, hi] at hax
            obtain ⟨r, hr, hrc⟩ := List.mem_map.1 ha
            apply hnot
            rw [List.any_eq_true]
            exact ⟨r, hr, by simp [hrc, hax]⟩
          · exact ⟨h1, h2⟩
      exact ih _ (fun op ho => hd op (List.mem_cons_of_mem _ ho)) hstep.1 hstep.2
  exact key ops {} h (by simp) (by simp)

/-- **C56, the server knows the registrations.** Once the server has accepted the device the
registrations never change, so the ones it was told are the ones in use, and each later acceptance tells
the same. -/
theorem registrations_frozen (s : St) (ops : List Op) :
    (ops.foldl step (onRegistered s).1).regs = (onRegistered s).2 ∧
      (onRegistered (ops.foldl step (onRegistered s).1)).2 = (onRegistered s).2 := by
  have key : ∀ (ops : List Op) (q : St), q.blocked = true → (ops.foldl step q).regs = q.regs := by
    intro ops
    induction ops with
    | nil => intro q _; rfl
    | cons op ops ih =>
      intro q hq
      rw [List.foldl_cons]
      have hs : (step q op).blocked = true ∧ (step q op).regs = q.regs := by
        cases op with
        | accepted => exact ⟨rfl, rfl⟩
        | register c t b d => simp only [step, register, hq, if_true]; exact ⟨trivial, trivial⟩
      rw [ih _ hs.1, hs.2]
  have := key ops (onRegistered s).1 rfl
  exact ⟨this, this⟩

/-! ## Sending -/

/-- **C56, result.** `Send` returns `true` exactly for a registered context of a device that has been
accepted once and is ready now. -/
theorem send_result (ready : Bool) (context : Int) (title msg : Option (List Nat)) (sound : Int) (s : St) :
    (∃ p, send ready context title msg sound s = some (true, p)) ↔
      s.srpc = true ∧ ready = true ∧ ∃ r ∈ s.regs, r.context = context := by
  have hsafe := send_safe ready context title msg sound s
  unfold send at hsafe ⊢
  constructor
  · rintro ⟨p, h⟩
    split at h
    · simp at h
    rename_i hs
    split at h
    · simp at h
    rename_i r hr
    refine ⟨by simpa using hs, ?_, r, List.mem_of_find?_eq_some hr, ?_⟩
    · unfold sendNotification at h
      split at h
      · simp at h
      · rename_i hq; simpa using hq
    · have := List.find?_some hr
      simpa using this
  · rintro ⟨h1, h2, r, hr, hc⟩
    rw [if_neg (by simp [h1])] at hsafe ⊢
    cases hf : s.regs.find? (fun r => r.context = context) with
    | none =>
      have := List.find?_eq_none.1 hf r hr
      simp [hc] at this
    | some r =>
      rw [hf] at hsafe
      dsimp only at hsafe ⊢
      unfold sendNotification at hsafe ⊢
      rw [if_neg (by simp [h2])] at hsafe ⊢
      dsimp only at hsafe ⊢
      split
      · rename_i hx
        rw [hx] at hsafe
        exact absurd rfl hsafe
      · rename_i hx
        rw [hx] at hsafe
        dsimp only at hsafe
        split
        · rename_i hy
          rw [hy] at hsafe
          exact absurd rfl hsafe
        · exact ⟨_, rfl⟩

/-- **C56, fields of the server.** A field registered as managed by the server is never sent, whatever
the program gives; the others are sent as given. (Texts within the limits.) -/
theorem managed_fields_partial {s : St} {r : Reg} {c : Int} {title msg : List Nat} {sound : Int}
    (hs : s.srpc = true) (hnd : (s.regs.map (·.context)).Nodup) (hr : r ∈ s.regs) (hc : r.context = c)
    (hc1 : -1 ≤ c) (hc2 : c ≤ 255) (ht : title.length ≤ 100) (hb : msg.length ≤ 255)
    (tt : Text title) (tb : Text msg) :
    ∃ p, send true c (some title) (some msg) sound s = some (true, some p) ∧
      Says p c (if r.title then [] else title) (if r.body then [] else msg) := by
  have hf : s.regs.find? (fun r => r.context = c) = some r := by
    revert hr hnd
    induction s.regs with
    | nil => intro _ hr; cases hr
    | cons q qs ih =>
      intro hnd hr
      rw [List.map_cons, List.nodup_cons] at hnd
      rcases List.mem_cons.1 hr with he | he
      · rw [← he, List.find?_cons_of_pos (by simp [hc])]
      · have hne : q.context ≠ c := by
          intro hq
          apply hnd.1
          rw [hq, ← hc]
          exact List.mem_map.2 ⟨r, he, rfl⟩
        rw [List.find?_cons_of_neg (by simp [hne])]
        exact ih hnd.2 he
  unfold send
  rw [if_neg (by simp [hs]), hf]
  dsimp only
  have h1 : (if r.title = true then none else some title).getD [] = if r.title = true then [] else title := by
    split <;> rfl
  have h2 : (if r.body = true then none else some msg).getD [] = if r.body = true then [] else msg := by
    split <;> rfl
  have := delivers_partial (c := c) (title := if r.title = true then none else some title)
    (msg := if r.body = true then none else some msg) (sound := if r.sound then -1 else sound)
    (by omega) (by omega) (by rw [h1]; split <;> simp [ht]) (by rw [h2]; split <;> simp [hb])
    (by rw [h1]; split
        · intro c hc; cases hc
        · exact tt)
    (by rw [h2]; split
        · intro c hc; cases hc
        · exact tb)
  rw [h1, h2] at this
  exact this

/-- A device with a body of its own and a title managed by the server. -/
example : ((send true 3 (some [65]) (some [66]) 0
      ([Op.register 3 false true false, .accepted].foldl step {})).map
    (fun r => (r.1, r.2.map (fun p => (readTitle p, readBody p))))) = some (true, some ([], [66])) := by
  decide +kernel

end Verif.Notify
