import Verif.Pulse.Lemmas
/-!
# One operation of a roller shutter operated by presses
-/

namespace Verif.Pulse

open Verif.Shutter (RS Fp Op stopPos)

/-- The presses since the start at `u`. -/
def pressed (u : Nat) (b : Bi) : List (Nat × Btn) := presses (Level.free u) b.log
/-- The releases since the start at `u`. -/
def released (u : Nat) (b : Bi) : List (Nat × Btn) := releases (Level.free u) b.log
/-- The log ends with the present level. -/
def Linked (u : Nat) (b : Bi) : Prop := last (Level.free u) b.log = b.now

/-- The same presses and releases. -/
def Alike (u : Nat) (b c : Bi) : Prop := pressed u c = pressed u b ∧ released u c = released u b

/-- No button is held, and nothing was pressed or released between `b` and `c`. -/
def Quiet (u : Nat) (b c : Bi) : Prop :=
  Linked u c ∧ c.active = false ∧ c.now = Level.free c.now.t ∧ Alike u b c

/-- The button `x`, and no other, is held since `t`. -/
def Pressed (u t : Nat) (x : Btn) (b c : Bi) : Prop :=
  Linked u c ∧ c.active = true ∧ c.toggle = clk t ∧ c.now = only c.now.t (some x) ∧
  pressed u c = pressed u b ++ [(t, x)] ∧ released u c = released u b

theorem write_linked (u t : Nat) (x : Btn) (on : Bool) (b : Bi) : Linked u (write t x on b) := last_snoc _ _ _

theorem write_pressed {u : Nat} {b : Bi} (h : Linked u b) (t : Nat) (x : Btn) (on : Bool) :
    pressed u (write t x on b) = pressed u b ++ (gained b.now (b.now.set t x on)).map fun y => (t, y) := by
  unfold pressed write
  dsimp only
  rw [presses_snoc, show last (Level.free u) b.log = b.now from h]
  cases x <;> rfl

theorem write_released {u : Nat} {b : Bi} (h : Linked u b) (t : Nat) (x : Btn) (on : Bool) :
    released u (write t x on b) = released u b ++ (gained (b.now.set t x on) b.now).map fun y => (t, y) := by
  unfold released write
  dsimp only
  rw [releases_snoc, show last (Level.free u) b.log = b.now from h]
  cases x <;> rfl

/-- A button is pressed while none is held. -/
theorem relayOn_free {u : Nat} {b : Bi} (h : Linked u b) (hf : b.now = Level.free b.now.t) (t : Nat) (x : Btn) :
    Pressed u t x b (relayOn t x b) := by
  have hl : Linked u { b with active := true, toggle := clk t } := h
  refine ⟨write_linked _ _ _ _ _, rfl, rfl, ?_, ?_, ?_⟩
  · show b.now.set t x true = only (b.now.set t x true).t (some x)
    rw [hf]; cases x <;> rfl
  · unfold relayOn
    rw [write_pressed hl]
    show pressed u b ++ _ = _
    congr 1
    show (gained b.now (b.now.set t x true)).map _ = _
    rw [hf]; cases x <;> rfl
  · unfold relayOn
    rw [write_released hl]
    show released u b ++ _ = _
    have : gained (b.now.set t x true) b.now = [] := by
      rw [hf]; cases x <;> rfl
    show released u b ++ (gained (b.now.set t x true) b.now).map _ = _
    rw [this]
    simp

/-- Releasing a button while none is held changes nothing. -/
theorem relayOff_free {u : Nat} {b : Bi} (h : Linked u b) (hf : b.now = Level.free b.now.t) (t : Nat) (x : Btn) :
    Quiet u b (relayOff t x b) := by
  have hl : Linked u { b with active := false } := h
  refine ⟨write_linked _ _ _ _ _, rfl, ?_, ?_, ?_⟩
  · show b.now.set t x false = Level.free (b.now.set t x false).t
    rw [hf]; cases x <;> rfl
  · unfold relayOff
    rw [write_pressed hl]
    have : gained b.now (b.now.set t x false) = [] := by
      rw [hf]; cases x <;> rfl
    show pressed u b ++ (gained b.now (b.now.set t x false)).map _ = _
    rw [this]
    simp
  · unfold relayOff
    rw [write_released hl]
    have : gained (b.now.set t x false) b.now = [] := by
      rw [hf]; cases x <;> rfl
    show released u b ++ (gained (b.now.set t x false) b.now).map _ = _
    rw [this]
    simp

/-- Releasing another button than the one that is held changes nothing. -/
theorem relayOff_other {u : Nat} {b : Bi} {x : Btn} (h : Linked u b) (hf : b.now = only b.now.t (some x)) (t : Nat)
    {y : Btn} (hy : y ≠ x) : Linked u (relayOff t y b) ∧
      (relayOff t y b).now = only (relayOff t y b).now.t (some x) ∧ Alike u b (relayOff t y b) := by
  have hl : Linked u { b with active := false } := h
  refine ⟨write_linked _ _ _ _ _, ?_, ?_, ?_⟩
  · show b.now.set t y false = only (b.now.set t y false).t (some x)
    rw [hf]; cases x <;> cases y <;> first | rfl | exact absurd rfl hy
  · unfold relayOff
    rw [write_pressed hl]
    have : gained b.now (b.now.set t y false) = [] := by
      rw [hf]; cases x <;> cases y <;> first | rfl | exact absurd rfl hy
    show pressed u b ++ (gained b.now (b.now.set t y false)).map _ = _
    rw [this]
    simp
  · unfold relayOff
    rw [write_released hl]
    have : gained (b.now.set t y false) b.now = [] := by
      rw [hf]; cases x <;> cases y <;> first | rfl | exact absurd rfl hy
    show released u b ++ (gained (b.now.set t y false) b.now).map _ = _
    rw [this]
    simp

/-- Releasing the button that is held. -/
theorem relayOff_held {u : Nat} {b : Bi} {x : Btn} (h : Linked u b) (hf : b.now = only b.now.t (some x)) (t : Nat) :
    Linked u (relayOff t x b) ∧ (relayOff t x b).now = Level.free (relayOff t x b).now.t ∧
      pressed u (relayOff t x b) = pressed u b ∧ released u (relayOff t x b) = released u b ++ [(t, x)] := by
  have hl : Linked u { b with active := false } := h
  refine ⟨write_linked _ _ _ _ _, ?_, ?_, ?_⟩
  · show b.now.set t x false = Level.free (b.now.set t x false).t
    rw [hf]; cases x <;> rfl
  · unfold relayOff
    rw [write_pressed hl]
    have : gained b.now (b.now.set t x false) = [] := by
      rw [hf]; cases x <;> rfl
    show pressed u b ++ (gained b.now (b.now.set t x false)).map _ = _
    rw [this]
    simp
  · unfold relayOff
    rw [write_released hl]
    have : gained (b.now.set t x false) b.now = [x] := by
      rw [hf]; cases x <;> rfl
    show released u b ++ (gained (b.now.set t x false) b.now).map _ = _
    rw [this]
    rfl

/-- The end of a press releases the button that is held. -/
theorem switchOff_held {u : Nat} {b : Bi} {k : Kind} {x : Btn} (h : Linked u b)
    (hf : b.now = only b.now.t (some x)) (hx : k = .two → x ≠ .stop) (t : Nat) :
    Linked u (switchOff k t b) ∧ (switchOff k t b).active = false ∧
      (switchOff k t b).now = Level.free (switchOff k t b).now.t ∧
      pressed u (switchOff k t b) = pressed u b ∧ released u (switchOff k t b) = released u b ++ [(t, x)] := by
  have up : x = .up → Linked u (switchOff k t b) ∧ (switchOff k t b).active = false ∧
      (switchOff k t b).now = Level.free (switchOff k t b).now.t ∧
      pressed u (switchOff k t b) = pressed u b ∧ released u (switchOff k t b) = released u b ++ [(t, x)] := by
    intro hxu
    subst hxu
    have h1 := relayOff_held h hf t
    have h2 := relayOff_free h1.1 h1.2.1 t .down
    cases k with
    | two => exact ⟨h2.1, h2.2.1, h2.2.2.1, h2.2.2.2.1.trans h1.2.2.1, h2.2.2.2.2.trans h1.2.2.2⟩
    | three =>
      have h3 := relayOff_free h2.1 h2.2.2.1 t .stop
      exact ⟨h3.1, h3.2.1, h3.2.2.1, (h3.2.2.2.1.trans h2.2.2.2.1).trans h1.2.2.1,
        (h3.2.2.2.2.trans h2.2.2.2.2).trans h1.2.2.2⟩
  have down : x = .down → Linked u (switchOff k t b) ∧ (switchOff k t b).active = false ∧
      (switchOff k t b).now = Level.free (switchOff k t b).now.t ∧
      pressed u (switchOff k t b) = pressed u b ∧ released u (switchOff k t b) = released u b ++ [(t, x)] := by
    intro hxu
    subst hxu
    have h1 := relayOff_other h hf t (y := .up) (by decide)
    have h2 := relayOff_held h1.1 h1.2.1 t
    have e1 := h1.2.2.1
    have e2 := h1.2.2.2
    cases k with
    | two => exact ⟨h2.1, rfl, h2.2.1, h2.2.2.1.trans e1, h2.2.2.2.trans (by rw [e2])⟩
    | three =>
      have h3 := relayOff_free h2.1 h2.2.1 t .stop
      exact ⟨h3.1, h3.2.1, h3.2.2.1, (h3.2.2.2.1.trans h2.2.2.1).trans e1,
        (h3.2.2.2.2.trans h2.2.2.2).trans (by rw [e2])⟩
  cases x with
  | up => exact up rfl
  | down => exact down rfl
  | stop =>
    cases k with
    | two => exact absurd rfl (hx rfl)
    | three =>
      have h1 := relayOff_other h hf t (y := .up) (by decide)
      have h2 := relayOff_other h1.1 h1.2.1 t (y := .down) (by decide)
      have h3 := relayOff_held h2.1 h2.2.1 t
      exact ⟨h3.1, rfl, h3.2.1, (h3.2.2.1.trans h2.2.2.1).trans h1.2.2.1,
        h3.2.2.2.trans (by rw [h2.2.2.2, h1.2.2.2])⟩

/-! ## One button at a time -/

/-- At most one button is held. -/
def Lone (l : Level) : Prop := ∃ o, l = only l.t o

/-- At most one button was held, at any time. -/
def Lonely (b : Bi) : Prop := ∀ l ∈ b.log, Lone l

theorem write_lonely {b : Bi} {t : Nat} {x : Btn} {on : Bool} (h : Lonely b) (hl : Lone (b.now.set t x on)) :
    Lonely (write t x on b) := by
  intro l hm
  unfold write at hm
  rcases List.mem_append.1 hm with hm | hm
  · exact h l hm
  · rw [List.mem_singleton.1 hm]; exact hl

theorem lone_off {l : Level} (h : Lone l) (t : Nat) (x : Btn) : Lone (l.set t x false) := by
  obtain ⟨o, h⟩ := h
  rw [h]
  cases o with
  | none => cases x <;> exact ⟨none, rfl⟩
  | some y => cases x <;> cases y <;> first | exact ⟨none, rfl⟩ | exact ⟨some .up, rfl⟩ | exact ⟨some .down, rfl⟩ | exact ⟨some .stop, rfl⟩

theorem lone_free {l : Level} (h : l = Level.free l.t) : Lone l := ⟨none, h⟩

theorem relayOff_lonely {b : Bi} (h : Lonely b) (hl : Lone b.now) (t : Nat) (x : Btn) :
    Lonely (relayOff t x b) ∧ Lone (relayOff t x b).now :=
  ⟨write_lonely (b := { b with active := false }) h (lone_off hl t x), lone_off hl t x⟩

theorem relayOn_lonely {b : Bi} (h : Lonely b) (hf : b.now = Level.free b.now.t) (t : Nat) (x : Btn) :
    Lonely (relayOn t x b) := by
  refine write_lonely (b := { b with active := true, toggle := clk t }) h ⟨some x, ?_⟩
  show b.now.set t x true = only (b.now.set t x true).t (some x)
  rw [hf]; cases x <;> rfl

theorem switchOff_lonely {b : Bi} {k : Kind} (h : Lonely b) (hl : Lone b.now) (t : Nat) : Lonely (switchOff k t b) := by
  have h1 := relayOff_lonely h hl t .up
  have h2 := relayOff_lonely h1.1 h1.2 t .down
  cases k with
  | two => exact h2.1
  | three => exact (relayOff_lonely h2.1 h2.2 t .stop).1

theorem pressStop_lonely {b : Bi} {k : Kind} (h : Lonely b) (hf : b.now = Level.free b.now.t) (t : Nat)
    (d : Shutter.Dir) : Lonely (pressStop k t d b) := by
  cases k with
  | three => exact relayOn_lonely h hf t .stop
  | two =>
    cases d with
    | stop => exact h
    | up => exact relayOn_lonely h hf t .up
    | down => exact relayOn_lonely h hf t .down

theorem press_lonely {b : Bi} {k : Kind} (h : Lonely b) (hf : b.now = Level.free b.now.t) (t : Nat)
    (s r : RS) : Lonely (press k t s r b) := by
  have free : ∀ x, (relayOff t x b).now = Level.free (relayOff t x b).now.t := by
    intro x
    show b.now.set t x false = Level.free (b.now.set t x false).t
    rw [hf]; cases x <;> rfl
  unfold press
  split
  · exact h
  · split
    · exact pressStop_lonely h hf t _
    · exact relayOn_lonely (relayOff_lonely h (lone_free hf) t .down).1 (free .down) t .up
    · exact relayOn_lonely (relayOff_lonely h (lone_free hf) t .up).1 (free .up) t .down

theorem basePass_lonely {F : Fp} {k : Kind} {t : Nat} {b c : Bi} (h : Lonely b) (hf : b.now = Level.free b.now.t)
    (hc : basePass F k t b = some c) : Lonely c := by
  unfold basePass at hc
  cases hp : Shutter.pass F t b.rs with
  | none => rw [hp] at hc; cases hc
  | some r =>
    rw [hp] at hc
    injection hc with hc
    subst hc
    dsimp only
    split
    · exact pressStop_lonely h hf t _
    · exact press_lonely h hf t _ _

/-- What the program takes the drive to do. -/
def motion : Shutter.Dir → Motion
  | .stop => .still
  | .up => .rising
  | .down => .falling

/-- What a pass of the common code does while no button is held: nothing, or one press. -/
theorem basePass_cases {F : Fp} {k : Kind} {t u : Nat} {b c : Bi} (hl : Linked u b) (ha : b.active = false)
    (hf : b.now = Level.free b.now.t) (h : basePass F k t b = some c) :
    (Quiet u b c ∧ c.rs.dir = b.rs.dir ∧ (paused t b.rs = true → c.rs.pause = b.rs.pause)) ∨
    (paused t b.rs = false ∧ ∃ x, Pressed u t x b c ∧ (k = .two → x ≠ .stop) ∧
      (motion c.rs.dir = k.press (motion b.rs.dir) x ∨ (k = .two ∧ begins b.rs = true ∧ b.rs.dir ≠ .stop))) := by
  unfold basePass at h
  cases hp : Shutter.pass F t b.rs with
  | none => rw [hp] at h; cases h
  | some r =>
    rw [hp] at h
    injection h with h
    subst h
    dsimp only
    split
    · rename_i hc
      obtain ⟨rfl, hd, hk, hq⟩ := hc
      right
      refine ⟨hq, .stop, ?_, fun h => (by cases h), .inl ?_⟩
      · exact relayOn_free hl hf t .stop
      · have ht : b.rs.target = stopPos := by
          simp [asked] at hk; exact hk.2
        have := pass_asked hp ht hd
        show motion r.dir = _
        rw [this]
        rfl
    · have hdir := pass_dir hp
      have hst := pass_start hp
      by_cases hlen : r.log.length = b.rs.log.length
      · left
        have hpr : press k t b.rs r b = b := by unfold press; rw [if_pos hlen]
        rw [hpr]
        refine ⟨⟨hl, ha, hf, rfl, rfl⟩, hdir.1 hlen, ?_⟩
        intro hq
        rw [pass_paused hp hq]
        rfl
      · have hnp : paused t b.rs = false := by
          cases hq : paused t b.rs with
          | false => rfl
          | true => exact absurd (by rw [pass_paused hp hq]) hlen
        have hd2 := hdir.2 hlen
        have hst' : r.dir = .stop ∨ b.rs.dir = .stop ∨ begins b.rs = true := by
          rcases hst with h | h | h | h
          · exact absurd h hlen
          · exact .inl h
          · exact .inr (.inl h)
          · exact .inr (.inr h)
        unfold press
        rw [if_neg hlen]
        cases hr : r.dir with
        | stop =>
          dsimp only
          cases k with
          | three =>
            right
            refine ⟨hnp, .stop, relayOn_free hl hf t .stop, fun h => (by cases h), .inl ?_⟩
            show motion r.dir = _
            rw [hr]
            rfl
          | two =>
            cases hbd : b.rs.dir with
            | stop =>
              left
              refine ⟨⟨hl, ha, hf, rfl, rfl⟩, hr, ?_⟩
              intro hq
              rw [hnp] at hq
              cases hq
            | up =>
              right
              refine ⟨hnp, .up, relayOn_free hl hf t .up, fun _ => (by decide), .inl ?_⟩
              show motion r.dir = _
              rw [hr]
              rfl
            | down =>
              right
              refine ⟨hnp, .down, relayOn_free hl hf t .down, fun _ => (by decide), .inl ?_⟩
              show motion r.dir = _
              rw [hr]
              rfl
        | up =>
          right
          dsimp only
          have h1 := relayOff_free hl hf t .down
          have h2 := relayOn_free h1.1 h1.2.2.1 t .up
          refine ⟨hnp, .up, ⟨h2.1, h2.2.1, h2.2.2.1, h2.2.2.2.1, ?_, ?_⟩, fun _ => (by decide), ?_⟩
          · exact h2.2.2.2.2.1.trans (by rw [h1.2.2.2.1])
          · exact h2.2.2.2.2.2.trans h1.2.2.2.2
          · show motion r.dir = _ ∨ _
            rw [hr]
            cases k with
            | three => exact .inl rfl
            | two =>
              cases hbd : b.rs.dir with
              | stop => exact .inl rfl
              | down => exact absurd hbd (hd2.1 hr)
              | up =>
                right
                rcases hst' with h | h | h
                · rw [hr] at h; cases h
                · rw [hbd] at h; cases h
                · exact ⟨rfl, h, by decide⟩
        | down =>
          right
          dsimp only
          have h1 := relayOff_free hl hf t .up
          have h2 := relayOn_free h1.1 h1.2.2.1 t .down
          refine ⟨hnp, .down, ⟨h2.1, h2.2.1, h2.2.2.1, h2.2.2.2.1, ?_, ?_⟩, fun _ => (by decide), ?_⟩
          · exact h2.2.2.2.2.1.trans (by rw [h1.2.2.2.1])
          · exact h2.2.2.2.2.2.trans h1.2.2.2.2
          · show motion r.dir = _ ∨ _
            rw [hr]
            cases k with
            | three => exact .inl rfl
            | two =>
              cases hbd : b.rs.dir with
              | stop => exact .inl rfl
              | up => exact absurd hbd (hd2.2 hr)
              | down =>
                right
                rcases hst' with h | h | h
                · rw [hr] at h; cases h
                · rw [hbd] at h; cases h
                · exact ⟨rfl, h, by decide⟩

end Verif.Pulse
