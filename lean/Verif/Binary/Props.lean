import Verif.Binary.Model

/-!
# C99: a binary sensor tells the state of its input
-/

namespace Verif.Binary

theorem set_fields (s : St) (v : Bool) : (set s v).raw = v ∧ (set s v).last = s.last ∧ (set s v).inv = s.inv ∧ (set s v).stored = s.stored ∧ (set s v).got = s.got := by
  unfold set
  split
  · rename_i h; exact ⟨h.symm, rfl, rfl, rfl, rfl⟩
  · exact ⟨rfl, rfl, rfl, rfl, rfl⟩

theorem config_fields (s : St) (a b c : Nat) : (config s a b c).raw = s.raw ∧ (config s a b c).last = s.last ∧ (config s a b c).events = s.events := by
  unfold config; split
  · exact ⟨rfl, rfl, rfl⟩
  · split <;> exact ⟨rfl, rfl, rfl⟩

theorem finished_fields (s : St) : (finished s).raw = s.raw ∧ (finished s).last = s.last ∧ (finished s).events = s.events := by
  unfold finished; split
  · exact ⟨rfl, rfl, rfl⟩
  · exact config_fields s 0 32 0

/-- **C99.** What the server is told is the input as it was at a pass at most `interval` milliseconds ago, whatever
inversion is set. -/
theorem follows (interval g : Nat) (hi : interval + g < 2 ^ 32) (stored : Option Nat) (b : Bool) (os : List Op) (h : Paced g os) :
    ∃ t, (t, (run interval stored b os).raw) ∈ seen b os ∧ time os ≤ t + interval := by
  have key : ∃ t, (t, (run interval stored b os).raw) ∈ seen b os ∧ t ≤ time os ∧ time os ≤ t + interval ∧ (run interval stored b os).last = clk t := by
    induction os with
    | nil =>
      obtain ⟨e1, e2, _⟩ := set_fields ⟨false, decide (0 < stored.getD 0), 0, false, stored, []⟩ b
      refine ⟨0, ?_, Nat.le_refl _, Nat.zero_le _, e2⟩
      show (0, (boot stored b).raw) ∈ [(0, b)]
      rw [show (boot stored b).raw = b from e1]
      exact List.mem_cons_self
    | cons o os ih =>
      cases o with
      | pass t i =>
        obtain ⟨h1, h2, h3⟩ := h
        obtain ⟨l, m1, m2, m3, m4⟩ := ih h3
        show ∃ t', (t', (iterate interval (run interval stored b os) t i).raw) ∈ (t, i) :: seen b os ∧ t' ≤ t ∧ t ≤ t' + interval ∧ (iterate interval (run interval stored b os) t i).last = clk t'
        unfold iterate
        rw [m4, since_clk_eq _ _ (by omega) (by omega)]
        split
        · obtain ⟨e1, e2, _⟩ := set_fields { run interval stored b os with last := clk t } i
          exact ⟨t, by rw [e1]; exact List.mem_cons_self, Nat.le_refl _, by omega, e2⟩
        · exact ⟨l, List.mem_cons_of_mem _ m1, by omega, by omega, m4⟩
      | config a c d =>
        obtain ⟨l, m1, m2, m3, m4⟩ := ih h
        obtain ⟨e1, e2, _⟩ := config_fields (run interval stored b os) a c d
        exact ⟨l, by show (l, (config _ a c d).raw) ∈ _; rw [e1]; exact m1, m2, m3, by show (config _ a c d).last = _; rw [e2, m4]⟩
      | finished =>
        obtain ⟨l, m1, m2, m3, m4⟩ := ih h
        obtain ⟨e1, e2, _⟩ := finished_fields (run interval stored b os)
        exact ⟨l, by show (l, (finished _).raw) ∈ _; rw [e1]; exact m1, m2, m3, by show (finished _).last = _; rw [e2, m4]⟩
      | registered => exact ih h
  obtain ⟨t, h1, _, h3, _⟩ := key
  exact ⟨t, h1, h3⟩

/-- An input that has not changed for the reading interval is told as it is. -/
theorem steady (interval g : Nat) (hi : interval + g < 2 ^ 32) (stored : Option Nat) (b : Bool) (os : List Op) (h : Paced g os) (v : Bool)
    (hs : ∀ x ∈ seen b os, time os ≤ x.1 + interval → x.2 = v) : (run interval stored b os).raw = v := by
  obtain ⟨t, h1, h2⟩ := follows interval g hi stored b os h
  exact hs _ h1 h2

example : Paced 60 [.pass 240 true, .pass 180 true, .pass 120 false, .pass 60 false] := by simp [Paced, time]
example : (run 100 none false [.pass 240 true, .pass 180 true, .pass 120 false, .pass 60 false]).raw = true := by decide +kernel
example : (run 100 none false [.pass 240 true, .pass 180 true, .pass 120 false, .pass 60 false]).events = [true] := by decide +kernel

/-! ## The inversion -/

theorem got_iff (interval : Nat) (stored : Option Nat) (b : Bool) (os : List Op) : (run interval stored b os).got = true ↔ answered os := by
  induction os with
  | nil =>
    obtain ⟨_, _, _, _, e⟩ := set_fields ⟨false, decide (0 < stored.getD 0), 0, false, stored, []⟩ b
    show (boot stored b).got = true ↔ False
    rw [show (boot stored b).got = false from e]
    simp
  | cons o os ih =>
    cases o with
    | pass t i =>
      show (iterate interval (run interval stored b os) t i).got = true ↔ answered os
      rw [← ih]
      unfold iterate
      split
      · rw [(set_fields _ i).2.2.2.2]
      · rfl
    | config ty sz inv =>
      show (config (run interval stored b os) ty sz inv).got = true ↔ carries ty sz ∨ answered os
      rw [← ih]
      unfold config carries
      by_cases h1 : ty = 0
      · rw [if_neg (fun h => h h1)]
        by_cases h2 : sz < 32
        · rw [if_pos h2]; constructor
          · exact Or.inr
          · rintro (⟨_, h⟩ | h)
            · omega
            · exact h
        · rw [if_neg h2]; exact ⟨fun _ => Or.inl ⟨h1, by omega⟩, fun _ => rfl⟩
      · rw [if_pos h1]; constructor
        · exact Or.inr
        · rintro (⟨h, _⟩ | h)
          · exact absurd h h1
          · exact h
    | finished =>
      show (finished (run interval stored b os)).got = true ↔ True
      unfold finished
      split
      · rename_i h; simp [h]
      · simp [config]
    | registered =>
      show false = true ↔ False
      simp

/-- **C99.** The inversion is what the user has set, before that what was stored when the device was switched on; and
it is what is stored. -/
theorem inversion (interval : Nat) (stored : Option Nat) (b : Bool) (os : List Op) :
    wish (decide (0 < stored.getD 0)) os (run interval stored b os).inv ∧ (run interval stored b os).inv = decide (0 < (run interval stored b os).stored.getD 0) := by
  induction os with
  | nil =>
    obtain ⟨_, _, e1, e2, _⟩ := set_fields ⟨false, decide (0 < stored.getD 0), 0, false, stored, []⟩ b
    have e1 : (boot stored b).inv = decide (0 < stored.getD 0) := e1
    have e2 : (boot stored b).stored = stored := e2
    exact ⟨e1, by show (boot stored b).inv = decide (0 < (boot stored b).stored.getD 0); rw [e1, e2]⟩
  | cons o os ih =>
    obtain ⟨i1, i2⟩ := ih
    have hst : ∀ n : Nat, decide (0 < (some (if 0 < n then 1 else 0) : Option Nat).getD 0) = decide (0 < n) := by
      intro n
      show decide (0 < (if 0 < n then 1 else 0)) = _
      split <;> simp [*]
    cases o with
    | pass t i =>
      have hf : (iterate interval (run interval stored b os) t i).inv = (run interval stored b os).inv ∧ (iterate interval (run interval stored b os) t i).stored = (run interval stored b os).stored := by
        unfold iterate
        split
        · have := set_fields { run interval stored b os with last := clk t } i
          exact ⟨this.2.2.1, this.2.2.2.1⟩
        · exact ⟨rfl, rfl⟩
      show wish _ os (iterate interval (run interval stored b os) t i).inv ∧ (iterate interval (run interval stored b os) t i).inv = decide (0 < (iterate interval (run interval stored b os) t i).stored.getD 0)
      rw [hf.1, hf.2]
      exact ⟨i1, i2⟩
    | config ty sz inv =>
      show ((carries ty sz ∧ (config (run interval stored b os) ty sz inv).inv = decide (0 < inv)) ∨ (¬ carries ty sz ∧ wish _ os (config (run interval stored b os) ty sz inv).inv)) ∧
        (config (run interval stored b os) ty sz inv).inv = decide (0 < (config (run interval stored b os) ty sz inv).stored.getD 0)
      unfold config carries
      by_cases h1 : ty = 0
      · rw [if_neg (fun h => h h1)]
        by_cases h2 : sz < 32
        · rw [if_pos h2]; exact ⟨Or.inr ⟨fun h => by omega, i1⟩, i2⟩
        · rw [if_neg h2]; exact ⟨Or.inl ⟨⟨h1, by omega⟩, rfl⟩, (hst inv).symm⟩
      · rw [if_pos h1]; exact ⟨Or.inr ⟨fun h => h1 h.1, i1⟩, i2⟩
    | finished =>
      show ((¬ answered os ∧ (finished (run interval stored b os)).inv = false) ∨ (answered os ∧ wish _ os (finished (run interval stored b os)).inv)) ∧
        (finished (run interval stored b os)).inv = decide (0 < (finished (run interval stored b os)).stored.getD 0)
      have hg := got_iff interval stored b os
      unfold finished
      split
      · rename_i h; exact ⟨Or.inr ⟨hg.mp h, i1⟩, i2⟩
      · rename_i h; exact ⟨Or.inl ⟨fun ha => h (hg.mpr ha), rfl⟩, rfl⟩
    | registered => exact ⟨i1, i2⟩

/-- The inversion outlives a restart. -/
theorem restart (interval : Nat) (stored : Option Nat) (b b' : Bool) (os : List Op) :
    (boot (run interval stored b os).stored b').inv = (run interval stored b os).inv := by
  obtain ⟨_, _, e, _⟩ := set_fields ⟨false, decide (0 < (run interval stored b os).stored.getD 0), 0, false, (run interval stored b os).stored, []⟩ b'
  rw [(inversion interval stored b os).2]
  exact e

example : (run 100 none false [.finished, .config 0 32 1, .registered]).inv = true := by decide +kernel
example : (run 100 (some 1) false [.finished, .config 0 0 0, .registered]).inv = false := by decide +kernel

/-! ## Events -/

/-- The full claim: the last turn-on or turn-off event, none counting as turned off, tells the state of the sensor as
the device itself and MQTT see it. -/
def EventsTell : Prop := ∀ interval stored b os, (run interval stored b os).events.headD false = (run interval stored b os).value

/-- **C99.** As long as the server does not touch the inversion, every event tells the state: the newest event, if there
is any, is the state, and events alternate. -/
theorem events_tell_partial (interval : Nat) (stored : Option Nat) (b : Bool) (os : List Op) (h : Quiet os) :
    (∀ e es, (run interval stored b os).events = e :: es → e = (run interval stored b os).value) ∧
    (run interval stored b os).inv = decide (0 < stored.getD 0) ∧
    List.IsChain (fun x y => x = !y) (run interval stored b os).events ∧
    ((run interval stored b os).events = [] → (run interval stored b os).raw = false) := by
  have hset : ∀ (s : St) (v : Bool), (∀ e es, s.events = e :: es → e = s.value) → List.IsChain (fun x y => x = !y) s.events → (s.events = [] → s.raw = false) →
      (∀ e es, (set s v).events = e :: es → e = (set s v).value) ∧ List.IsChain (fun x y => x = !y) (set s v).events ∧ ((set s v).events = [] → (set s v).raw = false) := by
    intro s v h1 h2 h3
    unfold set
    split
    · exact ⟨h1, h2, h3⟩
    · rename_i hne
      refine ⟨?_, ?_, fun h => by cases h⟩
      · intro e es he
        have := (List.cons.inj he).1
        rw [← this]
        rfl
      · show List.IsChain _ ((if s.inv then !v else v) :: s.events)
        cases hev : s.events with
        | nil => exact List.IsChain.singleton _
        | cons y ys =>
          rw [hev] at h2
          refine List.isChain_cons_cons.mpr ⟨?_, h2⟩
          have := h1 y ys hev
          rw [this]
          unfold St.value
          revert hne
          cases s.inv <;> cases s.raw <;> cases v <;> simp
  induction os with
  | nil =>
    have := hset ⟨false, decide (0 < stored.getD 0), 0, false, stored, []⟩ b (fun _ _ h => by cases h) List.IsChain.nil (fun _ => rfl)
    obtain ⟨_, _, e, _⟩ := set_fields ⟨false, decide (0 < stored.getD 0), 0, false, stored, []⟩ b
    exact ⟨this.1, e, this.2.1, this.2.2⟩
  | cons o os ih =>
    cases o with
    | pass t i =>
      obtain ⟨i1, i2, i3, i4⟩ := ih h
      show (∀ e es, (iterate interval (run interval stored b os) t i).events = e :: es → e = (iterate interval (run interval stored b os) t i).value) ∧
        (iterate interval (run interval stored b os) t i).inv = _ ∧ List.IsChain _ (iterate interval (run interval stored b os) t i).events ∧ _
      have hf : iterate interval (run interval stored b os) t i = run interval stored b os ∨
          iterate interval (run interval stored b os) t i = set { run interval stored b os with last := clk t } i := by
        unfold iterate; split
        · exact Or.inr rfl
        · exact Or.inl rfl
      rcases hf with hf | hf
      · refine ⟨?_, ?_, ?_, ?_⟩
        · rw [hf]; exact i1
        · rw [hf]; exact i2
        · rw [hf]; exact i3
        · show (iterate interval (run interval stored b os) t i).events = [] → (iterate interval (run interval stored b os) t i).raw = false
          rw [hf]; exact i4
      · have hs := hset { run interval stored b os with last := clk t } i i1 i3 i4
        have he := (set_fields { run interval stored b os with last := clk t } i).2.2.1
        refine ⟨?_, ?_, ?_, ?_⟩
        · rw [hf]; exact hs.1
        · rw [hf, he]; exact i2
        · rw [hf]; exact hs.2.1
        · show (iterate interval (run interval stored b os) t i).events = [] → (iterate interval (run interval stored b os) t i).raw = false
          rw [hf]; exact hs.2.2
    | config ty sz inv =>
      obtain ⟨hn, hq⟩ := h
      have hf : run interval stored b (.config ty sz inv :: os) = run interval stored b os := by
        show config _ ty sz inv = _
        unfold config
        by_cases h1 : ty = 0
        · rw [if_neg (fun h => h h1), if_pos (by unfold carries at hn; by_contra hc; exact hn ⟨h1, by omega⟩)]
        · rw [if_pos h1]
      rw [hf]
      exact ih hq
    | finished =>
      obtain ⟨ha, hq⟩ := h
      have hf : run interval stored b (.finished :: os) = run interval stored b os := by
        show finished _ = _
        unfold finished
        rw [if_pos ((got_iff interval stored b os).mpr ha)]
      rw [hf]
      exact ih hq
    | registered => exact ih h

/-- With no inversion at all, the last event tells the state, also if there was none. -/
theorem events_tell_plain (interval : Nat) (b : Bool) (os : List Op) (h : Quiet os) : (run interval none b os).events.headD false = (run interval none b os).value := by
  obtain ⟨h1, h2, _, h4⟩ := events_tell_partial interval none b os h
  cases he : (run interval none b os).events with
  | nil =>
    show false = _
    unfold St.value
    rw [h2, h4 he]
    rfl
  | cons e es => exact h1 e es he

/-- **Finding.** The server inverts the sensor: the state as the device sees it changes, but no event is run. -/
theorem inversion_silent (s : St) (n : Nat) (hn : s.inv ≠ decide (0 < n)) : (config s 0 32 n).value = !s.value ∧ (config s 0 32 n).events = s.events := by
  refine ⟨?_, (config_fields s 0 32 n).2.2⟩
  show (if decide (0 < n) then !s.raw else s.raw) = !(if s.inv then !s.raw else s.raw)
  revert hn
  cases s.inv <;> cases hd : decide (0 < n) <;> cases s.raw <;> simp

/-- **Finding.** So the events do not tell the state. -/
theorem inversion_violation : ¬ EventsTell := by
  intro h
  exact absurd (h 100 none true [.config 0 32 1, .registered]) (by decide +kernel)

/-- **Finding.** An inverted sensor whose input is low when the device is switched on is on, but nothing is switched on. -/
theorem boot_violation : ¬ ∀ interval stored b os, Quiet os → (run interval stored b os).events.headD false = (run interval stored b os).value := by
  intro h
  exact absurd (h 100 (some 1) false [] trivial) (by decide +kernel)

example : Quiet [.pass 300 true, .config 0 0 0, .config 1 64 1, .registered, .pass 101 false] := by simp [Quiet, carries]
example : (run 100 (some 1) true [.pass 303 true, .pass 202 false, .pass 101 true]).events = [false, true, false] := by decide +kernel

end Verif.Binary
