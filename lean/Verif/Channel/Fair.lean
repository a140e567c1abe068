import Verif.Common.Clock

/-
Who may send: the round robin of the main loop and the rate limit of the elements.

Models src/supla/element.cpp lines 154-173 (`Element::iterateConnected`) and
src/SuplaDevice.cpp lines 434-454 (the loop over the elements with `iterateConnectedPtr`).

Simplifications: every element has one channel; the elements of one pass read the same clock
value; no element is created or destroyed between the passes.
-/

namespace Verif.Channel

open Verif

/-- The scheduler: which elements have an update pending (in list order), the clock reading of the
    last message of any channel (`Channel::lastCommunicationTimeMs` is a static member, channel.h
    line 218), and the position `iterateConnectedPtr` (the length of the list is the null
    pointer). -/
structure Sched where
  pend : List Bool
  last : Nat := 0
  ptr : Nat := 0
deriving DecidableEq, Repr

/-- One pass of the loop from element `i`, with the given number of elements left: the first element that
    sends ends the pass.  Answers the new state and the element that sent. -/
def scan (now : Nat) (s : Sched) : Nat → Nat → Sched × Option Nat
  | 0, _ => ({ s with ptr := s.pend.length }, none)
  | left + 1, i =>
    if s.pend[i]? = some true ∧ since now s.last > 50 then
      ({ pend := s.pend.set i false, last := now, ptr := i + 1 }, some i)
    else scan now s left (i + 1)

/-- The loop: start at the stored element, or at the first one if it is null. -/
def pass (now : Nat) (s : Sched) : Sched × Option Nat :=
  let start := if s.ptr < s.pend.length then s.ptr else 0
  scan now s (s.pend.length - start) start

/-- The program marks channels for sending (value changes), between the passes. -/
def mark (s : Sched) (m : Nat → Bool) : Sched :=
  { s with pend := s.pend.mapIdx (fun i b => b || m i) }

/-- A schedule: for every pass its time and the elements marked just before it. -/
structure Plan where
  time : Nat → Nat
  marks : Nat → Nat → Bool

/-- State before pass `k` (before its marks), starting from `s`. -/
def at_ (s : Sched) (p : Plan) : Nat → Sched
  | 0 => s
  | k + 1 => (pass (clk (p.time k)) (mark (at_ s p k) (p.marks k))).1

/-- The element that sends in pass `k`. -/
def sentIn (s : Sched) (p : Plan) (k : Nat) : Option Nat :=
  (pass (clk (p.time k)) (mark (at_ s p k) (p.marks k))).2

/-- Element `i` has an update pending when pass `k` begins. -/
def pendingIn (s : Sched) (p : Plan) (k i : Nat) : Prop :=
  (mark (at_ s p k) (p.marks k)).pend[i]? = some true

/-! ### Specification -/

/-- Time goes on from pass to pass. -/
def Plan.advances (p : Plan) : Prop := ∀ k, p.time k < p.time (k + 1)

/-- The full claim: whatever the other channels do, a pending update is sent eventually. -/
def EveryUpdateSent : Prop :=
  ∀ (n : Nat) (p : Plan) (k i : Nat), p.advances →
    pendingIn { pend := List.replicate n false } p k i →
    ∃ m, k ≤ m ∧ sentIn { pend := List.replicate n false } p m = some i

/-! ### Lemmas -/

theorem scan_length (now : Nat) (s : Sched) : ∀ left i, (scan now s left i).1.pend.length = s.pend.length := by
  intro left
  induction left with
  | zero => intro i; rfl
  | succ l ih =>
    intro i
    simp only [scan]
    split
    · simp
    · exact ih (i + 1)

theorem pass_length (now : Nat) (s : Sched) : (pass now s).1.pend.length = s.pend.length :=
  scan_length now s _ _

theorem mark_length (s : Sched) (m) : (mark s m).pend.length = s.pend.length := by simp [mark]

theorem at_length (s : Sched) (p : Plan) (k : Nat) : (at_ s p k).pend.length = s.pend.length := by
  induction k with
  | zero => rfl
  | succ k ih => simp only [at_]; rw [pass_length, mark_length, ih]

/-- Outcome of a scan when sending is allowed: the first pending element from `i` on sends. -/
theorem scan_allowed (now : Nat) (s : Sched) (ha : since now s.last > 50) : ∀ left i,
    (∃ j, i ≤ j ∧ j < i + left ∧ s.pend[j]? = some true ∧
      (∀ x, i ≤ x → x < j → s.pend[x]? ≠ some true) ∧
      scan now s left i = ({ pend := s.pend.set j false, last := now, ptr := j + 1 }, some j)) ∨
    ((∀ x, i ≤ x → x < i + left → s.pend[x]? ≠ some true) ∧
      scan now s left i = ({ s with ptr := s.pend.length }, none)) := by
  intro left
  induction left with
  | zero => intro i; right; exact ⟨by intro x h1 h2; omega, rfl⟩
  | succ l ih =>
    intro i
    simp only [scan]
    by_cases hp : s.pend[i]? = some true
    · left
      refine ⟨i, by omega, by omega, hp, by intro x h1 h2; omega, ?_⟩
      rw [if_pos ⟨hp, ha⟩]
    · rw [if_neg (by intro h; exact hp h.1)]
      rcases ih (i + 1) with ⟨j, h1, h2, h3, h4, h5⟩ | ⟨h1, h2⟩
      · left
        refine ⟨j, by omega, by omega, h3, ?_, h5⟩
        intro x hx1 hx2
        by_cases he : x = i
        · rw [he]; exact hp
        · exact h4 x (by omega) hx2
      · right
        refine ⟨?_, h2⟩
        intro x hx1 hx2
        by_cases he : x = i
        · rw [he]; exact hp
        · exact h1 x (by omega) (by omega)

/-- Outcome of a scan when sending is not allowed: nothing is sent. -/
theorem scan_blocked (now : Nat) (s : Sched) (hb : ¬ since now s.last > 50) : ∀ left i,
    scan now s left i = ({ s with ptr := s.pend.length }, none) := by
  intro left
  induction left with
  | zero => intro i; rfl
  | succ l ih =>
    intro i
    simp only [scan]
    rw [if_neg (by intro h; exact hb h.2)]
    exact ih (i + 1)

theorem pass_blocked (now : Nat) (s : Sched) (hb : ¬ since now s.last > 50) :
    pass now s = ({ s with ptr := s.pend.length }, none) := scan_blocked now s hb _ _

/-- Only a pending element sends, and then nothing is pending for it. -/
theorem pass_sends (now : Nat) (s : Sched) (i : Nat) (h : (pass now s).2 = some i) :
    s.pend[i]? = some true ∧ (pass now s).1.pend[i]? = some false ∧ (pass now s).1.last = now ∧
    since now s.last > 50 := by
  by_cases ha : since now s.last > 50
  · unfold pass at h ⊢
    simp only at h ⊢
    rcases scan_allowed now s ha (s.pend.length - (if s.ptr < s.pend.length then s.ptr else 0))
      (if s.ptr < s.pend.length then s.ptr else 0) with ⟨j, _, _, h3, _, h5⟩ | ⟨_, h2⟩
    · rw [h5] at h ⊢
      injection h with h
      subst h
      refine ⟨h3, ?_, rfl, ha⟩
      have hl : j < s.pend.length := by
        rw [List.getElem?_eq_some_iff] at h3; exact h3.1
      simp [hl]
    · rw [h2] at h; cases h
  · rw [pass_blocked now s ha] at h; cases h

/-- What happens to another pending element in a pass: it stays pending, and the position is after
    some element that sent before it, or null. -/
theorem pass_allowed_pending (now : Nat) (s : Sched) (ha : since now s.last > 50) (i : Nat)
    (hp : s.pend[i]? = some true) :
    (pass now s).2 = some i ∨
    ((pass now s).1.pend[i]? = some true ∧
      ((s.ptr ≤ i ∨ s.pend.length ≤ s.ptr) →
          (if s.ptr < s.pend.length then s.ptr else 0) < (pass now s).1.ptr ∧ (pass now s).1.ptr ≤ i) ∧
      (i < s.ptr → s.ptr < s.pend.length →
          s.ptr < (pass now s).1.ptr ∧ (pass now s).1.ptr ≤ s.pend.length)) := by
  have hi : i < s.pend.length := by rw [List.getElem?_eq_some_iff] at hp; exact hp.1
  have key : ∀ start, start ≤ s.pend.length →
      (scan now s (s.pend.length - start) start).2 = some i ∨
      ((scan now s (s.pend.length - start) start).1.pend[i]? = some true ∧
        (start ≤ i → start < (scan now s (s.pend.length - start) start).1.ptr ∧
          (scan now s (s.pend.length - start) start).1.ptr ≤ i) ∧
        (i < start → start < s.pend.length → start < (scan now s (s.pend.length - start) start).1.ptr ∧
          (scan now s (s.pend.length - start) start).1.ptr ≤ s.pend.length)) := by
    intro start hst
    rcases scan_allowed now s ha (s.pend.length - start) start with ⟨j, h1, h2, h3, h4, h5⟩ | ⟨h1, h2⟩
    · rw [h5]
      by_cases hji : j = i
      · subst hji; exact Or.inl rfl
      · right
        have hji' : i < start ∨ j < i := by
          by_cases h : i < start
          · exact Or.inl h
          · right
            by_cases h' : j < i
            · exact h'
            · exact absurd hp (h4 i (by omega) (by omega))
        refine ⟨?_, ?_, ?_⟩
        · simp only
          rw [List.getElem?_set_ne hji]; exact hp
        · intro h
          simp only
          omega
        · intro h1' h2'
          simp only
          omega
    · right
      rw [h2]
      refine ⟨hp, ?_, ?_⟩
      · intro h; exact absurd hp (h1 i h (by omega))
      · intro h1' h2'; exact ⟨h2', by simp⟩
  unfold pass
  simp only
  by_cases hs : s.ptr < s.pend.length
  · rw [if_pos hs]
    rcases key s.ptr (by omega) with h | ⟨h1, h2, h3⟩
    · exact Or.inl h
    · right
      refine ⟨h1, ?_, fun a b => h3 a b⟩
      intro h
      exact h2 (by omega)
  · rw [if_neg hs]
    rcases key 0 (by omega) with h | ⟨h1, h2, h3⟩
    · exact Or.inl h
    · right
      refine ⟨h1, fun _ => h2 (by omega), ?_⟩
      intro _ h; exact absurd h hs

theorem mark_keeps (s : Sched) (m) (i : Nat) (h : s.pend[i]? = some true) :
    (mark s m).pend[i]? = some true := by
  simp [mark, h]

/-- The time of the last message changes only to the time of the pass. -/
theorem last_step (s : Sched) (p : Plan) (k : Nat) :
    ((at_ s p (k + 1)).last = (at_ s p k).last ∧ sentIn s p k = none) ∨
    ((at_ s p (k + 1)).last = clk (p.time k) ∧ sentIn s p k ≠ none) := by
  unfold sentIn
  simp only [at_]
  generalize at_ s p k = st
  generalize clk (p.time k) = now
  cases h : (pass now (mark st (p.marks k))).2 with
  | none =>
    left
    refine ⟨?_, rfl⟩
    by_cases ha : since now (mark st (p.marks k)).last > 50
    · unfold pass at h ⊢
      simp only at h ⊢
      rcases scan_allowed now (mark st (p.marks k)) ha _ _ with ⟨j, _, _, _, _, h5⟩ | ⟨_, h2⟩
      · rw [h5] at h; cases h
      · rw [h2]; rfl
    · rw [pass_blocked _ _ ha]; rfl
  | some i =>
    right
    exact ⟨(pass_sends _ _ i h).2.2.1, by intro e; cases e⟩

theorem Plan.advances.mono {p : Plan} (h : p.advances) {a b : Nat} (hab : a ≤ b) :
    p.time a ≤ p.time b := by
  induction b with
  | zero => have : a = 0 := by omega
            subst this; exact Nat.le_refl _
  | succ b ih =>
    by_cases he : a = b + 1
    · subst he; exact Nat.le_refl _
    · have := ih (by omega)
      have := h b
      omega

/-! ### Theorems -/

/-- Messages are never sent less than 51 ms apart, whatever the schedule. -/
theorem rate_limit (n : Nat) (p : Plan) (hp : p.advances) (k m i j : Nat) (hkm : k < m)
    (hk : sentIn { pend := List.replicate n false } p k = some i)
    (hm : sentIn { pend := List.replicate n false } p m = some j) : p.time k + 50 < p.time m := by
  have hl : ∀ d, ∃ x, k ≤ x ∧ x ≤ k + d ∧
      (at_ { pend := List.replicate n false } p (k + d + 1)).last = clk (p.time x) := by
    intro d
    induction d with
    | zero =>
      rcases last_step { pend := List.replicate n false } p k with ⟨_, h⟩ | ⟨h, _⟩
      · rw [hk] at h; cases h
      · exact ⟨k, by omega, by omega, h⟩
    | succ d ih =>
      obtain ⟨x, h1, h2, h3⟩ := ih
      rcases last_step { pend := List.replicate n false } p (k + d + 1) with ⟨h, _⟩ | ⟨h, _⟩
      · exact ⟨x, h1, by omega, h.trans h3⟩
      · exact ⟨k + d + 1, by omega, by omega, h⟩
  obtain ⟨x, h1, h2, h3⟩ := hl (m - k - 1)
  rw [show k + (m - k - 1) + 1 = m by omega] at h3
  have ha := (pass_sends _ _ j hm).2.2.2
  have ha' : since (clk (p.time m)) (clk (p.time x)) > 50 := by rw [← h3]; exact ha
  have hxm : p.time x ≤ p.time m := hp.mono (by omega)
  have := since_clk_le (p.time m) (p.time x) hxm
  have := hp.mono h1
  omega

/-- A schedule: passes 20 ms apart, all three channels change all the time. -/
def busy : Plan := { time := fun k => 100 + 20 * k, marks := fun _ _ => true }

example : busy.advances ∧ sentIn { pend := List.replicate 3 false } busy 0 = some 0 ∧
    sentIn { pend := List.replicate 3 false } busy 3 = some 0 :=
  ⟨by intro k; simp only [busy]; omega, by decide +kernel, by decide +kernel⟩

/-- How many passes the update of element `i` may have to wait. -/
def wait (ptr i n : Nat) : Nat :=
  if ptr ≤ i then i - ptr + 1 else if ptr < n then n - ptr + i + 1 else i + 1

theorem sent_within_aux (s : Sched) (p : Plan) (i : Nat) : ∀ d k,
    pendingIn s p k i → wait (at_ s p k).ptr i s.pend.length ≤ d →
    (∀ m, k ≤ m → m < k + d → since (clk (p.time m)) (at_ s p m).last > 50) →
    ∃ m, k ≤ m ∧ m < k + d ∧ sentIn s p m = some i := by
  intro d
  induction d with
  | zero =>
    intro k _ hw _
    unfold wait at hw
    exfalso
    revert hw
    repeat' split
    all_goals omega
  | succ d ih =>
    intro k hp hw ha
    have hlen : (mark (at_ s p k) (p.marks k)).pend.length = s.pend.length := by
      rw [mark_length, at_length]
    have hi : i < s.pend.length := by
      have := hp
      unfold pendingIn at this
      rw [List.getElem?_eq_some_iff] at this
      rw [← hlen]; exact this.1
    rcases pass_allowed_pending (clk (p.time k)) (mark (at_ s p k) (p.marks k))
      (ha k (by omega) (by omega)) i hp with h | ⟨h1, h2, h3⟩
    · exact ⟨k, by omega, by omega, h⟩
    · have hptr : (mark (at_ s p k) (p.marks k)).ptr = (at_ s p k).ptr := rfl
      rw [hlen, hptr] at h2 h3
      have hnext : (pass (clk (p.time k)) (mark (at_ s p k) (p.marks k))).1 = at_ s p (k + 1) := rfl
      rw [hnext] at h1 h2 h3
      have hp' : pendingIn s p (k + 1) i := mark_keeps _ _ _ h1
      have hw' : wait (at_ s p (k + 1)).ptr i s.pend.length ≤ d := by
        revert hw h2 h3
        generalize (at_ s p k).ptr = a
        generalize (at_ s p (k + 1)).ptr = b
        generalize s.pend.length = n at *
        intro hw h2 h3
        unfold wait at *
        by_cases c1 : a ≤ i
        · have := h2 (Or.inl c1)
          rw [if_pos c1] at hw
          rw [if_pos (show a < n by omega)] at this
          rw [if_pos this.2]
          omega
        · by_cases c2 : a < n
          · have := h3 (by omega) c2
            rw [if_neg c1, if_pos c2] at hw
            rw [if_neg (by omega)]
            split <;> omega
          · have := h2 (Or.inr (by omega))
            rw [if_neg c1, if_neg c2] at hw
            rw [if_neg c2] at this
            rw [if_pos this.2]
            omega
      obtain ⟨m, g1, g2, g3⟩ := ih (k + 1) hp' hw' (fun m hm1 hm2 => ha m (by omega) (by omega))
      exact ⟨m, by omega, by omega, g3⟩

/-- With passes more than 50 ms apart, a pending update is sent within as many passes as there are
    elements, whatever the other channels do.  (`L` is the time of the last message before; the
    clock must not wrap around completely while waiting.)
    Missing for the full claim: faster passes, see the violation. -/
theorem every_update_sent_partial (n : Nat) (p : Plan) (k i L : Nat)
    (hpend : pendingIn { pend := List.replicate n false } p k i)
    (hgap : ∀ m, p.time m + 50 < p.time (m + 1))
    (hlast : (at_ { pend := List.replicate n false } p k).last = clk L) (hL : L + 50 < p.time k)
    (hwrap : p.time (k + n) < L + 2 ^ 32) :
    ∃ m, k ≤ m ∧ m < k + n ∧ sentIn { pend := List.replicate n false } p m = some i := by
  have hadv : p.advances := fun m => by have := hgap m; omega
  have hlen : (List.replicate n false).length = n := by simp
  have hi : i < n := by
    have := hpend
    unfold pendingIn at this
    rw [List.getElem?_eq_some_iff] at this
    obtain ⟨h, _⟩ := this
    rw [mark_length, at_length] at h
    simpa using h
  have hl : ∀ d, ∃ L', L ≤ L' ∧ L' + 50 < p.time (k + d) ∧
      (at_ { pend := List.replicate n false } p (k + d)).last = clk L' := by
    intro d
    induction d with
    | zero => exact ⟨L, by omega, hL, hlast⟩
    | succ d ih =>
      obtain ⟨L', h1, h2, h3⟩ := ih
      have hg := hgap (k + d)
      rcases last_step { pend := List.replicate n false } p (k + d) with ⟨h, _⟩ | ⟨h, _⟩
      · exact ⟨L', h1, by rw [← Nat.add_assoc]; omega, by rw [← Nat.add_assoc, h, h3]⟩
      · exact ⟨p.time (k + d), by omega, by rw [← Nat.add_assoc]; omega, by rw [← Nat.add_assoc, h]⟩
  obtain ⟨m, h1, h2, h3⟩ := sent_within_aux { pend := List.replicate n false } p i n k hpend
    (by
      rw [show ({ pend := List.replicate n false } : Sched).pend.length = n from hlen]
      unfold wait
      repeat' split
      all_goals omega)
    (by
      intro m hm1 hm2
      obtain ⟨L', g1, g2, g3⟩ := hl (m - k)
      rw [show k + (m - k) = m by omega] at g2 g3
      rw [g3, since_clk_eq _ _ (by omega) (by
        have : p.time m ≤ p.time (k + n) := hadv.mono (by omega)
        omega)]
      omega)
  exact ⟨m, h1, h2, h3⟩

/-- A slow loop, 60 ms per pass, all three channels busy: every one gets its turn. -/
def slow : Plan := { time := fun k => 100 + 60 * k, marks := fun _ _ => true }

example : pendingIn { pend := List.replicate 3 false } slow 0 2 ∧
    (∀ m, slow.time m + 50 < slow.time (m + 1)) ∧
    (at_ { pend := List.replicate 3 false } slow 0).last = clk 0 ∧ 0 + 50 < slow.time 0 ∧
    slow.time (0 + 3) < 0 + 2 ^ 32 ∧
    sentIn { pend := List.replicate 3 false } slow 2 = some 2 :=
  ⟨by unfold pendingIn; decide +kernel, by intro m; simp only [slow]; omega, rfl, by decide,
   by decide, by decide +kernel⟩

/-- Starvation: when the first element has a new update at every pass and the passes are at most
    50 ms apart, no other element ever sends, however many passes there are. -/
theorem first_element_starves_the_rest (n : Nat) (hn : 0 < n) (p : Plan) (hadv : p.advances)
    (hgap : ∀ k, p.time (k + 1) ≤ p.time k + 50) (hfirst : ∀ k, p.marks k 0 = true) :
    ∀ k i, sentIn { pend := List.replicate n false } p k = some i → i = 0 := by
  have hstep : ∀ k (st : Sched), st.pend.length = n →
      (st.ptr = 0 ∨ n ≤ st.ptr ∨ (st.ptr = 1 ∧ ¬ since (clk (p.time k)) st.last > 50)) →
      (∀ i, (pass (clk (p.time k)) (mark st (p.marks k))).2 = some i → i = 0) ∧
      ((pass (clk (p.time k)) (mark st (p.marks k))).1.ptr = 0 ∨
       n ≤ (pass (clk (p.time k)) (mark st (p.marks k))).1.ptr ∨
       ((pass (clk (p.time k)) (mark st (p.marks k))).1.ptr = 1 ∧
        ¬ since (clk (p.time (k + 1))) (pass (clk (p.time k)) (mark st (p.marks k))).1.last > 50)) := by
    intro k st hl hinv
    have hl' : (mark st (p.marks k)).pend.length = n := by rw [mark_length, hl]
    by_cases ha : since (clk (p.time k)) (mark st (p.marks k)).last > 50
    · have hptr : st.ptr = 0 ∨ n ≤ st.ptr := by
        rcases hinv with h | h | ⟨_, h⟩
        · exact Or.inl h
        · exact Or.inr h
        · exact absurd ha h
      have hstart : (if (mark st (p.marks k)).ptr < (mark st (p.marks k)).pend.length then
          (mark st (p.marks k)).ptr else 0) = 0 := by
        have : (mark st (p.marks k)).ptr = st.ptr := rfl
        rw [this, hl']
        split <;> omega
      have hpend : (mark st (p.marks k)).pend[0]? = some true := by
        have hlt : 0 < st.pend.length := by omega
        simp [mark, hlt, hfirst k]
      have hpass : pass (clk (p.time k)) (mark st (p.marks k)) =
          ({ pend := (mark st (p.marks k)).pend.set 0 false, last := clk (p.time k), ptr := 1 }, some 0) := by
        unfold pass
        simp only
        rw [hstart]
        obtain ⟨c, hc⟩ : ∃ c, (mark st (p.marks k)).pend.length - 0 = c + 1 := ⟨n - 1, by omega⟩
        rw [hc]
        simp only [scan]
        rw [if_pos ⟨hpend, ha⟩]
      rw [hpass]
      refine ⟨by intro i h; injection h with h; exact h.symm, Or.inr (Or.inr ⟨rfl, ?_⟩)⟩
      have h1 := hadv k
      have h2 := hgap k
      have := since_clk_le (p.time (k + 1)) (p.time k) (by omega)
      show ¬ since (clk (p.time (k + 1))) (clk (p.time k)) > 50
      omega
    · rw [pass_blocked _ _ ha]
      refine ⟨(by intro i h; cases h), Or.inr (Or.inl ?_)⟩
      show n ≤ (mark st (p.marks k)).pend.length
      omega
  have hinv : ∀ k, ((at_ { pend := List.replicate n false } p k).ptr = 0 ∨
      n ≤ (at_ { pend := List.replicate n false } p k).ptr ∨
      ((at_ { pend := List.replicate n false } p k).ptr = 1 ∧
        ¬ since (clk (p.time k)) (at_ { pend := List.replicate n false } p k).last > 50)) := by
    intro k
    induction k with
    | zero => exact Or.inl rfl
    | succ k ih => exact (hstep k _ (by rw [at_length]; simp) ih).2
  intro k i h
  exact (hstep k _ (by rw [at_length]; simp) (hinv k)).1 i h

/-- Violation of the full claim: with a loop of 20 ms and three busy channels the second one
    is never sent. -/
theorem starvation_violation : ¬ EveryUpdateSent := by
  intro h
  have hadv : busy.advances := by intro k; simp only [busy]; omega
  obtain ⟨m, _, hm⟩ := h 3 busy 0 1 hadv (by unfold pendingIn; decide +kernel)
  have := first_element_starves_the_rest 3 (by omega) busy hadv
    (by intro k; simp only [busy]; omega) (fun _ => rfl) m 1 hm
  omega

/-- As long as something is pending, of two consecutive passes later than 50 ms after the last
    message at least one sends: pending updates drain once the other channels are quiet. -/
theorem pending_drains (s : Sched) (p : Plan) (k j : Nat) (h2 : pendingIn s p (k + 1) j)
    (ha1 : since (clk (p.time k)) (at_ s p k).last > 50)
    (ha2 : since (clk (p.time (k + 1))) (at_ s p k).last > 50) :
    sentIn s p k ≠ none ∨ sentIn s p (k + 1) ≠ none := by
  by_cases hs : sentIn s p k = none
  · right
    rcases last_step s p k with ⟨hl, _⟩ | ⟨_, h⟩
    · -- nothing was sent, so the pass reached the end and the next one starts at the beginning
      have hptr : (at_ s p (k + 1)).ptr = s.pend.length := by
        have hlen : (mark (at_ s p k) (p.marks k)).pend.length = s.pend.length := by
          rw [mark_length, at_length]
        unfold sentIn at hs
        show (pass (clk (p.time k)) (mark (at_ s p k) (p.marks k))).1.ptr = _
        unfold pass at hs ⊢
        simp only at hs ⊢
        rcases scan_allowed (clk (p.time k)) (mark (at_ s p k) (p.marks k)) ha1 _ _ with
          ⟨x, _, _, _, _, h5⟩ | ⟨_, h5⟩
        · rw [h5] at hs; cases hs
        · rw [h5]; exact hlen
      have hlen : (mark (at_ s p (k + 1)) (p.marks (k + 1))).pend.length = s.pend.length := by
        rw [mark_length, at_length]
      unfold sentIn pass
      simp only
      have hpm : (mark (at_ s p (k + 1)) (p.marks (k + 1))).ptr = s.pend.length := hptr
      rw [hpm, hlen, if_neg (Nat.lt_irrefl _)]
      have ha2' : since (clk (p.time (k + 1))) (mark (at_ s p (k + 1)) (p.marks (k + 1))).last > 50 := by
        show since (clk (p.time (k + 1))) (at_ s p (k + 1)).last > 50
        rw [hl]; exact ha2
      rcases scan_allowed _ _ ha2' (s.pend.length - 0) 0 with ⟨x, _, _, _, _, h5⟩ | ⟨h5, _⟩
      · rw [h5]; intro h; cases h
      · have hj : j < s.pend.length := by
          have := h2
          unfold pendingIn at this
          rw [List.getElem?_eq_some_iff] at this
          rw [← hlen]; exact this.1
        exact absurd h2 (h5 j (by omega) (by omega))
    · exact absurd hs h
  · exact Or.inl hs

/-- After the first element fell silent, the others are sent. -/
def quiet : Plan := { time := fun k => 100 + 60 * k, marks := fun k i => k == 0 && decide (i < 2) }

example : pendingIn { pend := List.replicate 2 false } quiet 1 1 ∧
    since (clk (quiet.time 0)) (at_ { pend := List.replicate 2 false } quiet 0).last > 50 ∧
    since (clk (quiet.time 1)) (at_ { pend := List.replicate 2 false } quiet 0).last > 50 ∧
    sentIn { pend := List.replicate 2 false } quiet 1 = some 1 :=
  ⟨by unfold pendingIn; decide +kernel, by decide +kernel, by decide +kernel, by decide +kernel⟩

end Verif.Channel
