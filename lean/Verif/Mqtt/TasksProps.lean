import Verif.Mqtt.Tasks

/-!
# MQTT on ESP-IDF: two tasks — properties

The specification: which task touches the state of the device (`mainInside`, `clientInside`), and what has been sent over the present connection.
-/

namespace Verif.Mqtt.Tasks

/-! ## Specification -/

/-- The main task is executing code of the device (it is not waiting for a lock nor inside the client). -/
def mainInside : M → Bool
  | .work | .sync3 | .setup _ => true
  | _ => false

/-- The client's task is executing code of the device. -/
def clientInside : T → Bool
  | .ev3 _ | .body => true
  | _ => false

/-- A handler has been begun and has not come to its end. -/
def handling : T → Bool
  | .ev2 _ | .ev3 _ | .body | .hp | .out => true
  | _ => false

/-- A new connection has been reported to the handler but not yet been taken note of. -/
def announced : T → Bool
  | .ev1 .up | .ev2 .up | .ev3 .up => true
  | _ => false

/-- Steps without anything new happening: the main task goes on until it is back in the rest of the program, the client's task goes on. -/
def Progress (s s' : W) : Prop := (s.m ≠ .work ∧ MainStep s s') ∨ ClientStep s s'

/-- A sequence of such steps. -/
inductive Steps : Nat → W → W → Prop
  | nil (s : W) : Steps 0 s s
  | cons (k : Nat) (s s' s'' : W) : Progress s s' → Steps k s' s'' → Steps (k + 1) s s''

/-! ## The invariant -/

/-- Where the main task has `mutexEventHandler`. -/
def mMeh : M → Bool
  | .sync2 | .sync3 => true
  | _ => false

/-- Where the main task has the client's lock. -/
def mApi : M → Bool
  | .pub2 _ => true
  | _ => false

/-- Where the client's task has its lock. -/
def tApi : T → Bool
  | .off | .idle => false
  | _ => true

/-- Who has a lock. -/
def owner (a b : Bool) : Option Who := if a then some .main else if b then some .client else none

/-- Messages of the setup the main task has behind it. -/
def behind (n : Nat) : M → Nat
  | .setup i => i
  | .pub1 (some i) => i
  | .pub2 (some i) => i
  | .pub3 (some i) => i + 1
  | _ => n

/-- What holds in every state. -/
structure Inv (n : Nat) (s : W) : Prop where
  size : s.n = n
  mtx : s.mtx = owner (mainInside s.m) (clientInside s.t)
  meh : s.meh = owner (mMeh s.m) (handling s.t)
  api : s.api = owner (mApi s.m) (tApi s.t)
  x1 : (mainInside s.m && clientInside s.t) = false
  x2 : (mMeh s.m && handling s.t) = false
  x3 : (mApi s.m && tApi s.t) = false
  held : tApi s.t = true → s.run = true
  lib : s.lib = true → s.run = true
  run : s.run = true → s.t ≠ .off ∧ s.started = true
  stop2 : s.m = .stop2 → s.run = false
  stop3 : s.m = .stop3 → s.run = false ∧ s.t = .off ∧ s.started = false
  idle : s.run = false → s.t = .off ∨ s.m = .stop2
  sent : s.connected = true → s.enter = false → s.lib = true → announced s.t = false → ∀ i, i < behind s.n s.m → i < s.n → s.pub i = true

theorem inv_start (n : Nat) : Inv n (start n) := by
  constructor <;> simp [start, owner, mainInside, clientInside, mMeh, handling, mApi, tApi]

set_option maxHeartbeats 4000000 in
theorem inv_main {n : Nat} {s s' : W} (h : Inv n s) (st : MainStep s s') : Inv n s' := by
  obtain ⟨a0, a1, a2, a3, x1, x2, x3, a4, a5, a6, a7, a8, a9, a10⟩ := h
  cases st with
  | start h1 h2 =>
    have : s.t = .off := by
      cases hr : s.run with
      | true => have := (a6 hr).2; simp_all
      | false => rcases a9 hr with h | h <;> simp_all
    have hr : s.run = false := by cases hr : s.run with
      | true => have := (a6 hr).2; simp_all
      | false => rfl
    constructor <;> simp_all [owner, mainInside, clientInside, mMeh, handling, mApi, tApi, announced, behind]
  | sync3 h1 =>
    by_cases hc : s.connected = true ∧ s.enter = true
    · rw [if_pos hc]
      constructor <;> simp_all [owner, mainInside, clientInside, mMeh, handling, mApi, tApi, announced, behind]
    · rw [if_neg hc]
      constructor <;> simp_all [owner, mainInside, clientInside, mMeh, handling, mApi, tApi, announced, behind]
  | pub2 j h1 =>
    rw [h1] at a1 a2 a3 x1 x2 x3 a10
    simp only [mainInside, mMeh, mApi, owner] at a1 a2 a3 x1 x2 x3
    constructor <;> (try simp_all [send, owner, mainInside, mMeh, mApi]; done)
    cases j with
    | none => simp_all [send, behind]
    | some k =>
      dsimp only [send, behind] at *
      intro b1 b2 b3 b4 i hi hn
      by_cases e : i = k
      · subst e; simp [b3]
      · simp [a10 b1 b2 b3 b4 i (by omega) hn]
  | pub3 j h1 h2 =>
    rw [h1] at a1 a2 a3 x1 x2 x3 a10
    cases j <;> constructor <;> simp_all [after, owner, mainInside, mMeh, mApi, behind]
  | pub1 j h1 h2 =>
    rw [h1] at a1 a2 a3 x1 x2 x3 a10
    cases j <;> constructor <;> simp_all [owner, mainInside, mMeh, mApi, behind]
  | done i h1 h2 =>
    rw [h1] at a1 a2 a3 x1 x2 x3 a10
    constructor <;> (try simp_all [owner, mainInside, mMeh, mApi]; done)
    intro b1 b2 b3 b4 i hi hn
    exact a10 b1 b2 b3 b4 i (by dsimp only [behind]; dsimp only at hn; omega) hn
  | _ =>
    constructor <;> simp_all [owner, mainInside, mMeh, mApi, behind]

theorem handle_frame (s : W) (e : Ev) :
    (handle s e).n = s.n ∧ (handle s e).mtx = s.mtx ∧ (handle s e).meh = s.meh ∧ (handle s e).api = s.api ∧ (handle s e).m = s.m ∧
    (handle s e).run = s.run ∧ (handle s e).started = s.started ∧ (handle s e).lib = s.lib ∧ (handle s e).pub = s.pub := by
  cases e <;> simp [handle]

set_option maxHeartbeats 4000000 in
theorem inv_client {n : Nat} {s s' : W} (h : Inv n s) (st : ClientStep s s') : Inv n s' := by
  obtain ⟨a0, a1, a2, a3, x1, x2, x3, a4, a5, a6, a7, a8, a9, a10⟩ := h
  cases st with
  | ev3 e h1 =>
    obtain ⟨f1, f2, f3, f4, f5, f6, f7, f8, f9⟩ := handle_frame s e
    constructor <;> (try simp_all [owner, clientInside, handling, tApi]; done)
    cases e <;> simp_all [handle, announced]
  | ev1 e h1 h2 =>
    constructor <;> (try simp_all [owner, clientInside, handling, tApi]; done)
    cases e <;> simp_all [announced]
  | ev2 e h1 h2 =>
    constructor <;> (try simp_all [owner, clientInside, handling, tApi]; done)
    cases e <;> simp_all [announced]
  | _ =>
    constructor <;> simp_all [owner, clientInside, handling, tApi, announced]

set_option maxHeartbeats 4000000 in
theorem inv_event {n : Nat} {s s' : W} (h : Inv n s) (st : EventStep s s') : Inv n s' := by
  obtain ⟨a0, a1, a2, a3, x1, x2, x3, a4, a5, a6, a7, a8, a9, a10⟩ := h
  cases st with
  | _ =>
    constructor <;> simp_all [owner, clientInside, handling, tApi, announced]

theorem inv {n : Nat} {s : W} (h : Reach n s) : Inv n s := by
  induction h with
  | start => exact inv_start n
  | step s s' _ st ih =>
    rcases st with st | st | st
    · exact inv_main ih st
    · exact inv_client ih st
    · exact inv_event ih st

/-! ## One at a time -/

/-- In no schedule are both tasks in the code of the device at the same time. -/
theorem exclusive (n : Nat) (s : W) (h : Reach n s) : ¬ (mainInside s.m = true ∧ clientInside s.t = true) := by
  have := (inv h).x1
  intro ⟨a, b⟩
  rw [a, b] at this
  exact absurd this (by decide)

/-- The main task is in the code of the device only with `mutex`, and so is the client's task. -/
theorem inside_owns (n : Nat) (s : W) (h : Reach n s) :
    (mainInside s.m = true → s.mtx = some .main) ∧ (clientInside s.t = true → s.mtx = some .client) := by
  have a := (inv h).mtx
  have b := (inv h).x1
  refine ⟨fun e => ?_, fun e => ?_⟩
  · rw [a, e]; rfl
  · rw [a, e]
    cases h1 : mainInside s.m with
    | true => rw [h1, e] at b; exact absurd b (by decide)
    | false => rfl

/-- Neither task unlocks what the other one has locked, nor takes what is not free (`mutex`). -/
theorem mutex_discipline (n : Nat) (s s' : W) (h : Reach n s) :
    (MainStep s s' → s'.mtx ≠ s.mtx → (s.mtx = some .main ∧ s'.mtx = none) ∨ (s.mtx = none ∧ s'.mtx = some .main)) ∧
    (ClientStep s s' ∨ EventStep s s' → s'.mtx ≠ s.mtx → (s.mtx = some .client ∧ s'.mtx = none) ∨ (s.mtx = none ∧ s'.mtx = some .client)) := by
  obtain ⟨o1, o2⟩ := inside_owns n s h
  refine ⟨fun st ne => ?_, fun st ne => ?_⟩
  · cases st <;> simp_all [mainInside, send]
  · rcases st with st | st
    · cases st with
      | ev3 e h1 => exact absurd (handle_frame s e).2.1 ne
      | _ => simp_all [clientInside]
    · cases st <;> simp_all [clientInside]

/-- The same of `mutexEventHandler`. -/
theorem handlerMutex_discipline (n : Nat) (s s' : W) (h : Reach n s) :
    (MainStep s s' → s'.meh ≠ s.meh → (s.meh = some .main ∧ s'.meh = none) ∨ (s.meh = none ∧ s'.meh = some .main)) ∧
    (ClientStep s s' ∨ EventStep s s' → s'.meh ≠ s.meh → (s.meh = some .client ∧ s'.meh = none) ∨ (s.meh = none ∧ s'.meh = some .client)) := by
  have a := (inv h).meh
  have b := (inv h).x2
  refine ⟨fun st ne => ?_, fun st ne => ?_⟩
  · cases st <;> simp_all [mMeh, owner, send]
  · rcases st with st | st
    · cases st with
      | ev3 e h1 => exact absurd (handle_frame s e).2.2.1 ne
      | _ => simp_all [handling, owner]
    · cases st <;> simp_all

/-- When the main task has passed the point of lines 312-315, no handler is half way: what has been begun was done before. -/
theorem handled_before (n : Nat) (s : W) (h : Reach n s) (hm : s.m = .sync3) : handling s.t = false := by
  have b := (inv h).x2
  rw [hm] at b
  simpa [mMeh] using b

/-! ## No deadlock -/

/-- Steps left to the main task. -/
def mRank (n : Nat) : M → Nat
  | .work => 0
  | .sync1 => 4 * n + 4
  | .sync2 => 4 * n + 3
  | .sync3 => 4 * n + 2
  | .setup i => 4 * (n - i) + 1
  | .pub1 none => 3
  | .pub2 none => 2
  | .pub3 none => 1
  | .pub1 (some i) => 4 * (n - (i + 1)) + 4
  | .pub2 (some i) => 4 * (n - (i + 1)) + 3
  | .pub3 (some i) => 4 * (n - (i + 1)) + 2
  | .stop1 => 3
  | .stop2 => 2
  | .stop3 => 1

/-- Steps left to the client's task. -/
def tRank : T → Nat
  | .off => 0
  | .idle => 1
  | .held => 2
  | .out => 3
  | .body => 4
  | .hp => 5
  | .ev3 _ => 6
  | .ev2 _ => 7
  | .ev1 _ => 8

theorem rank_main {s s' : W} (st : MainStep s s') (hm : s.m ≠ .work) : s'.n = s.n ∧ mRank s'.n s'.m + tRank s'.t < mRank s.n s.m + tRank s.t := by
  cases st with
  | start h1 h2 => exact absurd h1 hm
  | sync h1 h2 => exact absurd h1 hm
  | other h1 h2 => exact absurd h1 hm
  | stop h1 h2 => exact absurd h1 hm
  | sync3 h1 =>
    rw [h1]
    refine ⟨rfl, ?_⟩
    dsimp only
    split <;> simp only [mRank] <;> omega
  | pub1 j h1 h2 => rw [h1]; cases j <;> simp [mRank]
  | pub2 j h1 => rw [h1]; cases j <;> simp [mRank, send]
  | pub3 j h1 h2 => rw [h1]; cases j <;> simp [mRank, after]
  | setup i h1 h2 h3 => rw [h1]; simp only [mRank]; refine ⟨trivial, ?_⟩; omega
  | skip i h1 h2 h3 => rw [h1]; simp only [mRank]; refine ⟨trivial, ?_⟩; omega
  | done i h1 h2 => rw [h1]; simp only [mRank]; refine ⟨trivial, ?_⟩; omega
  | _ h1 h2 => rw [h1]; simp [mRank]

theorem rank_client {s s' : W} (st : ClientStep s s') : s'.n = s.n ∧ mRank s'.n s'.m + tRank s'.t < mRank s.n s.m + tRank s.t := by
  cases st with
  | ev3 e h1 =>
    obtain ⟨f1, f2, f3, f4, f5, f6, f7, f8, f9⟩ := handle_frame s e
    dsimp only
    rw [f1, f5, h1]
    exact ⟨rfl, by simp [tRank]⟩
  | stop h1 h2 => rw [h1]; simp [tRank]
  | free h1 => rw [h1]; simp [tRank]
  | ev1 e h1 h2 => rw [h1]; simp [tRank]
  | ev2 e h1 h2 => rw [h1]; simp [tRank]
  | back h1 h2 => rw [h1]; simp [tRank]
  | out h1 => rw [h1]; simp [tRank]
  | out2 h1 => rw [h1]; simp [tRank]

/-- Unless the main task is back in the rest of the program, one of the tasks can always go on: they never wait for one another. -/
theorem no_deadlock (n : Nat) (s : W) (h : Reach n s) (hm : s.m ≠ .work) : ∃ s', Progress s s' := by
  obtain ⟨a0, a1, a2, a3, x1, x2, x3, a4, a5, a6, a7, a8, a9, a10⟩ := inv h
  -- a handler that is under way can go on while the main task has neither `mutex` nor `mutexEventHandler`
  have hand : mainInside s.m = false → mMeh s.m = false → tApi s.t = true → ∃ s', ClientStep s s' := by
    intro b1 b2 b3
    rw [b1] at a1
    rw [b2] at a2
    cases ht : s.t with
    | off => rw [ht] at b3; exact absurd b3 (by decide)
    | idle => rw [ht] at b3; exact absurd b3 (by decide)
    | held => exact ⟨_, .free s ht⟩
    | ev1 e => exact ⟨_, .ev1 s e ht (by rw [a2, ht]; rfl)⟩
    | ev2 e => exact ⟨_, .ev2 s e ht (by rw [a1, ht]; rfl)⟩
    | ev3 e => exact ⟨_, .ev3 s e ht⟩
    | body => exact ⟨_, .out s ht⟩
    | hp => exact ⟨_, .back s ht (by rw [a1, ht]; rfl)⟩
    | out => exact ⟨_, .out2 s ht⟩
  have free : mainInside s.m = false → clientInside s.t = true → ∃ s', ClientStep s s' := by
    intro _ b
    cases ht : s.t with
    | ev3 e => exact ⟨_, .ev3 s e ht⟩
    | body => exact ⟨_, .out s ht⟩
    | _ => rw [ht] at b; exact absurd b (by simp [clientInside])
  cases hp : s.m with
  | work => exact absurd hp hm
  | sync1 =>
    cases hh : handling s.t with
    | false => exact ⟨_, .inl ⟨hm, .sync1 s hp (by rw [a2, hp, hh]; rfl)⟩⟩
    | true =>
      obtain ⟨s', st⟩ := hand (by rw [hp]; rfl) (by rw [hp]; rfl) (by cases ht : s.t <;> rw [ht] at hh <;> first | rfl | exact absurd hh (by decide))
      exact ⟨s', .inr st⟩
  | sync2 =>
    cases hh : clientInside s.t with
    | false => exact ⟨_, .inl ⟨hm, .sync2 s hp (by rw [a1, hp, hh]; rfl)⟩⟩
    | true =>
      obtain ⟨s', st⟩ := free (by rw [hp]; rfl) hh
      exact ⟨s', .inr st⟩
  | sync3 => exact ⟨_, .inl ⟨hm, .sync3 s hp⟩⟩
  | setup i =>
    by_cases hi : i < s.n
    · cases hc : s.connected with
      | true => exact ⟨_, .inl ⟨hm, .setup s i hp hi hc⟩⟩
      | false => exact ⟨_, .inl ⟨hm, .skip s i hp hi hc⟩⟩
    · exact ⟨_, .inl ⟨hm, .done s i hp (by omega)⟩⟩
  | pub1 j =>
    cases hh : tApi s.t with
    | false => exact ⟨_, .inl ⟨hm, .pub1 s j hp (by rw [a3, hp, hh]; rfl)⟩⟩
    | true =>
      obtain ⟨s', st⟩ := hand (by rw [hp]; rfl) (by rw [hp]; rfl) hh
      exact ⟨s', .inr st⟩
  | pub2 j => exact ⟨_, .inl ⟨hm, .pub2 s j hp⟩⟩
  | pub3 j =>
    cases hh : clientInside s.t with
    | false => exact ⟨_, .inl ⟨hm, .pub3 s j hp (by rw [a1, hp, hh]; rfl)⟩⟩
    | true =>
      obtain ⟨s', st⟩ := free (by rw [hp]; rfl) hh
      exact ⟨s', .inr st⟩
  | stop1 =>
    cases hh : tApi s.t with
    | false => exact ⟨_, .inl ⟨hm, .stop1 s hp (by rw [a3, hp, hh]; rfl)⟩⟩
    | true =>
      obtain ⟨s', st⟩ := hand (by rw [hp]; rfl) (by rw [hp]; rfl) hh
      exact ⟨s', .inr st⟩
  | stop2 =>
    have hr := a7 hp
    cases hh : tApi s.t with
    | true => rw [a4 hh] at hr; exact absurd hr (by decide)
    | false =>
      cases ht : s.t with
      | off => exact ⟨_, .inl ⟨hm, .stop2 s hp ht⟩⟩
      | idle => exact ⟨_, .inr (.stop s ht hr)⟩
      | _ => rw [ht] at hh; exact absurd hh (by simp [tApi])
  | stop3 =>
    obtain ⟨_, ht, _⟩ := a8 hp
    exact ⟨_, .inl ⟨hm, .stop3 s hp (by rw [a1, hp, ht]; rfl)⟩⟩

theorem reach_progress {n : Nat} {s s' : W} (h : Reach n s) (p : Progress s s') : Reach n s' := by
  rcases p with ⟨_, p⟩ | p
  · exact .step s s' h (.inl p)
  · exact .step s s' h (.inr (.inl p))

theorem reach_steps {n k : Nat} {s s' : W} (h : Reach n s) (p : Steps k s s') : Reach n s' := by
  induction p with
  | nil => exact h
  | cons k s s' s'' q _ ih => exact ih (reach_progress h q)

theorem steps_rank {k : Nat} {s s' : W} (p : Steps k s s') : s'.n = s.n ∧ mRank s'.n s'.m + tRank s'.t + k ≤ mRank s.n s.m + tRank s.t := by
  induction p with
  | nil => exact ⟨rfl, Nat.le_refl _⟩
  | cons k s s' s'' q _ ih =>
    have : s'.n = s.n ∧ mRank s'.n s'.m + tRank s'.t < mRank s.n s.m + tRank s.t := by
      rcases q with ⟨hm, q⟩ | q
      · exact rank_main q hm
      · exact rank_client q
    exact ⟨ih.1.trans this.1, by have := this.2; have := ih.2; omega⟩

/-- Without new events, the main task is back in the rest of the program after a bounded number of steps of both tasks, in whatever order they
are made: at most four for every message of the setup, and twelve. -/
theorem comes_back (n k : Nat) (s s' : W) (h : Reach n s) (p : Steps k s s') :
    k ≤ 4 * n + 12 ∧ ((∀ s'', ¬ Progress s' s'') → s'.m = .work) := by
  have hn := (inv h).size
  have r := (steps_rank p).2
  have bm : mRank s.n s.m ≤ 4 * s.n + 4 := by
    cases s.m with
    | pub1 j => cases j <;> simp only [mRank] <;> omega
    | pub2 j => cases j <;> simp only [mRank] <;> omega
    | pub3 j => cases j <;> simp only [mRank] <;> omega
    | _ => simp only [mRank] <;> omega
  have bt : tRank s.t ≤ 8 := by cases s.t <;> simp [tRank]
  refine ⟨by rw [hn] at bm r; omega, fun stuck => ?_⟩
  by_cases hm : s'.m = .work
  · exact hm
  · obtain ⟨s'', q⟩ := no_deadlock n s' (reach_steps h p) hm
    exact absurd q (stuck s'')

/-! ## What is sent after connecting -/

/-- Whatever happened in between: when the main task is in the rest of the program, with a connection taken note of and nothing left to be announced,
all messages of the setup went out over this very connection. -/
theorem setup_sent (n : Nat) (s : W) (h : Reach n s) (hm : s.m = .work) (h1 : s.connected = true) (h2 : s.enter = false) (h3 : s.lib = true)
    (h4 : announced s.t = false) (i : Nat) (hi : i < n) : s.pub i = true := by
  have v := inv h
  have hn := v.size
  exact v.sent h1 h2 h3 h4 i (by rw [hm, hn]; exact hi) (by rw [hn]; exact hi)

/-- No event is on its way. -/
def calm : T → Bool
  | .off | .idle | .held => true
  | _ => false

/-- The main task is sending the setup or has sent it. -/
def sending : M → Bool
  | .work | .setup _ | .pub1 _ | .pub2 _ | .pub3 _ => true
  | _ => false

theorem calm_step {s s' : W} (p : Progress s s') (h1 : s.connected = true) (h2 : s.enter = false) (h3 : s.lib = true) (h4 : calm s.t = true)
    (h5 : sending s.m = true) : s'.connected = true ∧ s'.enter = false ∧ s'.lib = true ∧ calm s'.t = true ∧ sending s'.m = true := by
  rcases p with ⟨hm, p⟩ | p
  · cases p with
    | pub3 j a b => cases j <;> simp_all [sending, after]
    | _ => simp_all [sending, send]
  · cases p <;> simp_all [calm, sending]

theorem calm_steps {k : Nat} {s s' : W} (p : Steps k s s') (h1 : s.connected = true) (h2 : s.enter = false) (h3 : s.lib = true) (h4 : calm s.t = true)
    (h5 : sending s.m = true) : s'.connected = true ∧ s'.enter = false ∧ s'.lib = true ∧ calm s'.t = true := by
  induction p with
  | nil => exact ⟨h1, h2, h3, h4⟩
  | cons k s s' s'' q _ ih =>
    obtain ⟨a, b, c, d, e⟩ := calm_step q h1 h2 h3 h4 h5
    exact ih a b c d e

/-- After a connection was taken note of, the next pass of `iterate` sends all messages of the setup over it, unless another event comes in between;
in whatever order the tasks go on. -/
theorem setup_after_connect (n k : Nat) (s s' : W) (h : Reach n s) (hm : s.m = .sync3) (h1 : s.connected = true) (h3 : s.lib = true)
    (h4 : calm s.t = true) (p : Steps k s s') (stuck : ∀ s'', ¬ Progress s' s'') :
    s'.m = .work ∧ s'.connected = true ∧ ∀ i, i < n → s'.pub i = true := by
  have hw := (comes_back n k s s' h p).2 stuck
  have hr := reach_steps h p
  -- everything up to the step of line 315 leaves the connection as it is
  have key : ∀ k s s', Steps k s s' → s.m = .sync3 → s.connected = true → s.lib = true → calm s.t = true → s'.m = .work →
      s'.connected = true ∧ s'.enter = false ∧ s'.lib = true ∧ calm s'.t = true := by
    intro k
    induction k with
    | zero => intro s s' p a b c d e; cases p; rw [a] at e; exact absurd e (by decide)
    | succ k ih =>
      intro s s' p a b c d e
      cases p with
      | cons _ _ u _ q r =>
        rcases q with ⟨_, q⟩ | q
        · cases q with
          | sync3 a' =>
            refine calm_steps r b ?_ c d ?_
            · simp [b]
            · dsimp only; split <;> rfl
          | _ => simp_all
        · have hu : u.m = .sync3 ∧ u.connected = true ∧ u.lib = true ∧ calm u.t = true := by
            cases q <;> simp_all [calm]
          exact ih u s' r hu.1 hu.2.1 hu.2.2.1 hu.2.2.2 e
  obtain ⟨a, b, c, d⟩ := key k s s' p hm h1 h3 h4 hw
  refine ⟨hw, a, fun i hi => setup_sent n s' hr hw a b c ?_ i hi⟩
  cases ht : s'.t <;> rw [ht] at d <;> first | rfl | exact absurd d (by simp [calm])

/-! ## Where the program knows less -/

/-- What one would expect: when the device considers itself connected, and no event is on its way, there is a connection. -/
def ConnectedClaim : Prop := ∀ n s, Reach n s → s.m = .work → s.connected = true → calm s.t = true → s.lib = true

/-- The main task changes nothing about `connected`, not even in `disconnect`: only the handler does. -/
theorem main_keeps_connected (s s' : W) (st : MainStep s s') : s'.connected = s.connected := by
  cases st <;> simp [send]

/-- A state in which nothing has been sent, for the examples. -/
def st0 (n : Nat) (mtx meh api : Option Who) (m : M) (t : T) (run started connected enter lib : Bool) : W :=
  ⟨n, mtx, meh, api, m, t, run, started, connected, enter, lib, fun _ => false⟩

/-- A connection is made, reported and taken note of. -/
theorem reach_sync3 (n : Nat) : Reach n (st0 n (some .main) (some .main) (some .client) .sync3 .held true true true true true) := by
  have r0 : Reach n (st0 n (some .main) none none .work .off false false false false false) := .start
  have r1 : Reach n (st0 n (some .main) none none .work .idle true true false false false) := .step _ _ r0 (.inl (.start _ rfl rfl))
  have r2 : Reach n (st0 n (some .main) none (some .client) .work .held true true false false false) := .step _ _ r1 (.inr (.inr (.take _ rfl rfl rfl)))
  have r3 : Reach n (st0 n (some .main) none (some .client) .work (.ev1 .up) true true false false true) := .step _ _ r2 (.inr (.inr (.up _ rfl)))
  have r4 : Reach n (st0 n none none (some .client) .sync1 (.ev1 .up) true true false false true) := .step _ _ r3 (.inl (.sync _ rfl rfl))
  have r5 : Reach n (st0 n none (some .client) (some .client) .sync1 (.ev2 .up) true true false false true) :=
    .step _ _ r4 (.inr (.inl (.ev1 _ .up rfl rfl)))
  have r6 : Reach n (st0 n (some .client) (some .client) (some .client) .sync1 (.ev3 .up) true true false false true) :=
    .step _ _ r5 (.inr (.inl (.ev2 _ .up rfl rfl)))
  have r7 : Reach n (st0 n (some .client) (some .client) (some .client) .sync1 .body true true true true true) :=
    .step _ _ r6 (.inr (.inl (.ev3 _ .up rfl)))
  have r8 : Reach n (st0 n none (some .client) (some .client) .sync1 .out true true true true true) := .step _ _ r7 (.inr (.inl (.out _ rfl)))
  have r9 : Reach n (st0 n none none (some .client) .sync1 .held true true true true true) := .step _ _ r8 (.inr (.inl (.out2 _ rfl)))
  have r10 : Reach n (st0 n none (some .main) (some .client) .sync2 .held true true true true true) := .step _ _ r9 (.inl (.sync1 _ rfl rfl))
  exact .step _ _ r10 (.inl (.sync2 _ rfl rfl))

/-- `setup_after_connect` has something to say for every number of messages; likewise `handled_before` and `no_deadlock`. -/
example (n : Nat) : ∃ s, Reach n s ∧ s.m = .sync3 ∧ s.connected = true ∧ s.enter = true ∧ s.lib = true ∧ calm s.t = true :=
  ⟨_, reach_sync3 n, rfl, rfl, rfl, rfl, rfl⟩

/-- With one message: it is sent. -/
example : ∃ s, Reach 1 s ∧ s.m = .work ∧ s.connected = true ∧ s.enter = false ∧ s.lib = true ∧ announced s.t = false ∧ s.pub 0 = true := by
  have r1 : Reach 1 (st0 1 (some .main) none (some .client) (.setup 0) .held true true true false true) := .step _ _ (reach_sync3 1) (.inl (.sync3 _ rfl))
  have r2 : Reach 1 (st0 1 none none (some .client) (.pub1 (some 0)) .held true true true false true) :=
    .step _ _ r1 (.inl (.setup _ 0 rfl (Nat.lt_succ_self 0) rfl))
  have r3 : Reach 1 (st0 1 none none none (.pub1 (some 0)) .idle true true true false true) := .step _ _ r2 (.inr (.inl (.free _ rfl)))
  have r4 : Reach 1 (st0 1 none none (some .main) (.pub2 (some 0)) .idle true true true false true) := .step _ _ r3 (.inl (.pub1 _ (some 0) rfl rfl))
  have r5 := Reach.step _ _ r4 (.inl (.pub2 _ (some 0) rfl))
  have r6 := Reach.step _ _ r5 (.inl (.pub3 _ (some 0) rfl rfl))
  have r7 := Reach.step _ _ r6 (.inl (.done _ 1 rfl (Nat.le_refl 1)))
  exact ⟨_, r7, rfl, rfl, rfl, rfl, rfl, rfl⟩

theorem reach_connected : Reach 0 (st0 0 (some .main) none (some .client) .work .held true true true false true) := by
  have r12 : Reach 0 (st0 0 (some .main) none (some .client) (.setup 0) .held true true true false true) := .step _ _ (reach_sync3 0) (.inl (.sync3 _ rfl))
  exact .step _ _ r12 (.inl (.done _ 0 rfl (Nat.le_refl 0)))

/-- The network is gone: `disconnect`. -/
theorem reach_disconnected : Reach 0 (st0 0 (some .main) none none .work .off false false true false false) := by
  have r1 : Reach 0 (st0 0 (some .main) none none .work .idle true true true false true) := .step _ _ reach_connected (.inr (.inl (.free _ rfl)))
  have r2 : Reach 0 (st0 0 none none none .stop1 .idle true true true false true) := .step _ _ r1 (.inl (.stop _ rfl rfl))
  have r3 : Reach 0 (st0 0 none none none .stop2 .idle false true true false false) := .step _ _ r2 (.inl (.stop1 _ rfl rfl))
  have r4 : Reach 0 (st0 0 none none none .stop2 .off false true true false false) := .step _ _ r3 (.inr (.inl (.stop _ rfl rfl)))
  have r5 : Reach 0 (st0 0 none none none .stop3 .off false false true false false) := .step _ _ r4 (.inl (.stop2 _ rfl rfl))
  exact .step _ _ r5 (.inl (.stop3 _ rfl rfl))

/-- False: `disconnect` (lines 263-291) stops the client, throws it away and makes a new one, but `connected` stays as it was; without a report of the
client the device goes on considering itself connected, for as long as there is no network to start the new client with. -/
theorem connected_violation : ¬ ConnectedClaim := by
  intro h
  have := h 0 _ reach_disconnected rfl rfl rfl
  exact absurd this (by decide)

/-- Schedules in which the client is never stopped. -/
inductive ReachOn (n : Nat) : W → Prop
  | start : ReachOn n (start n)
  | step (s s' : W) : ReachOn n s → s.m ≠ .stop1 → Step s s' → ReachOn n s'

/-- The loss of the connection has been reported to the handler but not yet been taken note of. -/
def losing : T → Bool
  | .ev1 .lost | .ev2 .lost | .ev3 .lost => true
  | _ => false

theorem reachOn_reach {n : Nat} {s : W} (h : ReachOn n s) : Reach n s := by
  induction h with
  | start => exact .start
  | step s s' _ _ st ih => exact .step s s' ih st

theorem connected_on {n : Nat} {s : W} (h : ReachOn n s) :
    (s.connected = true → s.lib = true ∨ losing s.t = true) ∧ (announced s.t = true → s.lib = true) := by
  induction h with
  | start => exact ⟨fun h => absurd h (by simp [start]), fun h => absurd h (by simp [start, announced])⟩
  | step s s' r hm st ih =>
    have v := inv (reachOn_reach r)
    obtain ⟨i1, i2⟩ := ih
    rcases st with st | st | st
    · cases st with
      | start h1 h2 =>
        have ht : s.t = .off := by
          cases hr : s.run with
          | true => have := (v.run hr).2; simp_all
          | false => rcases v.idle hr with h | h <;> simp_all
        simp_all [losing, announced]
      | _ => simp_all [send]
    · cases st with
      | ev3 e h1 => cases e <;> simp_all [handle, losing, announced]
      | ev1 e h1 h2 => cases e <;> simp_all [losing, announced]
      | ev2 e h1 h2 => cases e <;> simp_all [losing, announced]
      | _ => simp_all [losing, announced]
    · cases st <;> simp_all [losing, announced]

/-- What is true: as long as the client is never stopped, the device considers itself connected only with a connection. -/
theorem connected_partial (n : Nat) (s : W) (h : ReachOn n s) (hc : s.connected = true) (ht : calm s.t = true) : s.lib = true := by
  rcases (connected_on h).1 hc with h | h
  · exact h
  · cases e : s.t <;> rw [e] at h ht <;> simp [calm, losing] at h ht

/-! ## Messages -/

/-- What one would expect of a message consisting of a topic and a text: the device acts on just these. -/
def IntakeClaim : Prop := ∀ topic data : List Nat, (∀ c ∈ topic, c ≠ 0) → (∀ c ∈ data, c ≠ 0) → intake topic data = some (topic, data)

theorem copyText_all (k : Nat) (s : List Nat) (h : ∀ c ∈ s, c ≠ 0) : copyText k s = s.take k := by
  unfold copyText
  have : ∀ c ∈ s.take k, c ≠ 0 := fun c hc => h c (List.mem_of_mem_take hc)
  generalize s.take k = l at this
  induction l with
  | nil => rfl
  | cons a l ih =>
    have ha : (a != 0) = true := by simpa using this a (by simp)
    rw [List.takeWhile_cons, if_pos ha, ih (fun c hc => this c (by simp [hc]))]

/-- So it is for a topic of up to 255 characters and a text of up to 49. -/
theorem intake_partial (topic data : List Nat) (ht : ∀ c ∈ topic, c ≠ 0) (hd : ∀ c ∈ data, c ≠ 0) (h1 : topic.length < 256) (h2 : data.length < 50) :
    intake topic data = some (topic, data) := by
  unfold intake
  rw [copyText_all _ _ ht, copyText_all _ _ hd, Nat.min_eq_left (by omega), Nat.min_eq_left (by omega), List.take_length, List.take_length,
    if_neg (by omega)]

example : (∀ c ∈ [115, 101, 116], c ≠ 0) ∧ intake [115, 101, 116] [49] = some ([115, 101, 116], [49]) := by decide

/-- With every longer topic the program reads behind its buffer. -/
theorem long_topic_violation (topic data : List Nat) (ht : ∀ c ∈ topic, c ≠ 0) (h1 : 256 ≤ topic.length) : intake topic data = none := by
  unfold intake
  rw [copyText_all _ _ ht, Nat.min_eq_right h1, if_pos (by rw [List.length_take]; omega)]

/-- Of every longer text it acts on the first 49 characters. -/
theorem long_data_violation (topic data : List Nat) (ht : ∀ c ∈ topic, c ≠ 0) (hd : ∀ c ∈ data, c ≠ 0) (h1 : topic.length < 256)
    (h2 : 50 ≤ data.length) : ∃ d, intake topic data = some (topic, d) ∧ d ≠ data ∧ d = data.take 49 := by
  refine ⟨data.take 49, ?_, ?_, rfl⟩
  · unfold intake
    rw [copyText_all _ _ ht, copyText_all _ _ hd, Nat.min_eq_left (by omega), Nat.min_eq_right (by omega), List.take_length, if_neg (by omega)]
  · intro e
    have := congrArg List.length e
    rw [List.length_take] at this
    omega

theorem intake_violation : ¬ IntakeClaim := by
  intro h
  have := h (List.replicate 256 97) [49] (by intro c hc; rw [List.eq_of_mem_replicate hc]; decide) (by decide)
  rw [long_topic_violation _ _ (by intro c hc; rw [List.eq_of_mem_replicate hc]; decide) (by rw [List.length_replicate]; omega)] at this
  cases this

end Verif.Mqtt.Tasks
