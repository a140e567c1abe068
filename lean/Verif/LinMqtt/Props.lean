import Verif.LinMqtt.Model

/-! # MQTT client of the Linux port: proofs -/

namespace Verif.LinMqtt

open LinClient (Addr Fam)

/-! ## Reconnecting -/

theorem step_delay {r : R} (h : r.delay = 5 ∨ r.delay = 20 ∨ r.delay = 35 ∨ r.delay = 50 ∨ r.delay = 65 ∨ r.delay = 60) (e : Ev) :
    (step r e).delay = 5 ∨ (step r e).delay = 20 ∨ (step r e).delay = 35 ∨ (step r e).delay = 50 ∨ (step r e).delay = 65 ∨ (step r e).delay = 60 := by
  cases e with
  | lost =>
    show (if r.err = .ok then { r with err := .other } else r).delay = 5 ∨ _
    unfold step
    dsimp only
    split <;> exact h
  | sync o =>
    unfold step
    dsimp only
    split
    · exact h
    · show nextDelay r = 5 ∨ nextDelay r = 20 ∨ nextDelay r = 35 ∨ nextDelay r = 50 ∨ nextDelay r = 65 ∨ nextDelay r = 60
      unfold nextDelay
      split
      · split <;> omega
      · omega

theorem run_delay (es : List Ev) : ∀ r : R, (r.delay = 5 ∨ r.delay = 20 ∨ r.delay = 35 ∨ r.delay = 50 ∨ r.delay = 65 ∨ r.delay = 60) →
    ((run es r).delay = 5 ∨ (run es r).delay = 20 ∨ (run es r).delay = 35 ∨ (run es r).delay = 50 ∨ (run es r).delay = 65 ∨ (run es r).delay = 60) := by
  induction es with
  | nil => exact fun r h => h
  | cons e es ih => exact fun r h => ih _ (step_delay h e)

/-- In every history the wait before an attempt is at most 65 s. -/
theorem wait_bound (es : List Ev) : wait (run es {}) ≤ 65 := by
  have h := run_delay es {} (Or.inl rfl)
  unfold wait
  split <;> omega

/-- The device always tries again: in every pass without a connection a socket is opened, and if there is one the device is
connected. -/
theorem retries (es : List Ev) : (run (es ++ [.sync true]) {}).err = .ok := by
  unfold run
  rw [List.foldl_append]
  generalize es.foldl step {} = r
  show (if r.err = .ok then r else attempt true r).err = .ok
  split
  · assumption
  · rfl

/-- Full claims: the wait is never above the limit of 60 s; the first wait after a connection was established is 5 s; the
wait grows with the number of failures in a row. -/
def Capped : Prop := ∀ es, wait (run es {}) ≤ 60
def FreshAfterSuccess : Prop := ∀ es, (run es {}).err = .ok → wait (run (es ++ [.lost]) {}) = 5
def Grows : Prop := ∀ n, 0 < n → wait (run (List.replicate n (.sync false)) {}) > 0

/-- After five lost connections the wait is above the limit. -/
theorem cap_violation : ¬ Capped := by
  intro h
  have := h [.sync true, .lost, .sync true, .lost, .sync true, .lost, .sync true, .lost, .sync true, .lost]
  revert this
  decide

theorem run_replicate_lost (n : Nat) : run (List.replicate n [.lost, .sync true]).flatten { err := .ok, delay := 60 } = { err := .ok, delay := 60 } := by
  induction n with
  | zero => rfl
  | succ n ih =>
    rw [List.replicate_succ, List.flatten_cons]
    unfold run at *
    rw [List.foldl_append]
    exact ih

/-- The wait is not reset by a connection that worked, for however long: from the sixth loss on it is 60 s each time. -/
theorem not_fresh_violation : ¬ FreshAfterSuccess ∧
    ∀ n, n ≥ 5 → wait (run ([.sync true] ++ (List.replicate n [.lost, .sync true]).flatten ++ [.lost]) {}) = 60 := by
  have key : ∀ n, n ≥ 5 → wait (run ([.sync true] ++ (List.replicate n [.lost, .sync true]).flatten ++ [.lost]) {}) = 60 := by
    intro n hn
    obtain ⟨m, rfl⟩ := Nat.exists_eq_add_of_le hn
    rw [List.replicate_add, List.flatten_append]
    have e : run ([.sync true] ++ (List.replicate 5 [.lost, .sync true]).flatten) {} = { err := .ok, delay := 60 } := by decide
    have e2 : run ([.sync true] ++ ((List.replicate 5 [.lost, .sync true]).flatten ++ (List.replicate m [.lost, .sync true]).flatten) ++ [.lost]) {} =
        run [.lost] (run (List.replicate m [.lost, .sync true]).flatten (run ([.sync true] ++ (List.replicate 5 [.lost, .sync true]).flatten) {})) := by
      unfold run
      rw [List.foldl_append, ← List.append_assoc, List.foldl_append]
    rw [e2, e, run_replicate_lost]
    rfl
  refine ⟨fun h => ?_, key⟩
  have h1 := h ([.sync true] ++ (List.replicate 5 [.lost, .sync true]).flatten) (by decide)
  revert h1
  decide

/-- A broker that cannot be reached is tried without any growing wait (beside the fixed 5 s), and this resets the wait. -/
theorem no_growth_violation : ¬ Grows ∧ ∀ es n, 0 < n → (run es {}).err ≠ .ok →
    wait (run (es ++ List.replicate n (.sync false)) {}) = 0 ∧ (run (es ++ List.replicate n (.sync false) ++ [.sync false]) {}).delay = 5 := by
  have key : ∀ n (r : R), 0 < n → r.err ≠ .ok → (run (List.replicate n (.sync false)) r).err = .initial := by
    intro n
    induction n with
    | zero => exact fun r h => absurd h (Nat.lt_irrefl 0)
    | succ n ih =>
      intro r _ hr
      have e : run (List.replicate (n + 1) (.sync false)) r = run (List.replicate n (.sync false)) (attempt false r) := by
        unfold run
        rw [List.replicate_succ, List.foldl_cons]
        congr 1
        show (if r.err = .ok then r else attempt false r) = _
        rw [if_neg hr]
      rw [e]
      cases n with
      | zero => rfl
      | succ n => exact ih _ (Nat.succ_pos n) (fun h => by cases h)
  refine ⟨fun h => ?_, fun es n hn hr => ?_⟩
  · have := h 1 (by decide)
    revert this
    decide
  · have e : run (es ++ List.replicate n (.sync false)) {} = run (List.replicate n (.sync false)) (run es {}) := by
      unfold run; rw [List.foldl_append]
    have hk := key n (run es {}) hn hr
    rw [← e] at hk
    refine ⟨?_, ?_⟩
    · unfold wait
      rw [hk]
      rfl
    · have e2 : run (es ++ List.replicate n (.sync false) ++ [.sync false]) {} = step (run (es ++ List.replicate n (.sync false)) {}) (.sync false) := by
        unfold run; rw [List.foldl_append]; rfl
      rw [e2]
      unfold step
      dsimp only
      rw [hk, if_neg (fun h => by cases h)]
      show nextDelay _ = 5
      unfold nextDelay
      rw [hk]
      rfl

/-! ## Opening a socket without TLS -/

/-- Full claim: if an address of the broker answers, the device connects, with one socket; otherwise it notices that it is
not connected. -/
def OpensPlain : Prop := ∀ free addrs, ((∃ a ∈ addrs, a.answer.isSome = true) → (openPlain addrs).1 = true) ∧ ((openPlain addrs).1 = false → taken free addrs = false)

/-- If the first address answers, it is connected, with one socket. -/
theorem open_first_partial (a : Addr) (as : List Addr) (h : a.answer.isSome = true) : openPlain (a :: as) = (true, 1) := by
  show tryAll a (a :: as) = _
  unfold tryAll
  rw [if_pos ⟨rfl, h⟩]

/-- If the first address does not answer, no other is tried; a socket for each address stays open, and the device thinks it
is connected. -/
theorem open_other_violation : ¬ OpensPlain ∧ ∀ (free : Nat) (a : Addr) (as : List Addr), 0 < free → a.answer = none →
    openPlain (a :: as) = (false, as.length + 1) ∧ taken free (a :: as) = true := by
  have key : ∀ (a : Addr) (as : List Addr), a.answer = none → tryAll a as = (false, as.length) := by
    intro a as h
    induction as with
    | nil => rfl
    | cons b bs ih =>
      unfold tryAll
      rw [if_neg (fun hc => by rw [h] at hc; cases hc.2), ih]
      rfl
  refine ⟨fun h => ?_, fun free a as hf h => ⟨key a (a :: as) h, decide_eq_true ?_⟩⟩
  · have := (h 3 [⟨.v4, none⟩, ⟨.v4, some 1⟩]).1 ⟨⟨.v4, some 1⟩, List.mem_cons_of_mem _ List.mem_cons_self, rfl⟩
    revert this
    decide
  · unfold fd
    rw [show openPlain (a :: as) = (false, as.length + 1) from key a (a :: as) h]
    dsimp only
    rw [if_neg (by omega)]
    omega

/-- A broker whose name cannot be resolved is taken as connected too. -/
theorem no_address_violation (free : Nat) : (openPlain []).1 = false ∧ taken free [] = true := ⟨rfl, rfl⟩

/-! ## Messages -/

theorem lookup_set (m : List (Text × Text)) (s : List Text) (k v k' : Text) :
    lookup ⟨set m k v, s⟩ k' = if k' = k then some v else lookup ⟨m, s⟩ k' := by
  unfold lookup set
  dsimp only
  by_cases h : k' = k
  · rw [if_pos h, h, List.find?_cons_of_pos (by exact decide_eq_true rfl)]
    rfl
  · rw [if_neg h, List.find?_cons_of_neg (by simpa using fun h2 : k = k' => h h2.symm)]
    congr 1
    induction m with
    | nil => rfl
    | cons x xs ih =>
      by_cases hx : x.1 = k
      · rw [List.filter_cons_of_neg (by simpa using hx), ih, List.find?_cons_of_neg (by simpa using fun h2 => h (by rw [← h2, hx]))]
      · rw [List.filter_cons_of_pos (by simpa using hx)]
        by_cases hk : x.1 = k'
        · rw [List.find?_cons_of_pos (by simpa using hk), List.find?_cons_of_pos (by simpa using hk)]
        · rw [List.find?_cons_of_neg (by simpa using hk), List.find?_cons_of_neg (by simpa using hk), ih]

/-- The last message of a topic is the one kept, whatever arrives on other topics. -/
theorem last_message (t : T) (topic msg : Text) (later : List (Text × Text)) (h : ∀ x ∈ later, x.1 ≠ topic) :
    lookup (later.foldl (fun t x => receive t x.1 x.2) (receive t topic msg)) topic = some msg := by
  have h0 : lookup (receive t topic msg) topic = some msg := by
    show lookup ⟨set t.msgs topic msg, t.sub⟩ topic = _
    rw [lookup_set, if_pos rfl]
  generalize receive t topic msg = u at h0
  induction later generalizing u with
  | nil => exact h0
  | cons x xs ih =>
    rw [List.foldl_cons]
    refine ih (fun y hy => h y (List.mem_cons_of_mem _ hy)) _ ?_
    show lookup ⟨set u.msgs x.1 x.2, u.sub⟩ topic = _
    rw [lookup_set, if_neg (fun he => h x List.mem_cons_self he.symm)]
    exact h0

theorem set_keys (m : List (Text × Text)) (k v x : Text) : x ∈ (set m k v).map Prod.fst ↔ x = k ∨ x ∈ m.map Prod.fst := by
  unfold set
  rw [List.map_cons, List.mem_cons]
  constructor
  · rintro (h | h)
    · exact Or.inl h
    · obtain ⟨y, hy, rfl⟩ := List.mem_map.1 h
      exact Or.inr (List.mem_map.2 ⟨y, (List.mem_filter.1 hy).1, rfl⟩)
  · rintro (h | h)
    · exact Or.inl h
    · by_cases hx : x = k
      · exact Or.inl hx
      · obtain ⟨y, hy, rfl⟩ := List.mem_map.1 h
        exact Or.inr (List.mem_map.2 ⟨y, List.mem_filter.2 ⟨hy, decide_eq_true hx⟩, rfl⟩)

/-- Topics named before the start are subscribed, at each connection. -/
theorem subscribed_before_start_partial (t : T) (topics : List Text) (x : Text) (h : x ∈ topics) :
    x ∈ (start (topics.foldl subscribe t)).sub := by
  have mono : ∀ (l : List Text) (t : T), x ∈ t.msgs.map Prod.fst → x ∈ (l.foldl subscribe t).msgs.map Prod.fst := by
    intro l
    induction l with
    | nil => exact fun t h => h
    | cons a as ih => exact fun t h => ih _ ((set_keys _ _ _ _).2 (Or.inr h))
  show x ∈ (topics.foldl subscribe t).msgs.map Prod.fst
  induction topics generalizing t with
  | nil => exact absurd h List.not_mem_nil
  | cons a as ih =>
    rcases List.mem_cons.1 h with rfl | h
    · exact mono as _ ((set_keys _ _ _ _).2 (Or.inl rfl))
    · exact ih _ h

/-- A topic named after the start is never subscribed. -/
theorem subscribed_late_violation (t : T) (x : Text) (h : x ∉ t.msgs.map Prod.fst) (later : List (Text × Text)) :
    x ∉ (later.foldl (fun t x => receive t x.1 x.2) (subscribe (start t) x)).sub := by
  have : (later.foldl (fun t x => receive t x.1 x.2) (subscribe (start t) x)).sub = (start t).sub := by
    have : ∀ (u : T), (later.foldl (fun t x => receive t x.1 x.2) u).sub = u.sub := by
      induction later with
      | nil => exact fun u => rfl
      | cons y ys ih => exact fun u => ih _
    rw [this]
    rfl
  rw [this]
  exact h

/-! ## Several topics in one source -/

/-- The lines of a text. -/
def lines : Text → List Text
  | [] => [[]]
  | c :: r => if c = 10 then [] :: lines r else
    match lines r with
    | [] => [[c]]
    | l :: ls => (c :: l) :: ls

/-- Full claim: the lines of the content are the messages of the topics in their order. -/
def LinePerTopic : Prop := ∀ t topics (ms : List Text), topics.map (lookup t) = ms.map some → (∀ m ∈ ms, 10 ∉ m) →
  topics ≠ [] → lines (content t topics) = ms

theorem lines_ne (x : Text) : lines x ≠ [] := by
  cases x with
  | nil => exact fun h => by cases h
  | cons c r =>
    unfold lines
    split
    · exact fun h => by cases h
    · split <;> exact fun h => by cases h

theorem lines_one {m : Text} (h : 10 ∉ m) : lines m = [m] := by
  induction m with
  | nil => rfl
  | cons c r ih =>
    have hc : c ≠ 10 := fun e => h (by rw [e]; exact List.mem_cons_self)
    unfold lines
    rw [if_neg hc, ih (fun hr => h (List.mem_cons_of_mem _ hr))]

theorem lines_append (a m : Text) : lines (a ++ 10 :: m) = lines a ++ lines m := by
  induction a with
  | nil => show lines (10 :: m) = _; conv => lhs; unfold lines
           rw [if_pos rfl]; rfl
  | cons c r ih =>
    show lines (c :: (r ++ 10 :: m)) = lines (c :: r) ++ lines m
    conv => lhs; unfold lines
    rw [ih]
    generalize lines m = L
    conv => rhs; unfold lines
    by_cases hc : c = 10
    · rw [if_pos hc, if_pos hc]; rfl
    · rw [if_neg hc, if_neg hc]
      cases hl : lines r with
      | nil => exact absurd hl (lines_ne r)
      | cons l ls => rfl

/-- It holds if the message of the first topic is not empty. -/
theorem line_per_topic_partial (t : T) (topics : List Text) (m : Text) (ms : List Text)
    (h : topics.map (lookup t) = (m :: ms).map some) (hz : ∀ x ∈ m :: ms, 10 ∉ x) (hm : m ≠ []) :
    lines (content t topics) = m :: ms := by
  unfold content
  rw [h]
  rw [List.map_cons, List.foldl_cons, show join [] (some m) = m from rfl]
  have key : ∀ (ms : List Text) (acc : Text), acc ≠ [] → (∀ x ∈ ms, 10 ∉ x) → lines ((ms.map some).foldl join acc) = lines acc ++ ms := by
    intro ms
    induction ms with
    | nil => exact fun acc _ _ => (List.append_nil _).symm
    | cons x xs ih =>
      intro acc ha hx
      rw [List.map_cons, List.foldl_cons]
      have e : join acc (some x) = acc ++ 10 :: x := by
        show (if acc = [] then x else acc ++ 10 :: x) = _
        rw [if_neg ha]
      rw [e, ih _ (by simp) (fun y hy => hx y (List.mem_cons_of_mem _ hy)), lines_append, lines_one (hx x List.mem_cons_self), List.append_assoc]
      rfl
  rw [key ms m hm (fun x hx => hz x (List.mem_cons_of_mem _ hx)), lines_one (hz m List.mem_cons_self)]
  rfl

/-- As long as the first topic has no message, the message of the second is in the first line: it is read as the value of
the first topic. -/
theorem first_topic_empty_violation : ¬ LinePerTopic ∧ ∀ t a b (x : Text), lookup t a = some [] → lookup t b = some x →
    content t [a, b] = x := by
  have key : ∀ t a b (x : Text), lookup t a = some [] → lookup t b = some x → content t [a, b] = x := by
    intro t a b x h1 h2
    unfold content
    rw [show [a, b].map (lookup t) = [lookup t a, lookup t b] from rfl, h1, h2]
    rfl
  refine ⟨fun h => ?_, key⟩
  have := h ⟨[([1], []), ([2], [50])], []⟩ [[1], [2]] [[], [50]] (by decide) (by decide) (by decide)
  rw [key _ [1] [2] [50] (by decide) (by decide)] at this
  revert this
  decide

/-- Non-vacuity. -/
example : content (receive (receive (start (subscribe (subscribe {} [65]) [66])) [65] [49]) [66] [50]) [[65], [66]] = [49, 10, 50] := by decide

end Verif.LinMqtt
