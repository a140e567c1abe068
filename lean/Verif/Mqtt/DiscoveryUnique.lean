import Verif.Mqtt.DiscoveryForm

/-!
# Discovery documents: a text is the document of one content only
-/

namespace Verif.Mqtt.Discovery

open Verif.Mqtt Verif.Tools

theorem esc_cons (c : Nat) (s : List Nat) : esc (c :: s) = (if c = 34 ∨ c = 92 then [92, c] else [c]) ++ esc s := by simp [esc]

theorem esc_end : ∀ (s s' r r' : List Nat), esc s ++ 34 :: r = esc s' ++ 34 :: r' → s = s' ∧ r = r' := by
  intro s
  induction s with
  | nil =>
    intro s' r r' h
    cases s' with
    | nil => exact ⟨rfl, by simpa [esc] using h⟩
    | cons c s' =>
      rw [esc_cons] at h
      split at h
      · simp [esc] at h
      · rename_i hc
        simp [esc] at h
        omega
  | cons c s ih =>
    intro s' r r' h
    cases s' with
    | nil =>
      rw [esc_cons] at h
      split at h
      · simp [esc] at h
      · rename_i hc
        simp [esc] at h
        omega
    | cons c' s' =>
      rw [esc_cons, esc_cons] at h
      by_cases h1 : c = 34 ∨ c = 92
      · by_cases h2 : c' = 34 ∨ c' = 92
        · rw [if_pos h1, if_pos h2] at h
          simp only [List.cons_append, List.nil_append, List.cons.injEq] at h
          obtain ⟨_, e, h⟩ := h
          obtain ⟨a, b⟩ := ih s' r r' h
          exact ⟨by rw [e, a], b⟩
        · rw [if_pos h1, if_neg h2] at h
          simp only [List.cons_append, List.nil_append, List.cons.injEq] at h
          omega
      · by_cases h2 : c' = 34 ∨ c' = 92
        · rw [if_neg h1, if_pos h2] at h
          simp only [List.cons_append, List.nil_append, List.cons.injEq] at h
          omega
        · rw [if_neg h1, if_neg h2] at h
          simp only [List.cons_append, List.nil_append, List.cons.injEq] at h
          obtain ⟨e, h⟩ := h
          obtain ⟨a, b⟩ := ih s' r r' h
          exact ⟨by rw [e, a], b⟩

theorem quoted_end (s s' r r' : List Nat) (h : quoted s ++ r = quoted s' ++ r') : s = s' ∧ r = r' := by
  unfold quoted at h
  simp only [List.cons_append, List.nil_append, List.append_assoc, List.cons.injEq, true_and] at h
  exact esc_end s s' r r' h

theorem commas_cons {β : Type} (enc : β → List Nat) (close : Nat) (x : β) (xs : List β) (r : List Nat) :
    commas 44 ((x :: xs).map enc) ++ close :: r = enc x ++ (if xs.isEmpty then close :: r else 44 :: (commas 44 (xs.map enc) ++ close :: r)) := by
  cases xs with
  | nil => rfl
  | cons y xs => simp [commas]

theorem commas_end {β : Type} (enc : β → List Nat) (ok : β → Prop) (close : Nat) (hne : close ≠ 44)
    (hhead : ∀ x, (enc x).head? = some 34) (hcl : close ≠ 34)
    (hinj : ∀ x y r r', ok x → ok y → (r.head? = some 44 ∨ r.head? = some close) → (r'.head? = some 44 ∨ r'.head? = some close) →
      enc x ++ r = enc y ++ r' → x = y ∧ r = r') :
    ∀ (xs ys : List β) (r r' : List Nat), (∀ x ∈ xs, ok x) → (∀ y ∈ ys, ok y) →
      commas 44 (xs.map enc) ++ close :: r = commas 44 (ys.map enc) ++ close :: r' → xs = ys ∧ r = r' := by
  have head (x : β) (t : List Nat) : (enc x ++ t).head? = some 34 := by
    cases e : enc x with
    | nil => have := hhead x; rw [e] at this; cases this
    | cons c l => have := hhead x; rw [e] at this; exact this
  intro xs
  induction xs with
  | nil =>
    intro ys r r' _ _ h
    cases ys with
    | nil => exact ⟨rfl, by simpa [commas] using h⟩
    | cons y ys =>
      rw [commas_cons] at h
      have := head y (if ys.isEmpty then close :: r' else 44 :: (commas 44 (ys.map enc) ++ close :: r'))
      rw [← h] at this
      exact absurd (Option.some.inj this) hcl
  | cons x xs ih =>
    intro ys r r' hx hy h
    cases ys with
    | nil =>
      rw [commas_cons] at h
      have := head x (if xs.isEmpty then close :: r else 44 :: (commas 44 (xs.map enc) ++ close :: r))
      rw [h] at this
      exact absurd (Option.some.inj this) hcl
    | cons y ys =>
      rw [commas_cons, commas_cons] at h
      have d (zs : List β) (r : List Nat) : (if zs.isEmpty then close :: r else 44 :: (commas 44 (zs.map enc) ++ close :: r)).head? = some 44 ∨
          (if zs.isEmpty then close :: r else 44 :: (commas 44 (zs.map enc) ++ close :: r)).head? = some close := by
        split
        · right; rfl
        · left; rfl
      obtain ⟨e, h⟩ := hinj x y _ _ (hx x (List.mem_cons_self ..)) (hy y (List.mem_cons_self ..)) (d xs r) (d ys r') h
      cases xs with
      | nil =>
        cases ys with
        | nil => exact ⟨by rw [e], by simpa using h⟩
        | cons y' ys =>
          simp only [List.isEmpty_nil, List.isEmpty_cons, if_true, Bool.false_eq_true, if_false, List.cons.injEq] at h
          exact absurd h.1 hne
      | cons x' xs =>
        cases ys with
        | nil =>
          simp only [List.isEmpty_nil, List.isEmpty_cons, if_true, Bool.false_eq_true, if_false, List.cons.injEq] at h
          exact absurd h.1.symm hne
        | cons y' ys =>
          simp only [List.isEmpty_cons, Bool.false_eq_true, if_false, List.cons.injEq, true_and] at h
          obtain ⟨a, b⟩ := ih (y' :: ys) r r' (fun x hx' => hx x (List.mem_cons_of_mem _ hx')) (fun y hy' => hy y (List.mem_cons_of_mem _ hy')) h
          exact ⟨by rw [e, a], b⟩

/-- Numbers and words consist of letters and digits. -/
theorem lit_chars (s : List Nat) (h : Valid (.lit s)) : (∀ c ∈ s, c ≠ 44 ∧ c ≠ 125 ∧ c ≠ 34 ∧ c ≠ 123 ∧ c ≠ 91 ∧ c ≠ 32) ∧ s ≠ [] := by
  rcases h with rfl | rfl | rfl | ⟨n, rfl⟩
  · decide
  · decide
  · decide
  · refine ⟨fun c hc => ?_, text_ne_nil n⟩
    have := (decimal_text n).2 c hc
    omega

theorem plain_end (p : Nat → Prop) : ∀ (s s' r r' : List Nat), (∀ c ∈ s, ¬ p c) → (∀ c ∈ s', ¬ p c) → (∃ c t, r = c :: t ∧ p c) →
    (∃ c t, r' = c :: t ∧ p c) → s ++ r = s' ++ r' → s = s' ∧ r = r' := by
  intro s
  induction s with
  | nil =>
    intro s' r r' _ h2 h3 h4 h
    cases s' with
    | nil => exact ⟨rfl, h⟩
    | cons c s' =>
      obtain ⟨d, t, rfl, hd⟩ := h3
      simp only [List.nil_append, List.cons_append, List.cons.injEq] at h
      rw [h.1] at hd
      exact absurd hd (h2 c (List.mem_cons_self ..))
  | cons c s ih =>
    intro s' r r' h1 h2 h3 h4 h
    cases s' with
    | nil =>
      obtain ⟨d, t, rfl, hd⟩ := h4
      simp only [List.nil_append, List.cons_append, List.cons.injEq] at h
      rw [← h.1] at hd
      exact absurd hd (h1 c (List.mem_cons_self ..))
    | cons c' s' =>
      simp only [List.cons_append, List.cons.injEq] at h
      obtain ⟨a, b⟩ := ih s' r r' (fun x hx => h1 x (List.mem_cons_of_mem _ hx)) (fun x hx => h2 x (List.mem_cons_of_mem _ hx)) h3 h4 h.2
      exact ⟨by rw [h.1, a], b⟩

/-- What a value begins with tells its form. -/
theorem value_head (j : J Nat) (h : Valid j) (r : List Nat) :
    (∃ s, j = .str s ∧ (value j ++ r).head? = some 34) ∨ (∃ ms, j = .obj ms ∧ (value j ++ r).head? = some 123) ∨
    (∃ xs, j = .arr xs ∧ (value j ++ r).head? = some 91) ∨
    (∃ s, j = .lit s ∧ ∃ c, (value j ++ r).head? = some c ∧ c ≠ 34 ∧ c ≠ 123 ∧ c ≠ 91 ∧ c ≠ 32) := by
  cases j with
  | str s => left; exact ⟨s, rfl, rfl⟩
  | obj ms => right; left; exact ⟨ms, rfl, rfl⟩
  | arr xs => right; right; left; exact ⟨xs, rfl, rfl⟩
  | lit s =>
    right; right; right
    obtain ⟨h1, h2⟩ := lit_chars s h
    cases s with
    | nil => exact absurd rfl h2
    | cons c s =>
      have := h1 c (List.mem_cons_self ..)
      exact ⟨_, rfl, c, rfl, this.2.2.1, this.2.2.2.1, this.2.2.2.2.1, this.2.2.2.2.2⟩

theorem value_end (j j' : J Nat) (h : Valid j) (h' : Valid j') (r r' : List Nat) (hr : r.head? = some 44 ∨ r.head? = some 125)
    (hr' : r'.head? = some 44 ∨ r'.head? = some 125) (e : value j ++ r = value j' ++ r') : j = j' ∧ r = r' := by
  have d (r : List Nat) (hr : r.head? = some 44 ∨ r.head? = some 125) : ∃ c t, r = c :: t ∧ (c = 44 ∨ c = 125) := by
    cases r with
    | nil => rcases hr with hr | hr <;> cases hr
    | cons c t => exact ⟨c, t, rfl, by rcases hr with hr | hr <;> [left; right] <;> exact Option.some.inj hr⟩
  have v1 := value_head j h r
  have v2 := value_head j' h' r'
  rw [e] at v1
  rcases v1 with ⟨s, rfl, k1⟩ | ⟨s, rfl, k1⟩ | ⟨s, rfl, k1⟩ | ⟨s, rfl, c, k1, k2⟩
  · rcases v2 with ⟨s', rfl, l1⟩ | ⟨s', rfl, l1⟩ | ⟨s', rfl, l1⟩ | ⟨s', rfl, c', l1, l2⟩
    · obtain ⟨a, b⟩ := quoted_end s s' r r' e
      exact ⟨by rw [a], b⟩
    · rw [k1] at l1; cases l1
    · rw [k1] at l1; cases l1
    · rw [k1] at l1; exact absurd (Option.some.inj l1).symm l2.1
  · rcases v2 with ⟨s', rfl, l1⟩ | ⟨s', rfl, l1⟩ | ⟨s', rfl, l1⟩ | ⟨s', rfl, c', l1, l2⟩
    · rw [k1] at l1; cases l1
    · unfold value at e
      simp only [List.cons_append, List.nil_append, List.append_assoc, List.cons.injEq, true_and] at e
      obtain ⟨a, b⟩ := commas_end (fun m : List Nat × List Nat => quoted m.1 ++ 58 :: quoted m.2) (fun _ => True) 125 (by decide)
        (fun _ => rfl) (by decide) (by
          intro x y r r' _ _ _ _ e
          simp only [List.append_assoc, List.cons_append] at e
          obtain ⟨a, b⟩ := quoted_end _ _ _ _ e
          obtain ⟨b, c⟩ := quoted_end _ _ _ _ (List.cons.inj b).2
          exact ⟨Prod.ext a b, c⟩) s s' r r' (fun _ _ => trivial) (fun _ _ => trivial) e
      exact ⟨by rw [a], b⟩
    · rw [k1] at l1; cases l1
    · rw [k1] at l1; exact absurd (Option.some.inj l1).symm l2.2.1
  · rcases v2 with ⟨s', rfl, l1⟩ | ⟨s', rfl, l1⟩ | ⟨s', rfl, l1⟩ | ⟨s', rfl, c', l1, l2⟩
    · rw [k1] at l1; cases l1
    · rw [k1] at l1; cases l1
    · unfold value at e
      simp only [List.cons_append, List.nil_append, List.append_assoc, List.cons.injEq, true_and] at e
      obtain ⟨a, b⟩ := commas_end quoted (fun _ => True) 93 (by decide) (fun _ => rfl) (by decide)
        (fun x y r r' _ _ _ _ e => quoted_end _ _ _ _ e) s s' r r' (fun _ _ => trivial) (fun _ _ => trivial) e
      exact ⟨by rw [a], b⟩
    · rw [k1] at l1; exact absurd (Option.some.inj l1).symm l2.2.2.1
  · rcases v2 with ⟨s', rfl, l1⟩ | ⟨s', rfl, l1⟩ | ⟨s', rfl, l1⟩ | ⟨s', rfl, c', l1, l2⟩
    · rw [k1] at l1; exact absurd (Option.some.inj l1) k2.1
    · rw [k1] at l1; exact absurd (Option.some.inj l1) k2.2.1
    · rw [k1] at l1; exact absurd (Option.some.inj l1) k2.2.2.1
    · have c1 := (lit_chars s h).1
      have c2 := (lit_chars s' h').1
      obtain ⟨a, b⟩ := plain_end (fun c => c = 44 ∨ c = 125) s s' r r' (fun c hc => by have := c1 c hc; omega)
        (fun c hc => by have := c2 c hc; omega) (d r hr) (d r' hr') e
      exact ⟨by rw [a], b⟩

theorem member_end (m m' : Mem Nat) (r r' : List Nat) (h : Valid m.val) (h' : Valid m'.val) (hr : r.head? = some 44 ∨ r.head? = some 125)
    (hr' : r'.head? = some 44 ∨ r'.head? = some 125) (e : member m ++ r = member m' ++ r') : m = m' ∧ r = r' := by
  obtain ⟨k, g, j⟩ := m
  obtain ⟨k', g', j'⟩ := m'
  unfold member at e
  simp only [List.append_assoc] at e
  obtain ⟨ek, e⟩ := quoted_end _ _ _ _ e
  have e := (List.cons.inj e).2
  have no (j : J Nat) (h : Valid j) (r : List Nat) : (value j ++ r).head? ≠ some 32 := by
    rcases value_head j h r with ⟨_, _, k⟩ | ⟨_, _, k⟩ | ⟨_, _, k⟩ | ⟨_, _, c, k, k2⟩
    · rw [k]; decide
    · rw [k]; decide
    · rw [k]; decide
    · rw [k]; intro hc; exact k2.2.2.2 (Option.some.inj hc)
  have eg : g = g' ∧ value j ++ r = value j' ++ r' := by
    cases g
    · cases g'
      · exact ⟨rfl, e⟩
      · have := no j h r
        rw [show value j ++ r = 32 :: (value j' ++ r') from e] at this
        exact absurd rfl this
    · cases g'
      · have := no j' h' r'
        rw [show value j' ++ r' = 32 :: (value j ++ r) from e.symm] at this
        exact absurd rfl this
      · exact ⟨rfl, (List.cons.inj e).2⟩
  obtain ⟨a, b⟩ := value_end j j' h h' r r' hr hr' eg.2
  exact ⟨by rw [show k = k' from ek, eg.1, a], b⟩

/-- A text is the document of at most one content. -/
theorem content_unique (t : List Nat) (ms ms' : List (Mem Nat)) (h : Content t ms) (h' : Content t ms') : ms = ms' := by
  have e : object ms = object ms' := by rw [← h.1, ← h'.1]
  unfold object at e
  have e := (List.cons.inj e).2
  exact (commas_end member (fun m => Valid m.val) 125 (by decide) (fun _ => rfl) (by decide)
    (fun x y r r' hx hy hr hr' e => member_end x y r r' hx hy hr hr' e) ms ms' [] [] (fun m hm => (h.2.1 m hm).2) (fun m hm => (h'.2.1 m hm).2) e).1

end Verif.Mqtt.Discovery
