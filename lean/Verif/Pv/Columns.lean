import Verif.Pv.Props
/-
C91: the lines of the SolarEdge monitoring API, the requests, and the answers of Afore inverters.
-/
namespace Verif.Pv

attribute [local irreducible] headerLine

theorem cstr_self (t : Text) (h : ∀ c ∈ t, c ≠ '\x00') : cstr t = t := by
  induction t with
  | nil => rfl
  | cons a t ih => rw [cstr_cons a t (h a (by simp)), ih fun c hc => h c (by simp [hc])]

/-- What was collected of the current line. -/
structure Row (f : SolarEdge) (l : Text) : Prop where
  counter : f.counter = min l.length 1023
  size : f.buf.length = 1024
  buf : ∃ r, f.buf = l.take 1023 ++ r

theorem row_init : Row SolarEdge.init [] :=
  ⟨rfl, List.length_replicate, ⟨SolarEdge.init.buf, by rw [List.take_nil, List.nil_append]⟩⟩

theorem row_char (f : SolarEdge) (l : Text) (h : Row f l) (c : Char) (hc : c ≠ '\n') :
    ∃ f', f.feed c = some f' ∧ f'.header = f.header ∧ f'.got = f.got ∧ Row f' (l ++ [c]) := by
  obtain ⟨hn, hz, r, hb⟩ := h
  unfold SolarEdge.feed
  rw [if_neg hc]
  by_cases hk : f.counter < 1023
  · have ht : l.take 1023 = l := List.take_of_length_le (by omega)
    have hr : r ≠ [] := by
      rintro rfl
      have := congrArg List.length hb
      rw [hz, List.length_append, ht] at this
      simp at this
      omega
    rw [if_pos hk, put, if_pos (by omega)]
    refine ⟨_, rfl, rfl, rfl, ⟨by simp; omega, by simp [hz], r.tail, ?_⟩⟩
    dsimp only
    have hc' : f.counter = l.length := by omega
    rw [hb, ht, hc', set_at l r c hr, List.take_of_length_le (by simp; omega)]
    simp
  · rw [if_neg hk]
    refine ⟨f, rfl, rfl, rfl, ⟨by simp; omega, hz, r, ?_⟩⟩
    rw [hb, List.take_append_of_le_length (by omega)]

theorem row_text (f : SolarEdge) (l : Text) (h : Row f l) (t rest : Text)
    (ht : ∀ c ∈ t, c ≠ '\n') :
    ∃ f', f.run (t ++ rest) = f'.run rest ∧ f'.header = f.header ∧ f'.got = f.got ∧
      Row f' (l ++ t) := by
  induction t generalizing f l with
  | nil => exact ⟨f, rfl, rfl, rfl, by simpa using h⟩
  | cons c t ih =>
    obtain ⟨f1, e1, e2, e3, h1⟩ := row_char f l h c (ht c (by simp))
    obtain ⟨f2, e4, e5, e6, h2⟩ := ih f1 (l ++ [c]) h1 (fun x hx => ht x (by simp [hx]))
    refine ⟨f2, ?_, e5.trans e2, e6.trans e3, by simpa using h2⟩
    rw [List.cons_append, SolarEdge.run, e1, Option.bind_some, e4]

/-- The tokens of the loop do not touch the buffer. -/
theorem tokens_keep (n : Nat) (f f' : SolarEdge) (s : Text) (h : f.tokens s n = some f') :
    f'.buf = f.buf ∧ f'.counter = f.counter ∧ f'.header = f.header := by
  induction n generalizing f s with
  | zero => rw [SolarEdge.tokens] at h; obtain rfl := Option.some.inj h; exact ⟨rfl, rfl, rfl⟩
  | succ n ih =>
    rw [SolarEdge.tokens] at h
    split at h
    · split at h
      · simp at h
      · exact ih _ _ h
    · split at h
      · split at h
        · exact ih _ _ h
        · obtain rfl := Option.some.inj h; exact ⟨rfl, rfl, rfl⟩
      · split at h
        · have h' := ih _ _ h
          exact h'
        · exact ih _ _ h

theorem line_keep (f f' : SolarEdge) (s : Text) (h : f.line s = some f') :
    f'.buf = f.buf ∧ f'.counter = f.counter ∧ (f.header = true → f'.header = true) := by
  unfold SolarEdge.line at h
  split at h
  next hh => obtain rfl := Option.some.inj h; exact ⟨rfl, rfl, fun h => by simp [hh] at h⟩
  next =>
    split at h
    · split at h
      · obtain ⟨a, b, c⟩ := tokens_keep _ _ _ _ h; exact ⟨a, b, fun h => c.trans h⟩
      · obtain ⟨a, b, c⟩ := tokens_keep _ _ _ _ h; exact ⟨a, b, fun h => c.trans h⟩
    · obtain rfl := Option.some.inj h; exact ⟨rfl, rfl, id⟩

/-- The end of a line. -/
theorem row_newline (f : SolarEdge) (l : Text) (h : Row f l) (hl : l ≠ []) :
    ∃ b : Text, f.feed '\n' = (({ f with buf := b } : SolarEdge).line (cstr (l.take 1023))).map
        (fun f => { f with counter := 0 }) ∧ b.length = 1024 := by
  obtain ⟨hn, hz, r, hb⟩ := h
  have hpos : 0 < l.length := List.length_pos_iff.mpr hl
  unfold SolarEdge.feed
  rw [if_pos rfl, if_pos (by omega)]
  have hk : f.counter = (l.take 1023).length := by rw [List.length_take]; omega
  rw [put, if_pos (by omega), Option.bind_some]
  have hr : r ≠ [] := by
    rintro rfl
    have := congrArg List.length hb
    rw [hz] at this
    simp at this
    omega
  have hcs : cstr (f.buf.set f.counter '\x00') = cstr (l.take 1023) := by
    rw [hk, hb, cstr_set _ _ hr]
  refine ⟨f.buf.set f.counter '\x00', by rw [hcs], by simp [hz]⟩

/-- A whole line. -/
theorem run_row (f : SolarEdge) (h : Row f []) (t rest : Text) (hne : t ≠ [])
    (ht : ∀ c ∈ t, c ≠ '\n') (hh : Bool) (g : Nat → Option Text)
    (he : ∀ f0 : SolarEdge, f0.header = f.header → f0.got = f.got →
      ∃ f1, f0.line (cstr (t.take 1023)) = some f1 ∧ f1.header = hh ∧ f1.got = g) :
    ∃ f', f.run (t ++ '\n' :: rest) = f'.run rest ∧ Row f' [] ∧ f'.header = hh ∧ f'.got = g := by
  obtain ⟨f1, e1, e2, e3, h1⟩ := row_text f [] h t ('\n' :: rest) ht
  rw [List.nil_append] at h1
  obtain ⟨b, e4, hb⟩ := row_newline f1 t h1 hne
  obtain ⟨f2, e5, e6, e7⟩ := he { f1 with buf := b } e2 e3
  obtain ⟨k1, k2, _⟩ := line_keep _ _ _ e5
  refine ⟨{ f2 with counter := 0 }, ?_, ⟨by simp, ?_, f2.buf, by simp⟩, e6, e7⟩
  · rw [e1, SolarEdge.run, e4, e5]; rfl
  · rw [k1]; exact hb

/-! Comma separated lines without empty fields. -/

theorem commas_cons (f : Text) (fs : List Text) (h : fs ≠ []) :
    commas (f :: fs) = f ++ ',' :: commas fs := by
  cases fs with
  | nil => exact absurd rfl h
  | cons g fs => rfl

theorem strtok_field (f : Text) (fs : List Text) (hf : f ≠ []) (hw : field f) :
    strtok (commas (f :: fs)) = some (f, commas fs) := by
  have hc : ∀ c ∈ f, c ≠ ',' := fun c hc => (hw c hc).1
  have h1 : ∀ x : Text, (x = [] ∨ ∃ y, x = ',' :: y) →
      (f ++ x).takeWhile (fun c => decide (c ≠ ',')) = f ∧
      (f ++ x).dropWhile (fun c => decide (c ≠ ',')) = x := by
    intro x hx
    clear hf hw
    induction f with
    | nil => rcases hx with rfl | ⟨y, rfl⟩ <;> simp
    | cons a f ih =>
      have ha := hc a (by simp)
      have := ih fun c h => hc c (by simp [h])
      simp only [ne_eq, decide_not] at this
      simp [ha, this]
  have h2 : ∀ x : Text, (f ++ x).dropWhile (fun c => decide (c = ',')) = f ++ x := by
    intro x
    cases f with
    | nil => exact absurd rfl hf
    | cons a f => simp [hc a (by simp)]
  cases fs with
  | nil =>
    have e : commas [f] = f ++ [] := by simp [commas]
    unfold strtok
    rw [e, h2]
    dsimp only
    rw [if_neg (by simpa using hf), (h1 [] (Or.inl rfl)).1, (h1 [] (Or.inl rfl)).2]
    rfl
  | cons g fs =>
    rw [commas_cons f _ (by simp)]
    unfold strtok
    rw [h2]
    dsimp only
    rw [if_neg (by simp), (h1 _ (Or.inr ⟨_, rfl⟩)).1, (h1 _ (Or.inr ⟨_, rfl⟩)).2]
    rfl

theorem count_commas (fs : List Text) (h : ∀ f ∈ fs, field f) :
    (commas fs).countP (· = ',') = fs.length - 1 := by
  have h0 : ∀ f : Text, field f → f.countP (· = ',') = 0 := by
    intro f hf
    rw [List.countP_eq_zero]
    intro c hc
    simp [(hf c hc).1]
  induction fs with
  | nil => rfl
  | cons f fs ih =>
    cases fs with
    | nil => simpa [commas] using h0 f (h f (by simp))
    | cons g fs =>
      rw [commas_cons f _ (by simp), List.countP_append, List.countP_cons,
        ih (fun x hx => h x (by simp [hx])), h0 f (h f (by simp))]
      simp

theorem commas_cstr (fs : List Text) (h : ∀ f ∈ fs, field f) : cstr (commas fs) = commas fs := by
  have hall : ∀ c ∈ commas fs, c ≠ '\x00' := by
    induction fs with
    | nil => simp [commas]
    | cons f fs ih =>
      cases fs with
      | nil =>
        intro c hc
        exact (h f (by simp) c (by simpa [commas] using hc)).2.2
      | cons g fs =>
        intro c hc
        rw [commas_cons f _ (by simp)] at hc
        simp only [List.mem_append, List.mem_cons] at hc
        rcases hc with hc | hc | hc
        · exact (h f (by simp) c hc).2.2
        · rw [hc]; decide
        · exact ih (fun x hx => h x (by simp [hx])) c hc
  exact cstr_self _ hall

theorem commas_line (fs : List Text) (h : ∀ f ∈ fs, field f) : ∀ c ∈ commas fs, c ≠ '\n' := by
  induction fs with
  | nil => simp [commas]
  | cons f fs ih =>
    cases fs with
    | nil =>
      intro c hc
      exact (h f (by simp) c (by simpa [commas] using hc)).2.1
    | cons g fs =>
      intro c hc
      rw [commas_cons f _ (by simp)] at hc
      simp only [List.mem_append, List.mem_cons] at hc
      rcases hc with hc | hc | hc
      · exact (h f (by simp) c hc).2.1
      · rw [hc]; decide
      · exact ih (fun x hx => h x (by simp [hx])) c hc

/-- The loop over the tokens after the mode. -/
theorem tokens_fields (n : Nat) (hn : n ≤ 32) (f : SolarEdge) (fs : List Text)
    (hl : n ≤ fs.length) (h : ∀ x ∈ fs, x ≠ [] ∧ field x) :
    ∃ f', f.tokens (commas fs) n = some f' ∧ f'.header = f.header ∧
      ∀ k, f'.got k = if 34 - n ≤ k ∧ k < 34 ∧ column k = true then fs[k - (34 - n)]?
        else f.got k := by
  induction n generalizing f fs with
  | zero =>
    refine ⟨f, rfl, rfl, fun k => ?_⟩
    rw [if_neg (by omega)]
  | succ n ih =>
    cases fs with
    | nil => simp at hl
    | cons x fs =>
      have hx := h x (by simp)
      have hfs : ∀ y ∈ fs, y ≠ [] ∧ field y := fun y hy => h y (by simp [hy])
      rw [SolarEdge.tokens]
      rw [strtok_field x fs hx.1 hx.2]
      dsimp only
      rw [if_neg (by omega)]
      simp only [List.length_cons] at hl
      have hidx : ∀ k, 34 - n ≤ k → (x :: fs)[k - (34 - (n + 1))]? = fs[k - (34 - n)]? := by
        intro k hk
        have : k - (34 - (n + 1)) = (k - (34 - n)) + 1 := by omega
        rw [this, List.getElem?_cons_succ]
      split
      next hc =>
        obtain ⟨f', e1, e2, e3⟩ := ih (by omega)
          { f with got := fun k => if k = 34 - (n + 1) then some x else f.got k } fs (by omega) hfs
        refine ⟨f', e1, e2, fun k => ?_⟩
        rw [e3]
        by_cases hk : 34 - n ≤ k ∧ k < 34 ∧ column k = true
        · rw [if_pos hk, if_pos ⟨by omega, hk.2⟩, hidx k hk.1]
        · rw [if_neg hk]
          dsimp only
          by_cases hk2 : k = 34 - (n + 1)
          · rw [if_pos hk2, if_pos ⟨by omega, by omega, by rw [hk2]; exact hc⟩]
            subst hk2
            simp
          · rw [if_neg hk2, if_neg]
            intro hh
            exact hk ⟨by omega, hh.2⟩
      next hc =>
        obtain ⟨f', e1, e2, e3⟩ := ih (by omega) f fs (by omega) hfs
        refine ⟨f', e1, e2, fun k => ?_⟩
        rw [e3]
        by_cases hk : 34 - n ≤ k ∧ k < 34 ∧ column k = true
        · rw [if_pos hk, if_pos ⟨by omega, hk.2⟩, hidx k hk.1]
        · rw [if_neg hk, if_neg]
          intro hh
          by_cases hk2 : k = 34 - (n + 1)
          · rw [hk2] at hh; exact hc hh.2.2
          · exact hk ⟨by omega, hh.2⟩

theorem column_shown (k : Nat) : column k = true ↔ k ∈ shown := by
  simp [column, shown]

theorem shown_lt (k : Nat) (h : k ∈ shown) : 2 ≤ k ∧ k < 34 := by
  simp [shown] at h
  omega

/-- **A line of measurements.**  Once the header was seen, a line with 35 or more fields, none empty,
from an inverter that produces (`MPPT`) sets every column that is shown to the field in that column
and no other. -/
theorem row_read (f : SolarEdge) (h : Row f []) (hh : f.header = true) (fs : List Text)
    (hl : 35 ≤ fs.length) (hf : ∀ x ∈ fs, x ≠ [] ∧ field x) (hs : (commas fs).length ≤ 1023)
    (mode : Text) (hm : fs[1]? = some mode) (hp : "MPPT".toList <+: mode) :
    ∃ f', f.run (commas fs ++ ['\n']) = some f' ∧ Row f' [] ∧ f'.header = true ∧
      ∀ k, f'.got k = if k ∈ shown then fs[k]? else f.got k := by
  match fs, hl with
  | x0 :: x1 :: fs, hl =>
  have h0 := hf x0 (by simp)
  have h1 := hf x1 (by simp)
  have hfs : ∀ y ∈ fs, y ≠ [] ∧ field y := fun y hy => hf y (by simp [hy])
  simp only [List.length_cons] at hl
  obtain rfl : x1 = mode := by simpa using hm
  have hfield : ∀ y ∈ x0 :: x1 :: fs, field y := fun y hy => (hf y hy).2
  have key : ∀ f0 : SolarEdge, f0.header = f.header → f0.got = f.got →
      ∃ f1, f0.line (cstr ((commas (x0 :: x1 :: fs)).take 1023)) = some f1 ∧ f1.header = true ∧
        f1.got = fun k => if k ∈ shown then (x0 :: x1 :: fs)[k]? else f.got k := by
    intro f0 e1 e2
    rw [List.take_of_length_le hs, commas_cstr _ hfield, SolarEdge.line, e1, hh,
      if_neg (by simp), count_commas _ hfield, if_pos (by simp only [List.length_cons]; omega),
      strtok_field x0 _ h0.1 h0.2]
    dsimp only
    rw [SolarEdge.tokens]
    rw [strtok_field x1 _ h1.1 h1.2]
    dsimp only
    rw [if_pos rfl, if_pos (List.isPrefixOf_iff_prefix.mpr hp)]
    obtain ⟨f', a, b, c⟩ := tokens_fields 32 (by omega) f0 fs (by omega) hfs
    refine ⟨f', a, by rw [b, e1, hh], ?_⟩
    funext k
    rw [c, e2]
    by_cases hk : k ∈ shown
    · have := shown_lt k hk
      rw [if_pos hk, if_pos ⟨by omega, by omega, (column_shown k).mpr hk⟩]
      obtain ⟨j, rfl⟩ : ∃ j, k = j + 2 := ⟨k - 2, by omega⟩
      simp
    · rw [if_neg hk, if_neg]
      intro hh
      exact hk ((column_shown k).mp hh.2.2)
  obtain ⟨f', a, b, c, d⟩ := run_row f h (commas (x0 :: x1 :: fs)) [] (by
      rw [commas_cons _ _ (by simp)]; simp) (commas_line _ hfield) true _ key
  exact ⟨f', a, b, c, fun k => by rw [d]⟩

/-- **An inverter that does not produce**: its line changes nothing. -/
theorem idle_row_read (f : SolarEdge) (h : Row f []) (hh : f.header = true) (fs : List Text)
    (hl : 35 ≤ fs.length) (hf : ∀ x ∈ fs, x ≠ [] ∧ field x) (hs : (commas fs).length ≤ 1023)
    (mode : Text) (hm : fs[1]? = some mode) (hp : ¬ "MPPT".toList <+: mode) :
    ∃ f', f.run (commas fs ++ ['\n']) = some f' ∧ Row f' [] ∧ f'.header = true ∧
      f'.got = f.got := by
  match fs, hl with
  | x0 :: x1 :: fs, hl =>
  have h0 := hf x0 (by simp)
  have h1 := hf x1 (by simp)
  simp only [List.length_cons] at hl
  obtain rfl : x1 = mode := by simpa using hm
  have hfield : ∀ y ∈ x0 :: x1 :: fs, field y := fun y hy => (hf y hy).2
  have key : ∀ f0 : SolarEdge, f0.header = f.header → f0.got = f.got →
      ∃ f1, f0.line (cstr ((commas (x0 :: x1 :: fs)).take 1023)) = some f1 ∧ f1.header = true ∧
        f1.got = f.got := by
    intro f0 e1 e2
    rw [List.take_of_length_le hs, commas_cstr _ hfield, SolarEdge.line, e1, hh,
      if_neg (by simp), count_commas _ hfield, if_pos (by simp only [List.length_cons]; omega),
      strtok_field x0 _ h0.1 h0.2]
    dsimp only
    rw [SolarEdge.tokens]
    rw [strtok_field x1 _ h1.1 h1.2]
    dsimp only
    rw [if_pos rfl, prefix_false _ _ hp]
    exact ⟨f0, rfl, by rw [e1, hh], e2⟩
  exact run_row f h (commas (x0 :: x1 :: fs)) [] (by
      rw [commas_cons _ _ (by simp)]; simp) (commas_line _ hfield) true _ key

/-- **Before the header nothing is believed**: a line changes no reading, and reading of
measurements starts exactly when the line begins with the header the program was written for. -/
theorem header_read (f : SolarEdge) (h : Row f []) (hh : f.header = false) (t : Text) (hne : t ≠ [])
    (ht : ∀ c ∈ t, c ≠ '\n' ∧ c ≠ '\x00') (hs : t.length ≤ 1023) :
    ∃ f', f.run (t ++ ['\n']) = some f' ∧ Row f' [] ∧ f'.got = f.got ∧
      (f'.header = true ↔ headerLine <+: t) := by
  have hc : cstr t = t := cstr_self t fun c hc => (ht c hc).2
  obtain ⟨f', a, b, c, d⟩ := run_row f h t [] hne (fun c hc => (ht c hc).1)
    (headerLine.isPrefixOf t) f.got (by
      intro f0 e1 e2
      rw [List.take_of_length_le hs, hc, SolarEdge.line, e1, hh, if_pos rfl]
      exact ⟨{ f0 with header := headerLine.isPrefixOf t }, rfl, rfl, e2⟩)
  exact ⟨f', a, b, d, by rw [c]; exact List.isPrefixOf_iff_prefix⟩

/-- Fields named after their columns. -/
def rowFields : List Text :=
  ["2026-11-17 12:00:00", "MPPT", "40.5", "9000", "750", "6000", "0", "12345678", "400", "401",
    "402", "13.1", "230.1", "50.01", "3000", "2999", "10", "0", "1", "13.2", "230.2", "50.02",
    "3001", "2998", "11", "0", "1", "13.3", "230.3", "50.03", "3002", "2997", "12", "0", "1"].map
    String.toList

example : 35 ≤ rowFields.length ∧ (∀ x ∈ rowFields, x ≠ [] ∧ field x) ∧
    (commas rowFields).length ≤ 1023 := by
  refine ⟨by decide, ?_, by decide +kernel⟩
  unfold field
  decide +kernel

/-- The header was seen. -/
def ready : SolarEdge := { SolarEdge.init with header := true }

theorem ready_row : Row ready [] ∧ ready.header = true :=
  ⟨⟨rfl, List.length_replicate, ⟨ready.buf, by rw [List.take_nil, List.nil_append]⟩⟩, rfl⟩

example : (ready.run (commas rowFields ++ ['\n'])).map
    (fun f => (f.got 2, f.got 7, f.got 32, f.got 33))
    = some (some "40.5".toList, some "12345678".toList, some "12".toList, none) := by
  decide +kernel

example : headerLine ≠ [] ∧ (∀ c ∈ headerLine, c ≠ '\n' ∧ c ≠ '\x00') ∧ headerLine.length ≤ 1023 := by
  decide +kernel

/-- A line with empty fields, as a CSV line may have them, is read without undefined behaviour. -/
def EmptyFieldsRead : Prop :=
  ∀ (f : SolarEdge) (fs : List Text), Row f [] → f.header = true → fs.length = 35 →
    (∀ x ∈ fs, field x) → (commas fs).length ≤ 1023 → f.run (commas fs ++ ['\n']) ≠ none

/-- The line of an inverter with one phase: nothing in the columns of the other two. -/
def onePhase : List Text := rowFields.take 19 ++ List.replicate 16 []

/-- **False**: `strtok` skips empty fields, runs out of tokens, and the result NULL is converted to a
number. -/
theorem empty_fields_read_violation : ¬ EmptyFieldsRead := by
  intro h
  have := h ready onePhase ready_row.1 ready_row.2 (by decide) (by unfold field; decide +kernel)
    (by decide +kernel)
  revert this
  decide +kernel

/-- An empty field does not move the others: each column keeps its own value. -/
def ColumnsKept : Prop :=
  ∀ (f f' : SolarEdge) (fs : List Text), Row f [] → f.header = true → 35 ≤ fs.length →
    (∀ x ∈ fs, field x) → fs[1]? = some "MPPT".toList → (commas fs).length ≤ 1023 →
    f.run (commas fs ++ ['\n']) = some f' → ∀ k ∈ shown, f'.got k = fs[k]?

/-- **False**: if the resistance (column 5) is empty, all later columns shift: the voltage between the
phases is shown as energy. -/
theorem columns_kept_violation : ¬ ColumnsKept := by
  intro h
  have e : ((ready.run (commas (rowFields.set 5 []) ++ ['\n'])).map fun f => f.got 7)
      = some (some "400".toList) := by decide +kernel
  cases hr : ready.run (commas (rowFields.set 5 []) ++ ['\n']) with
  | none => rw [hr] at e; simp at e
  | some f =>
    rw [hr] at e
    have h7 := h ready f (rowFields.set 5 []) ready_row.1 ready_row.2 (by decide)
      (by unfold field; decide +kernel) (by decide +kernel) (by decide +kernel) hr 7 (by decide)
    simp only [Option.map_some, Option.some.injEq] at e
    rw [e] at h7
    revert h7
    decide +kernel

/-! The request. -/

theorem append_some (b s : Text) (h : b.length + s.length < 200) :
    append 200 b s = some (b ++ s) := by
  rw [append, if_pos h]

/-- **The request** names the site, the inverter, the times and the key, if the parameters leave
room: a key of at most 54 characters always does. -/
theorem query_complete_partial (siteId serial apiKey start stop : Text) (h1 : siteId.length < 20)
    (h2 : serial.length < 20) (h3 : apiKey.length ≤ 54) (h4 : start.length ≤ 22)
    (h5 : stop.length ≤ 22) :
    query siteId serial apiKey start stop = some ("GET /equipment/".toList ++ siteId
      ++ "/".toList ++ serial ++ "/data.csv?startTime=".toList ++ start ++ "&endTime=".toList ++ stop
      ++ "&api_key=".toList ++ apiKey ++ " HTTP/1.1".toList) := by
  unfold query
  rw [append_some _ _ (by simp), Option.bind_some, parameter, if_pos h1, Option.bind_some,
    append_some _ _ (by simp; omega), Option.bind_some, append_some _ _ (by simp; omega),
    Option.bind_some, parameter, if_pos h2, Option.bind_some, append_some _ _ (by simp; omega),
    Option.bind_some, append_some _ _ (by simp; omega), Option.bind_some,
    append_some _ _ (by simp; omega), Option.bind_some, append_some _ _ (by simp; omega),
    Option.bind_some, append_some _ _ (by simp; omega), Option.bind_some,
    append_some _ _ (by simp; omega), Option.bind_some, parameter, if_pos (by omega),
    Option.bind_some, append_some _ _ (by simp; omega), Option.bind_some,
    append_some _ _ (by simp; omega), List.nil_append]

example : query "123456".toList "7E12345A-AB".toList (List.replicate 32 'k')
    "2026-11-17%2011:50:00".toList "2026-11-17%2023:59:59".toList ≠ none := by decide +kernel

/-- Every key the program takes (up to 100 characters, the rest is cut off) can be used. -/
def QueryFits : Prop :=
  ∀ (siteId serial apiKey start stop : Text), siteId.length ≤ 20 → serial.length ≤ 20 →
    apiKey.length ≤ 100 → start.length ≤ 22 → stop.length ≤ 22 →
    query siteId serial apiKey start stop ≠ none

/-- **False**: with a key of 90 characters the request is longer than the 200 octets it is put
together in. -/
theorem query_fits_violation : ¬ QueryFits := by
  intro h
  have := h "123456".toList "7E12345A-AB".toList (List.replicate 90 'k')
    "2026-11-17%2011:50:00".toList "2026-11-17%2023:59:59".toList (by decide) (by decide)
    (by decide) (by decide) (by decide)
  revert this
  decide +kernel

/-! Afore. -/

/-- The credentials given to the program are what is sent. -/
def PasswordSent : Prop :=
  ∀ s : Text, s.length < 100 → (∀ c ∈ s, c ≠ '\x00') → printed (aforePassword s) = some s

/-- **False for every password**: the end of the text is never stored. -/
theorem password_never_ends (s : Text) (hs : ∀ c ∈ s, c ≠ '\x00') :
    printed (aforePassword s) = none := by
  have key : ∀ (a : Text) (b : List (Option Char)), (∀ c ∈ a, c ≠ '\x00') →
      (b = [] ∨ ∃ t, b = none :: t) → printed (a.map some ++ b) = none := by
    intro a
    induction a with
    | nil =>
      intro b _ hb
      rcases hb with rfl | ⟨t, rfl⟩ <;> rfl
    | cons c a ih =>
      intro b ha hb
      rw [List.map_cons, List.cons_append, printed, if_neg (ha c (by simp)),
        ih b (fun x hx => ha x (by simp [hx])) hb]
      rfl
  apply key
  · exact fun c hc => hs c (List.mem_of_mem_take hc)
  · cases 100 - s.length with
    | zero => exact Or.inl rfl
    | succ n => exact Or.inr ⟨_, rfl⟩

theorem password_sent_violation : ¬ PasswordSent := by
  intro h
  have := h "bG9naW46cGFzc3dvcmQ=".toList (by decide) (by decide)
  rw [password_never_ends _ (by decide)] at this
  simp at this

end Verif.Pv
