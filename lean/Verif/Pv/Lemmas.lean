import Verif.Pv.Model
/-
Reading an answer of a Fronius inverter line by line.
-/
namespace Verif.Pv

/-- What is pending and what was read. -/
abbrev Eff := Option Quantity × (Quantity → Option Text)

/-- The effect of a collected line. -/
def lineEff (p : Eff) (s : Text) : Option Eff :=
  match scanColon s with
  | (none, _) => none
  | (some n, v) =>
    match p.1 with
    | some q =>
      if "Value".toList.isPrefixOf n then
        v.map fun v => (none, fun r => if r = q then some v else p.2 r)
      else some (Fronius.line.name n (some q), p.2)
    | none => some (Fronius.line.name n none, p.2)

theorem line_eff (f : Fronius) (s : Text) :
    f.line s = (lineEff (f.fetch, f.got) s).map fun p => { f with fetch := p.1, got := p.2 } := by
  unfold Fronius.line lineEff
  rcases scanColon s with ⟨n, v⟩
  cases n with
  | none => rfl
  | some n =>
    dsimp only
    cases f.fetch with
    | none => rfl
    | some q =>
      dsimp only
      split
      · cases v <;> rfl
      · rfl

/-- The quotation mark is stored as a space. -/
def sub (c : Char) : Char := if c = '"' then ' ' else c

/-- `l` is what was collected of the current line. -/
structure Holds (f : Fronius) (l : Text) : Prop where
  start : f.start = true ↔ l ≠ []
  counter : f.counter = l.length
  size : f.buf.length = 80
  buf : ∃ r, f.buf = l.take 80 ++ r

/-- The line collected so far and one more character. -/
def grow (l : Text) (c : Char) : Text := if c = '"' ∨ l ≠ [] then l ++ [sub c] else l

theorem init_holds : Holds Fronius.init [] :=
  ⟨by simp [Fronius.init], rfl, by simp [Fronius.init], ⟨_, by simp; rfl⟩⟩

theorem set_at (a r : Text) (c : Char) (h : r ≠ []) :
    (a ++ r).set a.length c = a ++ c :: r.tail := by
  cases r with
  | nil => exact absurd rfl h
  | cons x r => simp

theorem feed_char (f : Fronius) (l : Text) (h : Holds f l) (c : Char) (hc : c ≠ '\n')
    (hl : l.length < 2147483647) :
    ∃ f', f.feed c = some f' ∧ f'.fetch = f.fetch ∧ f'.got = f.got ∧ Holds f' (grow l c) := by
  obtain ⟨hs, hn, hz, r, hb⟩ := h
  unfold Fronius.feed
  rw [if_neg hc]
  by_cases hq : c = '"' ∨ f.start = true
  · have hg : grow l c = l ++ [sub c] := by
      rw [grow, if_pos]
      rcases hq with hq | hq
      · exact Or.inl hq
      · exact Or.inr (hs.mp hq)
    rw [if_pos hq, hg]
    dsimp only
    by_cases h80 : f.counter < 80
    · have hr : r ≠ [] := by
        rintro rfl
        have := congrArg List.length hb
        simp at this
        omega
      have ht : l.take 80 = l := List.take_of_length_le (by omega)
      rw [ht] at hb
      rw [if_pos h80, put, if_pos (by omega), Option.bind_some, if_pos (by omega)]
      refine ⟨_, rfl, rfl, rfl, ⟨by simp, by simp [hn], by simp [hz], r.tail, ?_⟩⟩
      dsimp only
      rw [hb, hn, set_at l r _ hr, List.take_of_length_le (by simp; omega)]
      simp [sub]
    · rw [if_neg h80, Option.bind_some, if_pos (by omega)]
      refine ⟨_, rfl, rfl, rfl, ⟨by simp, by simp [hn], hz, r, ?_⟩⟩
      dsimp only
      rw [hb, List.take_append_of_le_length (by omega)]
  · have hg : grow l c = l := by
      rw [grow, if_neg]
      rintro (h | h)
      · exact hq (Or.inl h)
      · exact hq (Or.inr (hs.mpr h))
    rw [if_neg hq, hg]
    exact ⟨f, rfl, rfl, rfl, ⟨hs, hn, hz, r, hb⟩⟩

theorem feed_text (f : Fronius) (l : Text) (h : Holds f l) (t rest : Text)
    (ht : ∀ c ∈ t, c ≠ '\n') (hl : l.length + t.length ≤ 2147483647) :
    ∃ f', f.run (t ++ rest) = f'.run rest ∧ f'.fetch = f.fetch ∧ f'.got = f.got ∧
      Holds f' (t.foldl grow l) := by
  induction t generalizing f l with
  | nil => exact ⟨f, rfl, rfl, rfl, h⟩
  | cons c t ih =>
    have hgl : (grow l c).length ≤ l.length + 1 := by
      unfold grow; split <;> simp
    simp only [List.length_cons] at hl
    obtain ⟨f1, e1, e2, e3, h1⟩ := feed_char f l h c (ht c (by simp)) (by omega)
    obtain ⟨f2, e4, e5, e6, h2⟩ := ih f1 (grow l c) h1 (fun x hx => ht x (by simp [hx])) (by omega)
    refine ⟨f2, ?_, e5.trans e2, e6.trans e3, h2⟩
    rw [List.cons_append, Fronius.run, e1, Option.bind_some, e4]

theorem cstr_set (x y : Text) (hy : y ≠ []) :
    cstr ((x ++ y).set x.length '\x00') = cstr x := by
  rw [set_at x y _ hy, cstr, cstr]
  induction x with
  | nil => simp [List.takeWhile]
  | cons a x ih =>
    simp only [List.cons_append, List.takeWhile_cons]
    split
    · rw [ih]
    · rfl

/-- The effect of the end of a line when `l` was collected. -/
def endEff (p : Eff) (l : Text) : Option Eff :=
  if l = [] then some p else lineEff p (cstr (l.take 79))

theorem feed_newline (f : Fronius) (l : Text) (h : Holds f l) :
    (endEff (f.fetch, f.got) l = none ∧ f.feed '\n' = none) ∨
    ∃ f', endEff (f.fetch, f.got) l = some (f'.fetch, f'.got) ∧ f.feed '\n' = some f' ∧
      Holds f' [] := by
  obtain ⟨hs, hn, hz, r, hb⟩ := h
  unfold Fronius.feed endEff
  rw [if_pos rfl]
  by_cases he : l = []
  · have hf : ¬ f.start = true := fun h => hs.mp h he
    rw [if_pos he, if_neg hf]
    refine Or.inr ⟨{ f with counter := 0, start := false }, rfl, rfl, ?_⟩
    exact ⟨by simp, by simp, hz, f.buf, by simp⟩
  · rw [if_neg he, if_pos (hs.mpr he)]
    dsimp only
    have hk : (if f.counter > 79 then 79 else f.counter) = (l.take 79).length := by
      rw [List.length_take, hn]
      split <;> omega
    rw [hk, put, if_pos (by rw [List.length_take]; omega), Option.bind_some, line_eff]
    have hsplit : ∃ y, f.buf = l.take 79 ++ y := by
      have e : l.take 80 = l.take 79 ++ (l.drop 79).take 1 := by
        rw [← List.take_add]
      exact ⟨(l.drop 79).take 1 ++ r, by rw [hb, e, List.append_assoc]⟩
    obtain ⟨y, hy⟩ := hsplit
    have hyn : y ≠ [] := by
      rintro rfl
      have := congrArg List.length hy
      rw [hz] at this
      simp at this
      omega
    have hcs : cstr (f.buf.set (l.take 79).length '\x00') = cstr (l.take 79) := by
      rw [hy, cstr_set _ _ hyn]
    rw [hcs]
    dsimp only
    cases hle : lineEff (f.fetch, f.got) (cstr (l.take 79)) with
    | none => exact Or.inl ⟨rfl, rfl⟩
    | some p =>
      refine Or.inr ⟨_, rfl, rfl, ?_⟩
      exact ⟨by simp, by simp, by simp [hz], _, by simp; rfl⟩

/-- A whole line. -/
theorem run_line (f : Fronius) (l : Text) (h : Holds f l) (t rest : Text)
    (ht : ∀ c ∈ t, c ≠ '\n') (hl : l.length + t.length ≤ 2147483647) :
    (endEff (f.fetch, f.got) (t.foldl grow l) = none ∧ f.run (t ++ '\n' :: rest) = none) ∨
    ∃ f', endEff (f.fetch, f.got) (t.foldl grow l) = some (f'.fetch, f'.got) ∧
      f.run (t ++ '\n' :: rest) = f'.run rest ∧ Holds f' [] := by
  obtain ⟨f1, e1, e2, e3, h1⟩ := feed_text f l h t ('\n' :: rest) ht hl
  rw [e1, ← e2, ← e3, Fronius.run]
  rcases feed_newline f1 _ h1 with ⟨a, b⟩ | ⟨f2, a, b, c⟩
  · exact Or.inl ⟨a, by rw [b]; rfl⟩
  · exact Or.inr ⟨f2, a, by rw [b]; rfl, c⟩

/-! What a line makes of the collected text. -/

theorem grow_unquoted (t : Text) (h : unquoted t) : t.foldl grow [] = [] := by
  induction t with
  | nil => rfl
  | cons c t ih =>
    have hc := (h c (by simp)).2
    have hg : grow [] c = [] := by simp [grow, hc]
    rw [List.foldl_cons, hg]
    exact ih fun x hx => h x (by simp [hx])

theorem grow_more (l t : Text) (h : l ≠ []) : t.foldl grow l = l ++ t.map sub := by
  induction t generalizing l with
  | nil => simp
  | cons c t ih =>
    have hg : grow l c = l ++ [sub c] := by simp [grow, h]
    rw [List.foldl_cons, hg, ih _ (by simp)]
    simp

theorem grow_member (i t : Text) (h : unquoted i) :
    (i ++ '"' :: t).foldl grow [] = ' ' :: t.map sub := by
  rw [List.foldl_append, grow_unquoted i h, List.foldl_cons]
  have : grow [] '"' = [' '] := by simp [grow, sub]
  rw [this, grow_more _ _ (by simp)]
  rfl

theorem word_sub (w : Text) (h : word w) : w.map sub = w := by
  have : ∀ c ∈ w, sub c = c := fun c hc => by simp [sub, (h.2 c hc).2.1]
  calc w.map sub = w.map id := List.map_congr_left this
    _ = w := List.map_id w

theorem cstr_cons (c : Char) (t : Text) (h : c ≠ '\x00') : cstr (c :: t) = c :: cstr t := by
  simp [cstr, h]

theorem word_cstr (w t : Text) (h : word w) : cstr (w ++ t) = w ++ cstr t := by
  have : ∀ c ∈ w, c ≠ '\x00' := fun c hc => (h.2 c hc).2.2
  clear h
  induction w with
  | nil => rfl
  | cons a w ih =>
    have ha := this a (by simp)
    rw [List.cons_append, cstr_cons a _ ha, ih fun c hc => this c (by simp [hc])]
    rfl

theorem takeWhile_word (w t : Text) (h : word w) (ht : t = [] ∨ ∃ c r, t = c :: r ∧ blank c = true) :
    (w ++ t).takeWhile (fun c => !blank c) = w ∧ (w ++ t).dropWhile (fun c => !blank c) = t := by
  have hw : ∀ c ∈ w, blank c = false := fun c hc => (h.2 c hc).1
  clear h
  induction w with
  | nil =>
    rcases ht with rfl | ⟨c, r, rfl, hc⟩
    · exact ⟨rfl, rfl⟩
    · simp [hc]
  | cons a w ih =>
    have ha := hw a (by simp)
    have := ih fun c hc => hw c (by simp [hc])
    simp [ha, this]

theorem scanWord_word (w t : Text) (h : word w)
    (ht : t = [] ∨ ∃ c r, t = c :: r ∧ blank c = true) :
    scanWord (w ++ t) = some (w, t) := by
  have hd : (w ++ t).dropWhile blank = w ++ t := by
    obtain ⟨hne, hw⟩ := h
    cases w with
    | nil => exact absurd rfl hne
    | cons a w => simp [(hw a (by simp)).1]
  unfold scanWord
  rw [hd]
  dsimp only
  rw [(takeWhile_word w t h ht).1, (takeWhile_word w t h ht).2, if_neg h.1]

theorem scanWord_blank (c : Char) (s : Text) (h : blank c = true) :
    scanWord (c :: s) = scanWord s := by
  unfold scanWord
  rw [List.dropWhile_cons, if_pos h]

/-- The name found on a line `"key"...`. -/
theorem scan_key (key x : Text) (hw : word key) (hk : key.length ≤ 77) :
    ∃ v, scanColon (cstr ((' ' :: (key ++ ' ' :: x)).take 79)) = (some key, v) := by
  have e : (' ' :: (key ++ ' ' :: x)).take 79
      = ' ' :: (key ++ ' ' :: x.take (77 - key.length)) := by
    rw [List.take_succ_cons, List.take_append, List.take_of_length_le (by omega)]
    have : 78 - key.length = (77 - key.length) + 1 := by omega
    rw [this, List.take_succ_cons]
  rw [e, cstr_cons _ _ (by decide), word_cstr _ _ hw, cstr_cons _ _ (by decide)]
  unfold scanColon
  rw [scanWord_blank _ _ (by decide), scanWord_word key _ hw (Or.inr ⟨' ', _, rfl, by decide⟩)]
  dsimp only
  split
  · exact ⟨_, rfl⟩
  · exact ⟨_, rfl⟩

theorem value_word : word "Value".toList := by
  refine ⟨by decide, ?_⟩
  decide

theorem tail_cstr (t : Text) (ht : t = [] ∨ ∃ c r, t = c :: r ∧ blank c = true) (n : Nat) :
    cstr ((t.map sub).take n) = [] ∨ ∃ c r, cstr ((t.map sub).take n) = c :: r ∧ blank c = true := by
  rcases ht with rfl | ⟨c, r, rfl, hc⟩
  · simp [cstr]
  · cases n with
    | zero => simp [cstr]
    | succ n =>
      have h1 : sub c = c := by
        unfold sub; split
        next h => subst h; exact absurd hc (by decide)
        next => rfl
      have h2 : c ≠ '\x00' := by rintro rfl; exact absurd hc (by decide)
      rw [List.map_cons, h1, List.take_succ_cons, cstr_cons _ _ h2]
      exact Or.inr ⟨c, _, rfl, hc⟩

/-- The value found on a line `"Value" : v`. -/
theorem scan_value (v t : Text) (hw : word v) (hl : v.length ≤ 60)
    (ht : t = [] ∨ ∃ c r, t = c :: r ∧ blank c = true) :
    scanColon (cstr ((' ' :: (("Value".toList ++ '"' :: (" : ".toList ++ v ++ t)).map sub)).take 79))
      = (some "Value".toList, some v) := by
  have e1 : ("Value".toList ++ '"' :: (" : ".toList ++ v ++ t)).map sub
      = "Value".toList ++ ' ' :: ' ' :: ':' :: ' ' :: (v ++ t.map sub) := by
    rw [List.map_append, word_sub _ value_word, List.map_cons, List.map_append, List.map_append,
      word_sub v hw]
    rfl
  have e2 : (' ' :: ("Value".toList ++ ' ' :: ' ' :: ':' :: ' ' :: (v ++ t.map sub))).take 79
      = ' ' :: ("Value".toList ++ ' ' :: ' ' :: ':' :: ' ' :: (v ++ (t.map sub).take (69 - v.length)))
      := by
    have : 79 = 69 - v.length + v.length + 10 := by omega
    rw [show (79 : Nat) = 69 + 10 by rfl]
    simp only [String.reduceToList, List.cons_append, List.nil_append, List.take_succ_cons]
    rw [List.take_append, List.take_of_length_le (by omega)]
  rw [e1, e2, cstr_cons _ _ (by decide), word_cstr _ _ value_word, cstr_cons _ _ (by decide),
    cstr_cons _ _ (by decide), cstr_cons _ _ (by decide), cstr_cons _ _ (by decide),
    word_cstr _ _ hw]
  unfold scanColon
  rw [scanWord_blank _ _ (by decide),
    scanWord_word _ _ value_word (Or.inr ⟨' ', _, rfl, by decide⟩)]
  dsimp only
  have e3 : ∀ x : Text, (' ' :: ' ' :: ':' :: x).dropWhile blank = ':' :: x := by
    intro x
    rw [List.dropWhile_cons, if_pos (by decide), List.dropWhile_cons, if_pos (by decide),
      List.dropWhile_cons, if_neg (by decide)]
  rw [e3]
  simp only []
  rw [scanWord_blank _ _ (by decide), scanWord_word v _ hw (tail_cstr t ht _)]
  rfl

end Verif.Pv
