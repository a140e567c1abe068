import Verif.Pv.Columns
/-
C91: the variables in the page of an Afore inverter.
-/
namespace Verif.Pv

/-- Nothing was collected yet. -/
structure Afore.Fresh (f : Afore) : Prop where
  counter : f.counter = 0
  v : f.vFound = false
  var : f.varFound = false
  size : f.buf.length = 80

/-- `var ` was seen and `l` collected after it. -/
structure Afore.After (f : Afore) (l : Text) : Prop where
  v : f.vFound = true
  var : f.varFound = true
  counter : f.counter = l.length
  size : f.buf.length = 80
  buf : ∃ r, f.buf = l.take 80 ++ r

theorem afore_skip (f : Afore) (h : f.Fresh) (t rest : Text) (ht : ∀ c ∈ t, c ≠ 'v' ∧ c ≠ '\n') :
    f.run (t ++ rest) = f.run rest := by
  induction t with
  | nil => rfl
  | cons c t ih =>
    have hc := ht c (by simp)
    have e : f.feed c = some f := by
      unfold Afore.feed
      rw [if_neg hc.2, if_neg (by simp [hc.1, h.v])]
    rw [List.cons_append, Afore.run, e, Option.bind_some, ih fun x hx => ht x (by simp [hx])]

theorem afore_var (f : Afore) (h : f.Fresh) (rest : Text) :
    ∃ f' : Afore, f.run ('v' :: 'a' :: 'r' :: ' ' :: rest) = f'.run rest ∧ f'.After [] ∧
      f'.power = f.power ∧ f'.energy = f.energy := by
  obtain ⟨buf, k, v, w, p, e⟩ := f
  obtain ⟨hk, hv, hw, hz⟩ := h
  dsimp only at hk hv hw hz
  subst hk hv hw
  have h0 : 0 < buf.length := by omega
  have h1 : 1 < (buf.set 0 'v').length := by rw [List.length_set]; omega
  have h2 : 2 < ((buf.set 0 'v').set 1 'a').length := by simp only [List.length_set]; omega
  have h3 : 3 < (((buf.set 0 'v').set 1 'a').set 2 'r').length := by
    simp only [List.length_set]; omega
  have ht : ((((buf.set 0 'v').set 1 'a').set 2 'r').set 3 ' ').take 4 = "var ".toList := by
    match buf, hz with
    | a :: b :: c :: d :: r, _ => rfl
  refine ⟨⟨(((buf.set 0 'v').set 1 'a').set 2 'r').set 3 ' ', 0, true, true, p, e⟩, ?_,
    ⟨rfl, rfl, rfl, by simp only [List.length_set]; exact hz, ⟨_, by
      rw [List.take_nil, List.nil_append]⟩⟩, rfl, rfl⟩
  have e1 : (⟨buf, 0, false, false, p, e⟩ : Afore).feed 'v'
      = some ⟨buf.set 0 'v', 1, true, false, p, e⟩ := by
    unfold Afore.feed
    rw [if_neg (by decide), if_pos (Or.inl rfl)]
    dsimp only
    rw [if_pos (by omega), put, if_pos h0, Option.bind_some, if_pos (by omega),
      if_neg (by omega)]
  have e2 : (⟨buf.set 0 'v', 1, true, false, p, e⟩ : Afore).feed 'a'
      = some ⟨(buf.set 0 'v').set 1 'a', 2, true, false, p, e⟩ := by
    unfold Afore.feed
    rw [if_neg (by decide), if_pos (Or.inr rfl)]
    dsimp only
    rw [if_pos (by omega), put, if_pos h1, Option.bind_some, if_pos (by omega),
      if_neg (by omega)]
  have e3 : (⟨(buf.set 0 'v').set 1 'a', 2, true, false, p, e⟩ : Afore).feed 'r'
      = some ⟨((buf.set 0 'v').set 1 'a').set 2 'r', 3, true, false, p, e⟩ := by
    unfold Afore.feed
    rw [if_neg (by decide), if_pos (Or.inr rfl)]
    dsimp only
    rw [if_pos (by omega), put, if_pos h2, Option.bind_some, if_pos (by omega),
      if_neg (by omega)]
  have e4 : (⟨((buf.set 0 'v').set 1 'a').set 2 'r', 3, true, false, p, e⟩ : Afore).feed ' '
      = some ⟨(((buf.set 0 'v').set 1 'a').set 2 'r').set 3 ' ', 0, true, true, p, e⟩ := by
    unfold Afore.feed
    rw [if_neg (by decide), if_pos (Or.inr rfl)]
    dsimp only
    rw [if_pos (by omega), put, if_pos h3, Option.bind_some, if_pos (by omega),
      if_pos ⟨rfl, by simp, ht⟩]
  rw [Afore.run, e1, Option.bind_some, Afore.run, e2, Option.bind_some, Afore.run, e3,
    Option.bind_some, Afore.run, e4, Option.bind_some]

theorem afore_char (f : Afore) (l : Text) (h : f.After l) (c : Char) (hc : c ≠ '\n')
    (hl : l.length < 2147483647) :
    ∃ f' : Afore, f.feed c = some f' ∧ f'.After (l ++ [c]) ∧ f'.power = f.power ∧
      f'.energy = f.energy := by
  obtain ⟨h1, h2, hn, hz, r, hb⟩ := h
  unfold Afore.feed
  rw [if_neg hc, if_pos (Or.inr h1)]
  by_cases hk : f.counter < 80
  · have ht : l.take 80 = l := List.take_of_length_le (by omega)
    have hr : r ≠ [] := by
      rintro rfl
      have := congrArg List.length hb
      rw [hz, List.length_append, ht] at this
      simp at this
      omega
    rw [if_pos hk, put, if_pos (by omega), Option.bind_some, if_pos (by omega),
      if_neg (fun hh => hh.2.1 h2)]
    refine ⟨_, rfl, ⟨rfl, h2, by simp [hn], by simp [hz], r.tail, ?_⟩, rfl, rfl⟩
    dsimp only
    rw [hb, ht, hn, set_at l r c hr, List.take_of_length_le (by simp; omega)]
    simp
  · rw [if_neg hk, Option.bind_some, if_pos (by omega), if_neg (fun hh => hh.2.1 h2)]
    refine ⟨_, rfl, ⟨rfl, h2, by simp [hn], hz, r, ?_⟩, rfl, rfl⟩
    dsimp only
    rw [hb, List.take_append_of_le_length (by omega)]

theorem afore_text (f : Afore) (l : Text) (h : f.After l) (t rest : Text)
    (ht : ∀ c ∈ t, c ≠ '\n') (hl : l.length + t.length ≤ 2147483647) :
    ∃ f' : Afore, f.run (t ++ rest) = f'.run rest ∧ f'.After (l ++ t) ∧ f'.power = f.power ∧
      f'.energy = f.energy := by
  induction t generalizing f l with
  | nil => exact ⟨f, rfl, by simpa using h, rfl, rfl⟩
  | cons c t ih =>
    simp only [List.length_cons] at hl
    obtain ⟨f1, e1, h1, e2, e3⟩ := afore_char f l h c (ht c (by simp)) (by omega)
    obtain ⟨f2, e4, h2, e5, e6⟩ := ih f1 (l ++ [c]) h1 (fun x hx => ht x (by simp [hx]))
      (by simp; omega)
    refine ⟨f2, ?_, by simpa using h2, e5.trans e2, e6.trans e3⟩
    rw [List.cons_append, Afore.run, e1, Option.bind_some, e4]

/-- The effect of a line `var ...` on power and energy. -/
def scriptEff (s : Text) (p e : Option Text) : Option (Option Text × Option Text) :=
  ((⟨[], 0, true, true, p, e⟩ : Afore).line s).map fun f => (f.power, f.energy)

theorem line_script (f : Afore) (s : Text) :
    f.line s = (scriptEff s f.power f.energy).map fun q =>
      { f with power := q.1, energy := q.2 } := by
  unfold scriptEff Afore.line
  rcases scanEquals s with ⟨n, v⟩
  cases n with
  | none => rfl
  | some n =>
    dsimp only
    split
    · cases v <;> rfl
    · split
      · cases v <;> rfl
      · rfl

theorem afore_newline (f : Afore) (l : Text) (h : f.After l) (q : Option Text × Option Text)
    (hq : scriptEff (cstr (l.take 79)) f.power f.energy = some q) :
    ∃ f' : Afore, f.feed '\n' = some f' ∧ f'.Fresh ∧ f'.power = q.1 ∧ f'.energy = q.2 := by
  obtain ⟨h1, h2, hn, hz, r, hb⟩ := h
  unfold Afore.feed
  rw [if_pos rfl, if_pos h2]
  dsimp only
  have hk : (if f.counter > 79 then 79 else f.counter) = (l.take 79).length := by
    rw [List.length_take, hn]
    split <;> omega
  rw [hk, put, if_pos (by rw [List.length_take]; omega), Option.bind_some, line_script]
  have hsplit : ∃ y, f.buf = l.take 79 ++ y := by
    have e : l.take 80 = l.take 79 ++ (l.drop 79).take 1 := by
      rw [← List.take_add]
    exact ⟨(l.drop 79).take 1 ++ r, by rw [hb, e, List.append_assoc]⟩
  obtain ⟨y, hy⟩ := hsplit
  have hyn : y ≠ [] := by
    rintro rfl
    have := congrArg List.length hy
    rw [hz] at this
    simp at this
    omega
  have hcs : cstr (f.buf.set (l.take 79).length '\x00') = cstr (l.take 79) := by
    rw [hy, cstr_set _ _ hyn]
  rw [hcs]
  dsimp only
  rw [hq]
  exact ⟨_, rfl, ⟨rfl, rfl, rfl, by simp [hz]⟩, rfl, rfl⟩

/-- `name = "value";` -/
theorem scan_equals (n v t : Text) (hn : word n) (hv : word v)
    (ht : t = [] ∨ ∃ c r, t = c :: r ∧ blank c = true) :
    scanEquals (n ++ ' ' :: '=' :: ' ' :: '"' :: (v ++ '"' :: ';' :: t))
      = (some n, some (v ++ ['"', ';'])) := by
  unfold scanEquals
  rw [scanWord_word n _ hn (Or.inr ⟨' ', _, rfl, by decide⟩)]
  dsimp only
  have e1 : ∀ x : Text, (' ' :: '=' :: x).dropWhile blank = '=' :: x := by
    intro x
    rw [List.dropWhile_cons, if_pos (by decide), List.dropWhile_cons, if_neg (by decide)]
  have e2 : ∀ x : Text, (' ' :: '"' :: x).dropWhile blank = '"' :: x := by
    intro x
    rw [List.dropWhile_cons, if_pos (by decide), List.dropWhile_cons, if_neg (by decide)]
  rw [e1]
  simp only []
  rw [e2]
  simp only []
  -- the value, with the quotation mark and the semicolon
  have hd : (v ++ '"' :: ';' :: t).dropWhile blank = v ++ '"' :: ';' :: t := by
    obtain ⟨hne, hw⟩ := hv
    cases v with
    | nil => exact absurd rfl hne
    | cons a v => simp [(hw a (by simp)).1]
  have htw : ∀ w : Text, (∀ c ∈ w, blank c = false) →
      (w ++ t).takeWhile (fun c => !blank c) = w := by
    intro w hw
    induction w with
    | nil =>
      rcases ht with rfl | ⟨c, r, rfl, hc⟩
      · rfl
      · simp [hc]
    | cons a w ih =>
      have ha := hw a (by simp)
      have := ih fun c hc => hw c (by simp [hc])
      simp [ha, this]
  have e3 : v ++ '"' :: ';' :: t = (v ++ ['"', ';']) ++ t := by simp
  unfold scanWord
  dsimp only
  rw [hd, e3, htw _ (by
    intro c hc
    simp only [List.mem_append, List.mem_cons, List.not_mem_nil, or_false] at hc
    rcases hc with hc | rfl | rfl
    · exact (hv.2 c hc).1
    · decide
    · decide), if_neg (by simp)]
  rfl

/-- **A variable of the page**: `var name = "value";` at the first `v` of a line sets the power if
the name begins with webdata_now_p, the energy if it begins with webdata_total_e, and nothing
otherwise; what is converted to a number is the value followed by `";`. -/
theorem variable_read (f : Afore) (h : f.Fresh) (t0 n v t : Text)
    (h0 : ∀ c ∈ t0, c ≠ 'v' ∧ c ≠ '\n') (hn : word n) (hv : word v)
    (ht : t = [] ∨ ∃ c r, t = c :: r ∧ blank c = true) (htn : ∀ c ∈ t, c ≠ '\n' ∧ c ≠ '\x00')
    (hl : n.length + v.length + t.length ≤ 73) :
    ∃ f' : Afore, f.run (t0 ++ 'v' :: 'a' :: 'r' :: ' ' ::
        (n ++ ' ' :: '=' :: ' ' :: '"' :: (v ++ '"' :: ';' :: t) ++ ['\n'])) = some f' ∧ f'.Fresh ∧
      f'.power = (if "webdata_now_p".toList <+: n then some (v ++ ['"', ';']) else f.power) ∧
      f'.energy = (if "webdata_total_e".toList <+: n then some (v ++ ['"', ';']) else f.energy) := by
  rw [afore_skip f h t0 _ h0]
  obtain ⟨f1, e1, h1, p1, q1⟩ := afore_var f h
    (n ++ ' ' :: '=' :: ' ' :: '"' :: (v ++ '"' :: ';' :: t) ++ ['\n'])
  have hnn : ∀ w : Text, word w → ∀ c ∈ w, c ≠ '\n' := by
    intro w hw c hc hcc
    have := (hw.2 c hc).1
    rw [hcc] at this
    exact absurd this (by decide)
  have hchars : ∀ c ∈ n ++ ' ' :: '=' :: ' ' :: '"' :: (v ++ '"' :: ';' :: t),
      c ≠ '\n' ∧ c ≠ '\x00' := by
    intro c hc
    simp only [List.mem_append, List.mem_cons] at hc
    rcases hc with hc | rfl | rfl | rfl | rfl | hc | rfl | rfl | hc
    · exact ⟨hnn n hn c hc, (hn.2 c hc).2.2⟩
    · decide
    · decide
    · decide
    · decide
    · exact ⟨hnn v hv c hc, (hv.2 c hc).2.2⟩
    · decide
    · decide
    · exact htn c hc
  have hlen : (n ++ ' ' :: '=' :: ' ' :: '"' :: (v ++ '"' :: ';' :: t)).length ≤ 79 := by
    simp only [List.length_append, List.length_cons]
    omega
  obtain ⟨f2, e2, h2, p2, q2⟩ := afore_text f1 [] h1
    (n ++ ' ' :: '=' :: ' ' :: '"' :: (v ++ '"' :: ';' :: t)) ['\n']
    (fun c hc => (hchars c hc).1) (by simp only [List.length_nil]; omega)
  rw [List.nil_append] at h2
  have hsc : scriptEff (cstr ((n ++ ' ' :: '=' :: ' ' :: '"' :: (v ++ '"' :: ';' :: t)).take 79))
      f2.power f2.energy = some
        (if "webdata_now_p".toList <+: n then some (v ++ ['"', ';']) else f2.power,
         if "webdata_total_e".toList <+: n then some (v ++ ['"', ';']) else f2.energy) := by
    rw [List.take_of_length_le hlen, cstr_self _ (fun c hc => (hchars c hc).2), scriptEff,
      Afore.line, scan_equals n v t hn hv ht]
    dsimp only
    by_cases ha : "webdata_now_p".toList <+: n
    · have hb : ¬ "webdata_total_e".toList <+: n := by
        intro hb
        have h12 : "webdata_now_p".toList <+: "webdata_total_e".toList ∨
            "webdata_total_e".toList <+: "webdata_now_p".toList :=
          List.prefix_or_prefix_of_prefix ha hb
        revert h12; decide
      rw [if_pos (List.isPrefixOf_iff_prefix.mpr ha), if_pos ha, if_neg hb]
      rfl
    · rw [if_neg (by rw [prefix_false _ _ ha]; simp), if_neg ha]
      by_cases hb : "webdata_total_e".toList <+: n
      · rw [if_pos (List.isPrefixOf_iff_prefix.mpr hb), if_pos hb]
        rfl
      · rw [if_neg (by rw [prefix_false _ _ hb]; simp), if_neg hb]
        rfl
  obtain ⟨f3, e3, h3, p3, q3⟩ := afore_newline f2 _ h2 _ hsc
  refine ⟨f3, ?_, h3, ?_, ?_⟩
  · rw [e1, e2, Afore.run, e3]; rfl
  · rw [p3, p2, p1]
  · rw [q3, q2, q1]

theorem afore_init : Afore.init.Fresh := ⟨rfl, rfl, rfl, List.length_replicate⟩

example : (Afore.init.run "<script>\nvar webdata_now_p = \"1234\";\n".toList).map
    (fun f => f.power) = some (some "1234\";".toList) := by decide +kernel

/-- Nothing an Afore inverter sends is undefined behaviour. -/
def ScriptDefined : Prop := ∀ data : Text, data.length ≤ 2147483647 → Afore.init.run data ≠ none

/-- **False**: a line `var webdata_now_p;` has no value, and what is converted was never read. -/
theorem script_defined_violation : ¬ ScriptDefined := by
  intro h
  exact h "var webdata_now_p;\n".toList (by decide) (by decide +kernel)

/-- Lines without a variable never are: no `v` at all. -/
theorem script_defined_partial (f : Afore) (h : f.Fresh) (t : Text)
    (ht : ∀ c ∈ t, c ≠ 'v' ∧ c ≠ '\n') : f.run t = some f := by
  have := afore_skip f h t [] ht
  rwa [List.append_nil] at this

end Verif.Pv
