import Verif.Hostname.Model

/-!
# Network name of the device: properties
-/

namespace Verif.Hostname

/-! ## Specification -/

/-- A letter or a digit. -/
def Alnum (c : Nat) : Prop := (48 ≤ c ∧ c ≤ 57) ∨ (65 ≤ c ∧ c ≤ 90) ∨ (97 ≤ c ∧ c ≤ 122)

instance (c : Nat) : Decidable (Alnum c) := inferInstanceAs (Decidable (_ ∨ _))

/-- Printable characters up to 'z'; the others are left out. -/
def visible (c : Nat) : Bool := decide (32 ≤ c ∧ c ≤ 122)

/-- How a character is shown: small letters as capitals, digits and capitals as they are, the rest as '-'. -/
def shown (c : Nat) : Nat := if 97 ≤ c then c - 32 else if Alnum c then c else dash

/-- A '-' is not put at the beginning nor behind another one. -/
def slugStep (acc : List Nat) (b : Nat) : List Nat :=
  if b = dash ∧ (acc = [] ∨ acc.getLast? = some dash) then acc else acc ++ [b]

/-- The name as a host name, of any length. -/
def slug (start src : List Nat) : List Nat := ((src.filter visible).map shown).foldl slugStep start

/-- A valid label: capitals, digits and '-', not starting with '-', no two together. -/
structure Label (l : List Nat) : Prop where
  chars : ∀ c ∈ l, (48 ≤ c ∧ c ≤ 57) ∨ (65 ≤ c ∧ c ≤ 90) ∨ c = dash
  head : l.head? ≠ some dash
  double : ∀ i, l[i]? = some dash → l[i + 1]? ≠ some dash

/-! ## The loop -/

theorem shown_eq (c : Nat) : shown c = if 97 ≤ c then c - 32 else if (48 ≤ c ∧ c ≤ 57) ∨ (65 ≤ c ∧ c ≤ 90) then c else dash := by
  unfold shown
  split
  · rfl
  · by_cases h : Alnum c
    · rw [if_pos h, if_pos (by unfold Alnum at h; omega)]
    · rw [if_neg h, if_neg (by unfold Alnum at h; omega)]

theorem act_visible (sgn : Bool) (c : Nat) (h : visible c = true) : act sgn c = .put (shown c) := by
  have h : 32 ≤ c ∧ c ≤ 122 := of_decide_eq_true h
  rw [shown_eq]
  unfold act
  rw [if_neg (by omega)]
  repeat' split
  all_goals first | rfl | omega

theorem act_invisible (sgn : Bool) (c : Nat) (h : visible c = false) : act sgn c = .skip ∨ act sgn c = .pass := by
  have h : ¬ (32 ≤ c ∧ c ≤ 122) := of_decide_eq_false h
  unfold act
  repeat' split
  all_goals first | exact .inl rfl | exact .inr rfl | omega

theorem shown_chars (c : Nat) (h : visible c = true) :
    (48 ≤ shown c ∧ shown c ≤ 57) ∨ (65 ≤ shown c ∧ shown c ≤ 90) ∨ shown c = dash := by
  have h : 32 ≤ c ∧ c ≤ 122 := of_decide_eq_true h
  rw [shown_eq]
  unfold dash
  repeat' split
  all_goals omega

theorem label_nil : Label [] := ⟨(fun _ h => absurd h (by simp)), (by simp), (fun i h => absurd h (by simp))⟩

theorem getLast?_index (l : List Nat) : l.getLast? = l[l.length - 1]? := List.getLast?_eq_getElem?

theorem slugStep_label {acc : List Nat} (h : Label acc) {b : Nat}
    (hb : (48 ≤ b ∧ b ≤ 57) ∨ (65 ≤ b ∧ b ≤ 90) ∨ b = dash) : Label (slugStep acc b) := by
  unfold slugStep
  split
  · exact h
  · rename_i hn
    refine ⟨?_, ?_, ?_⟩
    · intro c hc
      rw [List.mem_append, List.mem_singleton] at hc
      rcases hc with hc | hc
      · exact h.chars c hc
      · exact hc ▸ hb
    · cases acc with
      | nil =>
        simp only [List.nil_append, List.head?_cons, ne_eq, Option.some.injEq]
        exact fun x => hn ⟨x, .inl rfl⟩
      | cons a l => exact h.head
    · intro i hi
      by_cases h1 : i + 1 < acc.length
      · rw [List.getElem?_append_left h1]
        rw [List.getElem?_append_left (by omega)] at hi
        exact h.double i hi
      · by_cases h2 : i + 1 = acc.length
        · rw [List.getElem?_append_right (by omega), h2, Nat.sub_self, List.getElem?_cons_zero]
          intro x
          injection x with x
          rw [List.getElem?_append_left (by omega)] at hi
          refine hn ⟨x, .inr ?_⟩
          rw [getLast?_index, ← h2, Nat.add_sub_cancel]
          exact hi
        · rw [List.getElem?_eq_none (by rw [List.length_append, List.length_singleton]; omega)]
          exact fun x => nomatch x

theorem check_put {out : List Nat} (h : Label out) (b skip : Nat) :
    check (out ++ [b]) skip = some (slugStep out b, if (slugStep out b).length = out.length then skip - 1 else skip) := by
  unfold check slugStep
  cases out with
  | nil =>
    by_cases hb : b = dash
    · subst hb
      rfl
    · simp [hb]
  | cons a l =>
    have hl : ((a :: l) ++ [b]).length = l.length + 2 := by simp
    rw [if_neg (by omega), if_neg (by omega), hl]
    have e1 : ((a :: l) ++ [b])[l.length + 2 - 2]? = (a :: l).getLast? := by
      rw [getLast?_index, List.getElem?_append_left (by simp)]
      simp
    have e2 : ((a :: l) ++ [b])[l.length + 2 - 1]? = some b := by
      rw [List.getElem?_append_right (by simp)]
      simp
    rw [e1, e2]
    by_cases hb : b = dash ∧ (a :: l).getLast? = some dash
    · rw [if_pos ⟨hb.2, by rw [hb.1]⟩, if_pos ⟨hb.1, .inr hb.2⟩, if_pos rfl, List.dropLast_concat]
    · rw [if_neg (fun x => hb ⟨by have := x.2; injection this, x.1⟩), if_neg (fun x => hb ⟨x.1, x.2.resolve_left (by simp)⟩),
        if_neg (by simp)]

theorem check_pass {out : List Nat} (h : Label out) (skip : Nat) : check out skip = if out = [] then none else some (out, skip) := by
  unfold check
  cases out with
  | nil => rfl
  | cons a l =>
    rw [if_neg (List.cons_ne_nil a l)]
    split
    · rw [if_neg]
      intro x
      exact h.head (by simpa using x)
    · rename_i h1
      rw [if_neg (by simp), if_neg]
      intro x
      refine h.double (l.length + 1 - 2) x.1 ?_
      have : (a :: l).length ≠ 1 := h1
      rw [List.length_cons] at this
      have e : l.length + 1 - 2 + 1 = (a :: l).length - 1 := by rw [List.length_cons]; omega
      rw [e]
      exact x.2

theorem slug_cons_visible (start : List Nat) (c : Nat) (rest : List Nat) (h : visible c = true) :
    slug start (c :: rest) = slug (slugStep start (shown c)) rest := by
  unfold slug
  rw [List.filter_cons, if_pos h, List.map_cons, List.foldl_cons]

theorem slug_cons_invisible (start : List Nat) (c : Nat) (rest : List Nat) (h : visible c = false) :
    slug start (c :: rest) = slug start rest := by
  unfold slug
  rw [List.filter_cons, if_neg (by simp [h])]

theorem slugStep_length (acc : List Nat) (b : Nat) :
    (slugStep acc b).length = acc.length ∨ (slugStep acc b).length = acc.length + 1 := by
  unfold slugStep
  split
  · exact .inl rfl
  · right
    simp

/-- One pass over the name: what comes out is the slug of the part that was read, a label within the room. -/
theorem loop_spec (sgn : Bool) (B : Nat) (src : List Nat) : ∀ (out : List Nat) (skip : Nat) (o : List Nat), Label out →
    out.length ≤ B → out.length + src.length ≤ skip + B → loop sgn out skip src = some o →
    Label o ∧ o.length ≤ B ∧ ∃ p q, src = p ++ q ∧ o = slug out p ∧
      ((∀ c ∈ src, visible c = true) → (skip = 0 ∨ out.length + src.length = skip + B) → q = [] ∨ o.length = B) := by
  induction src with
  | nil =>
    intro out skip o hl hB _ h
    injection h with h
    subst h
    exact ⟨hl, hB, [], [], rfl, rfl, fun _ _ => .inl rfl⟩
  | cons c rest ih =>
    intro out skip o hl hB hs h
    rw [List.length_cons] at hs
    unfold loop at h
    by_cases hstop : rest.length + 1 ≤ skip
    · rw [if_pos hstop] at h
      injection h with h
      subst h
      refine ⟨hl, hB, [], c :: rest, rfl, rfl, fun _ hx => ?_⟩
      rw [List.length_cons] at hx
      right
      omega
    · rw [if_neg hstop] at h
      cases hv : visible c with
      | true =>
        rw [act_visible sgn c hv] at h
        dsimp only at h
        split at h
        · cases h
        · rw [check_put hl] at h
          dsimp only at h
          have hlen := slugStep_length out (shown c)
          have hl' := slugStep_label hl (shown_chars c hv)
          obtain ⟨r1, r2, p, q, r3, r4, r5⟩ := ih _ _ o hl' (by
            rcases hlen with e | e
            · rw [e]; exact hB
            · rw [e]; omega) (by
            rcases hlen with e | e
            · rw [e, if_pos rfl]; omega
            · rw [e, if_neg (by omega)]; omega) h
          refine ⟨r1, r2, c :: p, q, by rw [r3]; rfl, by rw [r4, slug_cons_visible _ _ _ hv], fun hall hx => ?_⟩
          apply r5 (fun x hx => hall x (List.mem_cons_of_mem _ hx))
          rw [List.length_cons] at hx
          rcases hlen with e | e
          · rw [e, if_pos rfl]
            rcases hx with hx | hx
            · left; omega
            · by_cases h0 : skip ≤ 1
              · left; omega
              · right; omega
          · rw [e, if_neg (by omega)]
            rcases hx with hx | hx
            · left; exact hx
            · right; omega
      | false =>
        have hrec : loop sgn out skip rest = some o := by
          rcases act_invisible sgn c hv with ha | ha
          · rw [ha] at h
            exact h
          · rw [ha] at h
            dsimp only at h
            rw [check_pass hl] at h
            by_cases ho : out = []
            · rw [if_pos ho] at h
              cases h
            · rw [if_neg ho] at h
              exact h
        obtain ⟨r1, r2, p, q, r3, r4, r5⟩ := ih _ _ o hl hB (by omega) hrec
        refine ⟨r1, r2, c :: p, q, by rw [r3]; rfl, by rw [r4, slug_cons_invisible _ _ _ hv], fun hall => ?_⟩
        have := hall c List.mem_cons_self
        rw [hv] at this
        cases this

theorem slugStep_ne_nil {acc : List Nat} (h : acc ≠ []) (b : Nat) : slugStep acc b ≠ [] := by
  unfold slugStep
  split
  · exact h
  · simp

/-- The loop stays within its array when the name does not have one of the characters behind 'z' before its first
letter or digit. -/
theorem loop_defined (sgn : Bool) (B : Nat) (hB31 : B ≤ 31) (src : List Nat) : ∀ (out : List Nat) (skip : Nat), Label out →
    out.length ≤ B → out.length + src.length ≤ skip + B →
    (out ≠ [] ∨ ∀ c ∈ src.takeWhile (fun c => !decide (Alnum c)), act sgn c ≠ .pass) → ∃ o, loop sgn out skip src = some o := by
  induction src with
  | nil => intro out skip _ _ _ _; exact ⟨out, rfl⟩
  | cons c rest ih =>
    intro out skip hl hB hs hok
    rw [List.length_cons] at hs
    unfold loop
    by_cases hstop : rest.length + 1 ≤ skip
    · rw [if_pos hstop]; exact ⟨out, rfl⟩
    · rw [if_neg hstop]
      cases hv : visible c with
      | true =>
        rw [act_visible sgn c hv]
        dsimp only
        rw [if_neg (by omega), check_put hl]
        dsimp only
        have hlen := slugStep_length out (shown c)
        refine ih _ _ (slugStep_label hl (shown_chars c hv)) ?_ ?_ ?_
        · rcases hlen with e | e
          · rw [e]; exact hB
          · rw [e]; omega
        · rcases hlen with e | e
          · rw [e, if_pos rfl]; omega
          · rw [e, if_neg (by omega)]; omega
        · rcases hok with hok | hok
          · exact .inl (slugStep_ne_nil hok _)
          · by_cases ha : Alnum c
            · left
              have hsh : shown c ≠ dash := by
                unfold Alnum at ha
                rw [shown_eq]
                unfold dash
                repeat' split
                all_goals omega
              unfold slugStep
              rw [if_neg (fun x => hsh x.1)]
              simp
            · right
              intro x hx
              apply hok
              rw [List.takeWhile_cons, if_pos (by simp [ha])]
              exact List.mem_cons_of_mem _ hx
      | false =>
        rcases act_invisible sgn c hv with ha | ha
        · rw [ha]
          refine ih out skip hl hB (by omega) ?_
          rcases hok with hok | hok
          · exact .inl hok
          · right
            intro x hx
            apply hok
            have hna : ¬ Alnum c := by
              have : ¬ (32 ≤ c ∧ c ≤ 122) := of_decide_eq_false hv
              unfold Alnum
              omega
            rw [List.takeWhile_cons, if_pos (by simp [hna])]
            exact List.mem_cons_of_mem _ hx
        · rw [ha]
          dsimp only
          rw [check_pass hl]
          have hne : out ≠ [] := by
            rcases hok with hok | hok
            · exact hok
            · exfalso
              have hna : ¬ Alnum c := by
                have : ¬ (32 ≤ c ∧ c ≤ 122) := of_decide_eq_false hv
                unfold Alnum
                omega
              refine hok c ?_ ha
              rw [List.takeWhile_cons, if_pos (by simp [hna])]
              exact List.mem_cons_self
          rw [if_neg hne]
          exact ih out skip hl hB (by omega) (.inl hne)

theorem slug_prefix (start p q : List Nat) : slug start p <+: slug start (p ++ q) := by
  unfold slug
  rw [List.filter_append, List.map_append, List.foldl_append]
  generalize ((p.filter visible).map shown).foldl slugStep start = acc
  generalize (q.filter visible).map shown = l
  induction l generalizing acc with
  | nil => exact List.prefix_rfl
  | cons b l ih =>
    refine List.IsPrefix.trans ?_ (ih (slugStep acc b))
    unfold slugStep
    split
    · exact List.prefix_rfl
    · exact List.prefix_append _ _

/-! ## The name of the device -/

theorem label_supla : Label supla := by
  refine ⟨by decide, by decide, ?_⟩
  intro i h
  have : i < supla.length := (List.getElem?_eq_some_iff.mp h).1
  have : i < 6 := this
  revert h
  match i, this with
  | 0, _ | 1, _ | 2, _ | 3, _ | 4, _ | 5, _ => decide

theorem appendix_le (m : Nat) (h : m ≤ 6) : appendix m ≤ 13 := by
  unfold appendix
  split <;> omega

theorem macLen_le (s : Int) : macLen s ≤ 6 := by
  unfold macLen
  repeat' split
  all_goals omega

/-- The beginning and the rest of the name: "OH!" becomes "SUPLA-"; no name becomes "SUPLA-DEVICE". -/
def parts (src : List Nat) : List Nat × List Nat :=
  if src.take 3 = oh then (supla, src.drop 3) else if src = [] then ([], defaultName) else ([], src)

theorem take3_length {src : List Nat} (h : src.take 3 = oh) : 3 ≤ src.length := by
  have := congrArg List.length h
  rw [List.length_take] at this
  have h3 : oh.length = 3 := rfl
  omega

/-- The call of the loop. -/
theorem deviceName_loop (sgn : Bool) (src : List Nat) (m : Nat) (hm : m ≤ 6) : ∃ skip,
    deviceName sgn src m = (loop sgn (parts src).1 skip (parts src).2).bind (fun o => if o.length < 32 then some o else none) ∧
    Label (parts src).1 ∧ (parts src).1.length ≤ 31 - appendix m ∧
    (parts src).1.length + (parts src).2.length ≤ skip + (31 - appendix m) ∧
    (skip = 0 ∨ (parts src).1.length + (parts src).2.length = skip + (31 - appendix m)) := by
  have ha := appendix_le m hm
  unfold deviceName parts
  by_cases h : src.take 3 = oh
  · rw [if_pos h, if_pos h]
    have h3 := take3_length h
    refine ⟨_, rfl, label_supla, ?_, ?_, ?_⟩
    · show 6 ≤ _
      omega
    all_goals
      have hs : supla.length = 6 := rfl
      have hd : (src.drop 3).length = src.length - 3 := List.length_drop
      dsimp only
      rw [hs, hd]
      unfold skipOf
      split <;> omega
  · rw [if_neg h, if_neg h]
    by_cases h0 : src = []
    · rw [if_pos h0, if_pos h0]
      have hs : skipOf 0 m = 0 := by
        unfold skipOf
        rw [if_neg (by omega)]
      refine ⟨_, rfl, label_nil, Nat.zero_le _, ?_, .inl hs⟩
      show 0 + 12 ≤ _
      omega
    · rw [if_neg h0, if_neg h0]
      refine ⟨_, rfl, label_nil, Nat.zero_le _, ?_, ?_⟩
      all_goals
        dsimp only
        rw [List.length_nil]
        unfold skipOf
        split <;> omega

/-- Whatever the name, the host name is a valid label with room for the address, and it is the beginning of the name as
a host name. -/
theorem device_name_valid (sgn : Bool) (src : List Nat) (m : Nat) (hm : m ≤ 6) (o : List Nat) (h : deviceName sgn src m = some o) :
    Label o ∧ o.length ≤ 31 - appendix m ∧ o <+: slug (parts src).1 (parts src).2 := by
  obtain ⟨skip, e, q1, q2, q3, _⟩ := deviceName_loop sgn src m hm
  rw [e] at h
  rw [Option.bind_eq_some_iff] at h
  obtain ⟨o', h1, h2⟩ := h
  split at h2
  · injection h2 with h2
    subst h2
    obtain ⟨r1, r2, p, q, r3, r4, _⟩ := loop_spec sgn _ _ _ _ _ q1 q2 q3 h1
    refine ⟨r1, r2, ?_⟩
    rw [r4, r3]
    exact slug_prefix _ _ _
  · cases h2

/-- It is defined unless one of the characters behind 'z' comes before the first letter or digit. -/
theorem device_name_defined (sgn : Bool) (src : List Nat) (m : Nat) (hm : m ≤ 6)
    (hok : ∀ c ∈ src.takeWhile (fun c => !decide (Alnum c)), act sgn c ≠ .pass) : ∃ o, deviceName sgn src m = some o := by
  obtain ⟨skip, e, q1, q2, q3, _⟩ := deviceName_loop sgn src m hm
  have ha := appendix_le m hm
  obtain ⟨o, ho⟩ := loop_defined sgn (31 - appendix m) (by omega) (parts src).2 (parts src).1 skip q1 q2 q3 (by
    unfold parts
    split
    · left; exact List.cons_ne_nil _ _
    · split
      · right
        intro c hc
        revert hc
        have : defaultName.takeWhile (fun c => !decide (Alnum c)) = [] := by decide
        dsimp only
        rw [this]
        intro hc
        cases hc
      · exact .inr hok)
  obtain ⟨_, r2, _⟩ := loop_spec sgn _ _ _ _ _ q1 q2 q3 ho
  exact ⟨o, by rw [e, ho]; show (if _ then _ else _) = _; rw [if_pos (by omega)]⟩

/-- For a name of printable characters up to 'z' it is exactly the name as a host name, cut to the room that there is. -/
theorem device_name_exact (sgn : Bool) (src : List Nat) (m : Nat) (hm : m ≤ 6) (hv : ∀ c ∈ src, visible c = true) :
    deviceName sgn src m = some ((slug (parts src).1 (parts src).2).take (31 - appendix m)) := by
  obtain ⟨o, ho⟩ := device_name_defined sgn src m hm (by
    intro c hc ha
    have := hv c (List.takeWhile_subset _ hc)
    rw [act_visible sgn c this] at ha
    cases ha)
  obtain ⟨skip, e, q1, q2, q3, q4⟩ := deviceName_loop sgn src m hm
  have h := ho
  rw [e, Option.bind_eq_some_iff] at h
  obtain ⟨o', h1, h2⟩ := h
  split at h2
  · injection h2 with h2
    subst h2
    obtain ⟨r1, r2, p, q, r3, r4, r5⟩ := loop_spec sgn _ _ _ _ _ q1 q2 q3 h1
    have hall : ∀ c ∈ (parts src).2, visible c = true := by
      unfold parts
      split
      · exact fun c hc => hv c (List.mem_of_mem_drop hc)
      · split
        · decide
        · exact hv
    rw [ho]
    congr 1
    have hpre : o' <+: slug (parts src).1 (parts src).2 := by
      rw [r4, r3]
      exact slug_prefix _ _ _
    rcases r5 hall q4 with hq | hq
    · have : slug (parts src).1 (parts src).2 = o' := by
        rw [r4, r3, hq, List.append_nil]
      rw [this, List.take_of_length_le r2]
    · rw [← hq]
      exact List.prefix_iff_eq_take.mp hpre
  · cases h2

/-- Bytes of a text. -/
def text (s : String) : List Nat := s.toUTF8.toList.map UInt8.toNat

example : deviceName true (text "Zamel rOW-01 (hall)") 6 = some (text "ZAMEL-ROW-01-HALL-") ∧
    deviceName true (text "OH! dimmer, 4 channels of light") 6 = some (text "SUPLA-DIMMER-4-CHA") ∧
    deviceName true [] 0 = some (text "SUPLA-DEVICE") := by decide +kernel

/-! ## With the address -/

theorem hexDigit_chars (n : Nat) (h : n < 16) : (48 ≤ hexDigit n ∧ hexDigit n ≤ 57) ∨ (65 ≤ hexDigit n ∧ hexDigit n ≤ 90) := by
  unfold hexDigit
  split <;> omega

theorem hex_chars (l : List Nat) (h : ∀ b ∈ l, b < 256) : ∀ c ∈ hex l, (48 ≤ c ∧ c ≤ 57) ∨ (65 ≤ c ∧ c ≤ 90) := by
  induction l with
  | nil => intro c hc; cases hc
  | cons b bs ih =>
    intro c hc
    have hb := h b List.mem_cons_self
    unfold hex at hc
    rcases List.mem_cons.mp hc with e | hc
    · exact e ▸ hexDigit_chars _ (by omega)
    · rcases List.mem_cons.mp hc with e | hc
      · exact e ▸ hexDigit_chars _ (by omega)
      · exact ih (fun x hx => h x (List.mem_cons_of_mem _ hx)) c hc

theorem hex_length (l : List Nat) : (hex l).length = 2 * l.length := by
  induction l with
  | nil => rfl
  | cons b bs ih => simp only [hex, List.length_cons, ih]; omega

theorem hexDigit_inj {a b : Nat} (ha : a < 16) (hb : b < 16) (h : hexDigit a = hexDigit b) : a = b := by
  unfold hexDigit at h
  split at h <;> split at h <;> omega

theorem hex_inj : ∀ (l l' : List Nat), (∀ b ∈ l, b < 256) → (∀ b ∈ l', b < 256) → hex l = hex l' → l = l' := by
  intro l
  induction l with
  | nil =>
    intro l' _ _ h
    cases l' with
    | nil => rfl
    | cons b bs => cases h
  | cons a as ih =>
    intro l' h1 h2 h
    cases l' with
    | nil => cases h
    | cons b bs =>
      unfold hex at h
      injection h with e1 h
      injection h with e2 h
      have ha := h1 a List.mem_cons_self
      have hb := h2 b List.mem_cons_self
      have f1 := hexDigit_inj (by omega) (by omega) e1
      have f2 := hexDigit_inj (by omega) (by omega) e2
      have : a = b := by omega
      rw [this, ih bs (fun x hx => h1 x (List.mem_cons_of_mem _ hx)) (fun x hx => h2 x (List.mem_cons_of_mem _ hx)) h]

/-- A host name: a label that does not end with '-'. -/
structure Host (l : List Nat) : Prop extends Label l where
  nonempty : l ≠ []
  last : l.getLast? ≠ some dash

/-- The name with its dash, without a second one. -/
theorem body {p : List Nat} (hl : Label p) (hne : p ≠ []) : ∃ b, b ≠ [] ∧ b.getLast? ≠ some dash ∧ (p = b ∨ p = b ++ [dash]) ∧ Label b := by
  cases hp : p.getLast? with
  | none => exact absurd (List.getLast?_eq_none_iff.mp hp) hne
  | some c =>
    by_cases hc : c = dash
    · subst hc
      obtain ⟨b, hb⟩ := List.getLast?_eq_some_iff.mp hp
      have hb0 : b ≠ [] := by
        intro h0
        subst h0
        rw [hb] at hl
        exact hl.head rfl
      have hlb : Label b := by
        rw [hb] at hl
        refine ⟨fun c hc => hl.chars c (List.mem_append_left _ hc), ?_, ?_⟩
        · have := hl.head
          cases b with
          | nil => exact absurd rfl hb0
          | cons a l => exact this
        · intro i hi
          have := (List.getElem?_eq_some_iff.mp hi).1
          have h2 := hl.double i (by rw [List.getElem?_append_left this]; exact hi)
          intro hx
          have h3 := (List.getElem?_eq_some_iff.mp hx).1
          rw [List.getElem?_append_left h3] at h2
          exact h2 hx
      refine ⟨b, hb0, ?_, .inr hb, hlb⟩
      intro hx
      rw [getLast?_index] at hx
      have hlen : b.length ≠ 0 := fun h0 => hb0 (List.eq_nil_of_length_eq_zero h0)
      have h1 : p[b.length - 1]? = some dash := by rw [hb, List.getElem?_append_left (by omega)]; exact hx
      refine hl.double _ h1 ?_
      rw [hb, show b.length - 1 + 1 = b.length by omega, List.getElem?_append_right (by omega), Nat.sub_self]
      rfl
    · exact ⟨p, hne, by rw [hp]; intro x; injection x with x; exact hc x, .inl rfl, hl⟩

theorem label_append {b h : List Nat} (hb : Label b) (hne : b ≠ []) (hl : b.getLast? ≠ some dash)
    (hh : ∀ c ∈ h, (48 ≤ c ∧ c ≤ 57) ∨ (65 ≤ c ∧ c ≤ 90)) : Label (b ++ [dash] ++ h) := by
  have hd : ∀ c ∈ h, c ≠ dash := by
    intro c hc
    have := hh c hc
    unfold dash
    omega
  refine ⟨?_, ?_, ?_⟩
  · intro c hc
    rw [List.append_assoc, List.mem_append] at hc
    rcases hc with hc | hc
    · exact hb.chars c hc
    · rcases List.mem_cons.mp hc with hc | hc
      · exact .inr (.inr hc)
      · rcases hh c hc with x | x
        · exact .inl x
        · exact .inr (.inl x)
  · cases b with
    | nil => exact absurd rfl hne
    | cons a l => exact hb.head
  · intro i hi hx
    rw [List.append_assoc] at hi hx
    by_cases h1 : i + 1 < b.length
    · rw [List.getElem?_append_left h1] at hx
      rw [List.getElem?_append_left (by omega)] at hi
      exact hb.double i hi hx
    · by_cases h2 : i + 1 = b.length
      · rw [List.getElem?_append_left (by omega)] at hi
        exact hl (by rw [getLast?_index, ← h2, Nat.add_sub_cancel]; exact hi)
      · rw [List.getElem?_append_right (by omega), show i + 1 - b.length = (i - b.length) + 1 by omega] at hx
        exact hd _ (List.mem_of_getElem? hx) rfl

/-- With a part of the address the name of the interface is a host name of at most 31 characters: the name of the device,
one '-' and the last digits of the address. -/
theorem hostname_valid (sgn : Bool) (pre name mac : List Nat) (macSize : Int) (hm : 0 < macLen macSize) (hmac : mac.length = 6)
    (hb : ∀ b ∈ mac, b < 256) (p : List Nat) (hp : deviceName sgn (source pre name) (macLen macSize) = some p) (hne : p ≠ []) :
    ∃ b, hostname sgn pre name mac macSize = some (b ++ [dash] ++ hex (mac.drop (6 - macLen macSize))) ∧ (p = b ∨ p = b ++ [dash]) ∧
      Host (b ++ [dash] ++ hex (mac.drop (6 - macLen macSize))) ∧ (b ++ [dash] ++ hex (mac.drop (6 - macLen macSize))).length ≤ 31 := by
  have hm6 := macLen_le macSize
  obtain ⟨hl, hlen, _⟩ := device_name_valid sgn _ _ hm6 p hp
  obtain ⟨b, b1, b2, b3, b4⟩ := body hl hne
  have hap : appendix (macLen macSize) = 1 + 2 * macLen macSize := by unfold appendix; rw [if_pos hm]
  have hblen : b.length ≤ p.length := by
    rcases b3 with e | e
    · rw [e]; exact Nat.le_refl _
    · rw [e, List.length_append]; omega
  have hhex : (hex (mac.drop (6 - macLen macSize))).length = 2 * macLen macSize := by
    rw [hex_length, List.length_drop, hmac]
    omega
  have htot : (b ++ [dash] ++ hex (mac.drop (6 - macLen macSize))).length ≤ 31 := by
    rw [List.length_append, List.length_append, hhex, List.length_singleton]
    omega
  have hchars := hex_chars (mac.drop (6 - macLen macSize)) (fun x hx => hb x (List.mem_of_mem_drop hx))
  refine ⟨b, ?_, b3, ⟨label_append b4 b1 b2 hchars, by simp, ?_⟩, htot⟩
  · unfold hostname
    rw [hp]
    show netName p mac _ = _
    unfold netName
    rw [if_neg (by omega)]
    rcases b3 with e | e
    · subst e
      cases hg : p.getLast? with
      | none => exact absurd (List.getLast?_eq_none_iff.mp hg) hne
      | some c =>
        rw [hg] at b2
        have hc : c ≠ dash := fun x => b2 (by rw [x])
        dsimp only
        rw [if_neg hc, if_pos (by omega)]
    · have hg : p.getLast? = some dash := by rw [e]; simp
      rw [hg]
      dsimp only
      rw [if_pos rfl, e, if_pos (by omega)]
  · intro hx
    have hne2 : hex (mac.drop (6 - macLen macSize)) ≠ [] := by
      intro h0
      rw [h0] at hhex
      simp at hhex
      omega
    rw [List.getLast?_append] at hx
    have hx : (hex (mac.drop (6 - macLen macSize))).getLast? = some dash := by
      cases hg : (hex (mac.drop (6 - macLen macSize))).getLast? with
      | none => exact absurd (List.getLast?_eq_none_iff.mp hg) hne2
      | some c => rw [hg] at hx; exact hx
    have := hchars dash (List.mem_of_getLast? hx)
    unfold dash at this
    omega

/-- Two devices of the same name have different names in the network when the digits shown differ. -/
theorem hostname_distinct (sgn : Bool) (pre name mac mac' : List Nat) (macSize : Int) (hm : 0 < macLen macSize)
    (h6 : mac.length = 6) (h6' : mac'.length = 6) (hb : ∀ b ∈ mac, b < 256) (hb' : ∀ b ∈ mac', b < 256) (r : List Nat)
    (h : hostname sgn pre name mac macSize = some r) (h' : hostname sgn pre name mac' macSize = some r) :
    mac.drop (6 - macLen macSize) = mac'.drop (6 - macLen macSize) := by
  have hd : ∃ p, deviceName sgn (source pre name) (macLen macSize) = some p ∧ p ≠ [] := by
    unfold hostname at h
    rw [Option.bind_eq_some_iff] at h
    obtain ⟨p, hp, hq⟩ := h
    refine ⟨p, hp, ?_⟩
    intro h0
    subst h0
    unfold netName at hq
    rw [if_neg (by omega)] at hq
    cases hq
  obtain ⟨p, hp, hne⟩ := hd
  obtain ⟨b, e, _, _, _⟩ := hostname_valid sgn pre name mac macSize hm h6 hb p hp hne
  obtain ⟨b', e', _, _, _⟩ := hostname_valid sgn pre name mac' macSize hm h6' hb' p hp hne
  rw [h] at e
  rw [h'] at e'
  injection e with e
  injection e' with e'
  rw [e] at e'
  have hlen : (hex (mac.drop (6 - macLen macSize))).length = (hex (mac'.drop (6 - macLen macSize))).length := by
    rw [hex_length, hex_length, List.length_drop, List.length_drop, h6, h6']
  exact hex_inj _ _ (fun x hx => hb x (List.mem_of_mem_drop hx)) (fun x hx => hb' x (List.mem_of_mem_drop hx))
    (List.append_inj_right' e' hlen)

example : hostname true [] (text "Zamel rOW-01 (hall)") [1, 2, 3, 0xAB, 0xCD, 0xEF] 6 = some (text "ZAMEL-ROW-01-HALL-010203ABCDEF") ∧
    hostname true [] (text "relay") [1, 2, 3, 0xAB, 0xCD, 0xEF] 3 = some (text "RELAY-ABCDEF") := by decide +kernel

/-! ## Findings -/

/-- The claim that the name is made without access outside the arrays, whatever the name. -/
def Defined : Prop := ∀ (sgn : Bool) (pre name mac : List Nat) (macSize : Int), mac.length = 6 → (∀ c ∈ name, 0 < c ∧ c < 256) →
  (hostname sgn pre name mac macSize).isSome

/-- A name that begins with '{' makes the check read before the array. -/
theorem brace_violation : ¬ Defined := by
  intro h
  have := h true [] (text "{1}") [1, 2, 3, 4, 5, 6] 6 rfl (by decide +kernel)
  revert this
  decide +kernel

/-- A name without any character that can be shown leaves nothing before the '-', and the last character of nothing is
looked at. -/
theorem empty_violation : ¬ Defined ∧ deviceName true (text "???") 6 = some [] := by
  refine ⟨fun h => ?_, by decide +kernel⟩
  have := h true [] (text "???") [1, 2, 3, 4, 5, 6] 6 rfl (by decide +kernel)
  revert this
  decide +kernel

/-- The claim that the name is a host name, also without the address. -/
def AlwaysHost : Prop := ∀ (sgn : Bool) (pre name mac : List Nat) (macSize : Int) (r : List Nat), mac.length = 6 → (∀ c ∈ name, 0 < c ∧ c < 256) →
  hostname sgn pre name mac macSize = some r → Host r

/-- Without the address it may end with '-'. -/
theorem trailing_violation : ¬ AlwaysHost := by
  intro h
  have := h true [] (text "Lamp!") [1, 2, 3, 4, 5, 6] 0 (text "LAMP-") rfl (by decide +kernel) (by decide +kernel)
  exact this.last (by decide +kernel)

end Verif.Hostname
