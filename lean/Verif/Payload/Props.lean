import Verif.Payload.Model

/-!
# C146: what a relay of the Linux port sends when it is switched
-/

namespace Verif.Payload

open Verif.Tools (decimal decimalText decimal_text Digits)

/-! ## Specification -/

/-- A text that begins with a number: blanks, a sign, a digit. -/
def BeginsWithNumber (t : Text) : Prop :=
  ∃ w sg d r, t = w ++ sg ++ d :: r ∧ (∀ c ∈ w, isSpace c = true) ∧ (sg = [] ∨ sg = [43] ∨ sg = [45]) ∧ 48 ≤ d ∧ d ≤ 57

/-- A text that is a number as a program would write it, within 32 bits. -/
def PlainNumber (t : Text) : Prop := ∃ n : Int, -2147483648 ≤ n ∧ n < 2147483648 ∧ t = intText n

/-- The character an escape stands for (RFC 8259, 7; the form with four digits is not read). -/
def unescape (c : Nat) : Option Nat :=
  if c = 34 ∨ c = 92 ∨ c = 47 then some c
  else if c = 98 then some 8 else if c = 102 then some 12 else if c = 110 then some 10
  else if c = 114 then some 13 else if c = 116 then some 9 else none

/-- A JSON string behind its opening quotation mark, and the rest (RFC 8259, 7). -/
def readString : Text → Option (Text × Text)
  | [] => none
  | [c] => if c = 34 then some ([], []) else none
  | c :: d :: r =>
    if c = 34 then some ([], d :: r)
    else if c = 92 then (unescape d).bind (fun x => (readString r).map (fun p => (x :: p.1, p.2)))
    else if c < 32 then none
    else (readString (d :: r)).map (fun p => (c :: p.1, p.2))

/-- A text that JSON takes as it is. -/
def Clean (t : Text) : Prop := ∀ c ∈ t, 32 ≤ c ∧ c ≠ 34 ∧ c ≠ 92

/-- The message is an object whose only member is a text with this key. -/
def SaysText (m key t : Text) : Prop :=
  ∃ r1 r2, m = 123 :: 34 :: r1 ∧ readString r1 = some (key, 58 :: 32 :: 34 :: r2) ∧ readString r2 = some (t, [125])

/-- The message is an object whose only member is a number or a word with this key. -/
def SaysWord (m key w : Text) : Prop := (w = str "true" ∨ w = str "false" ∨ ∃ n, w = intText n) ∧ ∃ r, m = 123 :: 34 :: r ∧ readString r = some (key, 58 :: 32 :: (w ++ [125]))

/-! ## Numbers in a text -/

theorem digit_iff (c : Nat) : isDigit c = true ↔ 48 ≤ c ∧ c ≤ 57 := by
  unfold isDigit; simp

theorem space_digit {c : Nat} (h : isDigit c = true) : isSpace c = false := by
  rw [digit_iff] at h
  unfold isSpace
  have h1 : (c == 32) = false := by simp; omega
  have h2 : decide (c ≤ 13) = false := by simp; omega
  rw [h1, h2]; simp

theorem dropWhile_all {p : Nat → Bool} {w r : Text} (hw : ∀ c ∈ w, p c = true) (hr : ∀ c s, r = c :: s → p c = false) :
    (w ++ r).dropWhile p = r := by
  induction w with
  | nil =>
    cases r with
    | nil => rfl
    | cons c s => simp [hr c s rfl]
  | cons a w ih =>
    have ha := hw a (by simp)
    simp only [List.cons_append, List.dropWhile, ha]
    exact ih (fun c hc => hw c (by simp [hc]))

theorem sign_digit {d : Nat} {r : Text} (h : isDigit d = true) : sign (d :: r) = (false, d :: r) := by
  rw [digit_iff] at h
  have : sign (d :: r) = if d = 45 then (true, r) else if d = 43 then (false, r) else (false, d :: r) := rfl
  rw [this, if_neg (show ¬ d = 45 by omega), if_neg (show ¬ d = 43 by omega)]

theorem take_digit {d : Nat} {r : Text} (h : isDigit d = true) : (d :: r).takeWhile isDigit ≠ [] := by
  simp [List.takeWhile, h]

theorem ranged_not (n : Int) : ranged n ≠ .invalid := by unfold ranged; split <;> simp

theorem stoi_invalid (t : Text) : stoi t = .invalid ↔ (sign (t.dropWhile isSpace)).2.takeWhile isDigit = [] := by
  unfold stoi
  constructor
  · intro h
    split at h
    · assumption
    · split at h <;> exact absurd h (ranged_not _)
  · intro h
    rw [if_pos h]

theorem not_digit_signs : isSpace 43 = false ∧ isSpace 45 = false := by decide

/-- `std::stoi` finds a number exactly where a text begins with one. -/
theorem stoi_finds (t : Text) : stoi t ≠ .invalid ↔ BeginsWithNumber t := by
  rw [Ne, stoi_invalid]
  constructor
  · intro h
    cases hk : (sign (t.dropWhile isSpace)).2 with
    | nil => rw [hk] at h; exact absurd rfl h
    | cons d r =>
      rw [hk] at h
      have hd : isDigit d = true := by
        cases hq : isDigit d with
        | true => rfl
        | false => exact absurd (by simp [List.takeWhile, hq]) h
      have ht : t = t.takeWhile isSpace ++ t.dropWhile isSpace := (List.takeWhile_append_dropWhile).symm
      have hw : ∀ c ∈ t.takeWhile isSpace, isSpace c = true := fun c hc => List.all_takeWhile (p := isSpace) (l := t) |> (List.all_eq_true.mp · c hc)
      have hd2 := (digit_iff d).mp hd
      cases hs : t.dropWhile isSpace with
      | nil => rw [hs] at hk; cases hk
      | cons c s =>
        rw [hs] at hk ht
        have hsg : sign (c :: s) = if c = 45 then (true, s) else if c = 43 then (false, s) else (false, c :: s) := rfl
        rw [hsg] at hk
        by_cases h1 : c = 45
        · rw [if_pos h1] at hk
          dsimp only at hk
          exact ⟨t.takeWhile isSpace, [45], d, r, by rw [List.append_assoc, List.singleton_append, ← hk, ← h1]; exact ht, hw, Or.inr (Or.inr rfl), hd2.1, hd2.2⟩
        · rw [if_neg h1] at hk
          by_cases h2 : c = 43
          · rw [if_pos h2] at hk
            dsimp only at hk
            exact ⟨t.takeWhile isSpace, [43], d, r, by rw [List.append_assoc, List.singleton_append, ← hk, ← h2]; exact ht, hw, Or.inr (Or.inl rfl), hd2.1, hd2.2⟩
          · rw [if_neg h2] at hk
            dsimp only at hk
            exact ⟨t.takeWhile isSpace, [], d, r, by rw [List.append_nil, ← hk]; exact ht, hw, Or.inl rfl, hd2.1, hd2.2⟩
  · rintro ⟨w, sg, d, r, ht, hw, hsg, h1, h2⟩ hc
    have hd : isDigit d = true := (digit_iff d).mpr ⟨h1, h2⟩
    have key : (sign (t.dropWhile isSpace)).2 = d :: r := by
      rw [ht, List.append_assoc]
      rcases hsg with h | h | h
      · subst h
        rw [List.nil_append, dropWhile_all hw (by intro c s he; injection he with he _; rw [← he]; exact space_digit hd), sign_digit hd]
      · subst h
        rw [List.singleton_append, dropWhile_all hw (by intro c s he; injection he with he _; rw [← he]; exact not_digit_signs.1)]
        rfl
      · subst h
        rw [List.singleton_append, dropWhile_all hw (by intro c s he; injection he with he _; rw [← he]; exact not_digit_signs.2)]
        rfl
    rw [key] at hc
    exact take_digit hd hc

theorem decimalText_cons (n : Nat) : ∃ d r, decimalText n = d :: r ∧ isDigit d = true := by
  have h := (decimal_text n).2
  cases hc : decimalText n with
  | nil =>
    unfold decimalText at hc
    have := Nat.length_toDigits_pos (b := 10) (n := n)
    have hl := congrArg List.length hc
    simp at hl
  | cons d r =>
    rw [hc] at h
    exact ⟨d, r, rfl, (digit_iff d).mpr (h d (by simp))⟩

theorem takeWhile_all {t : Text} (h : Digits t) : t.takeWhile isDigit = t := by
  induction t with
  | nil => rfl
  | cons c t ih =>
    have hc : isDigit c = true := (digit_iff c).mpr (h c (by simp))
    simp only [List.takeWhile, hc]
    rw [ih (fun x hx => h x (by simp [hx]))]

/-- `std::stoi` reads back what `std::to_string` writes. -/
theorem stoi_intText (n : Int) : stoi (intText n) = ranged n := by
  obtain ⟨d, r, hdr, hd⟩ := decimalText_cons n.natAbs
  obtain ⟨hv, hD⟩ := decimal_text n.natAbs
  unfold stoi intText
  by_cases hn : n < 0
  · rw [if_pos hn]
    have e1 : (45 :: decimalText n.natAbs).dropWhile isSpace = 45 :: decimalText n.natAbs := by
      simp [List.dropWhile, not_digit_signs.2]
    have e2 : sign (45 :: decimalText n.natAbs) = (true, decimalText n.natAbs) := rfl
    rw [e1, e2]
    dsimp only
    rw [takeWhile_all hD, if_neg (show ¬ decimalText n.natAbs = [] by rw [hdr]; simp), if_pos rfl, hv]
    congr 1
    omega
  · rw [if_neg hn]
    have e1 : (decimalText n.natAbs).dropWhile isSpace = decimalText n.natAbs := by
      rw [hdr]; simp [List.dropWhile, space_digit hd]
    have e2 : sign (decimalText n.natAbs) = (false, decimalText n.natAbs) := by rw [hdr]; exact sign_digit hd
    rw [e1, e2]
    dsimp only
    rw [takeWhile_all hD, if_neg (show ¬ decimalText n.natAbs = [] by rw [hdr]; simp), if_neg (by decide), hv]
    congr 1
    omega

/-! ## The template `Simple` -/

/-- What the template `Simple` sends for a setting. -/
def simpleSends (t : Text) : Option Text := (parsed t).map (fun v => chars (content .simple [] v))

/-- The full claim: what is sent is what was set. -/
def SentAsSet : Prop := ∀ t : Text, simpleSends t = some t

theorem ranged_val {n : Int} {m : Int} (h : ranged n = .val m) : m = n ∧ -2147483648 ≤ n ∧ n < 2147483648 := by
  unfold ranged at h
  split at h
  · injection h with h; exact ⟨h.symm, by assumption⟩
  · cases h

theorem intText_01 : intText 1 = str "1" ∧ intText 0 = str "0" := by decide +kernel

/-- Exactly these texts are sent as they were set: numbers written plainly, and texts that do not begin with a number
and are not `true` or `false`. -/
theorem sent_as_set_iff (t : Text) :
    simpleSends t = some t ↔ PlainNumber t ∨ (¬ BeginsWithNumber t ∧ t ≠ str "true" ∧ t ≠ str "false") := by
  unfold simpleSends parsed
  cases hs : stoi t with
  | val n =>
    have hb : BeginsWithNumber t := (stoi_finds t).mp (by rw [hs]; simp)
    have hr : -2147483648 ≤ n ∧ n < 2147483648 := by
      unfold stoi at hs
      split at hs
      · cases hs
      · split at hs
        · obtain ⟨h1, h2⟩ := ranged_val hs; rw [h1]; exact h2
        · obtain ⟨h1, h2⟩ := ranged_val hs; rw [h1]; exact h2
    dsimp only [Option.map, content, chars]
    constructor
    · intro h
      injection h with h
      exact Or.inl ⟨n, hr.1, hr.2, h.symm⟩
    · rintro (⟨m, h1, h2, h3⟩ | ⟨h, _⟩)
      · rw [h3, stoi_intText, ranged, if_pos ⟨h1, h2⟩] at hs
        injection hs with hs
        rw [← hs, h3]
      · exact absurd hb h
  | range =>
    have hb : BeginsWithNumber t := (stoi_finds t).mp (by rw [hs]; simp)
    constructor
    · intro h; cases h
    · rintro (⟨m, h1, h2, h3⟩ | ⟨h, _⟩)
      · rw [h3, stoi_intText, ranged, if_pos ⟨h1, h2⟩] at hs
        cases hs
      · exact absurd hb h
  | invalid =>
    have hb : ¬ BeginsWithNumber t := fun h => ((stoi_finds t).mpr h) hs
    have hp : ¬ PlainNumber t := by
      rintro ⟨m, h1, h2, h3⟩
      rw [h3, stoi_intText, ranged, if_pos ⟨h1, h2⟩] at hs
      cases hs
    dsimp only
    by_cases h1 : t = str "true"
    · rw [if_pos h1]
      constructor
      · intro h
        have h : some (intText 1) = some t := h
        rw [intText_01.1, h1] at h
        exact absurd h (by decide)
      · rintro (h | ⟨_, h, _⟩)
        · exact absurd h hp
        · exact absurd h1 h
    · rw [if_neg h1]
      by_cases h2 : t = str "false"
      · rw [if_pos h2]
        constructor
        · intro h
          have h : some (intText 0) = some t := h
          rw [intText_01.2, h2] at h
          exact absurd h (by decide)
        · rintro (h | ⟨_, _, h⟩)
          · exact absurd h hp
          · exact absurd h2 h
      · rw [if_neg h2]
        exact ⟨fun _ => Or.inr ⟨hb, h1, h2⟩, fun _ => rfl⟩

/-- A time, a temperature, a number with zeros in front and a truth value are not sent as they were set. -/
theorem sent_as_set_violation : ¬ SentAsSet ∧ simpleSends (str "12:30") = some (str "12") ∧
    simpleSends (str "21.5") = some (str "21") ∧ simpleSends (str "007") = some (str "7") ∧
    simpleSends (str "true") = some (str "1") := by
  refine ⟨fun h => ?_, by decide +kernel, by decide +kernel, by decide +kernel, by decide +kernel⟩
  have := h (str "12:30")
  revert this
  decide +kernel

example : simpleSends (str "ON") = some (str "ON") ∧ simpleSends (str "-5") = some (str "-5") ∧
    simpleSends (str "power on") = some (str "power on") := by decide +kernel

/-- Two different settings can be the same when sent: the device cannot tell on from off. -/
theorem told_apart_violation : ∃ a b : Text, a ≠ b ∧ simpleSends a = simpleSends b ∧ simpleSends a ≠ none :=
  ⟨str "1-on", str "1-off", by decide +kernel, by decide +kernel, by decide +kernel⟩

/-- Plain numbers and words are told apart. -/
theorem told_apart_partial {a b : Text} (ha : simpleSends a = some a) (hb : simpleSends b = some b) (hne : a ≠ b) :
    simpleSends a ≠ simpleSends b := by
  rw [ha, hb]
  intro h
  injection h with h
  exact hne h

/-- A number beyond 32 bits ends the program while the file is read. -/
theorem big_number_ends (n : Int) (hn : n < -2147483648 ∨ 2147483648 ≤ n) (tp : Template) (o : Output) (key : Text) (off : Option Text) :
    load ⟨some tp, o, some key, some (intText n), off⟩ = .ended := by
  have h1 : parsed (intText n) = none := by
    unfold parsed
    rw [stoi_intText, ranged, if_neg (by omega)]
  unfold load
  rw [if_neg (by simp)]
  simp only [Option.isSome, given, if_true, h1]

/-- The full claim: a file is accepted or rejected. -/
def Checked : Prop := ∀ c : Cfg, load c ≠ .ended

theorem checked_violation : ¬ Checked := fun h =>
  h ⟨some .json, .file, some (str "code"), some (intText 48123456789), none⟩ (big_number_ends _ (by decide) _ _ _ _)

/-! ## The template `Json` -/

theorem readString_length : ∀ (l a b : Text), readString l = some (a, b) → a.length + b.length + 1 ≤ l.length := by
  intro l
  induction l using readString.induct with
  | case1 => intro a b h; cases h
  | case2 => intro a b h; simp [readString] at h; obtain ⟨rfl, rfl⟩ := h; simp
  | case3 c hc => intro a b h; simp [readString, hc] at h
  | case4 d r => intro a b h; simp [readString] at h; obtain ⟨rfl, rfl⟩ := h; simp
  | case5 d r hc ih =>
    intro a b h
    unfold readString at h
    rw [if_neg (by decide), if_pos rfl] at h
    cases hu : unescape d with
    | none => rw [hu] at h; cases h
    | some x =>
      rw [hu] at h
      cases hr : readString r with
      | none => rw [hr] at h; cases h
      | some p =>
        rw [hr] at h
        simp at h
        have := ih p.1 p.2 hr
        obtain ⟨rfl, rfl⟩ := h
        simp; omega
  | case6 c d r h1 h2 h3 =>
    intro a b h
    unfold readString at h
    rw [if_neg h1, if_neg h2, if_pos h3] at h
    cases h
  | case7 c d r h1 h2 h3 ih =>
    intro a b h
    unfold readString at h
    rw [if_neg h1, if_neg h2, if_neg h3] at h
    cases hr : readString (d :: r) with
    | none => rw [hr] at h; cases h
    | some p =>
      rw [hr] at h
      simp at h
      have := ih p.1 p.2 hr
      obtain ⟨rfl, rfl⟩ := h
      simp at this ⊢; omega

/-- If no more is read than the text has characters, it was read as it is. -/
theorem readString_exact : ∀ (l a b : Text), readString l = some (a, b) → a.length + b.length + 1 = l.length → l = a ++ 34 :: b := by
  intro l
  induction l using readString.induct with
  | case1 => intro a b h; cases h
  | case2 => intro a b h _; simp [readString] at h; obtain ⟨rfl, rfl⟩ := h; simp
  | case3 c hc => intro a b h; simp [readString, hc] at h
  | case4 d r => intro a b h _; simp [readString] at h; obtain ⟨rfl, rfl⟩ := h; simp
  | case5 d r hc ih =>
    intro a b h hl
    unfold readString at h
    rw [if_neg (by decide), if_pos rfl] at h
    cases hu : unescape d with
    | none => rw [hu] at h; cases h
    | some x =>
      rw [hu] at h
      cases hr : readString r with
      | none => rw [hr] at h; cases h
      | some p =>
        rw [hr] at h
        simp at h
        have := readString_length r p.1 p.2 hr
        obtain ⟨rfl, rfl⟩ := h
        simp at hl; omega
  | case6 c d r h1 h2 h3 =>
    intro a b h
    unfold readString at h
    rw [if_neg h1, if_neg h2, if_pos h3] at h
    cases h
  | case7 c d r h1 h2 h3 ih =>
    intro a b h hl
    unfold readString at h
    rw [if_neg h1, if_neg h2, if_neg h3] at h
    cases hr : readString (d :: r) with
    | none => rw [hr] at h; cases h
    | some p =>
      rw [hr] at h
      simp at h
      obtain ⟨rfl, rfl⟩ := h
      rw [ih p.1 p.2 hr (by simp at hl ⊢; omega)]
      simp

/-- A text between quotation marks is read as that text exactly if JSON takes it as it is. -/
theorem readString_iff (t rest : Text) : readString (t ++ 34 :: rest) = some (t, rest) ↔ Clean t := by
  induction t with
  | nil =>
    constructor
    · intro _ c hc; cases hc
    · intro _; cases rest <;> simp [readString]
  | cons c t ih =>
    obtain ⟨d, r, hdr⟩ : ∃ d r, t ++ 34 :: rest = d :: r := by
      cases t with
      | nil => exact ⟨34, rest, rfl⟩
      | cons x t => exact ⟨x, t ++ 34 :: rest, rfl⟩
    have hlen : r.length = t.length + rest.length := by
      have := congrArg List.length hdr
      simp at this; omega
    rw [List.cons_append, hdr]
    unfold readString
    by_cases h1 : c = 34
    · rw [if_pos h1]
      constructor
      · intro h; simp at h
      · intro h; exact absurd h1 (h c (by simp)).2.1
    · rw [if_neg h1]
      by_cases h2 : c = 92
      · rw [if_pos h2]
        constructor
        · intro h
          cases hu : unescape d with
          | none => rw [hu] at h; cases h
          | some x =>
            rw [hu] at h
            cases hr : readString r with
            | none => rw [hr] at h; cases h
            | some p =>
              rw [hr] at h
              simp at h
              have hl := readString_length r p.1 p.2 hr
              rw [h.1.2, h.2] at hl
              omega
        · intro h; exact absurd h2 (h c (by simp)).2.2
      · rw [if_neg h2]
        by_cases h3 : c < 32
        · rw [if_pos h3]
          constructor
          · intro h; cases h
          · intro h; have := (h c (by simp)).1; omega
        · rw [if_neg h3, ← hdr]
          constructor
          · intro h
            have h' : readString (t ++ 34 :: rest) = some (t, rest) := by
              cases hr : readString (t ++ 34 :: rest) with
              | none => rw [hr] at h; cases h
              | some p => rw [hr] at h; simp at h; rw [← h.1, ← h.2]
            have := ih.mp h'
            intro x hx
            rcases List.mem_cons.mp hx with hx | hx
            · rw [hx]; exact ⟨by omega, h1, h2⟩
            · exact this x hx
          · intro h
            rw [ih.mpr (fun x hx => h x (by simp [hx]))]
            rfl

theorem json_chars (key t : Text) :
    chars (content .json key (.text t)) = 123 :: 34 :: (key ++ 34 :: (58 :: 32 :: 34 :: (t ++ 34 :: [125]))) := by
  simp [content, chars, jsonValue]

/-- The message of the template `Json` says that the key is the text set exactly if neither holds a quotation mark, a
backslash or a control character: nothing is escaped. -/
theorem json_iff (key t : Text) : SaysText (chars (content .json key (.text t))) key t ↔ Clean key ∧ Clean t := by
  rw [json_chars]
  constructor
  · rintro ⟨r1, r2, h1, h2, h3⟩
    injection h1 with _ h1
    injection h1 with _ h1
    rw [← h1] at h2
    have hl := readString_length _ _ _ h2
    have hl2 := readString_length _ _ _ h3
    simp at hl hl2
    have hx := readString_exact _ _ _ h2 (by simp; omega)
    have hrest := List.append_cancel_left hx
    injection hrest with _ hrest
    have hr2 : r2 = t ++ 34 :: [125] := by
      injection hrest with _ hrest
      injection hrest with _ hrest
      injection hrest with _ hrest
      exact hrest.symm
    rw [hr2] at h3 h2
    exact ⟨(readString_iff key _).mp h2, (readString_iff t [125]).mp h3⟩
  · rintro ⟨hk, ht⟩
    exact ⟨_, t ++ 34 :: [125], rfl, (readString_iff key _).mpr hk, (readString_iff t [125]).mpr ht⟩

/-- The full claim for texts. -/
def JsonText : Prop := ∀ key t : Text, SaysText (chars (content .json key (.text t))) key t

/-- A quotation mark in the text makes the message something else. -/
theorem json_violation : ¬ JsonText := fun h => by
  have := ((json_iff (str "state") (str "say \"on\"")).mp (h _ _)).2 34 (by decide +kernel)
  exact this.2.1 rfl

/-- A setting can put members into the object that the template does not name. -/
theorem json_members : chars (content .json (str "a") (.text (str "x\", \"b\": \"y"))) = str "{\"a\": \"x\", \"b\": \"y\"}" := by
  decide +kernel

/-- How JSON writes a number or a truth value. -/
def word : V → Text
  | .num n => intText n
  | .bool true => str "true"
  | .bool false => str "false"
  | .text _ => []

theorem word_value (v : V) (hv : ∀ t, v ≠ .text t) : jsonValue v = word v := by
  cases v with
  | num n => rfl
  | bool b => cases b <;> rfl
  | text t => exact absurd rfl (hv t)

/-- Numbers and truth values are sent as themselves, without quotation marks, under the key. -/
theorem json_word_iff (key : Text) (v : V) (hv : ∀ t, v ≠ .text t) :
    SaysWord (chars (content .json key v)) key (word v) ↔ Clean key := by
  rw [← word_value v hv]
  have e : chars (content .json key v) = 123 :: 34 :: (key ++ 34 :: (58 :: 32 :: (jsonValue v ++ [125]))) := by
    simp [content, chars]
  rw [e]
  constructor
  · rintro ⟨_, r, h1, h2⟩
    injection h1 with _ h1
    injection h1 with _ h1
    rw [← h1] at h2
    exact (readString_iff key _).mp h2
  · intro hk
    refine ⟨?_, _, rfl, (readString_iff key _).mpr hk⟩
    cases v with
    | num n => exact Or.inr (Or.inr ⟨n, rfl⟩)
    | bool b => cases b <;> simp [jsonValue]
    | text t => exact absurd rfl (hv t)

example : Clean (str "state") ∧ Clean (str "ON") ∧
    chars (content .json (str "state") (.text (str "ON"))) = str "{\"state\": \"ON\"}" ∧
    chars (content .json (str "state") (.num 1)) = str "{\"state\": 1}" := by
  refine ⟨?_, ?_, by decide +kernel, by decide +kernel⟩ <;> (intro c hc; revert c; decide +kernel)

/-! ## Commands -/

/-- A text without percent signs. -/
def NoPercent (t : Text) : Prop := ∀ c ∈ t, c ≠ 37

theorem fmt_two (c : Content) (u : Bool) (x y : Nat) (r : Text) : fmt c u (x :: y :: r) =
    if x = 37 then
      if y = 37 then (fmt c u r).map (fun a => 37 :: a)
      else (conv c u y).bind (fun z => (fmt c true r).map (fun a => z ++ a))
    else (fmt c u (y :: r)).map (fun a => x :: a) := by
  rw [fmt]

theorem fmt_plain (c : Content) (u : Bool) : ∀ p : Text, NoPercent p → fmt c u p = some p := by
  intro p
  induction p with
  | nil => intro _; rfl
  | cons x p ih =>
    intro h
    have hx : x ≠ 37 := h x (by simp)
    cases p with
    | nil => simp [fmt, hx]
    | cons y r =>
      rw [fmt_two, if_neg hx, ih (fun z hz => h z (List.mem_cons_of_mem _ hz))]
      rfl

theorem fmt_prefix (c : Content) (u : Bool) (q : Text) (hq : q ≠ []) : ∀ p : Text, NoPercent p →
    fmt c u (p ++ q) = (fmt c u q).map (fun a => p ++ a) := by
  intro p
  induction p with
  | nil => intro _; simp
  | cons x p ih =>
    intro h
    have hx : x ≠ 37 := h x (by simp)
    have ih := ih (fun z hz => h z (List.mem_cons_of_mem _ hz))
    obtain ⟨y, r, hyr⟩ : ∃ y r, p ++ q = y :: r := by
      cases p with
      | nil => cases q with
        | nil => exact absurd rfl hq
        | cons y r => exact ⟨y, r, rfl⟩
      | cons y r => exact ⟨y, r ++ q, rfl⟩
    rw [List.cons_append, hyr]
    rw [fmt_two, if_neg hx, ← hyr, ih]
    cases fmt c u q <;> simp

/-- The conversion a content needs: `%d` for a number, `%s` for a text. -/
def needs : Content → Nat
  | .int _ => 100
  | .text _ => 115

theorem conv_needs (c : Content) : conv c false (needs c) = some (chars c) := by
  cases c <;> simp [conv, needs, chars]

theorem fmt_line (c : Content) {p q : Text} (hp : NoPercent p) (hq : NoPercent q) :
    fmt c false (p ++ 37 :: needs c :: q) = some (p ++ chars c ++ q) := by
  rw [fmt_prefix c false _ (by simp) p hp]
  have h37 : needs c ≠ 37 := by cases c <;> simp [needs]
  rw [fmt_two, if_pos rfl, if_neg h37, conv_needs, Option.bind, fmt_plain c true q hq]
  simp

/-- A command with one fitting place for the value is run with the value in it, if it is short enough. -/
theorem command_run (c : Content) {p q : Text} (hp : NoPercent p) (hq : NoPercent q) (hl : (p ++ chars c ++ q).length ≤ 255) :
    put (.cmd (p ++ 37 :: needs c :: q)) true c = some (.run (p ++ chars c ++ q)) := by
  unfold put
  dsimp only
  rw [if_neg (by simp), fmt_line c hp hq, Option.map_some, if_pos rfl, List.take_of_length_le hl]

/-- A longer one is cut and run all the same. -/
theorem command_cut (c : Content) {p q : Text} (hp : NoPercent p) (hq : NoPercent q) (hl : 255 < (p ++ chars c ++ q).length) :
    ∃ t, put (.cmd (p ++ 37 :: needs c :: q)) true c = some (.run t) ∧ t.length = 255 ∧ t ≠ p ++ chars c ++ q := by
  refine ⟨(p ++ chars c ++ q).take 255, ?_, ?_, ?_⟩
  · unfold put
    dsimp only
    rw [if_neg (by simp), fmt_line c hp hq, Option.map_some, if_pos rfl]
  · rw [List.length_take]; omega
  · intro h
    have := congrArg List.length h
    rw [List.length_take] at this
    omega

/-- The full claim. -/
def CommandRun : Prop := ∀ (c : Content) (p q : Text), NoPercent p → NoPercent q →
  put (.cmd (p ++ 37 :: needs c :: q)) true c = some (.run (p ++ chars c ++ q))

theorem command_run_violation : ¬ CommandRun := fun h => by
  have hp : NoPercent (List.replicate 255 97) := by
    intro c hc
    rw [(List.mem_replicate.mp hc).2]
    decide
  have hq : NoPercent [] := fun _ hc => absurd hc (by simp)
  obtain ⟨t, h1, _, h3⟩ := command_cut (.text [98]) hp hq (by rw [List.append_nil, List.length_append, List.length_replicate]; decide)
  have := h (.text [98]) _ _ hp hq
  rw [h1] at this
  injection this with this
  injection this with this
  exact h3 this

example : put (.cmd (str "echo %d > relay.out")) true (.int 1) = some (.run (str "echo 1 > relay.out")) ∧
    put (.cmd (str "echo %s > relay.out")) true (.text (str "ON")) = some (.run (str "echo ON > relay.out")) := by decide +kernel

theorem conv_two (n : Int) (t : Text) (u : Bool) (k : Nat) : conv (.int n) u k = none ∨ conv (.text t) u k = none := by
  unfold conv
  cases u with
  | true => exact Or.inl (by rw [if_pos rfl])
  | false =>
    rw [if_neg (by decide), if_neg (by decide)]
    dsimp only
    by_cases h : k = 100
    · exact Or.inr (by rw [if_neg (by omega)])
    · exact Or.inl (by rw [if_neg h])

/-- A command line that is right for a number and for a text shows neither. -/
theorem mixed (n : Int) (t : Text) : ∀ (u : Bool) (line a b : Text), fmt (.int n) u line = some a → fmt (.text t) u line = some b → a = b := by
  intro u line
  induction u, line using fmt.induct with
  | case1 u => intro a b ha hb; rw [fmt] at ha hb; rw [ha] at hb; injection hb
  | case2 u => intro a b ha hb; simp [fmt] at ha
  | case3 u x hx => intro a b ha hb; simp [fmt, hx] at ha hb; rw [← ha, ← hb]
  | case4 u r ih =>
    intro a b ha hb
    rw [fmt_two, if_pos rfl, if_pos rfl] at ha hb
    cases h1 : fmt (.int n) u r with
    | none => rw [h1] at ha; cases ha
    | some a' =>
      cases h2 : fmt (.text t) u r with
      | none => rw [h2] at hb; cases hb
      | some b' =>
        rw [h1] at ha; rw [h2] at hb
        injection ha with ha; injection hb with hb
        rw [← ha, ← hb, ih a' b' h1 h2]
  | case5 u y r hy ih =>
    intro a b ha hb
    rw [fmt_two, if_pos rfl, if_neg hy] at ha hb
    rcases conv_two n t u y with h | h
    · rw [h] at ha; cases ha
    · rw [h] at hb; cases hb
  | case6 u x y r hx ih =>
    intro a b ha hb
    rw [fmt_two, if_neg hx] at ha hb
    cases h1 : fmt (.int n) u (y :: r) with
    | none => rw [h1] at ha; cases ha
    | some a' =>
      cases h2 : fmt (.text t) u (y :: r) with
      | none => rw [h2] at hb; cases hb
      | some b' =>
        rw [h1] at ha; rw [h2] at hb
        injection ha with ha; injection hb with hb
        rw [← ha, ← hb, ih a' b' h1 h2]

/-- A relay whose one value is a number and whose other is a text has no command line that tells on from off without
undefined behaviour. -/
theorem mixed_violation (line : Text) (n : Int) (t : Text) (a b : Eff)
    (ha : put (.cmd line) true (.int n) = some a) (hb : put (.cmd line) true (.text t) = some b) : a = b := by
  unfold put at ha hb
  dsimp only at ha hb
  by_cases hl : line = []
  · rw [if_pos hl] at ha hb
    rw [ha] at hb
    injection hb
  · rw [if_neg hl] at ha hb
    cases h1 : fmt (.int n) false line with
    | none => rw [h1] at ha; cases ha
    | some x =>
      cases h2 : fmt (.text t) false line with
      | none => rw [h2] at hb; cases hb
      | some y =>
        rw [h1] at ha; rw [h2] at hb
        have := mixed n t false line x y h1 h2
        rw [this] at ha
        simp at ha hb
        rw [← ha, ← hb]

/-- With `turn_on_payload: 1` and `turn_off_payload: "OFF"` both usual command lines are undefined for one of them. -/
theorem mixed_example : put (.cmd (str "echo %d")) true (.text (str "OFF")) = none ∧
    put (.cmd (str "echo %s")) true (.int 1) = none ∧ parsed (str "1") = some (.num 1) ∧ parsed (str "OFF") = some (.text (str "OFF")) := by
  decide +kernel

/-! ## The broker -/

/-- The lower bits of the first octet of PUBLISH (MQTT 3.1.1, 3.3.1), which are the flags of the library: retain is bit
0, the quality of service bits 1 and 2. -/
def retained (flags : Nat) : Bool := flags % 2 = 1

/-- The quality of service of the flags. -/
def quality (flags : Nat) : Nat := flags / 2 % 4

/-- The full claim: published with the quality of service that was set, and not retained. -/
def QosKept : Prop := ∀ (q : Nat) (c : Content), q ≤ 2 →
  ∃ f t, put (.mqtt q) true c = some (.publish f t) ∧ quality f = q ∧ retained f = false

/-- Only the quality of service 0 is kept: 1 becomes a retained message with quality 0, 2 becomes 1. -/
theorem qos_kept_iff (q : Nat) (c : Content) (hq : q ≤ 2) :
    (∃ f t, put (.mqtt q) true c = some (.publish f t) ∧ quality f = q ∧ retained f = false) ↔ q = 0 := by
  constructor
  · rintro ⟨f, t, h1, h2, h3⟩
    unfold put at h1
    dsimp only at h1
    rw [if_pos rfl] at h1
    injection h1 with h1
    injection h1 with h1
    rw [← h1] at h2
    unfold quality at h2
    omega
  · intro h
    rw [h]
    exact ⟨0, chars c, rfl, rfl, rfl⟩

theorem qos_kept_violation : ¬ QosKept ∧ retained 1 = true ∧ quality 1 = 0 ∧ retained 2 = false ∧ quality 2 = 1 :=
  ⟨fun h => absurd ((qos_kept_iff 1 (.int 0) (by decide)).mp (h 1 (.int 0) (by decide))) (by decide), rfl, rfl, rfl, rfl⟩

/-! ## Histories -/

/-- A relay without `payload` in its settings is accepted, and the program fails when it starts. -/
theorem no_payload_violation (o : Output) (on off : Option Text) (i ok : Bool) (s : S) :
    ∃ r, load ⟨none, o, none, on, off⟩ = .relay r ∧ step r s (.start i ok) = none := by
  cases on <;> cases off <;> exact ⟨_, rfl, rfl⟩

/-- Without `turn_on_payload` and `turn_off_payload` on and off are the same number 0. -/
theorem not_set_same (tp : Template) (o : Output) (st : Option Text) : ∃ r, load ⟨some tp, o, st, none, none⟩ = .relay r ∧
    ∀ ok, send r ok true = send r ok false := by
  refine ⟨⟨some tp, o, st.getD [], .num 0, .num 0⟩, ?_, fun ok => rfl⟩
  unfold load
  rw [if_neg (by simp)]
  rfl

/-- The full claim: after every history the last thing sent is the value of the state shown. -/
def Follows : Prop := ∀ (r : Relay) (h : List Op) (s : S), h ≠ [] → run r {} h = some s → send r true s.shown = some s.last

/-- The operation reached the output. -/
def Reached (o : Output) : Op → Prop
  | .start _ ok => ok = true ∧ ∀ q, o ≠ .mqtt q
  | .set _ ok => ok = true

/-- The command line is not empty. -/
def HasCommand (o : Output) : Prop := o ≠ .cmd []

theorem put_not_lost {o : Output} (ho : HasCommand o) {c : Content} {e : Eff} (h : put o true c = some e) : e ≠ .lost := by
  unfold put at h
  cases o with
  | file => simp at h; rw [← h]; simp
  | mqtt q => simp at h; rw [← h]; simp
  | cmd line =>
    have hl : line ≠ [] := fun hc => ho (by rw [hc])
    dsimp only at h
    rw [if_neg hl] at h
    cases hf : fmt c false line with
    | none => rw [hf] at h; cases h
    | some a => rw [hf] at h; simp at h; rw [← h]; simp

theorem send_not_lost {r : Relay} (ho : HasCommand r.output) {on : Bool} {e : Eff} (h : send r true on = some e) : e ≠ .lost := by
  unfold send at h
  split at h
  · cases h
  · exact put_not_lost ho h

theorem run_snoc (r : Relay) (h : List Op) (o : Op) : ∀ (s t : S), run r s (h ++ [o]) = some t →
    ∃ m, run r s h = some m ∧ step r m o = some t := by
  induction h with
  | nil =>
    intro s t ht
    refine ⟨s, rfl, ?_⟩
    simp only [List.nil_append, run] at ht
    cases hs : step r s o with
    | none => rw [hs] at ht; cases ht
    | some x => rw [hs] at ht; exact ht
  | cons a h ih =>
    intro s t ht
    simp only [List.cons_append, run] at ht ⊢
    cases hs : step r s a with
    | none => rw [hs] at ht; cases ht
    | some x =>
      rw [hs] at ht
      exact ih x t ht

/-- After every history whose last operation reached the output, the last thing that happened outside is what the
settings give for the state shown. -/
theorem follows_partial (r : Relay) (ho : HasCommand r.output) (h : List Op) (o : Op) (s : S) (hr : Reached r.output o)
    (hs : run r {} (h ++ [o]) = some s) : send r true s.shown = some s.last := by
  obtain ⟨m, _, hst⟩ := run_snoc r h o _ _ hs
  have fin : ∀ on : Bool, (send r true on).map (fun e => (⟨on, note m.last e⟩ : S)) = some s → send r true s.shown = some s.last := by
    intro on hh
    cases he : send r true on with
    | none => rw [he] at hh; cases hh
    | some e =>
      rw [he] at hh
      injection hh with hh
      rw [← hh]
      dsimp only
      unfold note
      rw [if_neg (send_not_lost ho he), he]
  cases o with
  | start on ok =>
    obtain ⟨h1, h2⟩ := hr
    have hre : reachable r.output ok = true := by
      unfold reachable
      split
      · rename_i q hq; exact absurd hq (h2 q)
      · exact h1
    unfold step at hst
    dsimp only at hst
    rw [hre] at hst
    exact fin on hst
  | set on ok =>
    have h1 : ok = true := hr
    unfold step at hst
    dsimp only at hst
    rw [h1] at hst
    exact fin on hst

/-- What is set at a start is never published: the broker is connected later, and nothing is sent again. -/
theorem start_not_published (r : Relay) (q : Nat) (ho : r.output = .mqtt q) (s t : S) (on ok : Bool)
    (h : step r s (.start on ok) = some t) : t.shown = on ∧ t.last = s.last := by
  unfold step at h
  rw [ho] at h
  unfold send at h
  cases htp : r.template with
  | none => rw [htp] at h; cases h
  | some tp =>
    rw [htp, ho] at h
    simp [reachable, put] at h
    rw [← h]
    exact ⟨rfl, by simp [note]⟩

/-- A message that could not be published is not sent later: the relay shows on, the broker never heard of it. -/
theorem follows_violation : ¬ Follows := fun h => by
  have := h ⟨some .simple, .mqtt 0, [], .text (str "ON"), .text (str "OFF")⟩ [.start false true, .set false true, .set true false]
    ⟨true, .publish 0 (str "OFF")⟩ (by simp) (by decide +kernel)
  revert this
  decide +kernel

/-- From the settings to the file: texts that are sent unchanged are what the file holds, the one for on when switched on
and the one for off when switched off, at a start and later. -/
theorem switched_file (st a b : Text) (ha : simpleSends a = some a) (hb : simpleSends b = some b) :
    ∃ r, load ⟨some .simple, .file, some st, some a, some b⟩ = .relay r ∧ ∀ (s : S) (on : Bool),
      step r s (.set on true) = some ⟨on, .file (if on then a else b)⟩ ∧
      step r s (.start on true) = some ⟨on, .file (if on then a else b)⟩ := by
  unfold simpleSends at ha hb
  cases hpa : parsed a with
  | none => rw [hpa] at ha; cases ha
  | some x =>
    cases hpb : parsed b with
    | none => rw [hpb] at hb; cases hb
    | some y =>
      rw [hpa] at ha
      rw [hpb] at hb
      injection ha with ha
      injection hb with hb
      refine ⟨⟨some .simple, .file, st, x, y⟩, ?_, ?_⟩
      · unfold load given
        simp [hpa, hpb]
      · intro s on
        have key : ∀ v : V, chars (content .simple st v) = chars (content .simple [] v) := fun v => rfl
        cases on <;> simp [step, send, put, reachable, note, key, ha, hb]

example : simpleSends (str "ON") = some (str "ON") ∧ simpleSends (str "0") = some (str "0") := by decide +kernel

example : run ⟨some .json, .file, str "state", .text (str "ON"), .text (str "OFF")⟩ {} [.start false true, .set true true] =
    some ⟨true, .file (str "{\"state\": \"ON\"}")⟩ := by decide +kernel

example : HasCommand .file ∧ Reached .file (.set true true) ∧ Reached .file (.start true true) := by
  refine ⟨by unfold HasCommand; simp, rfl, rfl, by simp⟩

end Verif.Payload
