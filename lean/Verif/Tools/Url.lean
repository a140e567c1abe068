import Verif.Tools.Hex

/-!
# C32: URL encoding and decoding

Encoding never writes outside the output buffer and produces the encoding of the longest prefix of the
text that fits; decoding in place never writes outside a terminated buffer; and decoding undoes
encoding for every text.
-/

namespace Verif.Tools

/-! ## Specification -/

/-- A text: bytes other than the terminator. -/
abbrev Text (xs : List Nat) : Prop := ∀ b ∈ xs, 0 < b ∧ b < 256

/-- Encoding of one character. -/
def encChar (c : Nat) : List Nat := if unreserved c then [c] else [37, hexDigit (c / 16), hexDigit (c % 16)]

/-- Encoding of a text. -/
def enc : List Nat → List Nat
  | [] => []
  | c :: s => encChar c ++ enc s

/-- Decoding of a text: `+` is a space, `%` with two following characters is the byte they denote, and
an incomplete escape at the end is left out, as promised in `/repo/src/supla/tools.h`. -/
def dec : List Nat → List Nat
  | [] => []
  | 37 :: a :: b :: s => hexNumber [a, b] % 256 :: dec s
  | [37, _] => []
  | [37] => []
  | c :: s => (if c = 43 then 32 else c) :: dec s

/-- The text does not end with an incomplete escape. -/
def complete : List Nat → Bool
  | [] => true
  | 37 :: _ :: _ :: s => complete s
  | [37, _] => false
  | [37] => false
  | _ :: s => complete s

/-- The C string at the beginning of a block of memory. -/
def cstr (m : Mem) : List Nat := m.takeWhile (fun b => b != 0)

/-! ## Encoding -/

/-- The longest prefix whose encoding fits into `room` bytes. -/
def fitting : Int → List Nat → List Nat
  | _, [] => []
  | room, c :: s => if ((encChar c).length : Int) ≤ room then c :: fitting (room - (encChar c).length) s else []

theorem fitting_prefix (room : Int) (s : List Nat) : fitting room s <+: s := by
  induction s generalizing room with
  | nil => simp [fitting]
  | cons c s ih =>
    simp only [fitting]
    split
    · rw [List.cons_prefix_cons]; exact ⟨rfl, ih _⟩
    · simp

theorem enc_append (a b : List Nat) : enc (a ++ b) = enc a ++ enc b := by
  induction a with
  | nil => rfl
  | cons c a ih => simp [enc, ih]

theorem fitting_fits (room : Int) (h : 0 ≤ room) (s : List Nat) : ((enc (fitting room s)).length : Int) ≤ room := by
  induction s generalizing room with
  | nil => simpa [fitting, enc]
  | cons c s ih =>
    simp only [fitting]
    split
    · simp only [enc, List.length_append]
      have := ih (room - (encChar c).length) (by omega)
      omega
    · simpa [enc]

/-- It is the longest one. -/
theorem fitting_longest (room : Int) (s p : List Nat) (hp : p <+: s) (hf : ((enc p).length : Int) ≤ room) :
    p <+: fitting room s := by
  induction s generalizing room p with
  | nil => simpa [fitting] using hp
  | cons c s ih =>
    cases p with
    | nil => simp
    | cons d p =>
      rw [List.cons_prefix_cons] at hp
      obtain ⟨rfl, hp⟩ := hp
      simp only [enc, List.length_append] at hf
      simp only [fitting]
      rw [if_pos (by omega), List.cons_prefix_cons]
      exact ⟨rfl, ih _ p hp (by omega)⟩

theorem length_encChar (c : Nat) : (encChar c).length = if unreserved c then 1 else 3 := by
  unfold encChar; split <;> rfl

/-- The state of the output at a round: the encoding so far, perhaps with a terminator after it. -/
theorem encodeLoop_eq (last : Int) (s : List Nat) (hs : Text s) (m : Mem) (xs : List Nat)
    (hl : last < m.length) (hx : (xs.length : Int) ≤ last) (w : Mem)
    (hw : w = splice m 0 xs ∨ w = splice m 0 (xs ++ [0])) :
    ∃ w', encodeLoop last s w xs.length = some (w', (xs ++ enc (fitting (last - xs.length) s)).length) ∧
      (w' = splice m 0 (xs ++ enc (fitting (last - xs.length) s)) ∨
       w' = splice m 0 (xs ++ enc (fitting (last - xs.length) s) ++ [0])) := by
  have hwl : w.length = m.length := by
    rcases hw with hw | hw <;> rw [hw, length_splice _ _ _ (by simp; omega)]
  have hput : ∀ v, put w xs.length v = some (splice m 0 (xs ++ [v])) := by
    intro v
    rw [put_eq _ _ _ (by omega)]
    rcases hw with hw | hw <;> rw [hw]
    · rw [splice_splice m 0 _ _ (by simp) (by omega)]
    · rw [← splice_splice m 0 xs [0] (by rfl) (by omega)]
      rw [show 0 + xs.length = xs.length by omega]
      rw [splice_over _ _ [0] [v] (by simp) (by rw [length_splice _ _ _ (by omega)]; simp; omega)]
      rw [splice_splice m 0 _ _ (by simp) (by omega)]
  induction s generalizing xs w with
  | nil => exact ⟨w, by simp [encodeLoop, fitting, enc], by simpa [fitting, enc] using hw⟩
  | cons c s ih =>
    have hc := hs c (by simp)
    have hs2 : Text s := fun x hx => hs x (by simp [hx])
    have hlen := length_encChar c
    simp only [encodeLoop, fitting]
    by_cases hd : (xs.length : Int) < last
    · rw [if_pos hd]
      by_cases hu : unreserved c = true
      · rw [if_pos hu] at hlen ⊢
        have he : encChar c = [c] := by simp [encChar, hu]
        rw [hput]
        simp only [Option.bind_eq_bind, Option.bind_some]
        rw [if_pos (by omega)]
        have hlen2 : (xs ++ [c]).length = xs.length + 1 := by simp
        have hq : ∀ v, put (splice m 0 (xs ++ [c])) (xs ++ [c]).length v = some (splice m 0 (xs ++ [c] ++ [v])) := by
          intro v
          rw [put_eq _ _ _ (by rw [length_splice _ _ _ (by omega)]; omega), splice_splice m 0 _ _ (by omega) (by omega)]
        obtain ⟨w', h1, h2⟩ := ih hs2 (xs ++ [c]) (by omega) _ (Or.inl rfl)
          (by rw [length_splice _ _ _ (by omega)]) hq
        rw [hlen2, show last - ((xs.length + 1 : Nat) : Int) = last - xs.length - (encChar c).length by omega] at h1 h2
        refine ⟨w', ?_, ?_⟩
        · rw [h1]; simp [enc, he, List.append_assoc]
        · simpa [enc, he, List.append_assoc] using h2
      · rw [if_neg hu] at hlen ⊢
        have he : encChar c = [37, hexDigit (c / 16), hexDigit (c % 16)] := by simp [encChar, hu]
        have ht : hexText 0 [c] = [hexDigit (c / 16), hexDigit (c % 16)] := rfl
        by_cases hr : (xs.length : Int) + 3 ≤ last
        · rw [if_pos hr, hput]
          simp only [Option.bind_eq_bind, Option.bind_some]
          rw [hex_written 0 [c] (by intro b hb; simp at hb; omega) _ _ (by rw [length_splice _ _ _ (by simp; omega), ht]; simp; omega)]
          simp only [Option.bind_some]
          rw [splice_splice m 0 _ _ (by simp) (by simp; omega)]
          rw [if_pos (by omega), ht]
          have hlen2 : (xs ++ encChar c).length = xs.length + 3 := by simp [he]
          have hw2 : splice m 0 (xs ++ [37] ++ ([hexDigit (c / 16), hexDigit (c % 16)] ++ [0])) = splice m 0 (xs ++ encChar c ++ [0]) := by
            simp [he]
          rw [hw2]
          have hq : ∀ v, put (splice m 0 (xs ++ encChar c ++ [0])) (xs ++ encChar c).length v
              = some (splice m 0 (xs ++ encChar c ++ [v])) := by
            intro v
            have h4 : (xs ++ encChar c ++ [0]).length = xs.length + 4 := by simp [he]
            rw [put_eq _ _ _ (by rw [length_splice _ _ _ (by omega)]; omega)]
            rw [← splice_splice m 0 (xs ++ encChar c) [0] (by rfl) (by omega)]
            rw [show 0 + (xs ++ encChar c).length = (xs ++ encChar c).length by omega]
            rw [splice_over _ _ [0] [v] (by simp) (by rw [length_splice _ _ _ (by omega)]; simp only [List.length_cons, List.length_nil]; omega)]
            rw [splice_splice m 0 _ _ (by omega) (by omega)]
          obtain ⟨w', h1, h2⟩ := ih hs2 (xs ++ encChar c) (by omega) _ (Or.inr rfl)
            (by rw [length_splice _ _ _ (by simp [he]; omega)]) hq
          rw [hlen2, show last - ((xs.length + 3 : Nat) : Int) = last - xs.length - (encChar c).length by omega] at h1 h2
          refine ⟨w', ?_, ?_⟩
          · simp only [List.length_cons, List.length_nil]
            rw [show xs.length + 1 + (0 + 1 + 1) = xs.length + 3 by omega, h1]; simp [enc, List.append_assoc]
          · simpa [enc, List.append_assoc] using h2
        · rw [if_neg hr, if_neg (by omega)]
          exact ⟨w, by simp [enc], by simpa [enc] using hw⟩
    · rw [if_neg hd, if_neg (by rw [hlen]; split <;> omega)]
      exact ⟨w, by simp [enc], by simpa [enc] using hw⟩

/-- **C32.** Encoding a text into a buffer of at least `max ≥ 1` bytes writes the encoding of the
longest prefix of the text that fits with its terminator into `max` bytes (`fitting_prefix`,
`fitting_fits`, `fitting_longest`), then the terminator, and returns its length; nothing behind the
terminator, and so nothing outside the `max` bytes, is changed. -/
theorem encode_longest_prefix (s : List Nat) (hs : Text s) (out : Mem) (max : Nat) (h1 : 1 ≤ max)
    (hm : max ≤ out.length) :
    urlEncode s out max
      = some (splice out 0 (enc (fitting ((max : Int) - 1) s) ++ [0]), (enc (fitting ((max : Int) - 1) s)).length) := by
  obtain ⟨w, h2, h3⟩ := encodeLoop_eq ((max : Int) - 1) s hs out [] (by omega) (by simp; omega) out
    (Or.inl (splice_nil out 0).symm)
  have hf := fitting_fits ((max : Int) - 1) (by omega) s
  simp only [List.nil_append, List.length_nil, Int.natCast_zero, Int.sub_zero] at h2 h3
  unfold urlEncode
  rw [h2]
  generalize hg : enc (fitting ((max : Int) - 1) s) = e at *
  simp only [Option.bind_eq_bind, Option.bind_some]
  have hwl : w.length = out.length := by
    rcases h3 with h3 | h3 <;> rw [h3, length_splice _ _ _ (by simp; omega)]
  rw [put_eq _ _ _ (by omega)]
  simp only [Option.bind_some]
  rcases h3 with h3 | h3 <;> rw [h3]
  · rw [splice_splice out 0 _ _ (by simp) (by omega)]
  · rw [← splice_splice out 0 e [0] (by rfl) (by omega)]
    rw [show 0 + e.length = e.length by omega]
    rw [splice_over _ _ [0] [0] (by simp) (by rw [length_splice _ _ _ (by omega)]; simp only [List.length_cons, List.length_nil]; omega)]

/-- **C32.** If the encoding of the whole text fits, the whole text is encoded. -/
theorem encode_all (s : List Nat) (hs : Text s) (out : Mem) (max : Nat) (h : (enc s).length < max)
    (hm : max ≤ out.length) : urlEncode s out max = some (splice out 0 (enc s ++ [0]), (enc s).length) := by
  rw [encode_longest_prefix s hs out max (by omega) hm]
  have h1 := fitting_longest ((max : Int) - 1) s s (List.prefix_refl _) (by omega)
  have h2 := fitting_prefix ((max : Int) - 1) s
  rw [List.IsPrefix.eq_of_length h2 (Nat.le_antisymm h2.length_le h1.length_le)]

/-- "a b" in five bytes: the escape does not fit in four (`a%20` has four characters). -/
example : urlEncode [97, 32, 98] [9, 9, 9, 9, 9] 5 = some ([97, 37, 50, 48, 0], 4) ∧
    urlEncode [97, 32, 98] [9, 9, 9, 9, 9] 4 = some ([97, 0, 9, 9, 9], 1) := by decide +kernel

/-- The full claim: encoding stays inside the given number of bytes. -/
def EncodeSafe : Prop :=
  ∀ (s : List Nat), Text s → ∀ (out : Mem) (max : Nat), max ≤ out.length → (urlEncode s out max).isSome

/-- It holds for `max ≥ 1`. -/
theorem encode_safe_partial (s : List Nat) (hs : Text s) (out : Mem) (max : Nat) (h1 : 1 ≤ max)
    (hm : max ≤ out.length) : (urlEncode s out max).isSome := by
  rw [encode_longest_prefix s hs out max h1 hm]; rfl

/-- **Finding.** With a size of 0 the terminator is written all the same. -/
theorem encode_safe_violation : ¬ EncodeSafe := by
  intro h
  have := h [97] (by decide) [] 0 (by simp)
  revert this; decide +kernel

/-! ## Decoding -/

theorem getElem?_splice_after (m : Mem) (i v q : Nat) (h : i < q) (hi : i < m.length) :
    (splice m i [v])[q]? = m[q]? := by
  simp only [splice, List.getElem?_append, List.getElem?_drop, List.getElem?_take, List.length_append,
    List.length_take, List.length_cons, List.length_nil]
  grind

theorem decodeLoop_safe (size : Nat) (n p i : Nat) (m : Mem) (hn : size < n + p) (hn0 : 0 < n)
    (hm : size ≤ m.length) (hi : i ≤ p) (hb : i < m.length)
    (h : i < p ∨ size < m.length ∨ ∃ q, p ≤ q ∧ q < size ∧ m[q]? = some 0) : (decodeLoop size n p i m).isSome := by
  induction n generalizing p i m with
  | zero => omega
  | succ n ih =>
    unfold decodeLoop
    have hend : ∀ i, i < m.length → (put m i 0).isSome := by
      intro i hi; rw [put_eq m i 0 hi]; rfl
    by_cases hp : p < size
    · rw [if_pos hp]
      obtain ⟨c, hg⟩ : ∃ c, m[p]? = some c := ⟨_, List.getElem?_eq_getElem (by omega)⟩
      rw [hg]
      simp only [Option.bind_eq_bind, Option.bind_some]
      have hput : ∀ v, put m i v = some (splice m i [v]) := fun v => put_eq m i v (by omega)
      have hlen : ∀ v, (splice m i [v]).length = m.length := fun v => length_splice m i [v] (by simp; omega)
      split
      · exact hend i hb
      · rename_i hc0
        have hne : ∀ q, p ≤ q → m[q]? = some 0 → p < q := by
          intro q h1 h2
          have : q ≠ p := by intro e; subst e; rw [hg] at h2; injection h2 with h2; exact hc0 h2
          omega
        have hstep : ∀ v, (decodeLoop size n (p + 1) (i + 1) (splice m i [v])).isSome := by
          intro v
          refine ih _ _ _ (by omega) (by omega) (by rw [hlen]; exact hm) (by omega) ?_ ?_ <;> rw [hlen]
          · rcases h with h | h | ⟨q, h1, h2, h3⟩
            · omega
            · omega
            · have := hne q h1 h3; omega
          · rcases h with h | h | ⟨q, h1, h2, h3⟩
            · left; omega
            · right; left; exact h
            · right; right
              have := hne q h1 h3
              exact ⟨q, by omega, h2, by rw [getElem?_splice_after _ _ _ _ (by omega) hb]; exact h3⟩
        have hlast : i + 1 < m.length := by
          rcases h with h | h | ⟨q, h1, h2, h3⟩
          · omega
          · omega
          · have := hne q h1 h3; omega
        split
        · rw [hput]; exact hstep _
        · split
          · split
            · rename_i h3
              obtain ⟨a, ha⟩ : ∃ c, m[p + 1]? = some c := ⟨_, List.getElem?_eq_getElem (by omega)⟩
              obtain ⟨b, hb'⟩ : ∃ c, m[p + 2]? = some c := ⟨_, List.getElem?_eq_getElem (by omega)⟩
              rw [ha, hb']
              simp only [Option.bind_some]
              rw [hput]
              simp only [Option.bind_some]
              exact ih _ _ _ (by omega) (by omega) (by rw [hlen]; exact hm) (by omega) (by rw [hlen]; omega)
                (Or.inl (by omega))
            · rw [hput]
              simp only [Option.bind_some]
              exact ih _ _ _ (by omega) (by omega) (by rw [hlen]; exact hm) (by omega) (by rw [hlen]; omega)
                (Or.inl (by omega))
          · rw [hput]; exact hstep _
    · rw [if_neg hp]; exact hend i hb

/-- The full claim of `/repo/src/supla/tools.h`: decoding stays inside the given number of bytes. -/
def DecodeSafe : Prop := ∀ (m : Mem) (size : Nat), size ≤ m.length → (urlDecodeInplace m size).isSome

/-- **C32.** Decoding in place stays inside the buffer if there is a terminator within the given
size, or if the buffer has one byte more than that. -/
theorem decode_safe_partial (m : Mem) (size : Nat) (hm : size ≤ m.length)
    (h : size < m.length ∨ 0 ∈ m.take size) : (urlDecodeInplace m size).isSome := by
  unfold urlDecodeInplace
  have h0 : 0 < m.length := by
    rcases h with h | h
    · omega
    · cases m with
      | nil => simp at h
      | cons a m => simp
  refine decodeLoop_safe size (size + 1) 0 0 m (by omega) (by omega) hm (by omega) h0 (Or.inr ?_)
  rcases h with h | h
  · exact Or.inl h
  · right
    rw [List.mem_iff_getElem?] at h
    obtain ⟨q, hq⟩ := h
    rw [List.getElem?_take] at hq
    split at hq
    · exact ⟨q, by omega, by assumption, hq⟩
    · cases hq

/-- **Finding.** Without a terminator in the buffer the new terminator is written behind it. -/
theorem decode_safe_violation : ¬ DecodeSafe := by
  intro h
  have := h [97, 98] 2 (by decide)
  revert this; decide +kernel

example : urlDecodeInplace [37, 52, 49, 43, 0] 5 = some [65, 32, 0, 43, 0] := by decide +kernel

theorem drop_splice (m : Mem) (i v k : Nat) (h : i < k) (hi : i < m.length) :
    (splice m i [v]).drop k = m.drop k := by
  apply List.ext_getElem?
  intro j
  rw [List.getElem?_drop, List.getElem?_drop, getElem?_splice_after _ _ _ _ (by omega) hi]

theorem get_of_drop {m : Mem} {p : Nat} {l : List Nat} (h : m.drop p = l) (k : Nat) : m[p + k]? = l[k]? := by
  rw [← h, List.getElem?_drop]

theorem decodeLoop_eq (size : Nat) (s : List Nat) (hs : Text s) (hc : complete s = true) (n p i : Nat) (m : Mem)
    (rest : List Nat) (hi : i ≤ p) (he : p + s.length ≤ size)
    (hm : m.drop p = s ++ 0 :: rest) (hn : s.length < n) :
    decodeLoop size n p i m = some (splice m i (dec s ++ [0])) := by
  have hl : p + s.length + 1 + rest.length = m.length := by
    have := congrArg List.length hm
    simp at this
    omega
  cases n with
  | zero => omega
  | succ n =>
  induction s using dec.induct generalizing n p i m with
  | case1 =>
    have hg : m[p]? = some 0 := get_of_drop hm 0
    unfold decodeLoop
    simp only [dec, List.nil_append]
    simp only [List.length_nil] at hl
    rw [hg]
    simp only [Option.bind_eq_bind, Option.bind_some, if_true, ite_self]
    rw [put_eq _ _ _ (by omega)]
  | case2 a b s ih =>
    simp only [List.length_cons] at he hn hl
    have h0 : m[p]? = some 37 := get_of_drop hm 0
    have h1 : m[p + 1]? = some a := get_of_drop hm 1
    have h2 : m[p + 2]? = some b := get_of_drop hm 2
    unfold decodeLoop
    rw [if_pos (by omega), h0]
    simp only [Option.bind_eq_bind, Option.bind_some]
    rw [if_neg (by omega), if_neg (by omega), if_pos True.intro, if_pos (by omega), h1, h2]
    simp only [Option.bind_some]
    rw [put_eq _ _ _ (by omega), hex_number_exact _ (by simp)]
    simp only [Option.bind_some]
    have hdrop : (splice m i [hexNumber [a, b] % 256]).drop (p + 3) = s ++ 0 :: rest := by
      rw [drop_splice _ _ _ _ (by omega) (by omega), ← List.drop_drop, hm]; rfl
    cases n with
    | zero => omega
    | succ n =>
    rw [ih (fun x hx => hs x (by simp [hx])) (by simpa [complete] using hc) (p + 3) (i + 1) _ (by omega) (by omega) hdrop
      (by rw [length_splice _ _ _ (by simp; omega)]; omega) n (by omega)]
    rw [splice_splice m i [_] _ (by simp) (by simp; omega)]
    simp [dec]
  | case3 => simp [complete] at hc
  | case4 => simp [complete] at hc
  | case5 c s h2 h1 h0 ih =>
    have hc37 : c ≠ 37 := by
      intro e
      cases s with
      | nil => exact h0 e rfl
      | cons a s =>
        cases s with
        | nil => exact h1 a e rfl
        | cons b s => exact h2 a b s e rfl
    have hcs := hs c (by simp)
    simp only [List.length_cons] at he hn hl
    have hg : m[p]? = some c := get_of_drop hm 0
    have hcomp : complete s = true := by
      rw [complete] at hc
      · exact hc
      · intro a b t e; exact absurd e hc37
      · intro a e; exact absurd e hc37
      · intro e; exact absurd e hc37
    have hdec : dec (c :: s) = (if c = 43 then 32 else c) :: dec s := by
      rw [dec]
      · intro a b t e; exact absurd e hc37
      · intro a e; exact absurd e hc37
      · intro e; exact absurd e hc37
    have hdrop : ∀ v, (splice m i [v]).drop (p + 1) = s ++ 0 :: rest := by
      intro v
      rw [drop_splice _ _ _ _ (by omega) (by omega), ← List.drop_drop, hm]; rfl
    have hstep : ∀ v, decodeLoop size n (p + 1) (i + 1) (splice m i [v]) = some (splice m i (v :: dec s ++ [0])) := by
      intro v
      cases n with
      | zero => omega
      | succ n =>
      rw [ih (fun x hx => hs x (by simp [hx])) hcomp (p + 1) (i + 1) _ (by omega) (by omega) (hdrop v)
        (by rw [length_splice _ _ _ (by simp; omega)]; omega) n (by omega)]
      rw [splice_splice m i [_] _ (by simp) (by simp; omega)]
      simp
    unfold decodeLoop
    rw [if_pos (by omega), hg]
    simp only [Option.bind_eq_bind, Option.bind_some]
    rw [if_neg (by omega), hdec, put_eq _ _ _ (by omega)]
    by_cases h43 : c = 43
    · rw [if_pos h43, if_pos h43]
      exact hstep 32
    · rw [if_neg h43, if_neg hc37, if_neg h43, put_eq _ _ _ (by omega)]
      exact hstep c

/-- **C32.** A terminated text without an incomplete escape at its end is decoded in place to its
decoding, terminated; nothing behind it is changed, whatever is there. -/
theorem decode_meaning (s rest : List Nat) (hs : Text s) (hc : complete s = true) (size : Nat)
    (h : s.length ≤ size) :
    urlDecodeInplace (s ++ 0 :: rest) size = some (splice (s ++ 0 :: rest) 0 (dec s ++ [0])) :=
  decodeLoop_eq size s hs hc (size + 1) 0 0 _ rest (by omega) (by omega) rfl (by omega)

/-- "a%42+c" becomes "aB c". -/
example : urlDecodeInplace ([97, 37, 52, 50, 43, 99] ++ 0 :: [7, 7]) 8 = some [97, 66, 32, 99, 0, 99, 0, 7, 7] := by
  decide +kernel

/-! ## Round trip -/

theorem hexDigit_range (n : Nat) (h : n < 16) : 48 ≤ hexDigit n ∧ hexDigit n ≤ 70 ∧ 0 < hexDigit n := by
  unfold hexDigit; split <;> omega

theorem unreserved_ne (c : Nat) (h : unreserved c = true) : c ≠ 37 ∧ c ≠ 43 := by
  unfold unreserved at h
  simp at h
  omega

theorem dec_enc (s : List Nat) (hs : Text s) : dec (enc s) = s ∧ complete (enc s) = true ∧ Text (enc s) := by
  induction s with
  | nil => exact ⟨rfl, rfl, by intro b hb; simp [enc] at hb⟩
  | cons c s ih =>
    obtain ⟨h1, h2, h3⟩ := ih (fun x hx => hs x (by simp [hx]))
    have hc := hs c (by simp)
    by_cases hu : unreserved c = true
    · have he : enc (c :: s) = c :: enc s := by simp [enc, encChar, hu]
      obtain ⟨h37, h43⟩ := unreserved_ne c hu
      rw [he]
      refine ⟨?_, ?_, ?_⟩
      · rw [dec]
        · rw [if_neg h43, h1]
        · intro a b t e; exact absurd e h37
        · intro a e; exact absurd e h37
        · intro e; exact absurd e h37
      · rw [complete]
        · exact h2
        · intro a b t e; exact absurd e h37
        · intro a e; exact absurd e h37
        · intro e; exact absurd e h37
      · intro b hb
        simp at hb
        rcases hb with rfl | hb
        · exact hc
        · exact h3 b hb
    · have he : enc (c :: s) = 37 :: hexDigit (c / 16) :: hexDigit (c % 16) :: enc s := by simp [enc, encChar, hu]
      have ha := hexDigit_range (c / 16) (by omega)
      have hb := hexDigit_range (c % 16) (by omega)
      rw [he]
      refine ⟨?_, ?_, ?_⟩
      · rw [dec, h1]
        have hh := byte_back c hc.2
        rw [hex_number_exact _ (by simp)] at hh
        rw [hh]
      · rw [complete]; exact h2
      · intro b hb'
        simp at hb'
        rcases hb' with rfl | rfl | rfl | hb'
        · omega
        · omega
        · omega
        · exact h3 b hb'

theorem cstr_text (s rest : List Nat) (hs : Text s) : cstr (s ++ 0 :: rest) = s := by
  unfold cstr
  induction s with
  | nil => simp
  | cons c s ih =>
    have := hs c (by simp)
    rw [List.cons_append, List.takeWhile_cons, if_pos (by simp; omega), ih (fun x hx => hs x (by simp [hx]))]

/-- **C32.** Every text survives encoding and decoding: if the encoding fits into the buffer, decoding
the buffer in place gives the text back, whatever else is in the buffer. -/
theorem url_round_trip (s : List Nat) (hs : Text s) (out : Mem) (max : Nat) (h : (enc s).length < max)
    (hm : max ≤ out.length) (size : Nat) (hsz : (enc s).length ≤ size) :
    ∃ m n d, urlEncode s out max = some (m, n) ∧ urlDecodeInplace m size = some d ∧ cstr d = s := by
  obtain ⟨h1, h2, h3⟩ := dec_enc s hs
  refine ⟨_, _, splice (splice out 0 (enc s ++ [0])) 0 (s ++ [0]), encode_all s hs out max h hm, ?_, ?_⟩
  · have hsp : splice out 0 (enc s ++ [0]) = enc s ++ 0 :: out.drop ((enc s).length + 1) := by
      simp [splice]
    rw [hsp, decode_meaning _ _ h3 h2 size hsz, h1]
  · rw [show splice (splice out 0 (enc s ++ [0])) 0 (s ++ [0])
        = s ++ 0 :: (splice out 0 (enc s ++ [0])).drop (s.length + 1) by simp [splice]]
    exact cstr_text s _ hs

/-- "ż %" in UTF-8. -/
example : urlEncode [197, 188, 32, 37] (List.replicate 16 9) 16
      = some ([37, 67, 53, 37, 66, 67, 37, 50, 48, 37, 50, 53, 0, 9, 9, 9], 12) ∧
    urlDecodeInplace [37, 67, 53, 37, 66, 67, 37, 50, 48, 37, 50, 53, 0, 9, 9, 9] 16
      = some [197, 188, 32, 37, 0, 67, 37, 50, 48, 37, 50, 53, 0, 9, 9, 9] := by decide +kernel

/-- The full claim of `/repo/src/supla/tools.h` about any terminated text, also with an incomplete
escape at its end: it is decoded as specified. -/
def DecodeMeaning : Prop :=
  ∀ (s rest : List Nat), Text s → ∀ size, s.length < size → size ≤ (s ++ 0 :: rest).length →
    (urlDecodeInplace (s ++ 0 :: rest) size).map cstr = some (cstr (dec s))

/-- **Finding.** An incomplete escape at the end of the text is not left out: the terminator is taken
for one of its digits and what follows it in memory becomes part of the text: "ab%A" and then
"secret" is read as "ab", a byte 160 and "secret". -/
theorem decode_meaning_violation : ¬ DecodeMeaning := by
  intro h
  have := h [97, 98, 37, 65] [115, 101, 99, 114, 101, 116, 0] (by decide) 12 (by decide) (by decide)
  revert this; decide +kernel

end Verif.Tools
